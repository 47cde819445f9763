import Verif.Model.Curves

/-! # Lemmas: fetching parameters -/

namespace Lcms.Curves

/-- `m` fetches exactly `n` parameters. -/
def Fetches {F : Type} (n : Nat) (m : List F → Option F) : Prop :=
  ∀ ps, (m ps = none ↔ ps.length < n) ∧ ∀ extra, n ≤ ps.length → m (ps ++ extra) = m ps

variable {F : Type}

theorem fetches1 (f : F → F) : Fetches 1 (fun ps => (do pure (f (← ps[0]?)))) := by
  intro ps
  rcases ps with _ | ⟨p0, ps⟩ <;> simp

theorem fetches3 (f : F → F → F → F) : Fetches 3 (fun ps => (do pure (f (← ps[0]?) (← ps[1]?) (← ps[2]?)))) := by
  intro ps
  rcases ps with _ | ⟨p0, _ | ⟨p1, _ | ⟨p2, ps⟩⟩⟩ <;> simp

theorem fetches4 (f : F → F → F → F → F) :
    Fetches 4 (fun ps => (do pure (f (← ps[0]?) (← ps[1]?) (← ps[2]?) (← ps[3]?)))) := by
  intro ps
  rcases ps with _ | ⟨p0, _ | ⟨p1, _ | ⟨p2, _ | ⟨p3, ps⟩⟩⟩⟩ <;> simp

theorem fetches5 (f : F → F → F → F → F → F) :
    Fetches 5 (fun ps => (do pure (f (← ps[0]?) (← ps[1]?) (← ps[2]?) (← ps[3]?) (← ps[4]?)))) := by
  intro ps
  rcases ps with _ | ⟨p0, _ | ⟨p1, _ | ⟨p2, _ | ⟨p3, _ | ⟨p4, ps⟩⟩⟩⟩⟩ <;> simp

theorem fetches7 (f : F → F → F → F → F → F → F → F) :
    Fetches 7 (fun ps => (do
      pure (f (← ps[0]?) (← ps[1]?) (← ps[2]?) (← ps[3]?) (← ps[4]?) (← ps[5]?) (← ps[6]?)))) := by
  intro ps
  rcases ps with _ | ⟨p0, _ | ⟨p1, _ | ⟨p2, _ | ⟨p3, _ | ⟨p4, _ | ⟨p5, _ | ⟨p6, ps⟩⟩⟩⟩⟩⟩⟩ <;> simp

/-- The number of parameters fetched for a type. -/
theorem eval_fetches (o : FOps F) (r : F) :
    Fetches 1 (eval o 1 · r) ∧ Fetches 1 (eval o (-1) · r) ∧
    Fetches 3 (eval o 2 · r) ∧ Fetches 3 (eval o (-2) · r) ∧
    Fetches 4 (eval o 3 · r) ∧ Fetches 4 (eval o (-3) · r) ∧
    Fetches 5 (eval o 4 · r) ∧ Fetches 5 (eval o (-4) · r) ∧
    Fetches 7 (eval o 5 · r) ∧ Fetches 7 (eval o (-5) · r) ∧
    Fetches 4 (eval o 6 · r) ∧ Fetches 4 (eval o (-6) · r) ∧
    Fetches 5 (eval o 7 · r) ∧ Fetches 5 (eval o (-7) · r) ∧
    Fetches 5 (eval o 8 · r) ∧ Fetches 5 (eval o (-8) · r) ∧
    Fetches 1 (eval o 108 · r) ∧ Fetches 1 (eval o (-108) · r) ∧
    Fetches 1 (eval o 109 · r) ∧ Fetches 1 (eval o (-109) · r) :=
  ⟨fetches1 (f1 o · r), fetches1 (g1 o · r), fetches3 (f2 o · · · r), fetches3 (g2 o · · · r),
    fetches4 (f3 o · · · · r), fetches4 (g3 o · · · · r), fetches5 (f4 o · · · · · r), fetches5 (g4 o · · · · · r),
    fetches7 (f5 o · · · · · · · r), fetches7 (g5 o · · · · · · · r), fetches4 (f6 o · · · · r),
    fetches4 (g6 o · · · · r), fetches5 (f7 o · · · · · r), fetches5 (g7 o · · · · · r),
    fetches5 (f8 o · · · · · r), fetches5 (g8 o · · · · · r), fetches1 (f108 o · r), fetches1 (g108 o · r),
    fetches1 (sigmoidFactory o · r), fetches1 (invertedSigmoidFactory o · r)⟩

end Lcms.Curves
