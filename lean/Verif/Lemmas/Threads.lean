import Verif.Lemmas.Open
import Verif.Spec.Threads
import Mathlib.Algebra.BigOperators.Fin
import Mathlib.Algebra.Order.BigOperators.Group.Finset

/-! # Lemmas: threads calling `open_from_file` -/

namespace Lcms

open Lcms.Spec

theorem inTurn_snoc (t : Target) (env : Handlers) (cs : List Call) (c : Call) (g : Global) (fs : FS) :
    inTurn t env (cs ++ [c]) g fs =
      let s := inTurn t env cs g fs
      let r := openFromFile t env c.now c.sched s.2.1 s.2.2 c.path c.mode
      (s.1 ++ [r.1], r.2) := by
  induction cs generalizing g fs with
  | nil => rfl
  | cons a cs ih => simp only [List.cons_append, inTurn, ih]

/-- What the rest of a call will give. -/
def ahead (t : Target) (env : Handlers) (ctx : CState) (fs : FS) : Phase → Option (Opened × CState × FS)
  | .idle => none
  | .locked c => some (openFromFileThr t env c.now c.sched ctx fs c.path c.mode)
  | .opened c p => some (finishOpen t env p ctx fs c.path)
  | .finished _ r => some (r, ctx, fs)

/-- The invariant: the state is that of a sequential run, up to the call that has the lock. -/
structure Serial {n : Nat} (t : Target) (env : Handlers) (g0 : Global) (fs0 : FS) (s : Sys n) : Prop where
  inside : ∀ j, Inside s j ↔ s.holder = some j
  serial : ∃ g fs, inTurn t env (callsDone s) g0 fs0 = (results s, g, fs) ∧
    match s.holder with
    | none => s.g = g ∧ s.fs = fs
    | some i => s.g.poisoned = false ∧ g.poisoned = false ∧ ∃ c, currentCall (s.threads i).phase = [c] ∧
        ahead t env s.g.ctx s.fs (s.threads i).phase =
          some (openFromFileThr t env c.now c.sched g.ctx fs c.path c.mode)

theorem setThread_same {n : Nat} (s : Sys n) (i : Fin n) (th : Thread) : (s.setThread i th).threads i = th := by
  simp [Sys.setThread]

theorem setThread_other {n : Nat} (s : Sys n) (i j : Fin n) (th : Thread) (h : j ≠ i) :
    (s.setThread i th).threads j = s.threads j := by
  simp [Sys.setThread, h]

theorem start_serial {n : Nat} (t : Target) (env : Handlers) (g : Global) (fs : FS) (prog : Fin n → List Call) :
    Serial t env g fs (Sys.start g fs prog) :=
  ⟨fun j => by simp [Inside, Sys.start], g, fs, rfl, rfl, rfl⟩

theorem FS.put_put (fs : FS) (path : Path) (a b : List Byte) : (fs.put path a).put path b = fs.put path b := by
  unfold FS.put
  simp only [FS.mk.injEq, and_true]
  funext q
  split <;> rfl

theorem finishOpen_put (t : Target) (env : Handlers) (p : Profile) (ctx : CState) (fs : FS) (path : Path)
    (a : List Byte) : finishOpen t env p ctx (fs.put path a) path = finishOpen t env p ctx fs path := by
  unfold finishOpen
  cases Profile.readHeaderThr t (OsFile.handler t) env ⟨p, ctx⟩ <;> simp only [FS.put_put]

theorem inside_of_phase {n : Nat} {s : Sys n} {i : Fin n} {ph : Phase} (h : (s.threads i).phase = ph) (hne : ph ≠ .idle) :
    Inside s i := by
  unfold Inside
  rw [h]
  cases ph with
  | idle => exact absurd rfl hne
  | locked c => trivial
  | opened c p => trivial
  | finished c r => trivial

/-- A step keeps the invariant. -/
theorem Serial.step {n : Nat} {t : Target} {env : Handlers} {g0 : Global} {fs0 : FS} {s s' : Sys n} {i : Fin n}
    (h : Serial t env g0 fs0 s) (hs : s.step t env i = some s') : Serial t env g0 fs0 s' := by
  obtain ⟨hin, g, fs, hseq, hst⟩ := h
  -- a step that stays inside
  have stay : ∀ (ph : Phase) (g' : Global) (fs' : FS), ph ≠ .idle → s.holder = some i →
      g'.poisoned = s.g.poisoned → currentCall ph = currentCall (s.threads i).phase →
      ahead t env g'.ctx fs' ph = ahead t env s.g.ctx s.fs (s.threads i).phase →
      Serial t env g0 fs0 { s.setThread i ⟨(s.threads i).todo, ph⟩ with g := g', fs := fs' } := by
    intro ph g' fs' hne hh hp hc ha
    refine ⟨fun j => ?_, g, fs, hseq, ?_⟩
    · by_cases hj : j = i
      · subst hj
        refine ⟨fun _ => hh, fun _ => inside_of_phase (ph := ph) ?_ hne⟩
        simp [Sys.setThread]
      · have : Inside { s.setThread i ⟨(s.threads i).todo, ph⟩ with g := g', fs := fs' } j ↔ Inside s j := by
          unfold Inside
          simp [Sys.setThread, hj]
        rw [this]
        exact hin j
    · rw [hh] at hst
      obtain ⟨h1, h2, c, h3, h4⟩ := hst
      show match s.holder with | none => _ | some i' => _
      rw [hh]
      refine ⟨by rw [← h1, ← hp], h2, c, ?_, ?_⟩
      · simp only [Sys.setThread, if_true]; rw [hc, h3]
      · simp only [Sys.setThread, if_true]; rw [ha, h4]
  unfold Sys.step at hs
  simp only at hs
  cases hph : (s.threads i).phase with
  | idle =>
    rw [hph] at hs
    simp only at hs
    cases htodo : (s.threads i).todo with
    | nil => rw [htodo] at hs; cases hs
    | cons c rest =>
      rw [htodo] at hs
      simp only at hs
      cases hhold : s.holder with
      | some k => rw [hhold] at hs; simp at hs
      | none =>
        rw [hhold] at hs hst
        obtain ⟨rfl, rfl⟩ := hst
        simp only [Option.isSome_none, Bool.false_eq_true, if_false] at hs
        by_cases hpo : s.g.poisoned = true
        · rw [if_pos hpo] at hs
          cases hs
          refine ⟨fun j => ?_, s.g, s.fs, ?_, ?_⟩
          · by_cases hj : j = i
            · subst hj
              simp [Inside, Sys.setThread, hhold]
            · have := hin j
              unfold Inside at this ⊢
              simp only [Sys.setThread, if_neg hj]
              exact this
          · have hr : openFromFile t env c.now c.sched s.g s.fs c.path c.mode = (.panic, s.g, s.fs) := by
              unfold openFromFile; rw [if_pos hpo]
            have : callsDone { s.setThread i ⟨Sys.after c .panic rest, .idle⟩ with
                hist := s.hist ++ [(i, c, .panic)] } = callsDone s ++ [c] := by
              simp [callsDone]
            rw [this, inTurn_snoc, hseq]
            simp only [hr]
            simp [results]
          · show match s.holder with | none => _ | some i' => _
            rw [hhold]
            exact ⟨rfl, rfl⟩
        · rw [if_neg hpo] at hs
          cases hs
          have hpo' : s.g.poisoned = false := by simpa using hpo
          refine ⟨fun j => ?_, s.g, s.fs, hseq, hpo', hpo', c, ?_, ?_⟩
          · by_cases hj : j = i
            · subst hj
              simp [Inside, Sys.setThread]
            · have hj' : ¬ Inside s j := by rw [hin j, hhold]; simp
              have : ¬ Inside { s.setThread i ⟨rest, .locked c⟩ with holder := some i } j := by
                unfold Inside at hj' ⊢
                simp only [Sys.setThread, if_neg hj]
                exact hj'
              refine iff_of_false this ?_
              simp only [Option.some.injEq]
              exact fun e => hj e.symm
          · simp [Sys.setThread, currentCall]
          · simp [Sys.setThread, ahead]
  | locked c =>
    have hhold := (hin i).mp (inside_of_phase hph (by simp))
    rw [hph] at hs
    simp only at hs
    have e : ∀ th, s.setThread i th = { s.setThread i th with g := s.g, fs := s.fs } := fun _ => rfl
    cases hmode : c.mode with
    | read =>
      rw [hmode] at hs
      simp only at hs
      cases ho : s.fs.open c.path c.sched with
      | error x =>
        rw [ho] at hs
        cases hs
        rw [e]
        refine stay _ _ _ (by simp) hhold rfl (by rw [hph]; rfl) ?_
        rw [hph]
        simp only [ahead, openFromFileThr, hmode, ho]
      | ok f =>
        rw [ho] at hs
        cases hs
        rw [e]
        refine stay _ _ _ (by simp) hhold rfl (by rw [hph]; rfl) ?_
        rw [hph]
        simp only [ahead, openFromFileThr, hmode, ho]
    | write =>
      rw [hmode] at hs
      simp only at hs
      cases ho : s.fs.create c.path c.sched with
      | error x =>
        rw [ho] at hs
        cases hs
        rw [e]
        refine stay _ _ _ (by simp) hhold rfl (by rw [hph]; rfl) ?_
        rw [hph]
        simp only [ahead, openFromFileThr, hmode, ho]
      | ok f =>
        rw [ho] at hs
        cases hs
        refine stay (.opened c _) s.g (s.fs.put c.path f.data) (by simp) hhold rfl (by rw [hph]; rfl) ?_
        rw [hph]
        simp only [ahead, openFromFileThr, hmode, ho, finishOpen_put]
  | opened c p =>
    have hhold := (hin i).mp (inside_of_phase hph (by simp))
    rw [hph] at hs
    simp only at hs
    cases hs
    refine stay (.finished c _) _ _ (by simp) hhold rfl (by rw [hph]; rfl) ?_
    rw [hph]
    simp only [ahead]
  | finished c r =>
    have hhold := (hin i).mp (inside_of_phase hph (by simp))
    rw [hph] at hs
    simp only at hs
    cases hs
    rw [hhold] at hst
    obtain ⟨h1, h2, c', h3, h4⟩ := hst
    rw [hph] at h3 h4
    simp only [currentCall, List.cons.injEq, and_true] at h3
    subst h3
    simp only [ahead, Option.some.injEq] at h4
    refine ⟨fun j => ?_, ⟨s.g.ctx, s.g.poisoned || decide (r = .panic)⟩, s.fs, ?_, ⟨rfl, rfl⟩⟩
    · by_cases hj : j = i
      · subst hj
        simp [Inside, Sys.setThread]
      · have hj' : ¬ Inside s j := by
          rw [hin j, hhold]
          simp only [Option.some.injEq]
          exact fun e => hj e.symm
        refine iff_of_false ?_ (by simp)
        unfold Inside at hj' ⊢
        simp only [Sys.setThread, if_neg hj]
        exact hj'
    · have hr : openFromFile t env c.now c.sched g fs c.path c.mode =
          (r, ⟨s.g.ctx, s.g.poisoned || decide (r = .panic)⟩, s.fs) := by
        unfold openFromFile
        rw [if_neg (by simp [h2]), ← h4, h1]
        cases r <;> simp
      have : ∀ (x : Sys n), x.hist = s.hist ++ [(i, c, r)] → callsDone x = callsDone s ++ [c] ∧
          results x = results s ++ [r] := by
        intro x hx
        simp [callsDone, results, hx]
      obtain ⟨e1, e2⟩ := this _ (rfl : ({ s.setThread i ⟨Sys.after c r (s.threads i).todo, .idle⟩ with
        holder := none
        g := { s.g with poisoned := s.g.poisoned || decide (r = .panic) }
        hist := s.hist ++ [(i, c, r)] } : Sys n).hist = _)
      rw [e1, e2, inTurn_snoc, hseq]
      simp only [hr]

theorem Serial.run {n : Nat} {t : Target} {env : Handlers} {g0 : Global} {fs0 : FS} {s : Sys n} (is : List (Fin n))
    (h : Serial t env g0 fs0 s) : Serial t env g0 fs0 (Sys.run t env is s) := by
  induction is generalizing s with
  | nil => exact h
  | cons i is ih =>
    rw [Sys.run]
    apply ih
    cases hs : s.step t env i with
    | none => exact h
    | some s' => exact h.step hs


/-! ## Order and progress -/

/-- What a step does to the thread that makes it. -/
theorem step_threads {n : Nat} {t : Target} {env : Handlers} {s s' : Sys n} {i : Fin n}
    (hs : s.step t env i = some s') :
    (∀ j, j ≠ i → s'.threads j = s.threads j) ∧
    ((∃ c r rest, s'.threads i = ⟨Sys.after c r rest, .idle⟩ ∧ s'.hist = s.hist ++ [(i, c, r)] ∧
        ((s.threads i = ⟨c :: rest, .idle⟩) ∨ s.threads i = ⟨rest, .finished c r⟩)) ∨
      (s'.hist = s.hist ∧ (s'.threads i).phase ≠ .idle ∧
        currentCall (s'.threads i).phase ++ (s'.threads i).todo =
          currentCall (s.threads i).phase ++ (s.threads i).todo)) := by
  unfold Sys.step at hs
  simp only at hs
  have same : ∀ th, (s.setThread i th).threads i = th := fun th => setThread_same s i th
  have other : ∀ th j, j ≠ i → (s.setThread i th).threads j = s.threads j := fun th j h => setThread_other s i j th h
  cases hth : s.threads i with
  | mk todo ph =>
    rw [hth] at hs
    cases ph with
    | idle =>
      cases todo with
      | nil => cases hs
      | cons c rest =>
        simp only at hs
        by_cases hh : s.holder.isSome = true
        · rw [if_pos hh] at hs; cases hs
        · rw [if_neg hh] at hs
          by_cases hpo : s.g.poisoned = true
          · rw [if_pos hpo] at hs
            cases hs
            exact ⟨other _, .inl ⟨c, .panic, rest, same _, rfl, .inl rfl⟩⟩
          · rw [if_neg hpo] at hs
            cases hs
            refine ⟨other _, .inr ⟨rfl, ?_, ?_⟩⟩
            · simp [same]
            · simp [same, currentCall]
    | locked c =>
      simp only at hs
      cases hmode : c.mode <;> rw [hmode] at hs <;> simp only at hs
      · cases ho : s.fs.open c.path c.sched <;> rw [ho] at hs <;> cases hs <;>
          refine ⟨other _, .inr ⟨rfl, ?_, ?_⟩⟩ <;> simp [same, currentCall]
      · cases ho : s.fs.create c.path c.sched <;> rw [ho] at hs <;> cases hs <;>
          refine ⟨other _, .inr ⟨rfl, ?_, ?_⟩⟩ <;> simp [same, currentCall]
    | opened c p =>
      simp only at hs
      cases hs
      refine ⟨other _, .inr ⟨rfl, ?_, ?_⟩⟩ <;> simp [same, currentCall]
    | finished c r =>
      simp only at hs
      cases hs
      exact ⟨other _, .inl ⟨c, r, todo, same _, rfl, .inr rfl⟩⟩

/-- Each thread keeps to its program. -/
def InOrder {n : Nat} (prog : Fin n → List Call) (s : Sys n) : Prop :=
  ∀ i, ∃ dropped, (doneBy s i).map Prod.fst ++ currentCall (s.threads i).phase ++ (s.threads i).todo ++ dropped = prog i ∧
    (dropped ≠ [] → (s.threads i).phase = .idle ∧ (s.threads i).todo = [] ∧
      ∃ before c, doneBy s i = before ++ [(c, .panic)] ∧ c.catches = false)

theorem doneBy_snoc_same {n : Nat} {s s' : Sys n} {i : Fin n} {c : Call} {r : Opened}
    (h : s'.hist = s.hist ++ [(i, c, r)]) : doneBy s' i = doneBy s i ++ [(c, r)] := by
  simp [doneBy, h]

theorem doneBy_snoc_other {n : Nat} {s s' : Sys n} {i j : Fin n} {c : Call} {r : Opened}
    (h : s'.hist = s.hist ++ [(i, c, r)]) (hj : j ≠ i) : doneBy s' j = doneBy s j := by
  simp [doneBy, h, Ne.symm hj]

theorem InOrder.step {n : Nat} {t : Target} {env : Handlers} {prog : Fin n → List Call} {s s' : Sys n} {i : Fin n}
    (h : InOrder prog s) (hs : s.step t env i = some s') : InOrder prog s' := by
  obtain ⟨hother, hmine⟩ := step_threads hs
  intro j
  by_cases hj : j = i
  · subst hj
    obtain ⟨dropped, h1, h2⟩ := h j
    rcases hmine with ⟨c, r, rest, e1, e2, e3⟩ | ⟨e1, e2, e3⟩
    · rw [doneBy_snoc_same e2, e1]
      have hd : dropped = [] := by
        by_contra hne
        obtain ⟨a, b, -⟩ := h2 hne
        rcases e3 with e3 | e3
        · rw [e3] at b; cases b
        · rw [e3] at a; cases a
      have h1' : (doneBy s j).map Prod.fst ++ c :: rest = prog j := by
        rw [← h1, hd]
        rcases e3 with e3 | e3 <;> rw [e3] <;> simp [currentCall]
      unfold Sys.after
      by_cases hk : r = .panic ∧ c.catches = false
      · rw [if_pos hk]
        refine ⟨rest, ?_, fun _ => ⟨rfl, rfl, doneBy s j, c, by rw [hk.1], hk.2⟩⟩
        rw [← h1']
        simp [currentCall]
      · rw [if_neg hk]
        refine ⟨[], ?_, fun h => absurd rfl h⟩
        rw [← h1']
        simp [currentCall]
    · have hdone : doneBy s' j = doneBy s j := by simp only [doneBy, e1]
      have hd : dropped = [] := by
        by_contra hne
        obtain ⟨a, b, -⟩ := h2 hne
        rw [a, b] at e3
        cases hph : (s'.threads j).phase with
        | idle => exact e2 hph
        | locked c => rw [hph] at e3; simp [currentCall] at e3
        | opened c p => rw [hph] at e3; simp [currentCall] at e3
        | finished c r => rw [hph] at e3; simp [currentCall] at e3
      refine ⟨[], ?_, fun h => absurd rfl h⟩
      rw [hdone, ← h1, hd]
      simp only [List.append_nil, List.append_assoc]
      rw [e3]
  · have hdone : doneBy s' j = doneBy s j := by
      rcases hmine with ⟨c, r, rest, -, e2, -⟩ | ⟨e1, -, -⟩
      · exact doneBy_snoc_other e2 hj
      · simp only [doneBy, e1]
    rw [hdone, hother j hj]
    exact h j

theorem run_induct {n : Nat} {t : Target} {env : Handlers} {P : Sys n → Prop}
    (hstep : ∀ s s' i, P s → s.step t env i = some s' → P s') (is : List (Fin n)) {s : Sys n} (h : P s) :
    P (Sys.run t env is s) := by
  induction is generalizing s with
  | nil => exact h
  | cons i is ih =>
    rw [Sys.run]
    apply ih
    cases hs : s.step t env i with
    | none => exact h
    | some s' => exact hstep s s' i h hs

theorem start_inOrder {n : Nat} (g : Global) (fs : FS) (prog : Fin n → List Call) :
    InOrder prog (Sys.start g fs prog) := fun i =>
  ⟨[], by simp [Sys.start, doneBy, currentCall], fun h => absurd rfl h⟩

/-- Steps a thread still has to make, at most. -/
def load (th : Thread) : Nat :=
  4 * th.todo.length + match th.phase with
    | .idle => 0
    | .locked _ => 3
    | .opened _ _ => 2
    | .finished _ _ => 1

def Sys.load {n : Nat} (s : Sys n) : Nat := ∑ i, Lcms.load (s.threads i)

theorem after_length (c : Call) (r : Opened) (l : List Call) : (Sys.after c r l).length ≤ l.length := by
  unfold Sys.after
  split
  · exact Nat.zero_le _
  · exact le_refl _

theorem step_load_thread {n : Nat} {t : Target} {env : Handlers} {s s' : Sys n} {i : Fin n}
    (hs : s.step t env i = some s') : Lcms.load (s'.threads i) < Lcms.load (s.threads i) := by
  unfold Sys.step at hs
  simp only at hs
  have same : ∀ th, (s.setThread i th).threads i = th := fun th => setThread_same s i th
  cases hth : s.threads i with
  | mk todo ph =>
    rw [hth] at hs
    cases ph with
    | idle =>
      cases todo with
      | nil => cases hs
      | cons c rest =>
        simp only at hs
        by_cases hh : s.holder.isSome = true
        · rw [if_pos hh] at hs; cases hs
        · rw [if_neg hh] at hs
          by_cases hpo : s.g.poisoned = true
          · rw [if_pos hpo] at hs
            cases hs
            have := after_length c .panic rest
            simp only [same, Lcms.load, List.length_cons]
            omega
          · rw [if_neg hpo] at hs
            cases hs
            simp only [same, Lcms.load, List.length_cons]
            omega
    | locked c =>
      simp only at hs
      cases hmode : c.mode <;> rw [hmode] at hs <;> simp only at hs
      · cases ho : s.fs.open c.path c.sched <;> rw [ho] at hs <;> cases hs <;> simp [same, Lcms.load]
      · cases ho : s.fs.create c.path c.sched <;> rw [ho] at hs <;> cases hs <;> simp [same, Lcms.load]
    | opened c p =>
      simp only at hs
      cases hs
      simp [same, Lcms.load]
    | finished c r =>
      simp only at hs
      cases hs
      have := after_length c r todo
      simp only [same, Lcms.load]
      omega

theorem step_load {n : Nat} {t : Target} {env : Handlers} {s s' : Sys n} {i : Fin n}
    (hs : s.step t env i = some s') : s'.load < s.load := by
  unfold Sys.load
  apply Finset.sum_lt_sum
  · intro j _
    by_cases hj : j = i
    · subst hj; exact le_of_lt (step_load_thread hs)
    · rw [(step_threads hs).1 j hj]
  · exact ⟨i, Finset.mem_univ _, step_load_thread hs⟩

theorem moves_load {n : Nat} (t : Target) (env : Handlers) (is : List (Fin n)) (s : Sys n) :
    moves t env is s + (Sys.run t env is s).load ≤ s.load := by
  induction is generalizing s with
  | nil => simp [moves, Sys.run]
  | cons i is ih =>
    simp only [moves, Sys.run]
    cases hs : s.step t env i with
    | none => simpa using ih s
    | some s' =>
      have h1 := ih s'
      have h2 := step_load hs
      simp only [Option.getD_some]
      omega

/-- Somebody can move unless everybody is done. -/
theorem Serial.progress {n : Nat} {t : Target} {env : Handlers} {g0 : Global} {fs0 : FS} {s : Sys n}
    (h : Serial t env g0 fs0 s) (hf : ¬ Finished s) : ∃ i s', s.step t env i = some s' := by
  cases hh : s.holder with
  | some i =>
    have hi := (h.inside i).mpr hh
    refine ⟨i, ?_⟩
    rw [← Option.isSome_iff_exists]
    unfold Inside at hi
    cases hph : (s.threads i).phase with
    | idle => rw [hph] at hi; exact hi.elim
    | locked c =>
      simp only [Sys.step, hph]
      cases c.mode
      · cases s.fs.open c.path c.sched <;> rfl
      · cases s.fs.create c.path c.sched <;> rfl
    | opened c p => simp only [Sys.step, hph]; rfl
    | finished c r => simp only [Sys.step, hph]; rfl
  | none =>
    unfold Finished at hf
    push Not at hf
    obtain ⟨i, hi⟩ := hf
    have hni : ¬ Inside s i := by rw [h.inside i, hh]; simp
    have htodo := hi hni
    refine ⟨i, ?_⟩
    rw [← Option.isSome_iff_exists]
    unfold Inside at hni
    cases hph : (s.threads i).phase with
    | idle =>
      cases ht : (s.threads i).todo with
      | nil => exact absurd ht htodo
      | cons c rest =>
        simp only [Sys.step, hph, ht, hh]
        by_cases hpo : s.g.poisoned = true
        · simp [hpo]
        · simp [hpo]
    | locked c => rw [hph] at hni; exact absurd trivial hni
    | opened c p => rw [hph] at hni; exact absurd trivial hni
    | finished c r => rw [hph] at hni; exact absurd trivial hni

theorem run_append {n : Nat} (t : Target) (env : Handlers) (a b : List (Fin n)) (s : Sys n) :
    Sys.run t env (a ++ b) s = Sys.run t env b (Sys.run t env a s) := by
  induction a generalizing s with
  | nil => rfl
  | cons i a ih => simp only [List.cons_append, Sys.run, ih]

theorem moves_append {n : Nat} (t : Target) (env : Handlers) (a b : List (Fin n)) (s : Sys n) :
    moves t env (a ++ b) s = moves t env a s + moves t env b (Sys.run t env a s) := by
  induction a generalizing s with
  | nil => simp [moves, Sys.run]
  | cons i a ih =>
    simp only [List.cons_append, Sys.run, moves]
    cases hs : s.step t env i with
    | none => simpa using ih s
    | some s' =>
      simp only [Option.getD_some, ih s']
      omega

/-- A turn of a thread that can move is used, unless somebody moved before. -/
theorem moves_pos {n : Nat} (t : Target) (env : Handlers) (is : List (Fin n)) (s : Sys n) (i : Fin n) (hi : i ∈ is)
    (s' : Sys n) (hs : s.step t env i = some s') : 1 ≤ moves t env is s := by
  induction is with
  | nil => cases hi
  | cons j is ih =>
    simp only [moves]
    cases hj : s.step t env j with
    | some s'' => simp
    | none =>
      rcases List.mem_cons.mp hi with rfl | hi
      · rw [hs] at hj; cases hj
      · exact ih hi

theorem finished_step {n : Nat} {t : Target} {env : Handlers} {s : Sys n} (h : Finished s) (i : Fin n) :
    s.step t env i = none := by
  obtain ⟨h1, h2⟩ := h i
  unfold Inside at h1
  cases hph : (s.threads i).phase with
  | idle => simp only [Sys.step, hph, h2]
  | locked c => rw [hph] at h1; exact absurd trivial h1
  | opened c p => rw [hph] at h1; exact absurd trivial h1
  | finished c r => rw [hph] at h1; exact absurd trivial h1

theorem finished_run {n : Nat} {t : Target} {env : Handlers} {s : Sys n} (h : Finished s) (is : List (Fin n)) :
    Sys.run t env is s = s := by
  induction is with
  | nil => rfl
  | cons i is ih => rw [Sys.run, finished_step h i]; exact ih

theorem rounds_finish {n : Nat} {t : Target} {env : Handlers} {g0 : Global} {fs0 : FS} (rounds : List (List (Fin n)))
    (hr : ∀ r ∈ rounds, Round r) {s : Sys n} (h : Serial t env g0 fs0 s) (hl : s.load ≤ rounds.length) :
    Finished (Sys.run t env rounds.flatten s) := by
  induction rounds generalizing s with
  | nil =>
    by_contra hf
    obtain ⟨i, s', hs⟩ := h.progress hf
    have := step_load hs
    simp only [List.length_nil] at hl
    omega
  | cons r rounds ih =>
    rw [List.flatten_cons, run_append]
    by_cases hf : Finished s
    · rw [finished_run hf, finished_run hf]; exact hf
    · obtain ⟨i, s', hs⟩ := h.progress hf
      have h1 := moves_pos t env r s i (hr r (List.mem_cons_self ..) i) s' hs
      have h2 := moves_load t env r s
      refine ih (fun r' h' => hr r' (List.mem_cons_of_mem _ h')) (h.run r) ?_
      simp only [List.length_cons] at hl
      omega

theorem start_load {n : Nat} (g : Global) (fs : FS) (prog : Fin n → List Call) :
    (Sys.start g fs prog).load = 4 * ∑ i, (prog i).length := by
  unfold Sys.load Sys.start Lcms.load
  simp only [Nat.add_zero, Finset.mul_sum]

end Lcms
