import Verif.Model.Threads

/-!
# Specification vocabulary: calls made one after the other
-/

namespace Lcms.Spec

/-- The calls made one after the other in one thread: the results, and the state afterwards. -/
def inTurn (t : Target) (env : Handlers) : List Call → Global → FS → List Opened × Global × FS
  | [], g, fs => ([], g, fs)
  | c :: cs, g, fs =>
    let r := openFromFile t env c.now c.sched g fs c.path c.mode
    let rest := inTurn t env cs r.2.1 r.2.2
    (r.1 :: rest.1, rest.2)

/-- The calls completed so far, in order of completion, and their results. -/
def callsDone {n : Nat} (s : Sys n) : List Call := s.hist.map fun x => x.2.1

def results {n : Nat} (s : Sys n) : List Opened := s.hist.map fun x => x.2.2

/-- Thread `i` is inside `open_from_file`. -/
def Inside {n : Nat} (s : Sys n) (i : Fin n) : Prop :=
  match (s.threads i).phase with
  | .idle => False
  | _ => True

/-- The call a thread is in. -/
def currentCall : Phase → List Call
  | .idle => []
  | .locked c => [c]
  | .opened c _ => [c]
  | .finished c _ => [c]

/-- The calls thread `i` has completed, with their results. -/
def doneBy {n : Nat} (s : Sys n) (i : Fin n) : List (Call × Opened) :=
  (s.hist.filter fun x => x.1 = i).map fun x => x.2

/-- Nothing left to do. -/
def Finished {n : Nat} (s : Sys n) : Prop := ∀ i, ¬ Inside s i ∧ (s.threads i).todo = []

/-- How many turns of a schedule were used for a step. -/
def moves {n : Nat} (t : Target) (env : Handlers) : List (Fin n) → Sys n → Nat
  | [], _ => 0
  | i :: is, s =>
    match s.step t env i with
    | none => moves t env is s
    | some s' => moves t env is s' + 1

/-- A part of a schedule in which every thread has a turn. -/
def Round {n : Nat} (is : List (Fin n)) : Prop := ∀ i, i ∈ is

end Lcms.Spec
