import Verif.Lemmas.Threads
import Verif.Props.Process

/-! # Property C86: threads opening profiles at the same time -/

namespace Lcms.Props

open Lcms.Spec

/-- **C86a** However the threads are scheduled, at most one of them is between taking the global lock and giving it
back. -/
theorem C86_exclusive {n : Nat} (t : Target) (env : Handlers) (g : Global) (fs : FS) (prog : Fin n → List Call)
    (turns : List (Fin n)) (i j : Fin n) :
    let s := Sys.run t env turns (Sys.start g fs prog)
    Inside s i → Inside s j → i = j := by
  intro s hi hj
  have h := (start_serial t env g fs prog).run turns
  have h1 := (h.inside i).mp hi
  have h2 := (h.inside j).mp hj
  exact Option.some.inj (h1.symm.trans h2)

/-- **C86b** However the threads are scheduled, the completed calls have the results they would have had, made one
after the other in the order of completion; and when nobody is inside, the context and the files are what these
calls, made one after the other, leave behind. -/
theorem C86_one_after_the_other {n : Nat} (t : Target) (env : Handlers) (g : Global) (fs : FS)
    (prog : Fin n → List Call) (turns : List (Fin n)) :
    let s := Sys.run t env turns (Sys.start g fs prog)
    results s = (inTurn t env (callsDone s) g fs).1 ∧
    ((∀ i, ¬ Inside s i) → (s.g, s.fs) = (inTurn t env (callsDone s) g fs).2) := by
  intro s
  have h := (start_serial t env g fs prog).run turns
  obtain ⟨g', fs', h1, h2⟩ := h.serial
  change inTurn t env (callsDone s) g fs = (results s, g', fs') at h1
  refine ⟨by rw [h1], fun hn => ?_⟩
  have hh : s.holder = none := by
    cases hc : s.holder with
    | none => rfl
    | some i => exact absurd ((h.inside i).mpr hc) (hn i)
  change match s.holder with | none => _ | some i => _ at h2
  rw [hh] at h2
  rw [h1, h2.1, h2.2]

theorem inTurn_poisoned (t : Target) (env : Handlers) (cs : List Call) (g : Global) (fs : FS)
    (hg : g.poisoned = true) : ∀ r ∈ (inTurn t env cs g fs).1, r = .panic := by
  induction cs generalizing g fs with
  | nil => intro r h; cases h
  | cons c cs ih =>
    have hr : openFromFile t env c.now c.sched g fs c.path c.mode = (.panic, g, fs) := by
      unfold openFromFile; rw [if_pos hg]
    intro r h
    rw [inTurn, hr] at h
    rcases List.mem_cons.mp h with rfl | h
    · rfl
    · exact ih g fs hg r h

theorem inTurn_after_panic (t : Target) (env : Handlers) (cs : List Call) (g : Global) (fs : FS)
    (a b : List Opened) (h : (inTurn t env cs g fs).1 = a ++ .panic :: b) : ∀ r ∈ b, r = .panic := by
  induction cs generalizing g fs a with
  | nil => simp [inTurn] at h
  | cons c cs ih =>
    rw [inTurn] at h
    simp only at h
    cases a with
    | cons x a =>
      simp only [List.cons_append, List.cons.injEq] at h
      exact ih _ _ a h.2
    | nil =>
      simp only [List.nil_append, List.cons.injEq] at h
      rw [← h.2]
      apply inTurn_poisoned
      have h1 := h.1
      unfold openFromFile at h1 ⊢
      by_cases hg : g.poisoned = true
      · rw [if_pos hg]; exact hg
      · rw [if_neg hg] at h1 ⊢
        revert h1
        generalize openFromFileThr t env c.now c.sched g.ctx fs c.path c.mode = o
        obtain ⟨o1, o2, o3⟩ := o
        cases o1 <;> simp

/-- **C86c** After a call that panicked, in whichever thread, every call completed later panics too, in every
thread. -/
theorem C86_poison_spreads {n : Nat} (t : Target) (env : Handlers) (g : Global) (fs : FS)
    (prog : Fin n → List Call) (turns : List (Fin n)) (a b : List (Fin n × Call × Opened)) (i : Fin n) (c : Call)
    (h : (Sys.run t env turns (Sys.start g fs prog)).hist = a ++ (i, c, .panic) :: b) :
    ∀ x ∈ b, x.2.2 = .panic := by
  have h1 := (C86_one_after_the_other t env g fs prog turns).1
  unfold results at h1
  rw [h] at h1
  simp only [List.map_append, List.map_cons] at h1
  intro x hx
  exact inTurn_after_panic t env _ g fs _ _ h1.symm _ (List.mem_map_of_mem hx)

/-- **C86d** Each thread completes its calls in the order of its program, none twice, and leaves calls out only after
a panic it did not catch. -/
theorem C86_program_order {n : Nat} (t : Target) (env : Handlers) (g : Global) (fs : FS)
    (prog : Fin n → List Call) (turns : List (Fin n)) (i : Fin n) :
    let s := Sys.run t env turns (Sys.start g fs prog)
    ∃ dropped, (doneBy s i).map Prod.fst ++ currentCall (s.threads i).phase ++ (s.threads i).todo ++ dropped = prog i ∧
      (dropped ≠ [] → ∃ before c, doneBy s i = before ++ [(c, .panic)] ∧ c.catches = false) := by
  intro s
  have h : InOrder prog s := run_induct (fun _ _ _ h hs => h.step hs) turns (start_inOrder g fs prog)
  obtain ⟨d, h1, h2⟩ := h i
  exact ⟨d, h1, fun hd => (h2 hd).2.2⟩

/-- **C86e** No deadlock: as long as a thread has a call left to make or to complete, some thread can move. -/
theorem C86_no_deadlock {n : Nat} (t : Target) (env : Handlers) (g : Global) (fs : FS)
    (prog : Fin n → List Call) (turns : List (Fin n)) :
    let s := Sys.run t env turns (Sys.start g fs prog)
    ¬ Finished s → ∃ i s', s.step t env i = some s' :=
  fun hf => ((start_serial t env g fs prog).run turns).progress hf

/-- **C86f** Four steps per call at most; and any schedule made of that many rounds, in each of which every thread
has a turn, completes everything: in particular every call that is not dropped gets the lock. -/
theorem C86_everything_completes {n : Nat} (t : Target) (env : Handlers) (g : Global) (fs : FS)
    (prog : Fin n → List Call) :
    (∀ turns, moves t env turns (Sys.start g fs prog) ≤ 4 * ∑ i, (prog i).length) ∧
    (∀ rounds : List (List (Fin n)), (∀ r ∈ rounds, Round r) → 4 * ∑ i, (prog i).length ≤ rounds.length →
      let s := Sys.run t env rounds.flatten (Sys.start g fs prog)
      Finished s ∧ ∀ i, (∀ c ∈ prog i, c.catches = true) → (doneBy s i).map Prod.fst = prog i) := by
  constructor
  · intro turns
    have h := moves_load t env turns (Sys.start g fs prog)
    rw [start_load] at h
    omega
  · intro rounds hr hl s
    have hf : Finished s := rounds_finish rounds hr (start_serial t env g fs prog) (by rw [start_load]; exact hl)
    refine ⟨hf, fun i hc => ?_⟩
    obtain ⟨d, h1, h2⟩ := C86_program_order t env g fs prog rounds.flatten i
    obtain ⟨hi, htodo⟩ := hf i
    have hph : (s.threads i).phase = .idle := by
      unfold Inside at hi
      cases h : (s.threads i).phase with
      | idle => rfl
      | locked c => rw [h] at hi; exact absurd trivial hi
      | opened c p => rw [h] at hi; exact absurd trivial hi
      | finished c r => rw [h] at hi; exact absurd trivial hi
    change List.map Prod.fst (doneBy s i) ++ currentCall (s.threads i).phase ++ (s.threads i).todo ++ d = prog i at h1
    rw [hph, htodo] at h1
    simp only [currentCall, List.append_nil] at h1
    by_cases hd : d = []
    · rw [hd, List.append_nil] at h1
      exact h1
    · obtain ⟨before, c, e, hcatch⟩ := h2 hd
      change doneBy s i = _ at e
      have : c ∈ prog i := by
        rw [← h1, e]; simp
      rw [hc c this] at hcatch
      cases hcatch

/-- A call in an example. -/
def call (path : Path) (mode : AccessMode) : Call := ⟨noon, [], path, mode, true⟩

/-- Two threads: one creates the file "x", the other opens it for reading. -/
def race (turns : List (Fin 2)) : Sys 2 :=
  Sys.run pc quiet turns (Sys.start Global.fresh emptyFS fun i => if i = 0 then [call ['x'] .write] else [call ['x'] .read])

/-- The creator is first: the other thread waits through three of its turns, then finds an empty file. -/
example : results (race [0, 1, 0, 1, 0, 1, 0, 1, 1, 1, 1]) = [.err .badFd, .err .unexpectedEof] ∧
    (race [0, 1, 0, 1, 0, 1, 0, 1, 1, 1, 1]).hist.map Prod.fst = [0, 1] := by decide +kernel

/-- The reader is first: there is no file. -/
example : results (race [1, 0, 1, 1, 0, 0, 0, 0, 0]) = [.err .notFound, .err .badFd] := by decide +kernel

end Lcms.Props
