import Verif.Model.Close
import Verif.Props.File
import Verif.Props.Mem

/-!
# Property C113: what closing a handler guarantees
-/

namespace Lcms.Props

open Lcms Spec

theorem syncData_eq (sched : List SyncResp) :
    (∀ e, syncData sched = some e ↔ ∃ k rest, sched = List.replicate k .interrupted ++ .failed e :: rest) ∧
    (syncData sched = none ↔ ∀ r ∈ sched, r = .interrupted) := by
  induction sched with
  | nil => simp [syncData]
  | cons r rs ih =>
    cases r with
    | interrupted =>
      simp only [syncData]
      refine ⟨fun e => ?_, by simp [ih.2]⟩
      rw [ih.1 e]
      constructor
      · rintro ⟨k, rest, rfl⟩
        exact ⟨k + 1, rest, rfl⟩
      · rintro ⟨k, rest, h⟩
        cases k with
        | zero => simp at h
        | succ k =>
          rw [List.replicate_succ, List.cons_append, List.cons.injEq] at h
          exact ⟨k, rest, h.2⟩
    | failed e' =>
      simp only [syncData]
      refine ⟨fun e => ?_, by simp⟩
      constructor
      · intro h
        cases h
        exact ⟨0, rs, rfl⟩
      · rintro ⟨k, rest, h⟩
        cases k with
        | zero =>
          simp only [List.replicate_zero, List.nil_append, List.cons.injEq, SyncResp.failed.injEq] at h
          rw [h.1]
        | succ k => simp [List.replicate_succ] at h

/-- **C113** A `File` after any history of calls, whatever has been written back to the medium so far (`m`), is
closed.  `close` fails exactly if `fdatasync` does, with its error, interruptions aside.  Either way every
process sees the contents the calls produced.  If it succeeds, these contents are on the medium, and nothing
the OS writes back later changes that. -/
theorem C113_file (t : Target) (ops : List Op) (s : OsFile) (hl : s.data.length < 2 ^ 63) (hp : s.pos < 2 ^ 63)
    (hsm : Along (PFile.step t) Small ops ⟨s.data, s.pos, s.readable, s.writable⟩) (f : PFile)
    (hf : (runWith (PFile.step t) ops ⟨s.data, s.pos, s.readable, s.writable⟩).2 = some f) :
    ∃ s', (runWith (hstep (OsFile.handler t)) ops s).2 = some s' ∧
      ∀ (m : List UInt8) (sched : List SyncResp),
        let r := Stored.close sched ⟨s', m⟩
        (∀ e, r.1 = some e ↔ ∃ k rest, sched = List.replicate k .interrupted ++ .failed e :: rest) ∧
        r.2.file.data = f.data ∧
        (r.1 = none → ∀ later : List (List UInt8),
          (later.foldl Stored.writeBack r.2).medium = f.data ∧
          (later.foldl Stored.writeBack r.2).file.data = f.data) := by
  rw [C17_schedule_independent t ops s hl hp hsm] at hf
  obtain ⟨s', hs', rfl⟩ := Option.map_eq_some_iff.mp hf
  refine ⟨s', hs', fun m sched => ?_⟩
  have hse := syncData_eq sched
  show (∀ e, (Stored.close sched ⟨s', m⟩).1 = some e ↔ _) ∧ _
  unfold Stored.close
  cases h : syncData sched with
  | some e' =>
    rw [h] at hse
    exact ⟨hse.1, rfl, fun h => by cases h⟩
  | none =>
    rw [h] at hse
    refine ⟨hse.1, rfl, fun _ later => ?_⟩
    have : ∀ later : List (List UInt8), later.foldl Stored.writeBack ⟨s', s'.data⟩ = ⟨s', s'.data⟩ := by
      intro later
      induction later with
      | nil => rfl
      | cons x xs ih =>
        rw [List.foldl_cons]
        have : Stored.writeBack ⟨s', s'.data⟩ x = ⟨s', s'.data⟩ := if_pos rfl
        rw [this, ih]
    simp only [this, and_self]

/-- **C113** Closing a `FileMem` or a `FileNull` never fails, and the buffer that was lent to a `FileMem` holds what
the calls produced. -/
theorem C113_mem (t : Target) (ops : List Op) (m m' : Mem) (n : Null) (hm : m.buf.length ≤ t.isizeMax)
    (h : (runWith (hstep (Mem.vec t)) ops m).2 = some m') :
    (Mem.close m').1 = none ∧ Null.close n = none ∧
    ∃ T, (runWith (Tape.step t) ops (Tape.ofList m.buf m.pos)).2 = some T ∧ (Mem.close m').2.length = T.len ∧
      ∀ i, i < T.len → (Mem.close m').2[i]? = some (T.cell i) := by
  refine ⟨rfl, rfl, Tape.ofList m'.buf m'.pos, ?_, rfl, fun i hi => ?_⟩
  · rw [C09_vec_refines_tape t ops m hm, h]
    rfl
  · have hi' : i < m'.buf.length := hi
    show m'.buf[i]? = some (m'.buf.getD i 0)
    simp [List.getD, List.getElem?_eq_getElem hi']

/-- Three bytes, written in two pieces, closed after an interruption: on the medium. -/
example : ∃ s', (runWith (hstep (OsFile.handler pc)) [.write [1, 2, 3]] ⟨[], 0, true, true, [.chunk 0]⟩).2 = some s' ∧
    (Stored.close [.interrupted] ⟨s', [1]⟩).1 = none ∧
    ([[9], [8, 8]].foldl Stored.writeBack (Stored.close [.interrupted] ⟨s', [1]⟩).2).medium = [1, 2, 3] ∧
    (Stored.close [.interrupted, .failed (.other 5)] ⟨s', [1]⟩) = (some (.other 5), ⟨s', [1]⟩) :=
  ⟨⟨[1, 2, 3], 3, true, true, []⟩, by decide⟩

/-- Without `close` there is no such guarantee: the same file may lose its contents. -/
example : (Stored.writeBack ⟨⟨[1, 2, 3], 3, true, true, []⟩, [1]⟩ []).medium = [] := by decide

/-- A lent buffer after closing. -/
example : ∃ m', (runWith (hstep (Mem.vec pc)) [.seek (.start 2), .write [7]] (Mem.new [1])).2 = some m' ∧
    Mem.close m' = (none, [1, 0, 7]) := ⟨⟨[1, 0, 7], 3⟩, by decide⟩

end Lcms.Props
