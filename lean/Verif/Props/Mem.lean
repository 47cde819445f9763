import Verif.Lemmas.Mem
import Verif.Spec.Target

/-!
# Properties C08–C11: FileMem
-/

namespace Lcms.Props

open Lcms Spec

/-! ### C08: fixed buffers -/

theorem fixed_step_length (t : Target) (op : Op) (s s' : Mem)
    (h : (hstep (Mem.fixed t) op s).2 = some s') : s'.buf.length = s.buf.length := by
  have hseek : ∀ (p : SeekFrom) (s s' : Mem), Mem.seek p s = .ok () s' → s'.buf = s.buf := by
    intro p s s' h
    unfold Mem.seek at h
    cases p <;> simp only at h
    · cases h; rfl
    · split at h <;> cases h; rfl
    · split at h <;> cases h; rfl
  have hseeke : ∀ (p : SeekFrom) (s s' : Mem) (e), Mem.seek p s = .err e s' → s'.buf = s.buf := by
    intro p s s' e h
    unfold Mem.seek at h
    cases p <;> simp only at h
    · cases h
    · split at h <;> cases h; rfl
    · split at h <;> cases h; rfl
  cases op with
  | read b =>
    simp only [hstep, Mem.fixed, Mem.readExact_eq] at h
    split at h <;> · simp only [obsRead, Option.some.injEq] at h; subst h; rfl
  | write b =>
    simp only [hstep, Mem.fixed, Mem.writeAll_fixed] at h
    by_cases hb : b = []
    · simp only [hb, if_true, obsUnit, Option.some.injEq] at h; subst h; rfl
    · by_cases h0 : Mem.fits b s = 0
      · simp only [hb, h0, if_true, if_false, obsUnit, Option.some.injEq] at h; subst h; rfl
      · obtain ⟨h1, h2, h3⟩ := Mem.fits_pos_le h0
        simp only [hb, h0, if_false] at h
        split at h <;> simp only [obsUnit, Option.some.injEq] at h <;> subst h <;>
          simp only [patch_length, List.length_take] <;> omega
  | seek p =>
    simp only [hstep, Mem.fixed] at h
    cases hs : Mem.seek p s with
    | ok a s1 => rw [hs] at h; simp only [obsUnit, Option.some.injEq] at h; subst h; rw [hseek p s s1 hs]
    | err e s1 => rw [hs] at h; simp only [obsUnit, Option.some.injEq] at h; subst h; rw [hseeke p s s1 e hs]
    | panic => rw [hs] at h; simp [obsUnit] at h
  | tell =>
    simp only [hstep, Mem.fixed, Mem.tell, obsNum, Option.some.injEq] at h
    subst h; rfl
  | size =>
    simp only [hstep] at h
    obtain ⟨i1, i2⟩ := reportedSize_inv (Mem.fixed t) (fun m => m.buf.length = s.buf.length)
      (by intro a b n ha hb; cases hb; exact ha) (by intro a b e ha hb; cases hb)
      (by intro p a b ha hb; rw [hseek p a b hb]; exact ha)
      (by intro p a b e ha hb; rw [hseeke p a b e hb]; exact ha) s rfl
    cases hs : reportedSize (Mem.fixed t) s with
    | ok n s1 => rw [hs] at h; simp only [obsNum, Option.some.injEq] at h; subst h; exact i1 _ _ hs
    | err e s1 => rw [hs] at h; simp only [obsNum, Option.some.injEq] at h; subst h; exact i2 _ _ hs
    | panic => rw [hs] at h; simp [obsNum] at h

/-- **C08** (history part). No history of operations changes the length of a fixed buffer. -/
theorem C08_fixed_length (t : Target) (ops : List Op) (s s' : Mem)
    (h : (runWith (hstep (Mem.fixed t)) ops s).2 = some s') : s'.buf.length = s.buf.length := by
  induction ops generalizing s with
  | nil => simp only [runWith, Option.some.injEq] at h; subst h; rfl
  | cons op ops ih =>
    simp only [runWith] at h
    split at h
    · simp at h
    · rename_i o s1 heq
      have h1 := fixed_step_length t op s s1 (by rw [heq])
      rw [← h1]; exact ih s1 h

/-- **C08** (write part). A write to a fixed buffer stores exactly the longest prefix that fits, changes no
byte outside the window, advances by what it stored, and succeeds iff everything fitted; otherwise the error
is `WriteZero`. -/
theorem C08_fixed_write (t : Target) (b : List UInt8) (s : Mem) :
    ∃ s' k, k = (if s.pos ≤ s.buf.length then min b.length (s.buf.length - s.pos) else 0) ∧
      (Mem.fixed t).write b s =
        (if b = [] ∨ s.pos + b.length ≤ s.buf.length then .ok () s' else .err .writeZero s') ∧
      s'.buf.length = s.buf.length ∧ s'.pos = s.pos + k ∧
      (∀ i, i < k → s'.buf.getD (s.pos + i) 0 = b.getD i 0) ∧
      (∀ i, i < s.pos ∨ s.pos + k ≤ i → s'.buf.getD i 0 = s.buf.getD i 0) := by
  have hw : (Mem.fixed t).write b s = Mem.writeAll Mem.sliceWrite b s := rfl
  rw [hw, Mem.writeAll_fixed]
  have hk : (if s.pos ≤ s.buf.length then min b.length (s.buf.length - s.pos) else 0) = Mem.fits b s := by
    unfold Mem.fits; split <;> omega
  by_cases hb : b = []
  · refine ⟨s, 0, ?_, ?_, rfl, rfl, ?_, ?_⟩
    · subst hb; simp
    · simp [hb]
    · intro i hi; omega
    · intros; rfl
  have hpos := List.length_pos_iff.mpr hb
  by_cases h0 : Mem.fits b s = 0
  · refine ⟨s, 0, ?_, ?_, rfl, rfl, ?_, ?_⟩
    · rw [hk, h0]
    · simp only [hb, h0, if_true, if_false, false_or]
      rw [if_neg]; unfold Mem.fits at h0; omega
    · intro i hi; omega
    · intros; rfl
  obtain ⟨h1, h2, h3⟩ := Mem.fits_pos_le h0
  have hl : (b.take (Mem.fits b s)).length = Mem.fits b s := by simp; omega
  refine ⟨⟨patch s.buf s.pos (b.take (Mem.fits b s)), s.pos + Mem.fits b s⟩, Mem.fits b s, hk.symm, ?_, ?_,
    rfl, ?_, ?_⟩
  · simp only [hb, h0, if_false, false_or]
    by_cases hf : Mem.fits b s = b.length
    · rw [if_pos hf, if_pos (by omega), hf, List.take_length]
    · rw [if_neg hf, if_neg]
      unfold Mem.fits at hf h0; omega
  · simp only [patch_length, hl]; omega
  · intro i hi
    simp only [patch_getD, hl]
    rw [if_pos (by omega)]
    simp only [Nat.add_sub_cancel_left, List.getD_eq_getElem?_getD, List.getElem?_take]
    rw [if_pos hi]
  · intro i hi
    simp only [patch_getD, hl]
    rw [if_neg (by omega)]

/-- Non-vacuity: a write of three bytes into the last two cells, and a history with a failure in it. -/
example : (Mem.fixed pc).write [1, 2, 3] ⟨[0, 0, 0, 0], 2⟩ = .err .writeZero ⟨[0, 0, 1, 2], 4⟩ ∧
    runWith (hstep (Mem.fixed pc)) [.write [1, 2, 3], .seek (.start 1), .write [9], .size] ⟨[0, 0, 0, 0], 2⟩
      = ([.err .writeZero, .unit, .unit, .num 4], some ⟨[0, 9, 1, 2], 2⟩) := by decide

/-! ### C09: Vec buffers refine the tape -/

/-- **C09** Every history of calls on `FileMem<Vec<u8>>` makes the same observations as the abstract tape
holding the same bytes, and ends in the state the tape ends in (`Tape.ofList` is injective: `tape_inj`), from
every initial buffer that can exist and every position. -/
theorem C09_vec_refines_tape (t : Target) (ops : List Op) (s : Mem) (hs : s.buf.length ≤ t.isizeMax) :
    runWith (Tape.step t) ops (Tape.ofList s.buf s.pos) =
      ((runWith (hstep (Mem.vec t)) ops s).1,
       (runWith (hstep (Mem.vec t)) ops s).2.map fun s' => Tape.ofList s'.buf s'.pos) :=
  runWith_sim (hstep (Mem.vec t)) (Tape.step t) Mem.tape (fun s => s.buf.length ≤ t.isizeMax)
    (fun op s h => vec_step_sim t op s h) ops s hs

/-- Non-vacuity: a history with a gap, a failing read, a failing seek and a size query. -/
example : runWith (hstep (Mem.vec pc))
      [.seek (.end_ 2), .write [7], .read [9], .size, .seek (.current (-3)), .read [9, 9, 9],
       .seek (.current (-100))] (Mem.new [1])
    = ([.unit, .unit, .readErr .unexpectedEof [9], .num 4, .unit, .bytes [0, 0, 7], .err .invalidInput],
        some ⟨[1, 0, 0, 7], 4⟩) := by decide

/-! ### C10, C11 -/

/-- **C10** A `FileMem` read (any backing store) is exact and all-or-nothing. -/
theorem C10_mem_read (t : Target) (h : Handler Mem) (hh : h = Mem.vec t ∨ h = Mem.fixed t)
    (b : List UInt8) (s : Mem) :
    if b.length = 0 ∨ s.pos + b.length ≤ s.buf.length then
      ∃ got, h.read b s = (.ok () ⟨s.buf, s.pos + b.length⟩, got) ∧ got.length = b.length ∧
        ∀ i, i < b.length → got.getD i 0 = s.buf.getD (s.pos + i) 0
    else h.read b s = (.err .unexpectedEof s, b) := by
  have hr : h.read b s = Mem.readExact b s := by rcases hh with rfl | rfl <;> rfl
  rw [hr, Mem.readExact_eq]
  have hiff : (b.length = 0 ∨ s.pos + b.length ≤ s.buf.length) ↔
      (b = [] ∨ s.pos + b.length ≤ s.buf.length) := by rw [List.length_eq_zero_iff]
  by_cases hc : b.length = 0 ∨ s.pos + b.length ≤ s.buf.length
  · rw [if_pos hc, if_pos (hiff.mp hc)]
    refine ⟨_, rfl, ?_, ?_⟩
    · simp only [List.length_take, List.length_drop]; omega
    · intro i hi
      simp only [List.getD_eq_getElem?_getD, List.getElem?_take, List.getElem?_drop]
      rw [if_pos hi]
  · rw [if_neg hc, if_neg (fun h => hc (hiff.mpr h))]

example : (Mem.vec pc).read [0, 0] ⟨[1, 2, 3], 1⟩ = (.ok () ⟨[1, 2, 3], 3⟩, [2, 3]) ∧
    (Mem.fixed pc).read [5, 5, 5] ⟨[1, 2, 3], 1⟩ = (.err .unexpectedEof ⟨[1, 2, 3], 1⟩, [5, 5, 5]) ∧
    (Mem.fixed pc).read [] ⟨[1, 2, 3], 100⟩ = (.ok () ⟨[1, 2, 3], 100⟩, []) := by decide

/-- **C11** Seeking on a `FileMem` goes exactly to the requested position when that is a `u64`, otherwise it
fails with `InvalidInput` and changes nothing. -/
theorem C11_mem_seek (t : Target) (h : Handler Mem) (hh : h = Mem.vec t ∨ h = Mem.fixed t) (s : Mem)
    (n : UInt64) (d : Int64) :
    h.seek (.start n) s = .ok () ⟨s.buf, n.toNat⟩ ∧
    (∀ q : Nat, (q : Int) = s.buf.length + d.toInt → q < 2 ^ 64 →
      h.seek (.end_ d) s = .ok () ⟨s.buf, q⟩) ∧
    (∀ q : Nat, (q : Int) = s.pos + d.toInt → q < 2 ^ 64 →
      h.seek (.current d) s = .ok () ⟨s.buf, q⟩) ∧
    ((s.buf.length + d.toInt < 0 ∨ (2 ^ 64 : Int) ≤ s.buf.length + d.toInt) →
      h.seek (.end_ d) s = .err .invalidInput s) ∧
    ((s.pos + d.toInt < 0 ∨ (2 ^ 64 : Int) ≤ s.pos + d.toInt) →
      h.seek (.current d) s = .err .invalidInput s) := by
  have hr : h.seek = Mem.seek := by rcases hh with rfl | rfl <;> rfl
  rw [hr]
  refine ⟨rfl, ?_, ?_, ?_, ?_⟩
  · intro q hq hlt
    simp only [Mem.seek, ← hq]; rw [if_pos (by omega)]; simp
  · intro q hq hlt
    simp only [Mem.seek, ← hq]; rw [if_pos (by omega)]; simp
  · intro hc
    simp only [Mem.seek]; rw [if_neg (by omega)]
  · intro hc
    simp only [Mem.seek]; rw [if_neg (by omega)]

example : (Mem.vec pc).seek (.end_ (-1)) ⟨[1, 2, 3], 9⟩ = .ok () ⟨[1, 2, 3], 2⟩ ∧
    (Mem.vec pc).seek (.current (-10)) ⟨[1, 2, 3], 9⟩ = .err .invalidInput ⟨[1, 2, 3], 9⟩ := by decide

end Lcms.Props
