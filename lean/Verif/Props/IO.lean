import Verif.Spec.Target
import Verif.Lemmas.IO

/-!
# Properties C03–C12: typed accessors, FileMem, reported_size
-/

namespace Lcms.Props

open Lcms Spec

/-- Existence and uniqueness of the file bytes, then exactly one `write` of them. -/
private theorem writes_as {σ : Type} (t : Target) (h : Handler σ) (n x : Nat) (hx : x < 256 ^ n)
    (m : M σ Unit) (hm : m = h.write (fileBytes t n x)) :
    ∃ bs, IsFileBytes t n x bs ∧ (∀ bs', IsFileBytes t n x bs' → bs' = bs) ∧ m = h.write bs :=
  ⟨fileBytes t n x, (isFileBytes_iff t n x _ hx).mpr rfl,
    fun bs' h' => (isFileBytes_iff t n x bs' hx).mp h', hm⟩

/-- **C03** Typed writes are exactly one `write` of *the* `n` file-order bytes of the value, for every
handler, host and feature setting. -/
theorem C03_typed_writes {σ : Type} (t : Target) (h : Handler σ)
    (a : UInt8) (b : UInt16) (c : UInt32) (d : UInt64) (f : F32) :
    (∃ bs, IsFileBytes t 1 a.toNat bs ∧ (∀ bs', IsFileBytes t 1 a.toNat bs' → bs' = bs) ∧
      writeU8 h a = h.write bs) ∧
    (∃ bs, IsFileBytes t 2 b.toNat bs ∧ (∀ bs', IsFileBytes t 2 b.toNat bs' → bs' = bs) ∧
      writeU16 t h b = h.write bs) ∧
    (∃ bs, IsFileBytes t 4 c.toNat bs ∧ (∀ bs', IsFileBytes t 4 c.toNat bs' → bs' = bs) ∧
      writeU32 t h c = h.write bs) ∧
    (∃ bs, IsFileBytes t 8 d.toNat bs ∧ (∀ bs', IsFileBytes t 8 d.toNat bs' → bs' = bs) ∧
      writeU64 t h d = h.write bs) ∧
    (∃ bs, IsFileBytes t 4 f.bits.toNat bs ∧ (∀ bs', IsFileBytes t 4 f.bits.toNat bs' → bs' = bs) ∧
      writeF32 t h f = h.write bs) :=
  ⟨writes_as t h 1 _ (by have := a.toNat_lt; omega) _ (writeU8_eq t h a),
   writes_as t h 2 _ (u16_lt b) _ (writeU16_eq t h b),
   writes_as t h 4 _ (u32_lt c) _ (writeU32_eq t h c),
   writes_as t h 8 _ (u64_lt d) _ (writeU64_eq t h d),
   writes_as t h 4 _ (u32_lt f.bits) _ (writeU32_eq t h f.bits)⟩

/-- Non-vacuity: the specified bytes of a u32. -/
example : IsFileBytes pc 4 0x01020304 [1, 2, 3, 4] ∧
    IsFileBytes ⟨false, true, true, true⟩ 4 0x01020304 [4, 3, 2, 1] := by decide

private theorem fileValueOf_eq (t : Target) (bs : List Byte) :
    ReadsAs.fileValueOf t bs = fileValue t bs := by
  unfold ReadsAs.fileValueOf fileValue lsbFirst msbFirst
  cases t.leFeature <;> rfl

private theorem reads_as {σ α : Type} (t : Target) (h : Handler σ) (n : Nat) (toNat : α → Nat)
    (ofNat : Nat → α) (hinv : ∀ x, x < 256 ^ n → toNat (ofNat x) = x) (m : M σ α)
    (hm : ∀ s, m s = (readBuf h n s).map fun buf => ofNat (fileValue t buf)) : ReadsAs t h n toNat m := by
  intro s
  have hz : (List.replicate n 0 : List UInt8) = zeros n := rfl
  have hlen := h.read_length (zeros n) s
  rw [hz, hm s]
  unfold readBuf
  generalize h.read (zeros n) s = r at hlen
  obtain ⟨o, buf⟩ := r
  cases o with
  | ok a s' =>
    simp only [zeros_length] at hlen
    refine ⟨ofNat (fileValue t buf), ?_, rfl⟩
    rw [fileValueOf_eq]
    apply hinv
    have := fileValue_lt t buf
    rwa [hlen] at this
  | err e s' => rfl
  | panic => rfl

/-- **C04** Typed reads are exactly one `read` of `n` bytes and return their file-order value; they fail
exactly when that read fails, with the same error and handler state. -/
theorem C04_typed_reads {σ : Type} (t : Target) (h : Handler σ) :
    ReadsAs t h 1 UInt8.toNat (readU8 h) ∧
    ReadsAs t h 2 UInt16.toNat (readU16 t h) ∧
    ReadsAs t h 4 UInt32.toNat (readU32 t h) ∧
    ReadsAs t h 4 (fun f : F32 => f.bits.toNat) (readF32 t h) ∧
    ReadsAs t h 8 UInt64.toNat (readU64 t h) := by
  refine ⟨?_, ?_, ?_, ?_, ?_⟩
  · exact reads_as t h 1 _ UInt8.ofNat (by intro x hx; simp; omega) _ (readU8_eq t h)
  · exact reads_as t h 2 _ UInt16.ofNat (by intro x hx; simp; omega) _ (readU16_eq t h)
  · exact reads_as t h 4 _ UInt32.ofNat (by intro x hx; simp; omega) _ (readU32_eq t h)
  · apply reads_as t h 4 _ (fun x => (⟨UInt32.ofNat x⟩ : F32)) (by intro x hx; simp; omega) _
    intro s
    unfold readF32
    rw [M.bind_apply, readU32_eq]
    cases readBuf h 4 s <;> rfl
  · exact reads_as t h 8 _ UInt64.ofNat (by intro x hx; simp; omega) _ (readU64_eq t h)

/-- Non-vacuity: a read that succeeds, with its value, and one that fails. -/
example : (readU16 pc (Mem.vec pc) ⟨[0x12, 0x34, 0x56], 0⟩ = .ok 0x1234 ⟨[0x12, 0x34, 0x56], 2⟩) ∧
    (readU32 pc (Mem.vec pc) ⟨[0x12, 0x34, 0x56], 0⟩ = .err .unexpectedEof ⟨[0x12, 0x34, 0x56], 0⟩) := by
  decide

/-! ### Round trips -/

private theorem vec_write_ok (t : Target) (s : Mem) (b : List Byte) (hb : b ≠ [])
    (hfit : s.pos + b.length ≤ t.isizeMax) :
    (Mem.vec t).write b s = .ok () ⟨patch s.buf s.pos b, s.pos + b.length⟩ := by
  have h1 := isizeMax_lt t
  show Mem.writeAll (Mem.vecWrite t) b s = _
  rw [Mem.writeAll_vec, if_neg hb, if_neg (by omega), if_neg (by omega)]

private theorem seek_start (t : Target) (s : Mem) (p : Nat) (hp : p < 2 ^ 64) :
    (Mem.vec t).seek (.start (UInt64.ofNat p)) s = .ok () ⟨s.buf, p⟩ := by
  show Mem.seek (.start (UInt64.ofNat p)) s = _
  unfold Mem.seek
  simp only [UInt64.toNat_ofNat', Nat.mod_eq_of_lt hp]

private theorem readBuf_patch (t : Target) (buf : List Byte) (p : Nat) (b : List Byte) :
    readBuf (Mem.vec t) b.length ⟨patch buf p b, p⟩ = .ok b ⟨patch buf p b, p + b.length⟩ := by
  have : (Mem.vec t).read (zeros b.length) ⟨patch buf p b, p⟩
      = (.ok () ⟨patch buf p b, p + b.length⟩, b) := by
    show Mem.readExact _ _ = _
    rw [Mem.readExact_eq]
    simp only [zeros_length, patch_length, patch_read]
    rw [if_pos (Or.inr (by omega))]
  unfold readBuf; rw [this]

private theorem round_trip {α : Type} (t : Target) (n x : Nat) (hn : 0 < n) (hx : x < 256 ^ n)
    (s : Mem) (hfit : s.pos + n ≤ t.isizeMax) (w : M Mem Unit) (r : M Mem α) (ofNat : Nat → α)
    (hw : w = (Mem.vec t).write (fileBytes t n x))
    (hr : ∀ s, r s = (readBuf (Mem.vec t) n s).map fun buf => ofNat (fileValue t buf)) :
    (do w; (Mem.vec t).seek (.start (UInt64.ofNat s.pos)); r) s
      = .ok (ofNat x) ⟨patch s.buf s.pos (fileBytes t n x), s.pos + n⟩ := by
  have h1 := isizeMax_lt_i64 t
  have hne : fileBytes t n x ≠ [] := by
    intro h; have := congrArg List.length h; simp at this; omega
  rw [M.bind_apply, hw, vec_write_ok t s _ hne (by simpa using hfit)]
  simp only
  rw [M.bind_apply, seek_start t _ _ (by omega)]
  simp only
  have := readBuf_patch t s.buf s.pos (fileBytes t n x)
  rw [fileBytes_length] at this
  rw [hr, this]
  simp only [Out.map, fileValue_fileBytes, Nat.mod_eq_of_lt hx]

/-- **C05** Write a value, seek back to where it was written, read the same type: the same value (for `f32`
the same bit pattern), from every buffer and every position that leaves room in memory. -/
theorem C05_write_seek_read (t : Target) (s : Mem) (hfit : s.pos + 8 ≤ t.isizeMax)
    (a : UInt8) (b : UInt16) (c : UInt32) (d : UInt64) (f : F32) :
    let back := (Mem.vec t).seek (.start (UInt64.ofNat s.pos))
    (∃ s', (do writeU8 (Mem.vec t) a; back; readU8 (Mem.vec t)) s = .ok a s') ∧
    (∃ s', (do writeU16 t (Mem.vec t) b; back; readU16 t (Mem.vec t)) s = .ok b s') ∧
    (∃ s', (do writeU32 t (Mem.vec t) c; back; readU32 t (Mem.vec t)) s = .ok c s') ∧
    (∃ s', (do writeU64 t (Mem.vec t) d; back; readU64 t (Mem.vec t)) s = .ok d s') ∧
    (∃ s', (do writeF32 t (Mem.vec t) f; back; readF32 t (Mem.vec t)) s = .ok f s') := by
  intro back
  refine ⟨?_, ?_, ?_, ?_, ?_⟩
  · have := round_trip t 1 a.toNat (by omega) (by have := a.toNat_lt; omega) s (by omega) _ (readU8 (Mem.vec t))
      UInt8.ofNat (writeU8_eq t _ a) (readU8_eq t (Mem.vec t))
    rw [UInt8.ofNat_toNat] at this
    exact ⟨_, this⟩
  · have := round_trip t 2 b.toNat (by omega) (u16_lt b) s (by omega) _ (readU16 t (Mem.vec t))
      UInt16.ofNat (writeU16_eq t _ b) (readU16_eq t (Mem.vec t))
    rw [UInt16.ofNat_toNat] at this
    exact ⟨_, this⟩
  · have := round_trip t 4 c.toNat (by omega) (u32_lt c) s (by omega) _ (readU32 t (Mem.vec t))
      UInt32.ofNat (writeU32_eq t _ c) (readU32_eq t (Mem.vec t))
    rw [UInt32.ofNat_toNat] at this
    exact ⟨_, this⟩
  · have := round_trip t 8 d.toNat (by omega) (u64_lt d) s (by omega) _ (readU64 t (Mem.vec t))
      UInt64.ofNat (writeU64_eq t _ d) (readU64_eq t (Mem.vec t))
    rw [UInt64.ofNat_toNat] at this
    exact ⟨_, this⟩
  · have := round_trip t 4 f.bits.toNat (by omega) (u32_lt f.bits) s (by omega) _ (readF32 t (Mem.vec t))
      (fun x => (⟨UInt32.ofNat x⟩ : F32)) (writeU32_eq t _ f.bits) (by
        intro s
        unfold readF32
        rw [M.bind_apply, readU32_eq]
        cases readBuf (Mem.vec t) 4 s <;> rfl)
    simp only [UInt32.ofNat_toNat] at this
    exact ⟨_, this⟩

/-- Non-vacuity: a position beyond the end of the buffer. -/
example : (⟨[1, 2, 3], 10⟩ : Mem).pos + 8 ≤ pc.isizeMax ∧
    (do writeU32 pc (Mem.vec pc) 0xDEADBEEF; (Mem.vec pc).seek (.start 10); readU32 pc (Mem.vec pc))
      ⟨[1, 2, 3], 10⟩
      = .ok 0xDEADBEEF ⟨[1, 2, 3, 0, 0, 0, 0, 0, 0, 0, 0xDE, 0xAD, 0xBE, 0xEF], 14⟩ := by decide

/-- All file bytes of an array of u16, concatenated. -/
private theorem write_array (t : Target) (xs : List UInt16) (s : Mem)
    (hfit : s.pos + 2 * xs.length ≤ t.isizeMax) (hne : xs ≠ [] ∨ s.pos ≤ s.buf.length) :
    writeU16Array t (Mem.vec t) xs s =
      .ok () ⟨patch s.buf s.pos (xs.flatMap fun v => fileBytes t 2 v.toNat),
              s.pos + 2 * xs.length⟩ := by
  induction xs generalizing s with
  | nil =>
    rcases hne with h | h
    · exact absurd rfl h
    · unfold writeU16Array; simp [patch_nil h]; rfl
  | cons x xs ih =>
    simp only [List.length_cons] at hfit
    have hb : fileBytes t 2 x.toNat ≠ [] := by
      intro h; have := congrArg List.length h; simp at this
    unfold writeU16Array
    rw [M.bind_apply, writeU16_eq, vec_write_ok t s _ hb (by simp; omega)]
    simp only [fileBytes_length]
    rw [ih _ (by simp only; omega) (Or.inr (by simp only [patch_length, fileBytes_length]; omega))]
    have hp := patch_patch s.buf s.pos (fileBytes t 2 x.toNat) (xs.flatMap fun v => fileBytes t 2 v.toNat)
    rw [fileBytes_length] at hp
    simp only [hp, List.flatMap_cons, List.length_cons]
    congr 2; omega

private theorem readBuf_at (t : Target) (s : Mem) (n : Nat) (h : s.pos + n ≤ s.buf.length) :
    readBuf (Mem.vec t) n s = .ok ((s.buf.drop s.pos).take n) ⟨s.buf, s.pos + n⟩ := by
  have : (Mem.vec t).read (zeros n) s = (.ok () ⟨s.buf, s.pos + n⟩, (s.buf.drop s.pos).take n) := by
    show Mem.readExact _ _ = _
    rw [Mem.readExact_eq]
    simp only [zeros_length]
    rw [if_pos (Or.inr h)]
  unfold readBuf; rw [this]

private theorem readBuf_eof (t : Target) (s : Mem) (n : Nat) (hn : n ≠ 0) (h : ¬ s.pos + n ≤ s.buf.length) :
    readBuf (Mem.vec t) n s = .err .unexpectedEof s := by
  have : (Mem.vec t).read (zeros n) s = (.err .unexpectedEof s, zeros n) := by
    show Mem.readExact _ _ = _
    rw [Mem.readExact_eq]
    simp only [zeros_length]
    rw [if_neg (by
      rintro (h' | h')
      · have := congrArg List.length h'; simp at this; exact hn this
      · exact h h')]
  unfold readBuf; rw [this]

/-- The `i`-th 16-bit value stored in `buf` from position `p` on. -/
def u16At (t : Target) (buf : List Byte) (p i : Nat) : UInt16 :=
  UInt16.ofNat (fileValue t [buf.getD (p + 2 * i) 0, buf.getD (p + 2 * i + 1) 0])

private theorem take_two (buf : List Byte) (p : Nat) (h : p + 2 ≤ buf.length) :
    (buf.drop p).take 2 = [buf.getD p 0, buf.getD (p + 1) 0] := by
  have h1 : p < buf.length := by omega
  have h2 : p + 1 < buf.length := by omega
  rw [List.drop_eq_getElem_cons h1, List.take_succ_cons, List.drop_eq_getElem_cons h2,
    List.take_succ_cons, List.take_zero]
  simp only [List.getD_eq_getElem?_getD, List.getElem?_eq_getElem h1, List.getElem?_eq_getElem h2,
    Option.getD_some]

/-- **C07** (and the reading half of **C06**).  Reading into a slice of `u16`: with `k` values completely
available, the slice holds the first `k` stored values followed by its own old items; the call succeeds iff
all fit, and the position has advanced by exactly what was consumed. -/
theorem C07_read_array (t : Target) (xs : List UInt16) (s : Mem) :
    let k := min xs.length ((s.buf.length - s.pos) / 2)
    (readU16Array t (Mem.vec t) xs s).2 = (List.range k).map (u16At t s.buf s.pos) ++ xs.drop k ∧
    (readU16Array t (Mem.vec t) xs s).1 =
      (if k = xs.length then .ok () ⟨s.buf, s.pos + 2 * k⟩
       else .err .unexpectedEof ⟨s.buf, s.pos + 2 * k⟩) := by
  induction xs generalizing s with
  | nil => simp [readU16Array]
  | cons x xs ih =>
    unfold readU16Array
    rw [readU16_eq]
    by_cases h : s.pos + 2 ≤ s.buf.length
    · rw [readBuf_at t s 2 h]
      simp only [Out.map]
      obtain ⟨ih1, ih2⟩ := ih ⟨s.buf, s.pos + 2⟩
      simp only at ih1 ih2
      have hk : min (x :: xs).length ((s.buf.length - s.pos) / 2)
          = min xs.length ((s.buf.length - (s.pos + 2)) / 2) + 1 := by
        simp only [List.length_cons]; omega
      rw [hk]
      generalize min xs.length ((s.buf.length - (s.pos + 2)) / 2) = k at ih1 ih2
      refine ⟨?_, ?_⟩
      · rw [ih1, List.range_succ_eq_map, List.map_cons, List.map_map, List.cons_append]
        have e0 : UInt16.ofNat (fileValue t (List.take 2 (List.drop s.pos s.buf)))
            = u16At t s.buf s.pos 0 := by unfold u16At; rw [take_two _ _ h]; simp
        rw [e0]
        refine congrArg₂ _ rfl ?_
        · simp only [List.drop_succ_cons]
          refine congrArg₂ _ ?_ rfl
          apply List.map_congr_left
          intro i _
          have e1 : s.pos + 2 + 2 * i = s.pos + 2 * (i + 1) := by omega
          simp only [Function.comp, u16At, Nat.succ_eq_add_one, e1]
      · rw [ih2]
        simp only [List.length_cons, Nat.add_right_cancel_iff]
        have : s.pos + 2 + 2 * k = s.pos + 2 * (k + 1) := by omega
        rw [this]
    · rw [readBuf_eof t s 2 (by omega) h]
      have hk : min (x :: xs).length ((s.buf.length - s.pos) / 2) = 0 := by
        simp only [List.length_cons]; omega
      rw [hk]
      simp [Out.map]

/-- Non-vacuity: five bytes available for a slice of three items. -/
example : readU16Array pc (Mem.vec pc) [7, 8, 9] ⟨[0, 1, 0, 2, 3], 0⟩
    = (.err .unexpectedEof ⟨[0, 1, 0, 2, 3], 4⟩, [1, 2, 9]) := by decide

private theorem flatMap_length (t : Target) (xs : List UInt16) :
    (xs.flatMap fun v => fileBytes t 2 v.toNat).length = 2 * xs.length := by
  induction xs with
  | nil => rfl
  | cons x xs ih => simp only [List.flatMap_cons, List.length_append, ih, fileBytes_length,
      List.length_cons]; omega

private theorem flatMap_u16At (t : Target) (xs : List UInt16) (i : Nat) (h : i < xs.length) :
    UInt16.ofNat (fileValue t
      [(xs.flatMap fun v => fileBytes t 2 v.toNat).getD (2 * i) 0,
       (xs.flatMap fun v => fileBytes t 2 v.toNat).getD (2 * i + 1) 0]) = xs[i] := by
  induction xs generalizing i with
  | nil => simp at h
  | cons x xs ih =>
    have hl : (fileBytes t 2 x.toNat).length = 2 := by simp
    cases i with
    | zero =>
      simp only [List.flatMap_cons, Nat.mul_zero, Nat.zero_add]
      rw [List.getD_append _ _ _ _ (by omega), List.getD_append _ _ _ _ (by omega)]
      match hfb : fileBytes t 2 x.toNat, hl with
      | [b0, b1], _ =>
        have := fileValue_fileBytes t 2 x.toNat
        rw [hfb] at this
        simp only [List.getD_cons_zero, List.getD_cons_succ, List.getElem_cons_zero]
        rw [this, Nat.mod_eq_of_lt (u16_lt x), UInt16.ofNat_toNat]
    | succ i =>
      simp only [List.flatMap_cons, List.getElem_cons_succ]
      rw [List.getD_append_right _ _ _ _ (by omega), List.getD_append_right _ _ _ _ (by omega), hl]
      have h1 : 2 * (i + 1) - 2 = 2 * i := by omega
      have h2 : 2 * (i + 1) + 1 - 2 = 2 * i + 1 := by omega
      rw [h1, h2]
      exact ih i (by simpa using h)

/-- **C06** `write_u16_array` then seek back then `read_u16_array` into any slice of the same length gives the
array back, for every length, buffer and position; exactly `2 * len` bytes were advanced over, and nothing
else in the buffer changed. -/
theorem C06_array_round_trip (t : Target) (xs old : List UInt16) (s : Mem)
    (hlen : old.length = xs.length) (hpos : s.pos ≤ s.buf.length)
    (hfit : s.pos + 2 * xs.length ≤ t.isizeMax) :
    ∃ s1, writeU16Array t (Mem.vec t) xs s = .ok () s1 ∧ s1.pos = s.pos + 2 * xs.length ∧
      s1.buf.length = max s.buf.length (s.pos + 2 * xs.length) ∧
      (∀ i, i < s.pos ∨ s.pos + 2 * xs.length ≤ i → s1.buf.getD i 0 = s.buf.getD i 0) ∧
      ∃ s2, (Mem.vec t).seek (.start (UInt64.ofNat s.pos)) s1 = .ok () s2 ∧
        readU16Array t (Mem.vec t) old s2 = (.ok () s1, xs) := by
  refine ⟨_, write_array t xs s hfit (Or.inr hpos), rfl, ?_, ?_, _, seek_start t _ _ ?_, ?_⟩
  · simp only [patch_length, flatMap_length]
  · intro i hi
    simp only [patch_getD, flatMap_length]
    rw [if_neg (by omega)]
  · have := isizeMax_lt_i64 t; omega
  · set B := patch s.buf s.pos (xs.flatMap fun v => fileBytes t 2 v.toNat) with hB
    obtain ⟨h1, h2⟩ := C07_read_array t old ⟨B, s.pos⟩
    have hBl : B.length = max s.buf.length (s.pos + 2 * xs.length) := by
      rw [hB, patch_length, flatMap_length]
    have hk : min old.length ((B.length - s.pos) / 2) = xs.length := by rw [hBl]; omega
    simp only [hk] at h1 h2
    rw [if_pos hlen.symm] at h2
    apply Prod.ext
    · exact h2
    · rw [h1]
      have : old.drop xs.length = [] := by apply List.drop_eq_nil_of_le; omega
      rw [this, List.append_nil]
      apply List.ext_getElem
      · simp
      · intro i hi1 hi2
        simp only [List.getElem_map, List.getElem_range]
        have hi3 : i < xs.length := hi2
        have e := flatMap_u16At t xs i hi3
        have hfl := flatMap_length t xs
        unfold u16At
        rw [hB, patch_getD, patch_getD, if_pos (by omega), if_pos (by omega)]
        have h3 : s.pos + 2 * i - s.pos = 2 * i := by omega
        have h4 : s.pos + 2 * i + 1 - s.pos = 2 * i + 1 := by omega
        rw [h3, h4]; exact e

/-- Non-vacuity, including that reading really overwrites the old slice. -/
example : ∃ (s : Mem), s.pos ≤ s.buf.length ∧ s.pos + 2 * 2 ≤ pc.isizeMax ∧ s.buf.length = 3 ∧
    writeU16Array pc (Mem.vec pc) [0x0102, 0x0304] s = .ok () ⟨[9, 1, 2, 3, 4], 5⟩ :=
  ⟨⟨[9, 9, 9], 1⟩, by decide⟩

end Lcms.Props
