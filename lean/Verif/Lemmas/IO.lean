import Verif.Model.FileMem
import Verif.Model.FileNull
import Verif.Model.FileFile
import Verif.Lemmas.Endian
import Verif.Spec.Stream
import Mathlib.Data.List.GetD

namespace Lcms

open Spec

theorem M.bind_apply {σ α β : Type} (m : M σ α) (f : α → M σ β) (s : σ) :
    (m >>= f) s = match m s with
      | .ok a s' => f a s'
      | .err e s' => .err e s'
      | .panic => .panic := rfl

@[simp] theorem M.pure_apply {σ α : Type} (a : α) (s : σ) : (pure a : M σ α) s = .ok a s := rfl

@[simp] theorem zeros_length (n : Nat) : (zeros n).length = n := by simp [zeros]

theorem usizeMod_pos (t : Target) : 0 < t.usizeMod := by
  unfold Target.usizeMod; exact Nat.two_pow_pos _

theorem isizeMax_lt (t : Target) : t.isizeMax < t.usizeMod := by
  unfold Target.isizeMax Target.usizeMod Target.usizeBits; cases t.wide <;> decide

theorem usizeMod_le (t : Target) : t.usizeMod ≤ 2 ^ 64 := by
  unfold Target.usizeMod Target.usizeBits; cases t.wide <;> decide

theorem isizeMax_lt_i64 (t : Target) : t.isizeMax < 2 ^ 63 := by
  unfold Target.isizeMax Target.usizeBits; cases t.wide <;> decide

/-- Apply a function to a successful value. -/
def Out.map {σ α β : Type} (f : α → β) : Out σ α → Out σ β
  | .ok a s => .ok (f a) s
  | .err e s => .err e s
  | .panic => .panic

/-! ### Typed accessors over any handler -/

theorem readBuf_ok {σ : Type} {h : Handler σ} {n : Nat} {s s' : σ} {buf : List Byte}
    (hr : readBuf h n s = .ok buf s') : h.read (zeros n) s = (.ok () s', buf) ∧ buf.length = n := by
  have hl := h.read_length (zeros n) s
  unfold readBuf at hr
  split at hr
  · rename_i heq
    cases hr
    rw [heq] at hl ⊢
    exact ⟨rfl, by simpa using hl⟩
  · cases hr
  · cases hr

/-- `readU16` as one read followed by decoding. -/
theorem readU16_eq {σ : Type} (t : Target) (h : Handler σ) (s : σ) :
    readU16 t h s = (readBuf h 2 s).map fun buf => UInt16.ofNat (fileValue t buf) := by
  unfold readU16
  rw [M.bind_apply]
  cases hb : readBuf h 2 s with
  | ok buf s' => simp [adjustU16_neVal t buf (readBuf_ok hb).2]; rfl
  | err e s' => rfl
  | panic => rfl

theorem readU32_eq {σ : Type} (t : Target) (h : Handler σ) (s : σ) :
    readU32 t h s = (readBuf h 4 s).map fun buf => UInt32.ofNat (fileValue t buf) := by
  unfold readU32
  rw [M.bind_apply]
  cases hb : readBuf h 4 s with
  | ok buf s' => simp [adjustU32_neVal t buf (readBuf_ok hb).2]; rfl
  | err e s' => rfl
  | panic => rfl

theorem readU64_eq {σ : Type} (t : Target) (h : Handler σ) (s : σ) :
    readU64 t h s = (readBuf h 8 s).map fun buf => UInt64.ofNat (fileValue t buf) := by
  unfold readU64
  rw [M.bind_apply]
  cases hb : readBuf h 8 s with
  | ok buf s' => simp [adjustU64_neVal t buf (readBuf_ok hb).2]; rfl
  | err e s' => rfl
  | panic => rfl

theorem fileValue_singleton (t : Target) (b : UInt8) : fileValue t [b] = b.toNat := by
  rw [fileValue_eq]; split <;> simp [beVal, leVal]

theorem readU8_eq {σ : Type} (t : Target) (h : Handler σ) (s : σ) :
    readU8 h s = (readBuf h 1 s).map fun buf => UInt8.ofNat (fileValue t buf) := by
  unfold readU8
  rw [M.bind_apply]
  cases hb : readBuf h 1 s with
  | ok buf s' =>
    have hl := (readBuf_ok hb).2
    match buf, hl with
    | [b], _ => simp [Out.map, fileValue_singleton]; rfl
  | err e s' => rfl
  | panic => rfl

theorem writeU16_eq {σ : Type} (t : Target) (h : Handler σ) (v : UInt16) :
    writeU16 t h v = h.write (fileBytes t 2 v.toNat) := by
  unfold writeU16; rw [neBytes_adjustU16]

theorem writeU32_eq {σ : Type} (t : Target) (h : Handler σ) (v : UInt32) :
    writeU32 t h v = h.write (fileBytes t 4 v.toNat) := by
  unfold writeU32; rw [neBytes_adjustU32]

theorem writeU64_eq {σ : Type} (t : Target) (h : Handler σ) (v : UInt64) :
    writeU64 t h v = h.write (fileBytes t 8 v.toNat) := by
  unfold writeU64; rw [neBytes_adjustU64]

theorem writeU8_eq {σ : Type} (t : Target) (h : Handler σ) (v : UInt8) :
    writeU8 h v = h.write (fileBytes t 1 v.toNat) := by
  unfold writeU8
  have : fileBytes t 1 v.toNat = [v] := by
    unfold fileBytes; split <;> simp [beBytes, leBytes]
  rw [this]

/-- The successful path of `reported_size`. -/
theorem reportedSize_ok {σ : Type} (h : Handler σ) {s s1 s2 s3 s4 : σ} {c n : Nat}
    (h1 : h.tell s = .ok c s1) (h2 : h.seek (.end_ 0) s1 = .ok () s2) (h3 : h.tell s2 = .ok n s3)
    (h4 : h.seek (.start (UInt64.ofNat c)) s3 = .ok () s4) : reportedSize h s = .ok n s4 := by
  unfold reportedSize
  rw [h1]; simp only
  rw [h2]; simp only
  rw [h3]; simp only
  rw [h4]

/-- A property kept by `tell` and `seek` is kept by `reported_size`. -/
theorem reportedSize_inv {σ : Type} (h : Handler σ) (P : σ → Prop)
    (ht : ∀ s s' n, P s → h.tell s = .ok n s' → P s') (hte : ∀ s s' e, P s → h.tell s = .err e s' → P s')
    (hs : ∀ p s s', P s → h.seek p s = .ok () s' → P s')
    (hse : ∀ p s s' e, P s → h.seek p s = .err e s' → P s') (s : σ) (h0 : P s) :
    (∀ n s', reportedSize h s = .ok n s' → P s') ∧ (∀ e s', reportedSize h s = .err e s' → P s') := by
  unfold reportedSize
  cases h1 : h.tell s with
  | panic => simp
  | err e s1 => simpa using hte _ _ _ h0 h1
  | ok c s1 =>
    have p1 := ht _ _ _ h0 h1
    simp only
    cases h2 : h.seek (.end_ 0) s1 with
    | panic => simp
    | err e s2 => simpa using hse _ _ _ _ p1 h2
    | ok u s2 =>
      have p2 := hs _ _ _ p1 h2
      simp only
      cases h3 : h.tell s2 with
      | panic => simp
      | err e s3 =>
        have p3 := hte _ _ _ p2 h3
        simp only
        cases h4 : h.seek (.start (UInt64.ofNat c)) s3 with
        | panic => simp
        | err e s4 => simpa using hse _ _ _ _ p3 h4
        | ok u s4 => simpa using hs _ _ _ p3 h4
      | ok n s3 =>
        have p3 := ht _ _ _ p2 h3
        simp only
        cases h4 : h.seek (.start (UInt64.ofNat c)) s3 with
        | panic => simp
        | err e s4 => simpa using hse _ _ _ _ p3 h4
        | ok u s4 => simpa using hs _ _ _ p3 h4

/-! ### Patching a list -/

/-- `b` stored over `buf` at `p`, padding a gap with zeros. -/
def patch (buf : List Byte) (p : Nat) (b : List Byte) : List Byte :=
  buf.take p ++ zeros (p - buf.length) ++ b ++ buf.drop (p + b.length)

theorem patch_length (buf : List Byte) (p : Nat) (b : List Byte) :
    (patch buf p b).length = max buf.length (p + b.length) := by
  unfold patch
  simp only [List.length_append, List.length_take, zeros_length, List.length_drop]
  omega

theorem patch_nil {buf : List Byte} {p : Nat} (h : p ≤ buf.length) : patch buf p [] = buf := by
  unfold patch
  have : p - buf.length = 0 := by omega
  simp [this, zeros]

theorem zeros_getD (n i : Nat) : (zeros n).getD i 0 = 0 := by
  unfold zeros
  simp only [List.getD_eq_getElem?_getD, List.getElem?_replicate]
  split <;> rfl

theorem patch_prefix_length (buf : List Byte) (p : Nat) :
    (buf.take p ++ zeros (p - buf.length)).length = p := by
  simp only [List.length_append, List.length_take, zeros_length]; omega

theorem patch_getD (buf : List Byte) (p : Nat) (b : List Byte) (i : Nat) :
    (patch buf p b).getD i 0 =
      if p ≤ i ∧ i < p + b.length then b.getD (i - p) 0 else buf.getD i 0 := by
  have hpl := patch_prefix_length buf p
  unfold patch
  generalize hA : buf.take p ++ zeros (p - buf.length) = A at hpl
  by_cases h1 : i < p
  · rw [if_neg (by omega)]
    rw [List.append_assoc, List.getD_append _ _ _ _ (by omega), ← hA]
    by_cases h2 : i < buf.length
    · rw [List.getD_append _ _ _ _ (by simp; omega)]
      simp only [List.getD_eq_getElem?_getD, List.getElem?_take]
      rw [if_pos h1]
    · rw [List.getD_append_right _ _ _ _ (by simp; omega), zeros_getD]
      simp [List.getD_eq_getElem?_getD, List.getElem?_eq_none (Nat.le_of_not_lt h2)]
  · rw [List.append_assoc, List.getD_append_right _ _ _ _ (by omega), hpl]
    by_cases h2 : i < p + b.length
    · rw [if_pos ⟨by omega, h2⟩, List.getD_append _ _ _ _ (by omega)]
    · rw [if_neg (by omega), List.getD_append_right _ _ _ _ (by omega)]
      simp only [List.getD_eq_getElem?_getD, List.getElem?_drop]
      congr 2; omega

/-- Reading back what was patched in. -/
theorem patch_read (buf : List Byte) (p : Nat) (b : List Byte) :
    ((patch buf p b).drop p).take b.length = b := by
  have hpl := patch_prefix_length buf p
  unfold patch
  rw [List.append_assoc, List.drop_append_of_le_length (by omega),
    List.drop_eq_nil_of_le (by omega), List.nil_append]
  simp

/-- Consecutive patches merge. -/
theorem patch_patch (buf : List Byte) (p : Nat) (a b : List Byte) :
    patch (patch buf p a) (p + a.length) b = patch buf p (a ++ b) := by
  have h1 : (patch buf p a).take (p + a.length) = buf.take p ++ zeros (p - buf.length) ++ a := by
    unfold patch
    rw [List.take_append_of_le_length (by
      have := patch_prefix_length buf p
      simp only [List.length_append] at this ⊢; omega)]
    apply List.take_of_length_le
    have := patch_prefix_length buf p
    simp only [List.length_append] at this ⊢; omega
  have h2 : p + a.length - (patch buf p a).length = 0 := by rw [patch_length]; omega
  have h3 : (patch buf p a).drop (p + a.length + b.length) = buf.drop (p + (a ++ b).length) := by
    have hpl := patch_prefix_length buf p
    unfold patch
    rw [List.drop_append, List.drop_eq_nil_of_le (by
      simp only [List.length_append] at hpl ⊢; omega), List.nil_append, List.drop_drop]
    congr 1
    simp only [List.length_append] at hpl ⊢; omega
  rw [patch.eq_1 (patch buf p a), h1, h2, h3]
  simp [patch, zeros, List.append_assoc]

/-! ### FileMem -/

namespace Mem

theorem vecWrite_eq (t : Target) (b : List Byte) (s : Mem) :
    vecWrite t b s =
      if t.usizeMod ≤ s.pos then .err .invalidInput s
      else if t.isizeMax < s.pos + b.length then .panic
      else .ok b.length ⟨patch s.buf s.pos b, s.pos + b.length⟩ := by
  unfold vecWrite
  split
  · rfl
  split
  · rfl
  · simp only
    generalize hP : s.buf ++ zeros (s.pos - s.buf.length) = P
    have hPl : P.length = max s.buf.length s.pos := by
      rw [← hP]; simp; omega
    have hPt : P.take s.pos = s.buf.take s.pos ++ zeros (s.pos - s.buf.length) := by
      rw [← hP, List.take_append]
      congr 1
      apply List.take_of_length_le; simp
    have hPd : ∀ k, P.drop (s.pos + k) = s.buf.drop (s.pos + k) := by
      intro k
      rw [← hP, List.drop_append]
      have : (zeros (s.pos - s.buf.length)).drop (s.pos + k - s.buf.length) = [] := by
        apply List.drop_eq_nil_of_le; simp; omega
      rw [this, List.append_nil]
    unfold patch
    rw [← hPt, ← hPd]
    by_cases hle : b.length ≤ P.length - s.pos
    · rw [Nat.min_eq_right hle]; simp
    · have hlt : P.length - s.pos ≤ b.length := by omega
      rw [Nat.min_eq_left hlt]
      have hl : (b.take (P.length - s.pos)).length = P.length - s.pos := by simp; omega
      rw [hl, List.drop_eq_nil_of_le (as := P) (i := s.pos + (P.length - s.pos)) (by omega),
        List.drop_eq_nil_of_le (as := P) (i := s.pos + b.length) (by omega)]
      simp [List.append_assoc]

theorem writeAll_nil {σ : Type} (w : List Byte → M σ Nat) (s : σ) : writeAll w [] s = .ok () s := rfl

theorem writeAllLoop_nil {σ : Type} (w : List Byte → M σ Nat) (n : Nat) (s : σ) :
    writeAllLoop w n [] s = .ok () s := by cases n <;> rfl

theorem writeAll_cons {σ : Type} (w : List Byte → M σ Nat) {b : List Byte} (hb : b ≠ []) :
    ∃ n, n + 1 = b.length ∧ ∀ s, writeAll w b s = match w b s with
      | .panic => .panic
      | .err e s' => .err e s'
      | .ok k s' => if k = 0 then .err .writeZero s' else writeAllLoop w n (b.drop k) s' := by
  have hpos := List.length_pos_iff.mpr hb
  refine ⟨b.length - 1, by omega, ?_⟩
  intro s
  unfold writeAll
  obtain ⟨n, hn⟩ : ∃ n, b.length = n + 1 := ⟨b.length - 1, by omega⟩
  rw [hn, writeAllLoop, if_neg hb]
  rfl

theorem writeAll_vec (t : Target) (b : List Byte) (s : Mem) :
    writeAll (vecWrite t) b s =
      if b = [] then .ok () s
      else if t.usizeMod ≤ s.pos then .err .invalidInput s
      else if t.isizeMax < s.pos + b.length then .panic
      else .ok () ⟨patch s.buf s.pos b, s.pos + b.length⟩ := by
  by_cases hb : b = []
  · subst hb; rw [writeAll_nil]; rfl
  · rw [if_neg hb]
    obtain ⟨n, _, hw⟩ := writeAll_cons (vecWrite t) hb
    rw [hw, vecWrite_eq]
    have : b.length ≠ 0 := by simpa using hb
    by_cases h1 : t.usizeMod ≤ s.pos
    · simp [h1]
    · by_cases h2 : t.isizeMax < s.pos + b.length
      · simp [h1, h2]
      · simp [h1, h2, hb, writeAllLoop_nil]

/-- What fits into a fixed buffer. -/
def fits (b : List Byte) (s : Mem) : Nat := min b.length (s.buf.length - min s.pos s.buf.length)

theorem sliceWrite_zero {b : List Byte} {s : Mem} (h : fits b s = 0) :
    sliceWrite b s = .ok 0 s := by
  unfold fits at h
  unfold sliceWrite
  simp only [h]
  simp

theorem fits_pos_le {b : List Byte} {s : Mem} (h : fits b s ≠ 0) :
    s.pos < s.buf.length ∧ s.pos + fits b s ≤ s.buf.length ∧ fits b s ≤ b.length := by
  unfold fits at *; omega

theorem sliceWrite_pos {b : List Byte} {s : Mem} (h : fits b s ≠ 0) :
    sliceWrite b s = .ok (fits b s)
      ⟨patch s.buf s.pos (b.take (fits b s)), s.pos + fits b s⟩ := by
  obtain ⟨h1, h2, h3⟩ := fits_pos_le h
  unfold sliceWrite
  simp only [Nat.min_eq_left h1.le]
  have e : min b.length (s.buf.length - s.pos) = fits b s := by unfold fits; omega
  rw [e]
  congr 2
  unfold patch
  have : s.pos - s.buf.length = 0 := by omega
  rw [this]
  have hl : (b.take (fits b s)).length = fits b s := by simp; omega
  rw [hl]; simp [zeros]

/-- Closed form of writing to a fixed buffer. -/
theorem writeAll_fixed (b : List Byte) (s : Mem) :
    writeAll sliceWrite b s =
      if b = [] then .ok () s
      else if fits b s = 0 then .err .writeZero s
      else if fits b s = b.length then .ok () ⟨patch s.buf s.pos b, s.pos + b.length⟩
      else .err .writeZero ⟨patch s.buf s.pos (b.take (fits b s)), s.pos + fits b s⟩ := by
  by_cases hb : b = []
  · subst hb; rw [writeAll_nil]; rfl
  rw [if_neg hb]
  obtain ⟨n, hn, hw⟩ := writeAll_cons sliceWrite hb
  by_cases h0 : fits b s = 0
  · rw [if_pos h0, hw, sliceWrite_zero h0]; rfl
  rw [if_neg h0]
  obtain ⟨h1, h2, h3⟩ := fits_pos_le h0
  rw [hw, sliceWrite_pos h0]
  simp only [h0, if_false]
  by_cases hfull : fits b s = b.length
  · rw [if_pos hfull, hfull]
    simp [writeAllLoop_nil]
  · rw [if_neg hfull]
    have hd : b.drop (fits b s) ≠ [] := by
      intro h; have := congrArg List.length h; simp at this; omega
    obtain ⟨m, rfl⟩ : ∃ m, n = m + 1 := ⟨n - 1, by omega⟩
    rw [writeAllLoop, if_neg hd]
    have hz : fits (b.drop (fits b s))
        ⟨patch s.buf s.pos (b.take (fits b s)), s.pos + fits b s⟩ = 0 := by
      have hl : (b.take (fits b s)).length = fits b s := by simp; omega
      have hmax : fits b s = s.buf.length - s.pos := by unfold fits at hfull ⊢; omega
      generalize fits b s = f at *
      unfold fits
      simp only [patch_length, hl]
      omega
    rw [sliceWrite_zero hz]; rfl

theorem readExact_eq (b : List Byte) (s : Mem) :
    readExact b s =
      if b = [] ∨ s.pos + b.length ≤ s.buf.length then
        (.ok () ⟨s.buf, s.pos + b.length⟩, (s.buf.drop s.pos).take b.length)
      else (.err .unexpectedEof s, b) := by
  unfold readExact
  by_cases hb : b = []
  · subst hb; simp
  have hpos := List.length_pos_iff.mpr hb
  by_cases hle : s.pos + b.length ≤ s.buf.length
  · rw [if_pos (Or.inr hle)]
    simp only [Nat.min_eq_left (show s.pos ≤ s.buf.length by omega)]
    rw [if_neg (by simp; omega)]
  · have h2 : ¬ (b = [] ∨ s.pos + b.length ≤ s.buf.length) := by simp [hb, hle]
    rw [if_neg h2]
    have h3 : b.length > (s.buf.drop (min s.pos s.buf.length)).length := by simp; omega
    simp only [h3, if_true]

end Mem

end Lcms
