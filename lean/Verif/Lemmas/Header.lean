import Verif.Model.Header
import Verif.Spec.Icc
import Verif.Lemmas.Endian
import Verif.Lemmas.Signature

set_option linter.unusedSimpArgs false

namespace Lcms
open Spec

theorem headerOffsets (al : Nat) (h : al = 4 ∨ al = 8) :
    reprCOffsets 0 (headerFields al) =
      [0, 4, 8, 12, 16, 20, 24, 36, 40, 44, 48, 52, 56, 64, 68, 80, 84, 100] := by
  rcases h with rfl | rfl <;> decide

theorem slice_length {m : List Byte} {o n : Nat} (h : o + n ≤ m.length) : (slice m o n).length = n := by
  simp [slice]; omega

theorem slice_eq_at {m : List Byte} {o n : Nat} (h : o + n ≤ m.length) : slice m o n = at_ m o n := by
  apply List.ext_getElem
  · rw [slice_length h]; simp [at_]
  · intro i h1 h2
    rw [slice_length h] at h1
    have : o + i < m.length := by omega
    simp [slice, at_, this]

theorem slice_append {m : List Byte} {o n k : Nat} : slice m o n ++ slice m (o + n) k = slice m o (n + k) := by
  unfold slice
  rw [← List.drop_drop, List.take_add]

theorem adj16_mem (t : Target) {m : List Byte} {o : Nat} (h : o + 2 ≤ m.length) :
    adjustEndiannessU16 t (memU16 t m o) = UInt16.ofNat (num t m o 2) := by
  unfold memU16 num
  rw [adjustU16_neVal t _ (slice_length h), slice_eq_at h]

theorem adj32_mem (t : Target) {m : List Byte} {o : Nat} (h : o + 4 ≤ m.length) :
    adjustEndiannessU32 t (memU32 t m o) = UInt32.ofNat (num t m o 4) := by
  unfold memU32 num
  rw [adjustU32_neVal t _ (slice_length h), slice_eq_at h]

theorem adj64_mem (t : Target) {m : List Byte} {o : Nat} (h : o + 8 ≤ m.length) :
    adjustEndiannessU64 t (memU64 t m o) = UInt64.ofNat (num t m o 8) := by
  unfold memU64 num
  rw [adjustU64_neVal t _ (slice_length h), slice_eq_at h]

theorem num_lt (t : Target) (b : List Byte) (o n : Nat) : num t b o n < 256 ^ n := by
  have := fileValue_lt t (at_ b o n)
  simpa [num, at_] using this

theorem memBytes_toList (m : List Byte) (o n : Nat) : (memBytes m o n).toList = at_ m o n := by
  apply List.ext_getElem
  · simp [memBytes, at_]
  · intro i h1 h2
    simp [memBytes, at_]

/-- The decoded header in terms of file numbers. -/
theorem fromBytes_eq (t : Target) (al : Nat) (hal : al = 4 ∨ al = 8) (b : List Byte) (hb : b.length = 128) :
    ICCHeader.fromBytes t al b =
    { size := UInt32.ofNat (num t b 0 4)
      cmmId := ⟨UInt32.ofNat (num t b 4 4)⟩
      version := UInt32.ofNat (num t b 8 4)
      deviceClass := ⟨UInt32.ofNat (num t b 12 4)⟩
      colorSpace := ⟨UInt32.ofNat (num t b 16 4)⟩
      pcs := ⟨UInt32.ofNat (num t b 20 4)⟩
      date :=
        { year := UInt16.ofNat (num t b 24 2), month := UInt16.ofNat (num t b 26 2)
          day := UInt16.ofNat (num t b 28 2), hours := UInt16.ofNat (num t b 30 2)
          minutes := UInt16.ofNat (num t b 32 2), seconds := UInt16.ofNat (num t b 34 2) }
      magic := ⟨UInt32.ofNat (num t b 36 4)⟩
      platform := ⟨UInt32.ofNat (num t b 40 4)⟩
      flags := UInt32.ofNat (num t b 44 4)
      manufacturer := ⟨UInt32.ofNat (num t b 48 4)⟩
      model := UInt32.ofNat (num t b 52 4)
      attributes := UInt64.ofNat (num t b 56 8)
      renderingIntent := UInt32.ofNat (num t b 64 4)
      illuminant :=
        { x := (UInt32.ofNat (num t b 68 4)).toInt32, y := (UInt32.ofNat (num t b 72 4)).toInt32
          z := (UInt32.ofNat (num t b 76 4)).toInt32 }
      creator := ⟨UInt32.ofNat (num t b 80 4)⟩
      profileId := ⟨memBytes b 84 16⟩
      reserved := memBytes b 100 28 } := by
  have e : ∀ i, offAt 0 (headerFields al) i =
      [0, 4, 8, 12, 16, 20, 24, 36, 40, 44, 48, 52, 56, 64, 68, 80, 84, 100].getD i 0 := by
    intro i; rw [offAt, headerOffsets al hal, Nat.zero_add]
  have d : ∀ base i, offAt base dateTimeFields i = base + [0, 2, 4, 6, 8, 10].getD i 0 := fun _ _ => rfl
  have x : ∀ base i, offAt base encodedXyzFields i = base + [0, 4, 8].getD i 0 := fun _ _ => rfl
  have s : ∀ (v : UInt32), v.toInt32.toUInt32 = v := fun v => by simp
  simp only [ICCHeader.fromBytes, ICCHeader.ofMem, ICCHeader.swapEndianness, DateTimeNumber.ofMem,
    EncodedXYZNumber.ofMem, adjustSig, adjustI32, Signature.ofU32, Signature.toU32, e, d, x, s,
    List.getD_cons_zero, List.getD_cons_succ, Nat.add_zero, Nat.reduceAdd]
  rw [adj32_mem t (o := 0) (by omega), adj32_mem t (o := 4) (by omega), adj32_mem t (o := 8) (by omega),
    adj32_mem t (o := 12) (by omega), adj32_mem t (o := 16) (by omega), adj32_mem t (o := 20) (by omega),
    adj16_mem t (o := 24) (by omega), adj16_mem t (o := 26) (by omega), adj16_mem t (o := 28) (by omega),
    adj16_mem t (o := 30) (by omega), adj16_mem t (o := 32) (by omega), adj16_mem t (o := 34) (by omega),
    adj32_mem t (o := 36) (by omega), adj32_mem t (o := 40) (by omega), adj32_mem t (o := 44) (by omega),
    adj32_mem t (o := 48) (by omega), adj32_mem t (o := 52) (by omega), adj64_mem t (o := 56) (by omega),
    adj32_mem t (o := 64) (by omega), adj32_mem t (o := 68) (by omega), adj32_mem t (o := 72) (by omega),
    adj32_mem t (o := 76) (by omega), adj32_mem t (o := 80) (by omega)]

theorem tagFromBytes_eq (t : Target) (b : List Byte) (hb : b.length = 12) :
    TagEntry.fromBytes t b =
    ⟨⟨UInt32.ofNat (num t b 0 4)⟩, UInt32.ofNat (num t b 4 4), UInt32.ofNat (num t b 8 4)⟩ := by
  have e : ∀ i, offAt 0 tagEntryFields i = 0 + [0, 4, 8].getD i 0 := fun _ => rfl
  simp only [TagEntry.fromBytes, TagEntry.ofMem, TagEntry.swapEndianness, adjustSig, Signature.ofU32,
    Signature.toU32, e, List.getD_cons_zero, List.getD_cons_succ, Nat.add_zero, Nat.reduceAdd]
  rw [adj32_mem t (o := 0) (by omega), adj32_mem t (o := 4) (by omega), adj32_mem t (o := 8) (by omega)]

/-- The encoded header is the concatenation of its fields in file order. -/
theorem toBytes_eq (t : Target) (al : Nat) (hal : al = 4 ∨ al = 8) (h : ICCHeader) :
    ICCHeader.toBytes t al h =
      fileBytes t 4 h.size.toNat ++ (fileBytes t 4 h.cmmId.val.toNat ++ (fileBytes t 4 h.version.toNat ++
      (fileBytes t 4 h.deviceClass.val.toNat ++ (fileBytes t 4 h.colorSpace.val.toNat ++
      (fileBytes t 4 h.pcs.val.toNat ++ (fileBytes t 2 h.date.year.toNat ++
      (fileBytes t 2 h.date.month.toNat ++ (fileBytes t 2 h.date.day.toNat ++
      (fileBytes t 2 h.date.hours.toNat ++ (fileBytes t 2 h.date.minutes.toNat ++
      (fileBytes t 2 h.date.seconds.toNat ++ (fileBytes t 4 h.magic.val.toNat ++
      (fileBytes t 4 h.platform.val.toNat ++ (fileBytes t 4 h.flags.toNat ++
      (fileBytes t 4 h.manufacturer.val.toNat ++ (fileBytes t 4 h.model.toNat ++
      (fileBytes t 8 h.attributes.toNat ++ (fileBytes t 4 h.renderingIntent.toNat ++
      (fileBytes t 4 h.illuminant.x.toUInt32.toNat ++ (fileBytes t 4 h.illuminant.y.toUInt32.toNat ++
      (fileBytes t 4 h.illuminant.z.toUInt32.toNat ++ (fileBytes t 4 h.creator.val.toNat ++
      (h.profileId.id8.toList ++ h.reserved.toList))))))))))))))))))))))) := by
  have s : ∀ (v : UInt32), v.toInt32.toUInt32 = v := fun v => by simp
  have hf : ∀ al, headerFields al = [⟨4, 4⟩, ⟨4, 4⟩, ⟨4, 4⟩, ⟨4, 4⟩, ⟨4, 4⟩, ⟨4, 4⟩, ⟨12, 2⟩, ⟨4, 4⟩,
      ⟨4, 4⟩, ⟨4, 4⟩, ⟨4, 4⟩, ⟨4, 4⟩, ⟨8, al⟩, ⟨4, 4⟩, ⟨12, 4⟩, ⟨4, 4⟩, ⟨16, 4⟩, ⟨28, 1⟩] := fun _ => rfl
  have hd : ∀ d : DateTimeNumber, d.toMem t = neBytes t 2 d.year.toNat ++ (neBytes t 2 d.month.toNat ++
      (neBytes t 2 d.day.toNat ++ (neBytes t 2 d.hours.toNat ++ (neBytes t 2 d.minutes.toNat ++
      neBytes t 2 d.seconds.toNat)))) := by
    intro d
    simp only [DateTimeNumber.toMem, imageOf, dateTimeFields, List.replicate_succ, List.replicate_zero,
      List.zip_cons_cons, List.zip_nil_right, image, cU16, neBytes_length, roundUp, Nat.reduceAdd,
      Nat.reduceSub, Nat.reduceDiv, Nat.reduceMul, List.nil_append, List.append_nil, List.append_assoc]
  have hx : ∀ v : EncodedXYZNumber, v.toMem t = neBytes t 4 v.x.toUInt32.toNat ++
      (neBytes t 4 v.y.toUInt32.toNat ++ neBytes t 4 v.z.toUInt32.toNat) := by
    intro v
    simp only [EncodedXYZNumber.toMem, imageOf, encodedXyzFields, List.replicate_succ, List.replicate_zero,
      List.zip_cons_cons, List.zip_nil_right, image, cU32, neBytes_length, roundUp, Nat.reduceAdd,
      Nat.reduceSub, Nat.reduceDiv, Nat.reduceMul, List.nil_append, List.append_nil, List.append_assoc]
  rcases hal with rfl | rfl
  all_goals
    simp only [ICCHeader.toBytes, ICCHeader.swapEndianness, ICCHeader.toMem, imageOf, hf, hd, hx,
      List.zip_cons_cons, List.zip_nil_right, image, List.replicate_zero, neBytes_length, List.length_append,
      List.length_nil, Vector.length_toList, roundUp, Nat.reduceAdd,
      Nat.reduceSub, Nat.reduceDiv, Nat.reduceMul, List.nil_append, List.append_nil, List.append_assoc,
      adjustSig, adjustI32, Signature.ofU32, Signature.toU32, s, neBytes_adjustU32, neBytes_adjustU16,
      neBytes_adjustU64, fileBytes_length]

theorem tagToBytes_eq (t : Target) (e : TagEntry) :
    TagEntry.toBytes t e =
      fileBytes t 4 e.sig.val.toNat ++ (fileBytes t 4 e.offset.toNat ++ fileBytes t 4 e.size.toNat) := by
  simp only [TagEntry.toBytes, TagEntry.swapEndianness, TagEntry.toMem, imageOf, tagEntryFields, cU32,
    cSignature, List.zip_cons_cons, List.zip_nil_right, image, neBytes_length, List.length_append,
    List.length_nil, roundUp, Nat.reduceAdd, Nat.reduceSub, Nat.reduceDiv, Nat.reduceMul, List.nil_append,
    List.append_nil, List.append_assoc, List.replicate_zero, adjustSig, Signature.ofU32, Signature.toU32,
    neBytes_adjustU32, fileBytes_length]

theorem toBytes_length (t : Target) (al : Nat) (hal : al = 4 ∨ al = 8) (h : ICCHeader) :
    (ICCHeader.toBytes t al h).length = 128 := by
  rw [toBytes_eq t al hal]; simp

theorem tagToBytes_length (t : Target) (e : TagEntry) : (TagEntry.toBytes t e).length = 12 := by
  rw [tagToBytes_eq]; simp

theorem slice_skip (A C : List Byte) (k o n : Nat) (hA : A.length = k) (h : k ≤ o) :
    slice (A ++ C) o n = slice C (o - k) n := by
  unfold slice
  rw [List.drop_append, List.drop_eq_nil_of_le (by omega), hA]; rfl

theorem slice_hit (A C : List Byte) (n : Nat) (hA : A.length = n) : slice (A ++ C) 0 n = A := by
  unfold slice
  rw [List.drop_zero, List.take_append_of_le_length (by omega), List.take_of_length_le (by omega)]

theorem slice_full (A : List Byte) (n : Nat) (hA : A.length = n) : slice A 0 n = A := by
  unfold slice
  rw [List.drop_zero, List.take_of_length_le (by omega)]

theorem slice_join (m : List Byte) (o n p k : Nat) (h : p = o + n) :
    slice m o n ++ slice m p k = slice m o (n + k) := by subst h; exact slice_append

theorem fileBytes_num16 (t : Target) (b : List Byte) (o : Nat) (h : o + 2 ≤ b.length) :
    fileBytes t 2 (UInt16.ofNat (num t b o 2)).toNat = slice b o 2 := by
  have := num_lt t b o 2
  rw [UInt16.toNat_ofNat_of_lt' (by simpa using this), num, ← slice_eq_at h,
    fileBytes_fileValue t _ (slice_length h)]

theorem fileBytes_num32 (t : Target) (b : List Byte) (o : Nat) (h : o + 4 ≤ b.length) :
    fileBytes t 4 (UInt32.ofNat (num t b o 4)).toNat = slice b o 4 := by
  have := num_lt t b o 4
  rw [UInt32.toNat_ofNat_of_lt' (by simpa using this), num, ← slice_eq_at h,
    fileBytes_fileValue t _ (slice_length h)]

theorem fileBytes_num64 (t : Target) (b : List Byte) (o : Nat) (h : o + 8 ≤ b.length) :
    fileBytes t 8 (UInt64.ofNat (num t b o 8)).toNat = slice b o 8 := by
  have := num_lt t b o 8
  rw [UInt64.toNat_ofNat_of_lt' (by simpa using this), num, ← slice_eq_at h,
    fileBytes_fileValue t _ (slice_length h)]

theorem ofNat_fileValue16 (t : Target) (v : UInt16) :
    UInt16.ofNat (fileValue t (fileBytes t 2 v.toNat)) = v := by
  rw [fileValue_fileBytes, Nat.mod_eq_of_lt (u16_lt v)]; simp

theorem ofNat_fileValue32 (t : Target) (v : UInt32) :
    UInt32.ofNat (fileValue t (fileBytes t 4 v.toNat)) = v := by
  rw [fileValue_fileBytes, Nat.mod_eq_of_lt (u32_lt v)]; simp

theorem ofNat_fileValue64 (t : Target) (v : UInt64) :
    UInt64.ofNat (fileValue t (fileBytes t 8 v.toNat)) = v := by
  rw [fileValue_fileBytes, Nat.mod_eq_of_lt (u64_lt v)]; simp

theorem to_from_bytes (t : Target) (al : Nat) (hal : al = 4 ∨ al = 8) (b : List Byte) (hb : b.length = 128) :
    ICCHeader.toBytes t al (ICCHeader.fromBytes t al b) = b := by
  have s : ∀ (v : UInt32), v.toInt32.toUInt32 = v := fun v => by simp
  rw [toBytes_eq t al hal, fromBytes_eq t al hal b hb]
  simp only [s, memBytes_toList]
  rw [← slice_eq_at (o := 84) (n := 16) (by omega), ← slice_eq_at (o := 100) (n := 28) (by omega)]
  rw [fileBytes_num32 t b 0 (by omega), fileBytes_num32 t b 4 (by omega), fileBytes_num32 t b 8 (by omega),
    fileBytes_num32 t b 12 (by omega), fileBytes_num32 t b 16 (by omega), fileBytes_num32 t b 20 (by omega),
    fileBytes_num16 t b 24 (by omega), fileBytes_num16 t b 26 (by omega), fileBytes_num16 t b 28 (by omega),
    fileBytes_num16 t b 30 (by omega), fileBytes_num16 t b 32 (by omega), fileBytes_num16 t b 34 (by omega),
    fileBytes_num32 t b 36 (by omega), fileBytes_num32 t b 40 (by omega), fileBytes_num32 t b 44 (by omega),
    fileBytes_num32 t b 48 (by omega), fileBytes_num32 t b 52 (by omega), fileBytes_num64 t b 56 (by omega),
    fileBytes_num32 t b 64 (by omega), fileBytes_num32 t b 68 (by omega), fileBytes_num32 t b 72 (by omega),
    fileBytes_num32 t b 76 (by omega), fileBytes_num32 t b 80 (by omega)]
  iterate 24 rw [slice_join _ _ _ _ _ rfl]
  exact slice_full b 128 hb

theorem tag_to_from_bytes (t : Target) (b : List Byte) (hb : b.length = 12) :
    TagEntry.toBytes t (TagEntry.fromBytes t b) = b := by
  rw [tagToBytes_eq, tagFromBytes_eq t b hb]
  simp only
  rw [fileBytes_num32 t b 0 (by omega), fileBytes_num32 t b 4 (by omega), fileBytes_num32 t b 8 (by omega)]
  iterate 2 rw [slice_join _ _ _ _ _ rfl]
  exact slice_full b 12 hb

/-- A field of the encoded header. -/
theorem num_toBytes {t : Target} {m : List Byte} {o n : Nat} {f : List Byte} (h : o + n ≤ m.length)
    (hs : slice m o n = f) : num t m o n = fileValue t f := by
  rw [num, ← slice_eq_at h, hs]

theorem vec_of_slice {m : List Byte} {o n : Nat} {v : Vector Byte n} (h : o + n ≤ m.length)
    (hs : slice m o n = v.toList) : memBytes m o n = v := by
  apply Vector.toList_inj.mp
  rw [memBytes_toList, ← slice_eq_at h, hs]

theorem from_to_bytes (t : Target) (al : Nat) (hal : al = 4 ∨ al = 8) (h : ICCHeader) :
    ICCHeader.fromBytes t al (ICCHeader.toBytes t al h) = h := by
  have hl := toBytes_length t al hal h
  rw [fromBytes_eq t al hal _ hl]
  have e := toBytes_eq t al hal h
  generalize ICCHeader.toBytes t al h = m at *
  have sk : ∀ (k x o n : Nat) (C : List Byte), k ≤ o →
      slice (fileBytes t k x ++ C) o n = slice C (o - k) n :=
    fun k x o n C hk => slice_skip _ _ k o n (by simp) hk
  have hit : ∀ (k x : Nat) (C : List Byte), slice (fileBytes t k x ++ C) 0 k = fileBytes t k x :=
    fun k x C => slice_hit _ _ k (by simp)
  have f32 : ∀ (o : Nat) (v : UInt32), o + 4 ≤ 128 → slice m o 4 = fileBytes t 4 v.toNat →
      UInt32.ofNat (num t m o 4) = v := fun o v ho hs => by
    rw [num_toBytes (by omega) hs, ofNat_fileValue32]
  have f16 : ∀ (o : Nat) (v : UInt16), o + 2 ≤ 128 → slice m o 2 = fileBytes t 2 v.toNat →
      UInt16.ofNat (num t m o 2) = v := fun o v ho hs => by
    rw [num_toBytes (by omega) hs, ofNat_fileValue16]
  have f64 : ∀ (o : Nat) (v : UInt64), o + 8 ≤ 128 → slice m o 8 = fileBytes t 8 v.toNat →
      UInt64.ofNat (num t m o 8) = v := fun o v ho hs => by
    rw [num_toBytes (by omega) hs, ofNat_fileValue64]
  rw [f32 0 h.size, f32 4 h.cmmId.val, f32 8 h.version, f32 12 h.deviceClass.val, f32 16 h.colorSpace.val,
    f32 20 h.pcs.val, f16 24 h.date.year, f16 26 h.date.month, f16 28 h.date.day, f16 30 h.date.hours,
    f16 32 h.date.minutes, f16 34 h.date.seconds, f32 36 h.magic.val, f32 40 h.platform.val, f32 44 h.flags,
    f32 48 h.manufacturer.val, f32 52 h.model, f64 56 h.attributes, f32 64 h.renderingIntent,
    f32 68 h.illuminant.x.toUInt32, f32 72 h.illuminant.y.toUInt32, f32 76 h.illuminant.z.toUInt32,
    f32 80 h.creator.val, vec_of_slice (o := 84) (n := 16) (v := h.profileId.id8) (by omega),
    vec_of_slice (o := 100) (n := 28) (v := h.reserved) (by omega)]
  · simp
  all_goals first
    | omega
    | (rw [e]
       repeat rw [sk _ _ _ _ _ (by decide)]
       try simp only [Nat.reduceSub]
       first
       | exact hit _ _ _
       | exact slice_hit _ _ _ (by simp)
       | (rw [slice_skip _ _ 16 _ _ (by simp) (by decide)]; exact slice_full _ _ (by simp)))

theorem tag_from_to_bytes (t : Target) (e : TagEntry) :
    TagEntry.fromBytes t (TagEntry.toBytes t e) = e := by
  rw [tagFromBytes_eq t _ (tagToBytes_length t e)]
  have hl := tagToBytes_length t e
  have he := tagToBytes_eq t e
  generalize TagEntry.toBytes t e = m at *
  have f32 : ∀ (o : Nat) (v : UInt32), o + 4 ≤ 12 → slice m o 4 = fileBytes t 4 v.toNat →
      UInt32.ofNat (num t m o 4) = v := fun o v ho hs => by
    rw [num_toBytes (by omega) hs, ofNat_fileValue32]
  rw [f32 0 e.sig.val, f32 4 e.offset, f32 8 e.size]
  · omega
  · rw [he, slice_skip _ _ 4 _ _ (by simp) (by decide), slice_skip _ _ 4 _ _ (by simp) (by decide)]
    exact slice_full _ _ (by simp)
  · omega
  · rw [he, slice_skip _ _ 4 _ _ (by simp) (by decide)]; exact slice_hit _ _ _ (by simp)
  · omega
  · rw [he]; exact slice_hit _ _ _ (by simp)

end Lcms
