import Verif.Lemmas.Header
import Verif.Spec.Target

/-!
# Properties C28-C31: the ICC header and the tag entry
-/

namespace Lcms.Props

open Lcms Spec

/-- The fields of a struct follow each other without a gap and fill it. -/
def NoPadding (fs : List CType) (offsets : List Nat) : Prop :=
  offsets.length = fs.length ∧
  (∀ i, i < fs.length → offsets.getD i 0 + (fs.getD i ⟨0, 1⟩).size =
    if i + 1 < fs.length then offsets.getD (i + 1) 0 else (reprC fs).size) ∧
  (∀ i, i < fs.length → (fs.getD i ⟨0, 1⟩).align ∣ offsets.getD i 0) ∧ offsets.getD 0 0 = 0

/-- **C28** (header): 128 bytes, every field at its ICC offset, no padding, for both alignments of `u64`. -/
theorem C28_header_layout (al : Nat) (hal : al = 4 ∨ al = 8) :
    (reprC (headerFields al)).size = 128 ∧
    reprCOffsets 0 (headerFields al) =
      [0, 4, 8, 12, 16, 20, 24, 36, 40, 44, 48, 52, 56, 64, 68, 80, 84, 100] ∧
    (headerFields al).map CType.size = [4, 4, 4, 4, 4, 4, 12, 4, 4, 4, 4, 4, 8, 4, 12, 4, 16, 28] ∧
    NoPadding (headerFields al) (reprCOffsets 0 (headerFields al)) := by
  unfold NoPadding
  rcases hal with rfl | rfl <;> decide +kernel

/-- **C28** (parts): the date, the illuminant, the profile ID and the tag entry have no padding either. -/
theorem C28_parts_layout :
    reprC dateTimeFields = ⟨12, 2⟩ ∧ reprCOffsets 0 dateTimeFields = [0, 2, 4, 6, 8, 10] ∧
    reprC encodedXyzFields = ⟨12, 4⟩ ∧ reprCOffsets 0 encodedXyzFields = [0, 4, 8] ∧
    cProfileID = ⟨16, 4⟩ ∧
    reprC tagEntryFields = ⟨12, 4⟩ ∧ reprCOffsets 0 tagEntryFields = [0, 4, 8] ∧
    NoPadding dateTimeFields (reprCOffsets 0 dateTimeFields) ∧
    NoPadding encodedXyzFields (reprCOffsets 0 encodedXyzFields) ∧
    NoPadding tagEntryFields (reprCOffsets 0 tagEntryFields) := by
  unfold NoPadding; decide +kernel

/-- The layout rule of `repr(C)`: each field at the first multiple of its alignment at or after the end of the field before
it (`pos` for the first); the last field ends at `e`. -/
def Packed : Nat → List CType → List Nat → Nat → Prop
  | pos, [], [], e => e = pos
  | pos, f :: fs, o :: os, e => f.align ∣ o ∧ pos ≤ o ∧ o < pos + f.align ∧ Packed (o + f.size) fs os e
  | _, _, _, _ => False

theorem roundUp_spec (n a : Nat) (ha : 0 < a) : a ∣ roundUp n a ∧ n ≤ roundUp n a ∧ roundUp n a < n + a := by
  unfold roundUp
  have h1 := Nat.div_add_mod (n + (a - 1)) a
  have h2 := Nat.mod_lt (n + (a - 1)) ha
  rw [Nat.mul_comm] at h1
  exact ⟨Nat.dvd_mul_left _ _, by omega, by omega⟩

theorem packed_offsets (fs : List CType) : ∀ pos, (∀ f ∈ fs, 0 < f.align) →
    Packed pos fs (reprCOffsets pos fs) (reprCEnd pos fs) := by
  induction fs with
  | nil => intro pos _; rfl
  | cons f fs ih =>
    intro pos h
    have h1 := roundUp_spec pos f.align (h f List.mem_cons_self)
    exact ⟨h1.1, h1.2.1, h1.2.2, ih _ fun g hg => h g (List.mem_cons_of_mem _ hg)⟩

theorem foldl_align (fs : List CType) : ∀ m, m ≤ fs.foldl (fun a f => max a f.align) m ∧
    (∀ f ∈ fs, f.align ≤ fs.foldl (fun a f => max a f.align) m) ∧
    (fs.foldl (fun a f => max a f.align) m = m ∨ ∃ f ∈ fs, f.align = fs.foldl (fun a f => max a f.align) m) := by
  induction fs with
  | nil => intro m; simp
  | cons f fs ih =>
    intro m
    obtain ⟨h1, h2, h3⟩ := ih (max m f.align)
    simp only [List.foldl_cons, List.mem_cons, forall_eq_or_imp, exists_eq_or_imp]
    refine ⟨by omega, ⟨by omega, h2⟩, ?_⟩
    rcases h3 with h3 | h3
    · rcases Nat.le_total f.align m with h | h
      · left; omega
      · right; left; omega
    · exact Or.inr (Or.inr h3)

/-- **C28** (rule): the layout of every struct is that of `repr(C)`: the fields in order, each at the first multiple of its
alignment after the one before; the struct is aligned as its most aligned field and its size is the first multiple of
that after the last field. -/
theorem C28_layout_rule (fs : List CType) (h : ∀ f ∈ fs, 0 < f.align) :
    ∃ e, Packed 0 fs (reprCOffsets 0 fs) e ∧
      (reprC fs).align ∣ (reprC fs).size ∧ e ≤ (reprC fs).size ∧ (reprC fs).size < e + (reprC fs).align ∧
      (∀ f ∈ fs, f.align ≤ (reprC fs).align) ∧ ((reprC fs).align = 1 ∨ ∃ f ∈ fs, f.align = (reprC fs).align) := by
  obtain ⟨h1, h2, h3⟩ := foldl_align fs 1
  have h4 := roundUp_spec (reprCEnd 0 fs) (reprCAlign fs) h1
  exact ⟨_, packed_offsets fs 0 h, h4.1, h4.2.1, h4.2.2, h2, h3⟩

/-- The layout algorithm does pad when it has to: `{u8, u32}` is 8 bytes. -/
example : reprCOffsets 0 [cU8, cU32] = [0, 4] ∧ reprC [cU8, cU32] = ⟨8, 4⟩ ∧
    ¬ NoPadding [cU8, cU32] (reprCOffsets 0 [cU8, cU32]) := by
  unfold NoPadding; decide +kernel

/-- **C29**: every field of a decoded header is the number at its ICC offset in file order; signed fields are
the two's complement reading; profile ID and reserved bytes are the raw bytes. -/
theorem C29_header_fields (t : Target) (al : Nat) (hal : al = 4 ∨ al = 8) (b : List Byte)
    (hb : b.length = 128) :
    let h := ICCHeader.fromBytes t al b
    (h.size.toNat = num t b 0 4 ∧ h.cmmId.toU32.toNat = num t b 4 4 ∧ h.version.toNat = num t b 8 4 ∧
     h.deviceClass.toU32.toNat = num t b 12 4 ∧ h.colorSpace.toU32.toNat = num t b 16 4 ∧
     h.pcs.toU32.toNat = num t b 20 4) ∧
    (h.date.year.toNat = num t b 24 2 ∧ h.date.month.toNat = num t b 26 2 ∧
     h.date.day.toNat = num t b 28 2 ∧ h.date.hours.toNat = num t b 30 2 ∧
     h.date.minutes.toNat = num t b 32 2 ∧ h.date.seconds.toNat = num t b 34 2) ∧
    (h.magic.toU32.toNat = num t b 36 4 ∧ h.platform.toU32.toNat = num t b 40 4 ∧
     h.flags.toNat = num t b 44 4 ∧ h.manufacturer.toU32.toNat = num t b 48 4 ∧
     h.model.toNat = num t b 52 4 ∧ h.attributes.toNat = num t b 56 8 ∧
     h.renderingIntent.toNat = num t b 64 4) ∧
    (h.illuminant.x.toUInt32.toNat = num t b 68 4 ∧ h.illuminant.y.toUInt32.toNat = num t b 72 4 ∧
     h.illuminant.z.toUInt32.toNat = num t b 76 4 ∧ h.creator.toU32.toNat = num t b 80 4) ∧
    (h.profileId.id8.toList = at_ b 84 16 ∧ h.reserved.toList = at_ b 100 28) := by
  intro h
  have n2 : ∀ o, (UInt16.ofNat (num t b o 2)).toNat = num t b o 2 := fun o =>
    UInt16.toNat_ofNat_of_lt' (by simpa using num_lt t b o 2)
  have n4 : ∀ o, (UInt32.ofNat (num t b o 4)).toNat = num t b o 4 := fun o =>
    UInt32.toNat_ofNat_of_lt' (by simpa using num_lt t b o 4)
  have n8 : ∀ o, (UInt64.ofNat (num t b o 8)).toNat = num t b o 8 := fun o =>
    UInt64.toNat_ofNat_of_lt' (by simpa using num_lt t b o 8)
  have s : ∀ (v : UInt32), v.toInt32.toUInt32 = v := fun v => by simp
  have e : h = _ := fromBytes_eq t al hal b hb
  rw [e]
  simp only [Signature.toU32, n2, n4, n8, s, memBytes_toList, and_self]

/-- **C30**: encoding and decoding are inverse, on every host, for both features and alignments. -/
theorem C30_header_round_trip (t : Target) (al : Nat) (hal : al = 4 ∨ al = 8) :
    (∀ b : List Byte, b.length = 128 → ICCHeader.toBytes t al (ICCHeader.fromBytes t al b) = b) ∧
    (∀ h : ICCHeader, (ICCHeader.toBytes t al h).length = 128 ∧
      ICCHeader.fromBytes t al (ICCHeader.toBytes t al h) = h) :=
  ⟨to_from_bytes t al hal, fun h => ⟨toBytes_length t al hal h, from_to_bytes t al hal h⟩⟩

/-- A 128-byte block with recognisable fields. -/
def sampleHeader : List Byte := (List.range 128).map UInt8.ofNat

example : sampleHeader.length = 128 ∧
    (ICCHeader.fromBytes pc 8 sampleHeader).size = 0x00010203 ∧
    (ICCHeader.fromBytes pc 8 sampleHeader).attributes = 0x38393A3B3C3D3E3F ∧
    (ICCHeader.fromBytes pc 8 sampleHeader).date.seconds = 0x2223 ∧
    (ICCHeader.fromBytes ⟨true, true, false, false⟩ 4 sampleHeader).magic.val = 0x27262524 ∧
    ICCHeader.toBytes pc 8 (ICCHeader.fromBytes pc 8 sampleHeader) = sampleHeader := by
  decide +kernel

/-- **C31**: a tag entry is three consecutive numbers in file order, and encoding is the inverse of decoding. -/
theorem C31_tag_entry (t : Target) :
    (∀ b : List Byte, b.length = 12 →
      (TagEntry.fromBytes t b).sig.toU32.toNat = num t b 0 4 ∧
      (TagEntry.fromBytes t b).offset.toNat = num t b 4 4 ∧
      (TagEntry.fromBytes t b).size.toNat = num t b 8 4 ∧
      TagEntry.toBytes t (TagEntry.fromBytes t b) = b) ∧
    (∀ e : TagEntry, (TagEntry.toBytes t e).length = 12 ∧
      TagEntry.fromBytes t (TagEntry.toBytes t e) = e) := by
  refine ⟨fun b hb => ?_, fun e => ⟨tagToBytes_length t e, tag_from_to_bytes t e⟩⟩
  have n4 : ∀ o, (UInt32.ofNat (num t b o 4)).toNat = num t b o 4 := fun o =>
    UInt32.toNat_ofNat_of_lt' (by simpa using num_lt t b o 4)
  refine ⟨?_, ?_, ?_, tag_to_from_bytes t b hb⟩ <;>
    rw [tagFromBytes_eq t b hb] <;> simp only [Signature.toU32, n4]

example : TagEntry.fromBytes pc [0x64, 0x65, 0x73, 0x63, 0, 0, 0, 0xF0, 0, 0, 0, 0x76] =
    ⟨⟨0x64657363⟩, 240, 118⟩ := by decide

end Lcms.Props
