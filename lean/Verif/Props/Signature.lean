import Verif.Lemmas.Signature
import Verif.Spec.Text

/-!
# Properties C24-C27: signatures and profile IDs
-/

namespace Lcms.Props

open Lcms Spec

/-- **C24**: the integer and the byte view are both bijective with the signature, and the integer is the
big-endian value of the bytes.  The model functions take no target: they are the same on every host. -/
theorem C24_signature_views (s : Signature) (u : UInt32) (b : Vector Byte 4) :
    Signature.ofU32 s.toU32 = s ∧ (Signature.ofU32 u).toU32 = u ∧
    Signature.ofBytes4 s.toBytes = s ∧ (Signature.ofBytes4 b).toBytes = b ∧
    Signature.new b = Signature.ofBytes4 b ∧
    s.toU32.toNat = msbFirst s.toBytes.toList ∧
    (Signature.ofBytes4 b).toU32.toNat = msbFirst b.toList := by
  have hb : b.toList.length = 4 := by simp
  refine ⟨rfl, rfl, ?_, ?_, rfl, ?_, ?_⟩
  · cases s with | mk v => simp [Signature.ofBytes4, Signature.toBytes_toList, Signature.fromBeBytes_beBytes]
  · apply Vector.toList_inj.mp
    rw [Signature.toBytes_toList]; exact Signature.beBytes_fromBeBytes _ hb
  · rw [Signature.toBytes_toList, ← beVal_eq_msbFirst, beVal_beBytes, Nat.mod_eq_of_lt (u32_lt _)]; rfl
  · exact (Signature.fromBeBytes_toNat _ hb).trans (beVal_eq_msbFirst _)

example : (Signature.new #v[0x61, 0x63, 0x73, 0x70]).toU32 = 0x61637370 ∧
    (Signature.ofU32 0x61637370).toBytes = #v[0x61, 0x63, 0x73, 0x70] := by decide

/-- **C25** (slices): the four bytes of `Signature::from(&[u8])` are the slice padded with blanks and cut. -/
theorem C25_slice (v : List Byte) :
    (Signature.ofSlice v).toBytes.toList = padded4 v ∧
    (Signature.ofSlice v).toU32.toNat = msbFirst (padded4 v) := by
  have hl : (padded4 v).length = 4 := by simp [padded4]
  have e : Signature.ofSlice v = ⟨Signature.fromBeBytes (padded4 v)⟩ := Signature.ofSlice_eq v
  rw [Signature.toBytes_toList, e]
  exact ⟨Signature.beBytes_fromBeBytes _ hl,
    (Signature.fromBeBytes_toNat _ hl).trans (beVal_eq_msbFirst _)⟩

/-- **C25** (other sources): arrays of one to four bytes and strings agree with the slice conversion, and
nothing at all gives the default signature of four blanks. -/
theorem C25_sources_agree (a : Vector Byte 1) (b : Vector Byte 2) (c : Vector Byte 3) (d : Vector Byte 4)
    (s : List Char) (bs : List Byte) (hs : Utf8Of s bs) :
    Signature.ofBytes1 a = Signature.ofSlice a.toList ∧
    Signature.ofBytes2 b = Signature.ofSlice b.toList ∧
    Signature.ofBytes3 c = Signature.ofSlice c.toList ∧
    Signature.ofBytes4 d = Signature.ofSlice d.toList ∧
    Signature.ofStr s = Signature.ofSlice bs ∧
    Signature.ofSlice [] = Signature.default ∧
    Signature.default.toBytes.toList = [0x20, 0x20, 0x20, 0x20] := by
  have key : ∀ (l : List Byte), l.length ≤ 4 →
      Signature.ofSlice l = ⟨Signature.fromBeBytes (Signature.overSpaces l)⟩ := by
    intro l hl
    rw [Signature.ofSlice_eq]
    match l, hl with
    | [], _ => rfl
    | [_], _ => rfl
    | [_, _], _ => rfl
    | [_, _, _], _ => rfl
    | [_, _, _, _], _ => rfl
    | _ :: _ :: _ :: _ :: _ :: _, hl => simp at hl
  refine ⟨(key _ (by simp)).symm, (key _ (by simp)).symm, (key _ (by simp)).symm, ?_, ?_, ?_, ?_⟩
  · rw [key _ (by simp)]
    have h4 : (List.replicate 4 (0x20 : Byte)).drop d.toList.length = [] := by simp
    simp only [Signature.ofBytes4, Signature.overSpaces, h4, List.append_nil]
  · unfold Signature.ofStr strBytes
    exact congrArg _ hs
  · decide
  · decide

example : (Signature.ofSlice [0x58]).toBytes = #v[0x58, 0x20, 0x20, 0x20] ∧
    (Signature.ofStr "Lab".toList).toBytes = #v[0x4C, 0x61, 0x62, 0x20] ∧
    (Signature.ofStr "GRAYSCALE".toList).toBytes = #v[0x47, 0x52, 0x41, 0x59] := by decide

/-- **C26** (to text): the text is the one whose UTF-8 encoding is the four bytes, or four blanks when there is
no such text. -/
theorem C26_to_string (s : Signature) :
    (ValidUtf8 s.toBytes.toList → Utf8Of s.toStr s.toBytes.toList) ∧
    (¬ ValidUtf8 s.toBytes.toList → s.toStr = [' ', ' ', ' ', ' ']) := by
  rw [Signature.toBytes_toList]
  constructor
  · rintro ⟨cs, h⟩
    have h' : fromUtf8 (beBytes 4 s.val.toNat) = some cs := (fromUtf8_eq_some _ _).mpr h
    unfold Signature.toStr; rw [h']; exact h
  · intro h
    have h' : fromUtf8 (beBytes 4 s.val.toNat) = none :=
      (fromUtf8_eq_none _).mpr (fun cs hcs => h ⟨cs, hcs⟩)
    unfold Signature.toStr; rw [h']

/-- **C26** (round trip): text and back is the identity exactly when the bytes are UTF-8.  (The default
signature is.) -/
theorem C26_round_trip (s : Signature) :
    (Signature.ofStr s.toStr = s ↔ ValidUtf8 s.toBytes.toList) ∧
    (¬ ValidUtf8 s.toBytes.toList → Signature.ofStr s.toStr = Signature.default) := by
  have h2 : ¬ ValidUtf8 s.toBytes.toList → Signature.ofStr s.toStr = Signature.default := by
    intro h; rw [(C26_to_string s).2 h]; decide
  refine ⟨⟨?_, ?_⟩, h2⟩
  · intro h
    by_contra hn
    rw [h2 hn] at h
    apply hn; rw [← h]
    exact ⟨[' ', ' ', ' ', ' '], by decide⟩
  · intro h
    have e := (C26_to_string s).1 h
    unfold Signature.ofStr
    have e' : strBytes s.toStr = s.toBytes.toList := e
    rw [e', Signature.ofSlice_eq, Signature.toBytes_toList]
    have : (beBytes 4 s.val.toNat ++ [0x20, 0x20, 0x20, 0x20]).take 4 = beBytes 4 s.val.toNat := by
      rw [List.take_append_of_le_length (by simp)]; exact List.take_of_length_le (by simp)
    rw [this, Signature.fromBeBytes_beBytes]

/-- Both cases occur; a surrogate (`ED A0 80`) and an overlong form (`C0 80`) are not text. -/
example : (Signature.ofU32 0x61637370).toStr = "acsp".toList ∧
    (Signature.ofU32 0xC3A9C3A9).toStr = "éé".toList ∧
    (Signature.ofU32 0xFF000000).toStr = "    ".toList ∧
    (Signature.ofU32 0xEDA08020).toStr = "    ".toList ∧
    (Signature.ofU32 0xC0800000).toStr = "    ".toList := by decide

/-- **C27** (signatures): the `Debug` text, compact or pretty, whatever `std`'s tables of printable characters
are, determines the signature. -/
theorem C27_signature_debug_injective (plain : Char → Bool) (pretty : Bool) (a b : Signature)
    (h : a.debug plain pretty = b.debug plain pretty) : a = b := by
  have h := debugValueStruct_inj plain pretty _ _ _ h
  apply Signature.bytes_inj
  unfold Signature.debugText at h
  cases ha : fromUtf8 (beBytes 4 a.val.toNat) with
  | some x =>
    have ka := (fromUtf8_eq_some _ _).mp ha
    have la := strBytes_length x; rw [ka] at la
    cases hb : fromUtf8 (beBytes 4 b.val.toNat) with
    | some y =>
      have kb := (fromUtf8_eq_some _ _).mp hb
      simp only [ha, hb] at h
      rw [← ka, ← kb, h]
    | none =>
      simp only [ha, hb] at h
      rw [h, hexCells_length] at la; simp at la
  | none =>
    cases hb : fromUtf8 (beBytes 4 b.val.toNat) with
    | some y =>
      have kb := (fromUtf8_eq_some _ _).mp hb
      have lb := strBytes_length y; rw [kb] at lb
      simp only [ha, hb] at h
      rw [← h, hexCells_length] at lb; simp at lb
    | none =>
      simp only [ha, hb] at h
      exact hexCells_inj _ _ h

/-- **C27** (profile IDs). -/
theorem C27_profile_id_debug_injective (plain : Char → Bool) (pretty : Bool) (a b : ProfileID)
    (h : a.debug plain pretty = b.debug plain pretty) : a = b ∧ a.eq b = true := by
  have h := debugValueStruct_inj plain pretty _ _ _ h
  have e := Vector.toList_inj.mp (hexCells_inj _ _ h)
  cases a; cases b
  subst e
  exact ⟨rfl, by simp [ProfileID.eq]⟩

example : (Signature.ofU32 0x61637370).debug (fun _ => true) false =
      "Signature { value: \"acsp\" }".toList ∧
    (Signature.ofU32 0xFF000A10).debug (fun _ => true) false =
      "Signature { value: \" ff   0   a  10 \" }".toList ∧
    (Signature.ofU32 0x22005C01).debug (fun c => 32 ≤ c.toNat) false =
      "Signature { value: \"\\\"\\0\\\\\\u{1}\" }".toList := by decide

end Lcms.Props
