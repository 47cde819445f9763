import Verif.Model.Utf8
import Mathlib.Tactic.SplitIfs
import Mathlib.Logic.Basic

namespace Lcms

theorem cont_eq_some {b : Byte} {n : Nat} :
    cont b = some n ↔ b.toNat = n + 0x80 ∧ n < 64 := by
  unfold cont
  constructor
  · intro h; split at h
    · simp only [Option.some.injEq] at h; omega
    · simp at h
  · rintro ⟨h1, h2⟩
    rw [if_pos (by omega)]; simp; omega

theorem byte_eq {b : Byte} {n : Nat} (h : b.toNat = n % 256) : b = UInt8.ofNat n := by
  apply UInt8.toNat_inj.mp; simpa using h

theorem isValidChar_of {n : Nat} (h : n < 0xD800 ∨ (0xDFFF < n ∧ n < 0x110000)) : n.isValidChar := h

theorem char_toNat_ofNat {n : Nat} (h : n < 0xD800 ∨ (0xDFFF < n ∧ n < 0x110000)) :
    (Char.ofNat n).val.toNat = n := by
  have hv : n.isValidChar := h
  unfold Char.ofNat
  rw [dif_pos hv]
  rfl

theorem char_range (c : Char) : c.val.toNat < 0xD800 ∨ (0xDFFF < c.val.toNat ∧ c.val.toNat < 0x110000) :=
  c.valid

theorem char_ofNat_toNat (c : Char) : Char.ofNat c.val.toNat = c := by
  apply Char.ext; apply UInt32.toNat_inj.mp; exact char_toNat_ofNat (char_range c)

/-- Decoding the encoding of a character. -/
theorem decodeOne_encode (c : Char) (r : List Byte) :
    decodeOne (String.utf8EncodeChar c ++ r) = some (c, r) := by
  have hc := char_range c
  have hk := char_ofNat_toNat c
  unfold String.utf8EncodeChar
  generalize c.val.toNat = v at *
  subst hk
  dsimp only
  split_ifs with h1 h2 h3
  · have e0 : (UInt8.ofNat v).toNat = v := by simp; omega
    simp only [List.cons_append, List.nil_append, decodeOne, e0]
    rw [if_pos (by omega)]
  · have e0 : (UInt8.ofNat (v / 64 % 0x20 + 0xc0)).toNat = v / 64 + 0xc0 := by
      rw [UInt8.toNat_ofNat']; omega
    have e1 : cont (UInt8.ofNat (v % 0x40 + 0x80)) = some (v % 64) :=
      cont_eq_some.mpr ⟨by rw [UInt8.toNat_ofNat']; omega, by omega⟩
    simp only [List.cons_append, List.nil_append, decodeOne, e0, e1]
    rw [if_neg (by omega), if_pos (by omega)]
    congr 3; omega
  · have e0 : (UInt8.ofNat (v / 4096 % 0x10 + 0xe0)).toNat = v / 4096 + 0xe0 := by
      rw [UInt8.toNat_ofNat']; omega
    have e1' : (UInt8.ofNat (v / 64 % 0x40 + 0x80)).toNat = v / 64 % 64 + 0x80 := by
      rw [UInt8.toNat_ofNat']; omega
    have e1 : cont (UInt8.ofNat (v / 64 % 0x40 + 0x80)) = some (v / 64 % 64) :=
      cont_eq_some.mpr ⟨by rw [UInt8.toNat_ofNat']; omega, by omega⟩
    have e2 : cont (UInt8.ofNat (v % 0x40 + 0x80)) = some (v % 64) :=
      cont_eq_some.mpr ⟨by rw [UInt8.toNat_ofNat']; omega, by omega⟩
    simp only [List.cons_append, List.nil_append, decodeOne, e0, e1, e2, e1']
    rw [if_neg (by omega), if_neg (by omega), if_pos (by omega), if_neg (by omega), if_neg (by omega)]
    congr 3; omega
  · have e0 : (UInt8.ofNat (v / 262144 % 0x08 + 0xf0)).toNat = v / 262144 + 0xf0 := by
      rw [UInt8.toNat_ofNat']; omega
    have e1' : (UInt8.ofNat (v / 4096 % 0x40 + 0x80)).toNat = v / 4096 % 64 + 0x80 := by
      rw [UInt8.toNat_ofNat']; omega
    have e1 : cont (UInt8.ofNat (v / 4096 % 0x40 + 0x80)) = some (v / 4096 % 64) :=
      cont_eq_some.mpr ⟨by rw [UInt8.toNat_ofNat']; omega, by omega⟩
    have e2 : cont (UInt8.ofNat (v / 64 % 0x40 + 0x80)) = some (v / 64 % 64) :=
      cont_eq_some.mpr ⟨by rw [UInt8.toNat_ofNat']; omega, by omega⟩
    have e3 : cont (UInt8.ofNat (v % 0x40 + 0x80)) = some (v % 64) :=
      cont_eq_some.mpr ⟨by rw [UInt8.toNat_ofNat']; omega, by omega⟩
    simp only [List.cons_append, List.nil_append, decodeOne, e0, e1, e2, e3, e1']
    rw [if_neg (by omega), if_neg (by omega), if_neg (by omega), if_pos (by omega), if_neg (by omega),
      if_neg (by omega)]
    congr 3; omega

/-- What one decoding step consumed is the encoding of the character it produced. -/
theorem decodeOne_eq_some {bs : List Byte} {c : Char} {r : List Byte}
    (h : decodeOne bs = some (c, r)) : bs = String.utf8EncodeChar c ++ r := by
  match bs, h with
  | b0 :: r0, h =>
    have hb0 := b0.toNat_lt
    unfold decodeOne at h; dsimp only at h
    split_ifs at h with h1 h2 h3 h4
    · simp only [Option.some.injEq, Prod.mk.injEq] at h
      obtain ⟨rfl, rfl⟩ := h
      have hv := char_toNat_ofNat (n := b0.toNat) (by omega)
      unfold String.utf8EncodeChar; rw [hv]; dsimp only
      rw [if_pos (by omega)]; simp
    · match r0, h with
      | b1 :: r1, h =>
        dsimp only at h
        cases hc1 : cont b1 with
        | none => simp [hc1] at h
        | some c1 =>
          simp only [hc1, Option.some.injEq, Prod.mk.injEq] at h
          obtain ⟨rfl, rfl⟩ := h
          have k1 := cont_eq_some.mp hc1
          have hv := char_toNat_ofNat (n := (b0.toNat - 0xC0) * 64 + c1) (by omega)
          unfold String.utf8EncodeChar; rw [hv]; dsimp only
          rw [if_neg (by omega), if_pos (by omega)]
          simp only [List.cons_append, List.nil_append]
          rw [← byte_eq (b := b0) (by omega), ← byte_eq (b := b1) (by omega)]
    · match r0, h with
      | b1 :: b2 :: r2, h =>
        dsimp only at h
        cases hc1 : cont b1 with
        | none => simp [hc1] at h
        | some c1 =>
        cases hc2 : cont b2 with
        | none => simp [hc1, hc2] at h
        | some c2 =>
          simp only [hc1, hc2] at h
          split_ifs at h with h5 h6
          simp only [Option.some.injEq, Prod.mk.injEq] at h
          obtain ⟨rfl, rfl⟩ := h
          have k1 := cont_eq_some.mp hc1
          have k2 := cont_eq_some.mp hc2
          have hv := char_toNat_ofNat (n := (b0.toNat - 0xE0) * 4096 + c1 * 64 + c2) (by omega)
          unfold String.utf8EncodeChar; rw [hv]; dsimp only
          rw [if_neg (by omega), if_neg (by omega), if_pos (by omega)]
          simp only [List.cons_append, List.nil_append]
          rw [← byte_eq (b := b0) (by omega), ← byte_eq (b := b1) (by omega),
            ← byte_eq (b := b2) (by omega)]
      | [_], h => simp at h
    · match r0, h with
      | b1 :: b2 :: b3 :: r3, h =>
        dsimp only at h
        cases hc1 : cont b1 with
        | none => simp [hc1] at h
        | some c1 =>
        cases hc2 : cont b2 with
        | none => simp [hc1, hc2] at h
        | some c2 =>
        cases hc3 : cont b3 with
        | none => simp [hc1, hc2, hc3] at h
        | some c3 =>
          simp only [hc1, hc2, hc3] at h
          split_ifs at h with h5 h6
          simp only [Option.some.injEq, Prod.mk.injEq] at h
          obtain ⟨rfl, rfl⟩ := h
          have k1 := cont_eq_some.mp hc1
          have k2 := cont_eq_some.mp hc2
          have k3 := cont_eq_some.mp hc3
          have hv := char_toNat_ofNat
            (n := (b0.toNat - 0xF0) * 262144 + c1 * 4096 + c2 * 64 + c3) (by omega)
          unfold String.utf8EncodeChar; rw [hv]; dsimp only
          rw [if_neg (by omega), if_neg (by omega), if_neg (by omega)]
          simp only [List.cons_append, List.nil_append]
          rw [← byte_eq (b := b0) (by omega), ← byte_eq (b := b1) (by omega),
            ← byte_eq (b := b2) (by omega), ← byte_eq (b := b3) (by omega)]
      | [_], h => simp at h
      | [_, _], h => simp at h

theorem encode_ne_nil (c : Char) : String.utf8EncodeChar c ≠ [] := by
  unfold String.utf8EncodeChar; dsimp only; split_ifs <;> simp

theorem decodeAll_sound (fuel : Nat) (bs : List Byte) (cs : List Char)
    (h : decodeAll fuel bs = some cs) : strBytes cs = bs := by
  induction fuel generalizing bs cs with
  | zero =>
    cases bs with
    | nil => simp [decodeAll] at h; subst h; rfl
    | cons b bs => simp [decodeAll] at h
  | succ fuel ih =>
    cases bs with
    | nil => simp [decodeAll] at h; subst h; rfl
    | cons b bs =>
      simp only [decodeAll] at h
      cases h1 : decodeOne (b :: bs) with
      | none => simp [h1] at h
      | some p =>
        obtain ⟨c, r⟩ := p
        simp only [h1] at h
        cases h2 : decodeAll fuel r with
        | none => simp [h2] at h
        | some cs' =>
          simp only [h2, Option.some.injEq] at h
          subst h
          rw [decodeOne_eq_some h1]
          have := ih r cs' h2
          simp only [strBytes, List.flatMap_cons] at this ⊢
          rw [this]

theorem decodeAll_complete (cs : List Char) (fuel : Nat) (h : (strBytes cs).length ≤ fuel) :
    decodeAll fuel (strBytes cs) = some cs := by
  induction cs generalizing fuel with
  | nil => cases fuel <;> rfl
  | cons c cs ih =>
    have e : strBytes (c :: cs) = String.utf8EncodeChar c ++ strBytes cs := by
      simp [strBytes]
    rw [e] at h ⊢
    obtain ⟨b, bs, hb⟩ := List.exists_cons_of_ne_nil (encode_ne_nil c)
    cases fuel with
    | zero => rw [hb] at h; simp at h
    | succ fuel =>
      have hd := decodeOne_encode c (strBytes cs)
      rw [hb, List.cons_append] at hd h ⊢
      simp only [decodeAll, hd]
      rw [ih fuel (by simp at h; omega)]

/-- `from_utf8` accepts exactly the encodings and returns the text encoded. -/
theorem fromUtf8_eq_some (bs : List Byte) (cs : List Char) :
    fromUtf8 bs = some cs ↔ strBytes cs = bs := by
  constructor
  · exact decodeAll_sound _ _ _
  · rintro rfl; exact decodeAll_complete cs _ (Nat.le_refl _)

theorem fromUtf8_eq_none (bs : List Byte) : fromUtf8 bs = none ↔ ∀ cs, strBytes cs ≠ bs := by
  rw [← not_iff_not]
  constructor
  · intro h
    obtain ⟨cs, hcs⟩ := Option.ne_none_iff_exists'.mp h
    exact fun h' => h' cs ((fromUtf8_eq_some _ _).mp hcs)
  · intro h h'
    apply h
    intro cs hcs
    rw [(fromUtf8_eq_some _ _).mpr hcs] at h'
    exact absurd h' (by simp)

theorem strBytes_length (cs : List Char) : cs.length ≤ (strBytes cs).length := by
  induction cs with
  | nil => simp
  | cons c cs ih =>
    have := List.length_pos_iff.mpr (encode_ne_nil c)
    simp only [strBytes, List.flatMap_cons, List.length_append, List.length_cons] at *
    omega

end Lcms
