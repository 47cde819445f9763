import Verif.Model.Signature
import Verif.Lemmas.Endian
import Verif.Lemmas.Utf8
import Mathlib.Tactic.IntervalCases

namespace Lcms

namespace Signature

theorem toBytes_toList (s : Signature) : s.toBytes.toList = beBytes 4 s.val.toNat := by
  simp [toBytes]

theorem fromBeBytes_toNat (b : List Byte) (h : b.length = 4) : (fromBeBytes b).toNat = beVal b := by
  have := beVal_lt b; rw [h] at this
  rw [fromBeBytes, UInt32.toNat_ofNat_of_lt' (by simpa using this)]

theorem beBytes_fromBeBytes (b : List Byte) (h : b.length = 4) :
    beBytes 4 (fromBeBytes b).toNat = b := by
  rw [fromBeBytes_toNat b h, beBytes_beVal' b h]

theorem fromBeBytes_beBytes (v : UInt32) : fromBeBytes (beBytes 4 v.toNat) = v := by
  apply UInt32.toNat_inj.mp
  rw [fromBeBytes_toNat _ (by simp), beVal_beBytes, Nat.mod_eq_of_lt (u32_lt v)]

theorem ofSlice_eq (v : List Byte) :
    ofSlice v = ⟨fromBeBytes ((v ++ [0x20, 0x20, 0x20, 0x20]).take 4)⟩ := by
  match v with
  | [] => rfl
  | [_] => rfl
  | [_, _] => rfl
  | [_, _, _] => rfl
  | a :: b :: c :: d :: r => simp [ofSlice, overSpaces]

theorem bytes_inj {a b : Signature} (h : beBytes 4 a.val.toNat = beBytes 4 b.val.toNat) : a = b := by
  have h' := congrArg fromBeBytes h
  rw [fromBeBytes_beBytes, fromBeBytes_beBytes] at h'
  cases a; cases b; simpa using h'

end Signature

/-! ### Hexadecimal digits and the escapes of `Debug` -/

theorem hexDigit_inj : ∀ a, a < 16 → ∀ b, b < 16 → hexDigit a = hexDigit b → a = b := by decide

theorem hexDigit_ne : ∀ a, a < 16 → hexDigit a ≠ '}' ∧ hexDigit a ≠ ' ' ∧ hexDigit a ≠ '"' ∧
    hexDigit a ≠ '\\' := by decide

theorem hexLower_ne_nil (f n : Nat) : hexLower (f + 1) n ≠ [] := by
  unfold hexLower; split <;> simp

theorem hexLower_mem (f n : Nat) : ∀ c ∈ hexLower f n, c ≠ '}' ∧ c ≠ ' ' ∧ c ≠ '"' ∧ c ≠ '\\' := by
  induction f generalizing n with
  | zero => simp [hexLower]
  | succ f ih =>
    intro c hc
    unfold hexLower at hc
    split at hc
    · rename_i h; simp at hc; subst hc; exact hexDigit_ne n h
    · simp only [List.mem_append, List.mem_singleton] at hc
      rcases hc with hc | hc
      · exact ih _ c hc
      · subst hc; exact hexDigit_ne _ (Nat.mod_lt _ (by decide))

theorem hexLower_inj (f : Nat) : ∀ a b, a < 16 ^ f → b < 16 ^ f → hexLower f a = hexLower f b → a = b := by
  induction f with
  | zero => intro a b ha hb _; simp at ha hb; omega
  | succ f ih =>
    intro a b ha hb h
    rw [Nat.pow_succ] at ha hb
    unfold hexLower at h
    split at h <;> split at h
    · rename_i h1 h2; simp at h; exact hexDigit_inj a h1 b h2 h
    · rename_i h1 h2
      cases f with
      | zero => omega
      | succ f =>
        have hl := congrArg List.length h
        have := List.length_pos_iff.mpr (hexLower_ne_nil f (b / 16))
        simp only [List.length_cons, List.length_nil, List.length_append] at hl; omega
    · rename_i h1 h2
      cases f with
      | zero => omega
      | succ f =>
        have hl := congrArg List.length h
        have := List.length_pos_iff.mpr (hexLower_ne_nil f (a / 16))
        simp only [List.length_cons, List.length_nil, List.length_append] at hl; omega
    · have h' := List.append_inj' h rfl
      have e1 := ih (a / 16) (b / 16) (by omega) (by omega) h'.1
      have e2 := h'.2
      simp only [List.cons.injEq, and_true] at e2
      have e3 := hexDigit_inj _ (Nat.mod_lt _ (by decide)) _ (Nat.mod_lt _ (by decide)) e2
      omega

/-- Two texts cut at the first occurrence of a separator. -/
theorem append_sep_inj {α : Type} {x : α} {a b r s : List α} (ha : ∀ c ∈ a, c ≠ x) (hb : ∀ c ∈ b, c ≠ x)
    (h : a ++ x :: r = b ++ x :: s) : a = b ∧ r = s := by
  induction a generalizing b with
  | nil =>
    cases b with
    | nil => simpa using h
    | cons y b =>
      simp only [List.nil_append, List.cons_append, List.cons.injEq] at h
      exact absurd h.1.symm (hb y (by simp))
  | cons y a ih =>
    cases b with
    | nil =>
      simp only [List.nil_append, List.cons_append, List.cons.injEq] at h
      exact absurd h.1 (ha y (by simp))
    | cons z b =>
      simp only [List.cons_append, List.cons.injEq] at h
      obtain ⟨h1, h2⟩ := ih (fun c hc => ha c (by simp [hc])) (fun c hc => hb c (by simp [hc])) h.2
      exact ⟨by rw [h.1, h1], h2⟩

theorem char_toNat_lt (c : Char) : c.toNat < 16 ^ 8 := by
  have := char_range c
  have e : c.toNat = c.val.toNat := rfl
  omega

theorem char_toNat_inj {c d : Char} (h : c.toNat = d.toNat) : c = d := by
  have h' : c.val.toNat = d.val.toNat := h
  rw [← char_ofNat_toNat c, ← char_ofNat_toNat d, h']

theorem escapeChar_cases (plain : Char → Bool) (c : Char) :
    (c = '\x00' ∧ escapeChar plain c = ['\\', '0']) ∨ (c = '\t' ∧ escapeChar plain c = ['\\', 't']) ∨
    (c = '\r' ∧ escapeChar plain c = ['\\', 'r']) ∨ (c = '\n' ∧ escapeChar plain c = ['\\', 'n']) ∨
    (c = '"' ∧ escapeChar plain c = ['\\', '"']) ∨ (c = '\\' ∧ escapeChar plain c = ['\\', '\\']) ∨
    (c ≠ '\\' ∧ c ≠ '"' ∧ escapeChar plain c = [c]) ∨
    (escapeChar plain c = ['\\', 'u', '{'] ++ hexLower 8 c.toNat ++ ['}']) := by
  unfold escapeChar
  split_ifs <;> simp_all

/-- The escapes are a prefix code: the first character and the rest can be read back. -/
theorem escapeChar_prefix (plain : Char → Bool) (c d : Char) (r s : List Char)
    (h : escapeChar plain c ++ r = escapeChar plain d ++ s) : c = d ∧ r = s := by
  rcases escapeChar_cases plain c with ⟨c1, c2⟩ | ⟨c1, c2⟩ | ⟨c1, c2⟩ | ⟨c1, c2⟩ | ⟨c1, c2⟩ | ⟨c1, c2⟩ |
    ⟨c1, c1', c2⟩ | c2 <;>
  rcases escapeChar_cases plain d with ⟨d1, d2⟩ | ⟨d1, d2⟩ | ⟨d1, d2⟩ | ⟨d1, d2⟩ | ⟨d1, d2⟩ | ⟨d1, d2⟩ |
    ⟨d1, d1', d2⟩ | d2 <;> rw [c2, d2] at h <;>
  first
  | (simp only [List.cons_append, List.nil_append, List.cons.injEq] at h
     first
     | (subst c1; subst d1; exact ⟨rfl, h.2.2⟩)
     | exact h
     | exact absurd h.1 c1
     | exact absurd h.1.symm d1
     | exact absurd h.2.1 (by decide))
  | (simp only [List.cons_append, List.nil_append, List.append_assoc, List.cons.injEq, true_and] at h
     obtain ⟨e1, e2⟩ := append_sep_inj (fun x hx => (hexLower_mem 8 _ x hx).1)
        (fun x hx => (hexLower_mem 8 _ x hx).1) h
     exact ⟨char_toNat_inj (hexLower_inj 8 _ _ (char_toNat_lt c) (char_toNat_lt d) e1), e2⟩)

theorem escapeChar_ne_quote (plain : Char → Bool) (c : Char) (r s : List Char) :
    escapeChar plain c ++ r ≠ '"' :: s := by
  intro h
  rcases escapeChar_cases plain c with ⟨c1, c2⟩ | ⟨c1, c2⟩ | ⟨c1, c2⟩ | ⟨c1, c2⟩ | ⟨c1, c2⟩ | ⟨c1, c2⟩ |
    ⟨c1, c1', c2⟩ | c2 <;> rw [c2] at h <;>
    simp only [List.cons_append, List.nil_append, List.cons.injEq] at h <;>
    first
    | exact absurd h.1 c1'
    | exact absurd h.1 (by decide)

theorem escape_flat_inj (plain : Char → Bool) (a b r s : List Char)
    (h : a.flatMap (escapeChar plain) ++ '"' :: r = b.flatMap (escapeChar plain) ++ '"' :: s) :
    a = b ∧ r = s := by
  induction a generalizing b with
  | nil =>
    cases b with
    | nil => simpa using h
    | cons d b =>
      simp only [List.flatMap_nil, List.flatMap_cons, List.nil_append, List.append_assoc] at h
      exact absurd h.symm (escapeChar_ne_quote plain d _ _)
  | cons c a ih =>
    cases b with
    | nil =>
      simp only [List.flatMap_nil, List.flatMap_cons, List.nil_append, List.append_assoc] at h
      exact absurd h (escapeChar_ne_quote plain c _ _)
    | cons d b =>
      simp only [List.flatMap_cons, List.append_assoc] at h
      obtain ⟨e1, e2⟩ := escapeChar_prefix plain c d _ _ h
      obtain ⟨e3, e4⟩ := ih b e2
      exact ⟨by rw [e1, e3], e4⟩

theorem debugStr_inj (plain : Char → Bool) (a b r s : List Char)
    (h : debugStr plain a ++ r = debugStr plain b ++ s) : a = b ∧ r = s := by
  simp only [debugStr, List.cons_append, List.nil_append, List.append_assoc, List.cons.injEq,
    true_and] at h
  exact escape_flat_inj plain a b r s h

theorem debugValueStruct_inj (plain : Char → Bool) (pretty : Bool) (name a b : List Char)
    (h : debugValueStruct plain pretty name a = debugValueStruct plain pretty name b) : a = b := by
  unfold debugValueStruct at h
  split at h <;> simp only [List.append_assoc, List.append_cancel_left_eq] at h <;>
    exact (debugStr_inj plain a b _ _ h).1

theorem hexLower2_length (b : Byte) : 1 ≤ (hexLower 2 b.toNat).length ∧ (hexLower 2 b.toNat).length ≤ 2 := by
  unfold hexLower hexLower hexLower
  split_ifs <;> simp

theorem hexCell_length (b : Byte) : (hexCell b).length = 4 := by
  have := hexLower2_length b
  simp only [hexCell, List.length_append, List.length_cons, List.length_nil, List.length_replicate]
  omega

theorem hexCell_inj {a b : Byte} (h : hexCell a = hexCell b) : a = b := by
  have ha := hexLower2_length a
  have hb := hexLower2_length b
  have ka := hexLower_mem 2 a.toNat
  have kb := hexLower_mem 2 b.toNat
  have e : hexLower 2 a.toNat = hexLower 2 b.toNat := by
    have h' := (List.append_inj' h rfl).1
    generalize hexLower 2 a.toNat = x at *
    generalize hexLower 2 b.toNat = y at *
    match x, y with
    | [x], [y] => simpa using h'
    | [x], [y, z] =>
      simp at h'; exact absurd h'.1.symm (kb y (by simp)).2.1
    | [x, y], [z] =>
      simp at h'; exact absurd h'.1 (ka x (by simp)).2.1
    | [x, y], [z, w] => simpa using h'
    | [], _ => simp at ha
    | _, [] => simp at hb
    | _ :: _ :: _ :: _, _ => simp at ha
    | _, _ :: _ :: _ :: _ => simp at hb
  have la := a.toNat_lt
  have lb := b.toNat_lt
  exact UInt8.toNat_inj.mp (hexLower_inj 2 _ _ (by omega) (by omega) e)

theorem hexCells_length (a : List Byte) : (a.flatMap hexCell).length = 4 * a.length := by
  induction a with
  | nil => rfl
  | cons x a ih => simp only [List.flatMap_cons, List.length_append, hexCell_length, ih, List.length_cons]; omega

theorem hexCells_inj (a b : List Byte) (h : a.flatMap hexCell = b.flatMap hexCell) : a = b := by
  induction a generalizing b with
  | nil =>
    cases b with
    | nil => rfl
    | cons y b =>
      have := congrArg List.length h
      rw [hexCells_length, hexCells_length] at this; simp at this
  | cons x a ih =>
    cases b with
    | nil =>
      have := congrArg List.length h
      rw [hexCells_length, hexCells_length] at this; simp at this
    | cons y b =>
      simp only [List.flatMap_cons] at h
      obtain ⟨h1, h2⟩ := List.append_inj h (by simp [hexCell_length])
      rw [hexCell_inj h1, ih b h2]

end Lcms
