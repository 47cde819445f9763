import Verif.Model.Debug
import Verif.Lemmas.Signature

/-! # Reading `Debug` texts back -/

namespace Lcms

/-- The characters that can follow a value in a `Debug` text. -/
def StopChar (c : Char) : Prop := c = ',' ∨ c = ' ' ∨ c = '\n' ∨ c = '}' ∨ c = ')' ∨ c = ']'

/-- What can follow a value. -/
def Stop : Str → Prop
  | [] => True
  | c :: _ => StopChar c

/-- It can be seen where the texts end. -/
def Sep (x y : Str) : Prop := ∀ r s, Stop r → Stop s → x ++ r = y ++ s → x = y ∧ r = s

theorem stop_sep (r : Str) : Stop (", ".toList ++ r) := Or.inl rfl
theorem stop_line (r : Str) : Stop (",\n".toList ++ r) := Or.inl rfl
theorem stop_blank (r : Str) : Stop (" }".toList ++ r) := Or.inr (Or.inl rfl)
theorem stop_paren (r : Str) : Stop (")".toList ++ r) := Or.inr (Or.inr (Or.inr (Or.inr (Or.inl rfl))))
theorem stop_bracket (r : Str) : Stop ("]".toList ++ r) := Or.inr (Or.inr (Or.inr (Or.inr (Or.inr rfl))))

theorem sep_tokens {x y : Str} (hx : ∀ c ∈ x, ¬ StopChar c) (hy : ∀ c ∈ y, ¬ StopChar c) : Sep x y := by
  intro r s hr hs h
  induction x generalizing y with
  | nil =>
    cases y with
    | nil => exact ⟨rfl, h⟩
    | cons d y =>
      rw [List.nil_append, List.cons_append] at h
      rw [h] at hr
      exact absurd hr (hy d List.mem_cons_self)
  | cons c x ih =>
    cases y with
    | nil =>
      rw [List.nil_append, List.cons_append] at h
      rw [← h] at hs
      exact absurd hs (hx c List.mem_cons_self)
    | cons d y =>
      simp only [List.cons_append, List.cons.injEq] at h
      obtain ⟨h1, h2⟩ := ih (fun c hc => hx c (List.mem_cons_of_mem _ hc)) (fun c hc => hy c (List.mem_cons_of_mem _ hc))
        h.2
      exact ⟨by rw [h.1, h1], h2⟩

theorem sep_debugStr (plain : Char → Bool) (a b : Str) : Sep (debugStr plain a) (debugStr plain b) := by
  intro r s _ _ h
  obtain ⟨h1, h2⟩ := debugStr_inj plain a b r s h
  exact ⟨by rw [h1], h2⟩

/-! ### Indentation -/

/-- Whether a line is about to start after a text. -/
def flagAfter : Bool → Str → Bool
  | b, [] => b
  | _, c :: s => flagAfter (c == '\n') s

theorem flagAfter_append (b : Bool) (x y : Str) : flagAfter b (x ++ y) = flagAfter (flagAfter b x) y := by
  induction x generalizing b with
  | nil => rfl
  | cons c x ih => exact ih _

theorem padLines_append (b : Bool) (x y : Str) :
    padLines b (x ++ y) = padLines b x ++ padLines (flagAfter b x) y := by
  induction x generalizing b with
  | nil => rfl
  | cons c x ih => cases b <;> simp [padLines, flagAfter, ih]

theorem padLines_inj (b : Bool) (x y r s : Str) (hx : flagAfter b x = true) (hy : flagAfter b y = true)
    (hr : ∀ r', r ≠ ' ' :: r') (hs : ∀ s', s ≠ ' ' :: s') (h : padLines b x ++ r = padLines b y ++ s) :
    x = y ∧ r = s := by
  induction x generalizing b y with
  | nil =>
    cases y with
    | nil => exact ⟨rfl, h⟩
    | cons d y =>
      have : b = true := hx
      subst this
      exact absurd h (hr _)
  | cons c x ih =>
    cases y with
    | nil =>
      have : b = true := hy
      subst this
      exact absurd h.symm (hs _)
    | cons d y =>
      have key : c = d ∧ padLines (c == '\n') x ++ r = padLines (d == '\n') y ++ s := by
        cases b <;> simpa [padLines] using h
      obtain ⟨rfl, h⟩ := key
      obtain ⟨h1, h2⟩ := ih _ y hx hy h
      exact ⟨by rw [h1], h2⟩

theorem flagAfter_nl (b : Bool) (x : Str) : flagAfter b (x ++ ",\n".toList) = true := by
  rw [flagAfter_append]; rfl

theorem flat_pad {α : Type} (g : α → Str) (hg : ∀ a b, flagAfter b (g a) = true) (xs : List α) :
    xs.flatMap (fun a => padLines true (g a)) = padLines true (xs.flatMap g) ∧
      flagAfter true (xs.flatMap g) = true := by
  induction xs with
  | nil => exact ⟨rfl, rfl⟩
  | cons a xs ih =>
    refine ⟨?_, ?_⟩
    · rw [List.flatMap_cons, List.flatMap_cons, padLines_append, hg, ih.1]
    · rw [List.flatMap_cons, flagAfter_append, hg, ih.2]

/-! ### Structs -/

/-- Fields with the same name whose texts are separable. -/
def FieldSep (f g : Str × Str) : Prop := f.1 = g.1 ∧ Sep f.2 g.2

theorem fields_compact {xs ys : List (Str × Str)} (h : List.Forall₂ FieldSep xs ys) :
    ∀ r s, Stop r → Stop s →
    commaSep (xs.map fun f => f.1 ++ ": ".toList ++ f.2) ++ r =
      commaSep (ys.map fun f => f.1 ++ ": ".toList ++ f.2) ++ s → xs = ys ∧ r = s := by
  induction h with
  | nil => intro r s _ _ h; exact ⟨rfl, h⟩
  | @cons f g xs ys hfg hrest ih =>
    intro r s hr hs h
    obtain ⟨n, v⟩ := f
    obtain ⟨n', v'⟩ := g
    obtain ⟨hn, hsep⟩ := hfg
    simp only at hn hsep
    subst hn
    cases hrest with
    | nil =>
      simp only [List.map_cons, List.map_nil, commaSep, List.append_assoc, List.append_cancel_left_eq] at h
      obtain ⟨h1, h2⟩ := hsep _ _ hr hs h
      exact ⟨by rw [h1], h2⟩
    | cons hfg' hrest' =>
      simp only [List.map_cons, commaSep, List.append_assoc, List.append_cancel_left_eq] at h
      obtain ⟨h1, h2⟩ := hsep _ _ (stop_sep _) (stop_sep _) h
      have h3 := List.append_cancel_left h2
      obtain ⟨h4, h5⟩ := ih r s hr hs (by simpa only [List.map_cons, List.append_assoc] using h3)
      exact ⟨by rw [h1, h4], h5⟩

theorem fields_pretty {xs ys : List (Str × Str)} (h : List.Forall₂ FieldSep xs ys)
    (he : xs.flatMap (fun f => f.1 ++ ": ".toList ++ f.2 ++ ",\n".toList) =
      ys.flatMap (fun f => f.1 ++ ": ".toList ++ f.2 ++ ",\n".toList)) : xs = ys := by
  induction h with
  | nil => rfl
  | @cons f g xs ys hfg _ ih =>
    obtain ⟨n, v⟩ := f
    obtain ⟨n', v'⟩ := g
    obtain ⟨hn, hsep⟩ := hfg
    simp only at hn hsep
    subst hn
    simp only [List.flatMap_cons, List.append_assoc, List.append_cancel_left_eq] at he
    obtain ⟨h1, h2⟩ := hsep _ _ (stop_line _) (stop_line _) he
    have h3 := List.append_cancel_left h2
    rw [h1, ih (by simpa only [List.append_assoc] using h3)]

theorem struct_read (pretty : Bool) (name : Str) {xs ys : List (Str × Str)} (h : List.Forall₂ FieldSep xs ys)
    (hne : xs ≠ []) {r s : Str} (he : structText pretty name xs ++ r = structText pretty name ys ++ s) :
    xs = ys ∧ r = s := by
  have hne' : ys ≠ [] := by
    rintro rfl
    cases h
    exact hne rfl
  have e1 : xs.isEmpty = false := by simpa using hne
  have e2 : ys.isEmpty = false := by simpa using hne'
  unfold structText at he
  rw [e1, e2] at he
  cases pretty with
  | true =>
    simp only [Bool.false_eq_true, if_false, if_true, List.append_assoc, List.append_cancel_left_eq] at he
    have hg : ∀ (f : Str × Str) b, flagAfter b (f.1 ++ (": ".toList ++ (f.2 ++ ",\n".toList))) = true := by
      intro f b
      have := flagAfter_nl b (f.1 ++ (": ".toList ++ f.2))
      simpa only [List.append_assoc] using this
    have p1 := flat_pad _ hg xs
    have p2 := flat_pad _ hg ys
    rw [p1.1, p2.1] at he
    obtain ⟨h1, h2⟩ := padLines_inj true _ _ _ _ p1.2 p2.2 (fun r' hr => by cases hr) (fun r' hr => by cases hr) he
    refine ⟨fields_pretty h (by simpa only [List.append_assoc] using h1), List.append_cancel_left h2⟩
  | false =>
    simp only [Bool.false_eq_true, if_false, List.append_assoc, List.append_cancel_left_eq] at he
    obtain ⟨h1, h2⟩ := fields_compact h _ _ (stop_blank _) (stop_blank _)
      (by simpa only [List.append_assoc] using he)
    exact ⟨h1, List.append_cancel_left h2⟩

theorem struct_sep (pretty : Bool) (name : Str) {xs ys : List (Str × Str)} (h : List.Forall₂ FieldSep xs ys)
    (hne : xs ≠ []) : Sep (structText pretty name xs) (structText pretty name ys) := by
  intro r s _ _ he
  obtain ⟨h1, h2⟩ := struct_read pretty name h hne he
  exact ⟨by rw [h1], h2⟩

/-! ### Lists -/

/-- A text that cannot be mistaken for the end of a list. -/
def Item (x : Str) : Prop := ∃ c s, x = c :: s ∧ c ≠ ']'

theorem items_compact {xs ys : List Str} (h : ∀ x ∈ xs, ∀ y ∈ ys, Sep x y) (hx : xs ≠ []) (hy : ys ≠ []) (r s : Str)
    (he : commaSep xs ++ ("]".toList ++ r) = commaSep ys ++ ("]".toList ++ s)) : xs = ys ∧ r = s := by
  induction xs generalizing ys with
  | nil => exact absurd rfl hx
  | cons x xs ih =>
    cases ys with
    | nil => exact absurd rfl hy
    | cons y ys =>
      have hxy := h x List.mem_cons_self y List.mem_cons_self
      cases xs with
      | nil =>
        cases ys with
        | nil =>
          obtain ⟨h1, h2⟩ := hxy _ _ (stop_bracket _) (stop_bracket _) he
          exact ⟨by rw [h1], List.append_cancel_left h2⟩
        | cons y' ys =>
          simp only [commaSep, List.append_assoc] at he
          have h2 := (hxy _ _ (stop_bracket _) (stop_sep _) he).2
          simp at h2
      | cons x' xs =>
        cases ys with
        | nil =>
          simp only [commaSep, List.append_assoc] at he
          have h2 := (hxy _ _ (stop_sep _) (stop_bracket _) he).2
          simp at h2
        | cons y' ys =>
          simp only [commaSep, List.append_assoc] at he
          obtain ⟨h1, h2⟩ := hxy _ _ (stop_sep _) (stop_sep _) he
          have h3 := List.append_cancel_left h2
          obtain ⟨h4, h5⟩ := ih (fun a ha b hb => h a (List.mem_cons_of_mem _ ha) b (List.mem_cons_of_mem _ hb))
            (List.cons_ne_nil _ _) (List.cons_ne_nil _ _) h3
          exact ⟨by rw [h1, h4], h5⟩

theorem items_pretty {xs ys : List Str} (h : ∀ x ∈ xs, ∀ y ∈ ys, Sep x y)
    (he : xs.flatMap (fun v => v ++ ",\n".toList) = ys.flatMap (fun v => v ++ ",\n".toList)) : xs = ys := by
  induction xs generalizing ys with
  | nil =>
    cases ys with
    | nil => rfl
    | cons y ys => simp at he
  | cons x xs ih =>
    cases ys with
    | nil => simp at he
    | cons y ys =>
      simp only [List.flatMap_cons, List.append_assoc] at he
      obtain ⟨h1, h2⟩ := h x List.mem_cons_self y List.mem_cons_self _ _ (stop_line _) (stop_line _) he
      have h3 := List.append_cancel_left h2
      rw [h1, ih (fun a ha b hb => h a (List.mem_cons_of_mem _ ha) b (List.mem_cons_of_mem _ hb)) h3]

theorem item_commaSep {xs : List Str} (hx : ∀ x ∈ xs, Item x) (hne : xs ≠ []) :
    ∃ c s, commaSep xs = c :: s ∧ c ≠ ']' := by
  cases xs with
  | nil => exact absurd rfl hne
  | cons x xs =>
    obtain ⟨c, s, rfl, hc⟩ := hx x List.mem_cons_self
    cases xs with
    | nil => exact ⟨c, s, rfl, hc⟩
    | cons x' xs => exact ⟨c, _, rfl, hc⟩

theorem list_read (pretty : Bool) {xs ys : List Str} (h : ∀ x ∈ xs, ∀ y ∈ ys, Sep x y) (hx : ∀ x ∈ xs, Item x)
    (hy : ∀ y ∈ ys, Item y) {r s : Str} (he : listText pretty xs ++ r = listText pretty ys ++ s) : xs = ys ∧ r = s := by
  unfold listText at he
  by_cases ex : xs = []
  · subst ex
    by_cases ey : ys = []
    · subst ey
      exact ⟨rfl, by simpa using he⟩
    · have e2 : ys.isEmpty = false := by simpa using ey
      rw [e2] at he
      cases pretty with
      | true => simp at he
      | false =>
        obtain ⟨c, s', e3, hc⟩ := item_commaSep hy ey
        rw [e3] at he
        simp at he
        exact absurd he.1.symm hc
  · have e1 : xs.isEmpty = false := by simpa using ex
    by_cases ey : ys = []
    · subst ey
      rw [e1] at he
      cases pretty with
      | true => simp at he
      | false =>
        obtain ⟨c, s', e3, hc⟩ := item_commaSep hx ex
        rw [e3] at he
        simp at he
        exact absurd he.1 hc
    · have e2 : ys.isEmpty = false := by simpa using ey
      rw [e1, e2] at he
      cases pretty with
      | true =>
        simp only [Bool.false_eq_true, if_false, if_true, List.append_assoc, List.append_cancel_left_eq] at he
        have p1 := flat_pad (fun v => v ++ ",\n".toList) (fun v b => flagAfter_nl b v) xs
        have p2 := flat_pad (fun v => v ++ ",\n".toList) (fun v b => flagAfter_nl b v) ys
        rw [p1.1, p2.1] at he
        obtain ⟨h1, h2⟩ := padLines_inj true _ _ _ _ p1.2 p2.2 (fun r' hr => by cases hr) (fun r' hr => by cases hr) he
        exact ⟨items_pretty h h1, List.append_cancel_left h2⟩
      | false =>
        simp only [Bool.false_eq_true, if_false, List.append_assoc, List.append_cancel_left_eq] at he
        exact items_compact h ex ey _ _ he

theorem list_sep (pretty : Bool) {xs ys : List Str} (h : ∀ x ∈ xs, ∀ y ∈ ys, Sep x y) (hx : ∀ x ∈ xs, Item x)
    (hy : ∀ y ∈ ys, Item y) : Sep (listText pretty xs) (listText pretty ys) := by
  intro r s _ _ he
  obtain ⟨h1, h2⟩ := list_read pretty h hx hy he
  exact ⟨by rw [h1], h2⟩

/-! ### Tuples of one and options -/

theorem tuple1_read (pretty : Bool) (name : Str) {x y : Str} (h : Sep x y) {r s : Str}
    (he : tupleText pretty name [x] ++ r = tupleText pretty name [y] ++ s) : x = y ∧ r = s := by
  unfold tupleText at he
  cases pretty with
  | true =>
    simp only [List.isEmpty_cons, Bool.false_eq_true, if_false, if_true, List.append_assoc,
      List.append_cancel_left_eq] at he
    have p1 := flat_pad (fun v => v ++ ",\n".toList) (fun v b => flagAfter_nl b v) [x]
    have p2 := flat_pad (fun v => v ++ ",\n".toList) (fun v b => flagAfter_nl b v) [y]
    rw [p1.1, p2.1] at he
    obtain ⟨h1, h2⟩ := padLines_inj true _ _ _ _ p1.2 p2.2 (fun r' hr => by cases hr) (fun r' hr => by cases hr) he
    have := items_pretty (xs := [x]) (ys := [y]) (by simpa using h) h1
    exact ⟨by simpa using this, List.append_cancel_left h2⟩
  | false =>
    simp only [List.isEmpty_cons, Bool.false_eq_true, if_false, List.append_assoc, List.append_cancel_left_eq,
      commaSep] at he
    obtain ⟨h1, h2⟩ := h _ _ (stop_paren _) (stop_paren _) he
    exact ⟨h1, List.append_cancel_left h2⟩

theorem tuple_some_head (pretty : Bool) (x : Str) : ∃ s, tupleText pretty "Some".toList [x] = 'S' :: s := by
  unfold tupleText
  cases pretty <;> exact ⟨_, rfl⟩

theorem option_read (pretty : Bool) {x y : Option Str} (h : ∀ a ∈ x, ∀ b ∈ y, Sep a b) {r s : Str}
    (he : optionText pretty x ++ r = optionText pretty y ++ s) : x = y ∧ r = s := by
  cases x with
  | none =>
    cases y with
    | none => exact ⟨rfl, List.append_cancel_left he⟩
    | some b =>
      obtain ⟨s', hs'⟩ := tuple_some_head pretty b
      unfold optionText at he
      simp only at he
      rw [hs'] at he
      simp at he
  | some a =>
    cases y with
    | none =>
      obtain ⟨s', hs'⟩ := tuple_some_head pretty a
      unfold optionText at he
      simp only at he
      rw [hs'] at he
      simp at he
    | some b =>
      obtain ⟨h1, h2⟩ := tuple1_read pretty _ (h a rfl b rfl) he
      exact ⟨by rw [h1], h2⟩

theorem option_sep (pretty : Bool) {x y : Option Str} (h : ∀ a ∈ x, ∀ b ∈ y, Sep a b) :
    Sep (optionText pretty x) (optionText pretty y) := by
  intro r s _ _ he
  obtain ⟨h1, h2⟩ := option_read pretty h he
  exact ⟨by rw [h1], h2⟩

/-! ### Numbers -/

theorem digit_not_stop {c : Char} (h : c.isDigit = true) : ¬ StopChar c := by
  rintro (rfl | rfl | rfl | rfl | rfl | rfl) <;> revert h <;> decide

theorem decimal_digits (n : Nat) : ∀ c ∈ decimal n, c.isDigit = true := fun _ hc =>
  Nat.isDigit_of_mem_toDigits (by decide) (by decide) hc

theorem decimal_inj {m n : Nat} (h : decimal m = decimal n) : m = n := by
  have := congrArg (fun l => Nat.ofDigitChars 10 l 0) h
  simpa only [decimal, Nat.ofDigitChars_ten_toDigits] using this

theorem decimal_sep (m n : Nat) : Sep (decimal m) (decimal n) :=
  sep_tokens (fun c hc => digit_not_stop (decimal_digits m c hc)) (fun c hc => digit_not_stop (decimal_digits n c hc))

theorem decimal_item (n : Nat) : Item (decimal n) := by
  cases h : decimal n with
  | nil => exact absurd h Nat.toDigits_ne_nil
  | cons c s =>
    have := decimal_digits n c (by rw [h]; exact List.mem_cons_self)
    exact ⟨c, s, rfl, fun e => by subst e; revert this; decide⟩

theorem decimalInt_tokens (n : Int) : ∀ c ∈ decimalInt n, ¬ StopChar c := by
  intro c hc
  unfold decimalInt at hc
  split at hc
  · rcases List.mem_cons.mp hc with rfl | hc
    · rintro (h | h | h | h | h | h) <;> cases h
    · exact digit_not_stop (decimal_digits _ c hc)
  · exact digit_not_stop (decimal_digits _ c hc)

theorem decimalInt_sep (m n : Int) : Sep (decimalInt m) (decimalInt n) :=
  sep_tokens (decimalInt_tokens m) (decimalInt_tokens n)

theorem decimal_no_minus (n : Nat) (s : Str) : decimal n ≠ '-' :: s := by
  intro h
  have := decimal_digits n '-' (by rw [h]; exact List.mem_cons_self)
  revert this; decide

theorem decimalInt_inj {m n : Int} (h : decimalInt m = decimalInt n) : m = n := by
  unfold decimalInt at h
  split at h <;> split at h
  · have := decimal_inj (List.cons.inj h).2
    omega
  · exact absurd h.symm (decimal_no_minus _ _)
  · exact absurd h (decimal_no_minus _ _)
  · have := decimal_inj h
    omega

theorem bool_sep (a b : Bool) : Sep (boolText a) (boolText b) := by
  have : ∀ b, ∀ c ∈ boolText b, ¬ StopChar c := by
    unfold StopChar
    decide
  exact sep_tokens (this a) (this b)

theorem boolText_inj {a b : Bool} (h : boolText a = boolText b) : a = b := by
  revert h
  revert a b
  decide

theorem bool_item (b : Bool) : Item (boolText b) := by
  cases b <;> exact ⟨_, _, rfl, by decide⟩

/-! ### Signatures and profile IDs -/

theorem valueStruct_eq (plain : Char → Bool) (pretty : Bool) (name v : Str) :
    debugValueStruct plain pretty name v = structText pretty name [("value".toList, debugStr plain v)] := by
  have nn : ∀ (s : Str) (b : Bool) (r : Str), (∀ c ∈ s, c ≠ '\n') → padLines false (s ++ r) = s ++ padLines false r := by
    intro s b r hs
    induction s with
    | nil => rfl
    | cons c s ih =>
      have hc : (c == '\n') = false := by
        have := hs c List.mem_cons_self
        simpa using this
      simp only [List.cons_append, padLines, hc]
      rw [ih fun c h => hs c (List.mem_cons_of_mem _ h)]
  have ne : ∀ c ∈ debugStr plain v, c ≠ '\n' := by
    intro c hc
    simp only [debugStr, List.mem_append, List.mem_flatMap, List.mem_singleton] at hc
    rcases hc with (rfl | ⟨d, _, hd⟩) | rfl
    · decide
    · unfold escapeChar at hd
      split_ifs at hd with h1 h2 h3 h4 h5 h6 h7
      all_goals simp only [List.mem_cons, List.not_mem_nil, or_false, List.mem_append] at hd
      any_goals (rcases hd with rfl | rfl <;> decide)
      · rw [hd]; exact h4
      · rcases hd with ((rfl | rfl | rfl) | hd) | rfl
        any_goals decide
        have hx : ∀ f n, ∀ c ∈ hexLower f n, c ≠ '\n' := by
          intro f
          induction f with
          | zero => intro n c hc; simp [hexLower] at hc
          | succ f ih =>
            intro n c hc
            have hdig : ∀ k, k < 16 → hexDigit k ≠ '\n' := by decide
            unfold hexLower at hc
            split at hc
            · rename_i hlt
              rw [List.mem_singleton.mp hc]; exact hdig n hlt
            · rcases List.mem_append.mp hc with hc | hc
              · exact ih _ c hc
              · rw [List.mem_singleton.mp hc]; exact hdig _ (Nat.mod_lt _ (by decide))
        exact hx _ _ c hd
    · decide
  unfold debugValueStruct structText
  cases pretty with
  | false => simp [commaSep]
  | true =>
    have e : padLines true ("value".toList ++ ": ".toList ++ debugStr plain v ++ ",\n".toList) =
        "    value: ".toList ++ debugStr plain v ++ ",\n".toList := by
      have e1 := nn (debugStr plain v) false ",\n".toList ne
      have e2 : ∀ r, padLines true ("value: ".toList ++ r) = "    value: ".toList ++ padLines false r := fun r => rfl
      have e3 : "value".toList ++ ": ".toList ++ debugStr plain v ++ ",\n".toList =
          "value: ".toList ++ (debugStr plain v ++ ",\n".toList) := by
        rw [List.append_assoc]; rfl
      rw [e3, e2, e1, List.append_assoc]
      rfl
    simp only [List.isEmpty_cons, Bool.false_eq_true, if_false, if_true, List.flatMap_cons, List.flatMap_nil,
      List.append_nil]
    rw [e]
    simp

end Lcms
