import Verif.Lemmas.F64Order

/-! # Lemmas: rounding is to nearest, ties to even -/

namespace Lcms
namespace F64

theorem rneNat_nearest {x : ℚ} (hx : 0 ≤ x) (n : ℕ) : |(rneNat x : ℚ) - x| ≤ |(n : ℚ) - x| := by
  have h1 : (⌊x⌋₊ : ℚ) ≤ x := Nat.floor_le hx
  have h2 : x < ⌊x⌋₊ + 1 := Nat.lt_floor_add_one x
  have hn : (n : ℚ) ≤ ⌊x⌋₊ ∨ (⌊x⌋₊ : ℚ) + 1 ≤ n := by
    rcases Nat.lt_or_ge ⌊x⌋₊ n with h | h
    · right; exact_mod_cast h
    · left; exact_mod_cast h
  unfold rneNat
  simp only
  split_ifs <;> push_cast <;> rcases hn with hn | hn <;>
    (rw [abs_le]; constructor <;>
      first
      | (rw [abs_of_nonpos (by linarith)]; linarith)
      | (rw [abs_of_nonneg (by linarith)]; linarith))

theorem rneNat_tie {x : ℚ} (hx : 0 ≤ x) {n : ℕ} (hne : n ≠ rneNat x)
    (h : |(rneNat x : ℚ) - x| = |(n : ℚ) - x|) : rneNat x % 2 = 0 := by
  have h1 : (⌊x⌋₊ : ℚ) ≤ x := Nat.floor_le hx
  have h2 : x < ⌊x⌋₊ + 1 := Nat.lt_floor_add_one x
  have hn : (n : ℚ) ≤ ⌊x⌋₊ ∨ (⌊x⌋₊ : ℚ) + 1 ≤ n := by
    rcases Nat.lt_or_ge ⌊x⌋₊ n with h | h
    · right; exact_mod_cast h
    · left; exact_mod_cast h
  unfold rneNat at *
  simp only at *
  split_ifs at * with c1 c2 c3
  · exfalso
    rw [abs_of_nonpos (by linarith)] at h
    rcases hn with hn | hn
    · rw [abs_of_nonpos (by linarith)] at h
      exact hne (by have : (n : ℚ) = ⌊x⌋₊ := by linarith
                    exact_mod_cast this)
    · rw [abs_of_nonneg (by linarith)] at h
      linarith
  · exfalso
    push_cast at h
    rw [abs_of_nonneg (by linarith)] at h
    rcases hn with hn | hn
    · rw [abs_of_nonpos (by linarith)] at h
      linarith
    · rw [abs_of_nonneg (by linarith)] at h
      exact hne (by have : (n : ℚ) = ⌊x⌋₊ + 1 := by linarith
                    exact_mod_cast this)
  · exact c3
  · omega

/-- A representable number, measured in units of the last place of `q`, is whole or too small to matter. -/
theorem grid {q r : ℚ} (hq : 0 < q) (hr : Rep r) :
    (∃ n : ℕ, r * 2 ^ bias / 2 ^ expIdx q = n) ∨
    (r * 2 ^ bias / 2 ^ expIdx q < 2 ^ 52 ∧ 2 ^ 52 ≤ q * 2 ^ bias / 2 ^ expIdx q) := by
  obtain ⟨n, j, hn, hR⟩ := hr
  set k := expIdx q with hk
  have hK : (0 : ℚ) < 2 ^ k := by positivity
  rcases Nat.lt_or_ge j k with h | h
  · right
    constructor
    · rw [div_lt_iff₀ hK, hR]
      have h1 : (n : ℚ) < 2 ^ 53 := by exact_mod_cast hn
      have h2 : (2 : ℚ) ^ (j + 1) ≤ 2 ^ k := pow_le_pow_right₀ (by norm_num) h
      have h3 : (0 : ℚ) < 2 ^ j := by positivity
      rw [pow_succ] at h2
      nlinarith
    · rw [le_div_iff₀ hK]
      exact expIdx_lower hq (by omega)
  · left
    refine ⟨n * 2 ^ (j - k), ?_⟩
    rw [hR, div_eq_iff hK.ne']
    push_cast
    rw [mul_assoc, ← pow_add, Nat.sub_add_cancel h]

/-- `v` has an even significand in the binary64 format. -/
def EvenSig (v : ℚ) : Prop :=
  ∃ m k : ℕ, |v| * 2 ^ 1074 = m * 2 ^ k ∧ m < 2 ^ 53 ∧ (2 ^ 52 ≤ m ∨ k = 0) ∧ m % 2 = 0

theorem rmag_nearest {q r : ℚ} (hq : 0 < q) (hr : Rep r) :
    |rmag q - q| ≤ |r - q| ∧ (r ≠ rmag q → |rmag q - q| = |r - q| → EvenSig (rmag q)) := by
  set k := expIdx q with hk
  have hK : (0 : ℚ) < 2 ^ k := by positivity
  have hB : (0 : ℚ) < 2 ^ bias := by positivity
  set x := q * 2 ^ bias / 2 ^ k with hx
  have hx0 : 0 ≤ x := scaled_nonneg hq.le k
  set ρ := r * 2 ^ bias / 2 ^ k with hρ
  set u : ℚ := 2 ^ k / 2 ^ bias with hu
  have hu0 : 0 < u := by positivity
  have eq : q = x * u := by rw [hx, hu]; field_simp
  have er : r = ρ * u := by rw [hρ, hu]; field_simp
  have em : rmag q = (rneNat x : ℚ) * u := by
    unfold rmag
    rw [← hk, ← hx, hu]
    ring
  have e1 : |rmag q - q| = |(rneNat x : ℚ) - x| * u := by
    rw [em]
    conv_lhs => rw [eq]
    rw [← sub_mul, abs_mul, abs_of_pos hu0]
  have e2 : |r - q| = |ρ - x| * u := by
    rw [er]
    conv_lhs => rw [eq]
    rw [← sub_mul, abs_mul, abs_of_pos hu0]
  rw [e1, e2]
  rcases grid hq hr with ⟨n, hn⟩ | ⟨h1, h2⟩
  · rw [← hk, ← hρ] at hn
    rw [hn]
    refine ⟨mul_le_mul_of_nonneg_right (rneNat_nearest hx0 n) hu0.le, ?_⟩
    intro hne hEq
    have hEq' := mul_right_cancel₀ hu0.ne' hEq
    have hev := rneNat_tie hx0 (n := n) (by
      rintro rfl
      apply hne
      rw [er, em, hn]) hEq'
    have hle : rneNat x ≤ 2 ^ 53 := rneNat_scaled_le hq.le
    have hv : |rmag q| * 2 ^ 1074 = (rneNat x : ℚ) * 2 ^ k := by
      rw [abs_of_nonneg (rmag_nonneg q), em, hu]
      show (rneNat x : ℚ) * (2 ^ k / 2 ^ bias) * 2 ^ bias = _
      field_simp
    rcases Nat.lt_or_ge (rneNat x) (2 ^ 53) with h | h
    · refine ⟨rneNat x, k, hv, h, ?_, hev⟩
      rcases Nat.eq_zero_or_pos k with h0 | h0
      · right; exact h0
      · left
        apply le_rneNat_of_le
        rw [hx, le_div_iff₀ hK]
        push_cast
        exact expIdx_lower hq h0
    · have he : rneNat x = 2 ^ 53 := le_antisymm hle h
      refine ⟨2 ^ 52, k + 1, ?_, by norm_num, .inl (_root_.le_refl _), by norm_num⟩
      rw [hv, he]
      push_cast
      ring
  · rw [← hk, ← hρ] at h1
    rw [← hk, ← hx] at h2
    have h3 := rneNat_nearest hx0 (2 ^ 52)
    rw [show ((2 ^ 52 : ℕ) : ℚ) = 2 ^ 52 by norm_num,
      abs_of_nonpos (a := (2 : ℚ) ^ 52 - x) (by linarith)] at h3
    have h4 : |(rneNat x : ℚ) - x| < |ρ - x| := by
      rw [abs_of_nonpos (a := ρ - x) (by linarith)]
      linarith
    exact ⟨mul_le_mul_of_nonneg_right h4.le hu0.le, fun _ hEq => absurd (mul_right_cancel₀ hu0.ne' hEq) h4.ne⟩

/-- The significand of a number with a normal spelling. -/
theorem even_of_sig {v : ℚ} {n k : ℕ} (hv : |v| * 2 ^ 1074 = n * 2 ^ k) (hn : 2 ^ 52 ≤ n ∨ k = 0)
    (h : EvenSig v) : n % 2 = 0 := by
  obtain ⟨m, j, hm, hm53, -, hev⟩ := h
  rw [hv] at hm
  have he : n * 2 ^ k = m * 2 ^ j := by exact_mod_cast hm
  rcases Nat.lt_trichotomy j k with hlt | heq | hgt
  · exfalso
    obtain ⟨i, rfl⟩ : ∃ i, k = j + (i + 1) := ⟨k - j - 1, by omega⟩
    have h2 : 2 ^ 52 ≤ n := by
      rcases hn with h | h
      · exact h
      · omega
    have h3 : n * 2 ^ (i + 1) = m := by
      have : n * 2 ^ (i + 1) * 2 ^ j = m * 2 ^ j := by rw [← he]; ring
      exact Nat.eq_of_mul_eq_mul_right (by positivity) this
    have h4 : 2 ^ 1 ≤ 2 ^ (i + 1) := Nat.pow_le_pow_right (by norm_num) (by omega)
    have h5 : 2 ^ 52 * 2 ^ 1 ≤ n * 2 ^ (i + 1) := Nat.mul_le_mul h2 h4
    omega
  · subst heq
    rw [Nat.eq_of_mul_eq_mul_right (by positivity) he]
    exact hev
  · obtain ⟨i, rfl⟩ : ∃ i, j = k + (i + 1) := ⟨j - k - 1, by omega⟩
    have h3 : n = m * 2 ^ (i + 1) := by
      have : n * 2 ^ k = m * 2 ^ (i + 1) * 2 ^ k := by rw [he]; ring
      exact Nat.eq_of_mul_eq_mul_right (by positivity) this
    rw [h3, pow_succ, ← mul_assoc]
    omega

/-- Of two equally near numbers only one has an even significand. -/
theorem rmag_unique {q r : ℚ} (hq : 0 < q) (hr : Rep r) (hne : r ≠ rmag q)
    (hEq : |rmag q - q| = |r - q|) : ¬ EvenSig r := by
  intro hev
  have hev' := (rmag_nearest hq hr).2 hne hEq
  set k := expIdx q with hk
  have hK : (0 : ℚ) < 2 ^ k := by positivity
  have hB : (0 : ℚ) < 2 ^ bias := by positivity
  set x := q * 2 ^ bias / 2 ^ k with hx
  have hx0 : 0 ≤ x := scaled_nonneg hq.le k
  set u : ℚ := 2 ^ k / 2 ^ bias with hu
  have hu0 : 0 < u := by positivity
  have eq : q = x * u := by rw [hx, hu]; field_simp
  have em : rmag q = (rneNat x : ℚ) * u := by
    unfold rmag
    rw [← hk, ← hx, hu]
    ring
  have hsum : r + rmag q = 2 * q := by
    rcases abs_eq_abs.mp hEq with h | h
    · exact absurd (by linarith) hne
    · linarith
  have hx53 : x < 2 ^ 53 := by
    rw [hx, div_lt_iff₀ hK]
    exact expIdx_upper
  have hx52 : k ≠ 0 → (2 : ℚ) ^ 52 ≤ x := by
    intro h0
    rw [hx, le_div_iff₀ hK]
    exact expIdx_lower hq (by omega)
  rcases grid hq hr with ⟨n, hn⟩ | ⟨h1, h2⟩
  · rw [← hk] at hn
    have er : r = (n : ℚ) * u := by rw [← hn, hu]; field_simp
    have hsum' : (n : ℚ) + rneNat x = 2 * x := by
      have : ((n : ℚ) + rneNat x) * u = (2 * x) * u := by
        rw [add_mul, ← er, ← em, hsum]
        conv_lhs => rw [eq]
        ring
      exact mul_right_cancel₀ hu0.ne' this
    have hnN : n ≠ rneNat x := by
      intro h
      apply hne
      rw [er, em, h]
    have h1 := rneNat_sub_le hx0
    have h2 := sub_rneNat_le (x := x)
    have hd1 : (n : ℚ) ≤ rneNat x + 1 := by linarith
    have hd2 : (rneNat x : ℚ) ≤ n + 1 := by linarith
    have hd1' : n ≤ rneNat x + 1 := by exact_mod_cast hd1
    have hd2' : rneNat x ≤ n + 1 := by exact_mod_cast hd2
    have sig : ∀ j : ℕ, (j : ℚ) * u * 2 ^ 1074 = j * 2 ^ k := by
      intro j
      rw [hu]
      show (j : ℚ) * (2 ^ k / 2 ^ bias) * 2 ^ bias = _
      field_simp
    have big : ∀ j : ℕ, k ≠ 0 → (x - 1 / 2 ≤ j) → 2 ^ 52 ≤ j := by
      intro j h0 hj
      have h3 := hx52 h0
      have h4 : (2 : ℚ) ^ 52 < j + 1 := by linarith
      have h5 : 2 ^ 52 < j + 1 := by exact_mod_cast h4
      omega
    have key : ∀ j : ℕ, x - 1 / 2 ≤ j → EvenSig ((j : ℚ) * u) → j % 2 = 0 := by
      intro j hj hs
      refine even_of_sig (k := k) ?_ ?_ hs
      · have hj0 : (0 : ℚ) ≤ (j : ℚ) * u := mul_nonneg (Nat.cast_nonneg j) hu0.le
        rw [abs_of_nonneg hj0]
        exact sig j
      · by_cases h0 : k = 0
        · exact .inr h0
        · exact .inl (big j h0 hj)
    have p1 := key n (by linarith) (er ▸ hev)
    have p2 := key (rneNat x) (by linarith) (em ▸ hev')
    omega
  · rw [← hk] at h1
    rw [← hk, ← hx] at h2
    have h3 := rneNat_nearest hx0 (2 ^ 52)
    rw [show ((2 ^ 52 : ℕ) : ℚ) = 2 ^ 52 by norm_num,
      abs_of_nonpos (a := (2 : ℚ) ^ 52 - x) (by linarith)] at h3
    have h4 := (abs_le.mp h3).2
    have er : r = r * 2 ^ bias / 2 ^ k * u := by rw [hu]; field_simp
    generalize r * 2 ^ bias / 2 ^ k = ρ at h1 er
    have hsum' : ρ + rneNat x = 2 * x := by
      have : (ρ + rneNat x) * u = (2 * x) * u := by
        rw [add_mul, ← er, ← em, hsum]
        conv_lhs => rw [eq]
        ring
      exact mul_right_cancel₀ hu0.ne' this
    linarith

theorem rq_neg (q : ℚ) : rq (-q) = -rq q := by
  unfold rq
  rcases lt_trichotomy q 0 with h | h | h
  · rw [if_pos h, if_neg (show ¬ -q < 0 by linarith), neg_neg]
  · subst h; simp [rmag_zero]
  · rw [if_pos (show -q < 0 by linarith), if_neg (show ¬ q < 0 by linarith), neg_neg]

theorem EvenSig.neg {v : ℚ} (h : EvenSig v) : EvenSig (-v) := by
  unfold EvenSig at *
  rwa [abs_neg]

theorem rep_zero : Rep 0 := ⟨0, 0, by norm_num, by simp⟩

theorem rq_nearest_pos {q r : ℚ} (hq : 0 < q) (hr : SRep r) :
    |rq q - q| ≤ |r - q| ∧ (r ≠ rq q → |rq q - q| = |r - q| → EvenSig (rq q)) := by
  have e : rq q = rmag q := by unfold rq; rw [if_neg (by linarith)]
  rw [e]
  rcases le_or_gt 0 r with h | h
  · unfold SRep at hr
    rw [abs_of_nonneg h] at hr
    exact rmag_nearest hq hr
  · have h1 := (rmag_nearest hq rep_zero).1
    have h2 : |rmag q - q| < |r - q| := by
      refine _root_.lt_of_le_of_lt h1 ?_
      rw [abs_of_neg (by linarith), abs_of_neg (by linarith)]
      linarith
    exact ⟨h2.le, fun _ h3 => absurd h3 h2.ne⟩

/-- No representable number is nearer than the rounded one, and of two equally near ones the even one is taken. -/
theorem rq_nearest {q r : ℚ} (hr : SRep r) :
    |rq q - q| ≤ |r - q| ∧ (r ≠ rq q → |rq q - q| = |r - q| → EvenSig (rq q)) := by
  rcases lt_trichotomy q 0 with h | h | h
  · have hr' : SRep (-r) := by unfold SRep at *; rwa [abs_neg]
    have h1 := rq_nearest_pos (q := -q) (by linarith) hr'
    have e1 : |rq (-q) - -q| = |rq q - q| := by
      rw [rq_neg, show -rq q - -q = -(rq q - q) by ring, abs_neg]
    have e2 : |-r - -q| = |r - q| := by rw [show -r - -q = -(r - q) by ring, abs_neg]
    rw [e1, e2, rq_neg] at h1
    refine ⟨h1.1, fun hne hEq => ?_⟩
    have := (h1.2 (fun hc => hne (neg_injective hc)) hEq).neg
    rwa [neg_neg] at this
  · subst h
    have e : rq 0 = 0 := le_antisymm (rq_nonpos (_root_.le_refl _)) (rq_nonneg (_root_.le_refl _))
    rw [e]
    constructor
    · simp
    · intro hne hEq
      rw [sub_zero, sub_zero, abs_zero] at hEq
      exact absurd (abs_eq_zero.mp hEq.symm) hne
  · exact rq_nearest_pos h hr

theorem rq_unique_pos {q r : ℚ} (hq : 0 < q) (hr : SRep r) (hne : r ≠ rq q)
    (hEq : |rq q - q| = |r - q|) : ¬ EvenSig r := by
  have e : rq q = rmag q := by unfold rq; rw [if_neg (show ¬ q < 0 by linarith)]
  rw [e] at hne hEq
  rcases le_or_gt 0 r with h | h
  · unfold SRep at hr
    rw [abs_of_nonneg h] at hr
    exact rmag_unique hq hr hne hEq
  · exfalso
    have h1 := (rmag_nearest hq rep_zero).1
    rw [hEq, abs_of_neg (by linarith), abs_of_neg (by linarith)] at h1
    linarith

theorem rq_unique {q r : ℚ} (hr : SRep r) (hne : r ≠ rq q) (hEq : |rq q - q| = |r - q|) : ¬ EvenSig r := by
  rcases lt_trichotomy q 0 with h | h | h
  · have hr' : SRep (-r) := by unfold SRep at *; rwa [abs_neg]
    have h1 := rq_unique_pos (q := -q) (by linarith) hr'
      (by rw [rq_neg]; exact fun hc => hne (neg_injective hc))
      (by
        rw [rq_neg, show -rq q - -q = -(rq q - q) by ring, show -r - -q = -(r - q) by ring, abs_neg, abs_neg]
        exact hEq)
    exact fun hc => h1 hc.neg
  · exfalso
    subst h
    have e : rq 0 = 0 := le_antisymm (rq_nonpos (_root_.le_refl _)) (rq_nonneg (_root_.le_refl _))
    rw [e, sub_zero, sub_zero, abs_zero] at hEq
    rw [e] at hne
    exact hne (abs_eq_zero.mp hEq.symm)
  · exact rq_unique_pos h hr hne hEq

/-! ### Size of the error -/

theorem rmag_error {q : ℚ} (hq : 0 < q) : |rmag q - q| ≤ q / 2 ^ 53 ∨ |rmag q - q| ≤ 1 / 2 ^ 1075 ∧ q < 1 / 2 ^ 1021 := by
  have h1 := abs_rmag_sub_le hq (expIdx_upper (q := q))
  have hB : (0 : ℚ) < 2 ^ bias := by positivity
  rcases Nat.eq_zero_or_pos (expIdx q) with h0 | h0
  · right
    have h2 := expIdx_upper (q := q)
    rw [h0] at h1 h2
    constructor
    · refine h1.trans (le_of_eq ?_)
      rw [pow_zero, div_div, ← pow_succ]
      rfl
    · have e : (2 : ℚ) ^ bias = 2 ^ 53 * 2 ^ 1021 := by rw [← pow_add]; rfl
      rw [e, pow_zero, mul_one, _root_.mul_comm ((2 : ℚ) ^ 53), ← mul_assoc] at h2
      rw [lt_div_iff₀ (by positivity)]
      exact lt_of_mul_lt_mul_right (by rwa [one_mul]) (by positivity : (0 : ℚ) ≤ 2 ^ 53)
  · left
    have h2 := expIdx_lower hq h0
    refine h1.trans ?_
    rw [div_div, div_le_div_iff₀ (by positivity) (by positivity)]
    generalize (2 : ℚ) ^ expIdx q = A at *
    generalize (2 : ℚ) ^ bias = B at *
    nlinarith

/-! ### Overflow -/

/-- The largest number and half a unit of its last place. -/
def top : ℚ := 2 ^ 1024 - 2 ^ 970

theorem top_pos : 0 < top := by
  unfold top
  have : (2 : ℚ) ^ 970 < 2 ^ 1024 := pow_lt_pow_right₀ (by norm_num) (by norm_num)
  exact sub_pos.mpr this

theorem top_scaled : top * 2 ^ bias = (2 ^ 53 - 1 / 2) * 2 ^ 2045 := by
  unfold top
  have h1 : (2 : ℚ) ^ 1024 * 2 ^ bias = 2 ^ 53 * 2 ^ 2045 := by rw [← pow_add, ← pow_add]; rfl
  have h2 : (2 : ℚ) ^ 970 * 2 ^ bias = 2 ^ 2044 := by rw [← pow_add]; rfl
  have h3 : (2 : ℚ) ^ 2045 = 2 * 2 ^ 2044 := by rw [← pow_succ']
  rw [sub_mul, sub_mul, h1, h2, h3]
  generalize (2 : ℚ) ^ 2044 = C
  ring

theorem expIdx_top : expIdx top = 2045 := by
  apply le_antisymm
  · apply expIdx_le top_pos
    rw [top_scaled]
    exact mul_lt_mul_of_pos_right (by norm_num) (by positivity)
  · by_contra h
    have h1 := expIdx_upper (q := top)
    rw [top_scaled] at h1
    have h2 : (2 : ℚ) ^ (expIdx top + 1) ≤ 2 ^ 2045 := pow_le_pow_right₀ (by norm_num) (by omega)
    rw [pow_succ] at h2
    have h3 : (0 : ℚ) < 2 ^ expIdx top := by positivity
    generalize (2 : ℚ) ^ expIdx top = A at *
    generalize (2 : ℚ) ^ 2045 = C at *
    nlinarith

theorem rneNat_top : rneNat (2 ^ 53 - 1 / 2) = 2 ^ 53 := by
  have hf : ⌊((2 : ℚ) ^ 53 - 1 / 2)⌋₊ = 2 ^ 53 - 1 := by
    rw [Nat.floor_eq_iff (by norm_num)]
    constructor <;> norm_num
  unfold rneNat
  simp only [hf]
  norm_num

theorem two_1024 : (2 : ℚ) ^ 53 * 2 ^ 2045 / 2 ^ bias = 2 ^ 1024 := by
  rw [← pow_add, div_eq_iff (by positivity), ← pow_add]
  rfl

theorem rmag_top : rmag top = 2 ^ 1024 := by
  unfold rmag
  have h : (2 ^ 53 - 1 / 2 : ℚ) * 2 ^ 2045 / 2 ^ 2045 = 2 ^ 53 - 1 / 2 :=
    mul_div_cancel_right₀ _ (by positivity)
  rw [expIdx_top, top_scaled, h, rneNat_top]
  push_cast
  exact two_1024

/-- Rounding overflows exactly from there on. -/
theorem overflow_iff {q : ℚ} (hq : 0 ≤ q) : (2 : ℚ) ^ 1024 ≤ rmag q ↔ top ≤ q := by
  constructor
  · intro h
    by_contra hc
    push Not at hc
    rcases eq_or_lt_of_le hq with h0 | h0
    · rw [← h0, rmag_zero] at h
      exact absurd h (not_le.mpr (by positivity))
    have hk : expIdx q ≤ 2045 := by
      apply expIdx_le h0
      have h1 : q * 2 ^ bias < top * 2 ^ bias := mul_lt_mul_of_pos_right hc (by positivity)
      rw [top_scaled] at h1
      exact _root_.lt_of_lt_of_le h1 (mul_le_mul_of_nonneg_right (by norm_num) (by positivity))
    have hB : (0 : ℚ) < 2 ^ bias := by positivity
    rw [← two_1024] at h
    unfold rmag at h
    rw [div_le_div_iff_of_pos_right hB] at h
    have hle : rneNat (q * 2 ^ bias / 2 ^ expIdx q) ≤ 2 ^ 53 := rneNat_scaled_le hq
    have hle' : (rneNat (q * 2 ^ bias / 2 ^ expIdx q) : ℚ) ≤ 2 ^ 53 := by exact_mod_cast hle
    rcases Nat.lt_or_ge (expIdx q) 2045 with h1 | h1
    · have h2 : (2 : ℚ) ^ (expIdx q + 1) ≤ 2 ^ 2045 := pow_le_pow_right₀ (by norm_num) h1
      rw [pow_succ] at h2
      have h3 : (0 : ℚ) < 2 ^ expIdx q := by positivity
      generalize (2 : ℚ) ^ expIdx q = A at *
      generalize (2 : ℚ) ^ 2045 = C at *
      nlinarith
    · have he : expIdx q = 2045 := le_antisymm hk h1
      rw [he] at h hle hle'
      have h2 := le_of_mul_le_mul_right h (by positivity)
      have h3 : (rneNat (q * 2 ^ bias / 2 ^ 2045) : ℚ) = 2 ^ 53 := _root_.le_antisymm hle' h2
      have h4 : q * 2 ^ bias / 2 ^ 2045 < 2 ^ 53 - 1 / 2 := by
        rw [div_lt_iff₀ (by positivity), ← top_scaled]
        exact mul_lt_mul_of_pos_right hc hB
      have h5 := rneNat_sub_le (scaled_nonneg hq 2045)
      rw [h3] at h5
      generalize q * 2 ^ bias / 2 ^ 2045 = x at h4 h5
      linarith
  · intro h
    have := rmag_mono top_pos.le h
    rwa [rmag_top] at this

end F64
end Lcms
