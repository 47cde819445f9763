import Verif.Model.Float64
import Mathlib.Tactic.Linarith
import Mathlib.Tactic.Positivity
import Mathlib.Tactic.Ring
import Mathlib.Tactic.FieldSimp
import Mathlib.Tactic.NormNum

namespace Lcms.F64

/-! ### `rneNat` -/

theorem rneNat_le_of_le {x : ℚ} (hx : 0 ≤ x) {n : ℕ} (h : x ≤ n) : rneNat x ≤ n := by
  have h1 : (⌊x⌋₊ : ℚ) ≤ x := Nat.floor_le hx
  have h2 : ⌊x⌋₊ ≤ n := by exact_mod_cast h1.trans h
  unfold rneNat
  simp only
  rcases Nat.lt_or_ge ⌊x⌋₊ n with h3 | h3
  · split_ifs <;> omega
  · have h4 : ⌊x⌋₊ = n := le_antisymm h2 h3
    have h5 : x - ⌊x⌋₊ < 1 / 2 := by rw [h4]; linarith
    rw [if_pos h5]; exact h2

theorem le_rneNat_of_le {x : ℚ} {n : ℕ} (h : (n : ℚ) ≤ x) : n ≤ rneNat x := by
  have h2 : n ≤ ⌊x⌋₊ := Nat.le_floor h
  unfold rneNat
  simp only
  split_ifs <;> omega

theorem rneNat_natCast (n : ℕ) : rneNat (n : ℚ) = n :=
  le_antisymm (rneNat_le_of_le (by positivity) le_rfl) (le_rneNat_of_le le_rfl)

theorem rneNat_sub_le {x : ℚ} (hx : 0 ≤ x) : (rneNat x : ℚ) - x ≤ 1 / 2 := by
  have h1 : (⌊x⌋₊ : ℚ) ≤ x := Nat.floor_le hx
  unfold rneNat
  simp only
  split_ifs <;> push_cast <;> linarith

theorem sub_rneNat_le {x : ℚ} : x - (rneNat x : ℚ) ≤ 1 / 2 := by
  have h1 : x < ⌊x⌋₊ + 1 := Nat.lt_floor_add_one x
  unfold rneNat
  simp only
  split_ifs <;> push_cast <;> linarith

theorem rneNat_mono {x y : ℚ} (hx : 0 ≤ x) (h : x ≤ y) : rneNat x ≤ rneNat y := by
  have h1 : (⌊x⌋₊ : ℚ) ≤ x := Nat.floor_le hx
  have h2 : y < ⌊y⌋₊ + 1 := Nat.lt_floor_add_one y
  have h3 : ⌊x⌋₊ ≤ ⌊y⌋₊ := Nat.floor_le_floor h
  rcases Nat.lt_or_ge ⌊x⌋₊ ⌊y⌋₊ with h4 | h4
  · have : rneNat x ≤ ⌊x⌋₊ + 1 := by
      unfold rneNat; simp only; split_ifs <;> omega
    have : ⌊y⌋₊ ≤ rneNat y := by
      unfold rneNat; simp only; split_ifs <;> omega
    omega
  · have h5 : ⌊x⌋₊ = ⌊y⌋₊ := le_antisymm h3 h4
    unfold rneNat
    simp only [h5]
    split_ifs <;> first | omega | (exfalso; linarith)

/-! ### The exponent index -/

theorem two_zpow_log_le {q : ℚ} (hq : 0 < q) : (2 : ℚ) ^ Int.log 2 q ≤ q := by
  have := Int.zpow_log_le_self (b := 2) (r := q) (by norm_num) hq
  exact_mod_cast this

theorem lt_two_zpow_log {q : ℚ} : q < (2 : ℚ) ^ (Int.log 2 q + 1) := by
  have := Int.lt_zpow_succ_log_self (b := 2) (by norm_num) q
  exact_mod_cast this

theorem bias_cast : (bias : ℤ) = 1074 := rfl

theorem expIdx_upper {q : ℚ} : q * 2 ^ bias < 2 ^ 53 * 2 ^ expIdx q := by
  have h1 := lt_two_zpow_log (q := q)
  have h2 : Int.log 2 q + 1 + bias ≤ 53 + (expIdx q : ℤ) := by
    have := Int.self_le_toNat (Int.log 2 q + 1022)
    have hb := bias_cast
    unfold expIdx; omega
  calc q * 2 ^ bias < (2 : ℚ) ^ (Int.log 2 q + 1) * 2 ^ bias := by
        apply mul_lt_mul_of_pos_right h1; positivity
    _ = (2 : ℚ) ^ (Int.log 2 q + 1 + bias) := by
        rw [zpow_add₀ (by norm_num) _ (bias : ℤ), zpow_natCast]
    _ ≤ (2 : ℚ) ^ (53 + (expIdx q : ℤ)) := zpow_le_zpow_right₀ (by norm_num) h2
    _ = 2 ^ 53 * 2 ^ expIdx q := by
        rw [zpow_add₀ (by norm_num), zpow_natCast]; norm_num

theorem expIdx_lower {q : ℚ} (hq : 0 < q) (hk : 0 < expIdx q) :
    2 ^ 52 * 2 ^ expIdx q ≤ q * 2 ^ bias := by
  have h1 := two_zpow_log_le hq
  have h2 : 52 + (expIdx q : ℤ) = Int.log 2 q + bias := by
    have hb := bias_cast
    unfold expIdx at hk ⊢; omega
  calc (2 : ℚ) ^ 52 * 2 ^ expIdx q = (2 : ℚ) ^ (52 + (expIdx q : ℤ)) := by
        rw [zpow_add₀ (by norm_num), zpow_natCast]; norm_num
    _ = (2 : ℚ) ^ (Int.log 2 q + bias) := by rw [h2]
    _ = (2 : ℚ) ^ (Int.log 2 q) * 2 ^ bias := by
        rw [zpow_add₀ (by norm_num) _ (bias : ℤ), zpow_natCast]
    _ ≤ q * 2 ^ bias := by apply mul_le_mul_of_nonneg_right h1; positivity

/-- `expIdx` is the least index that fits. -/
theorem expIdx_le {q : ℚ} (hq : 0 < q) {j : ℕ} (h : q * 2 ^ bias < 2 ^ 53 * 2 ^ j) :
    expIdx q ≤ j := by
  by_contra hlt
  push Not at hlt
  have h1 := expIdx_lower hq (by omega)
  have h2 : (2 : ℚ) ^ (j + 1) ≤ 2 ^ expIdx q := pow_le_pow_right₀ (by norm_num) hlt
  have h3 : (2 : ℚ) ^ (j + 1) = 2 * 2 ^ j := by ring
  have : (0 : ℚ) < 2 ^ j := by positivity
  linarith

/-! ### Rounding a magnitude with unbounded exponent -/

/-- Rounded magnitude, before the overflow check. -/
def rmag (q : ℚ) : ℚ := (rneNat (q * 2 ^ bias / 2 ^ expIdx q) : ℚ) * 2 ^ expIdx q / 2 ^ bias

/-- A magnitude with a 53-bit significand (any exponent of at least `-1074`). -/
def Rep (q : ℚ) : Prop := ∃ n j : ℕ, n < 2 ^ 53 ∧ q * 2 ^ bias = n * 2 ^ j

theorem rmag_zero : rmag 0 = 0 := by
  unfold rmag
  have : rneNat 0 = 0 := by simpa using rneNat_natCast 0
  simp [this]

theorem scaled_nonneg {q : ℚ} (hq : 0 ≤ q) (k : ℕ) : 0 ≤ q * 2 ^ bias / 2 ^ k := by positivity

theorem rmag_nonneg (q : ℚ) : 0 ≤ rmag q := by unfold rmag; positivity

theorem le_rmag {q r : ℚ} (hr : Rep r) (h : r ≤ q) : r ≤ rmag q := by
  rcases le_or_gt q 0 with hq | hq
  · have h0 := rmag_nonneg q; linarith
  obtain ⟨n, j, hn, hR⟩ := hr
  have hB : (0 : ℚ) < 2 ^ bias := by positivity
  have hRQ : (n : ℚ) * 2 ^ j ≤ q * 2 ^ bias := by
    rw [← hR]; exact mul_le_mul_of_nonneg_right h hB.le
  unfold rmag
  rw [le_div_iff₀ hB, hR]
  set k := expIdx q with hk
  have hK : (0 : ℚ) < 2 ^ k := by positivity
  rcases Nat.lt_or_ge j k with hjk | hjk
  · have h1 := expIdx_lower hq (by omega)
    rw [← hk] at h1
    have h2 : 2 ^ 52 ≤ rneNat (q * 2 ^ bias / 2 ^ k) := by
      apply le_rneNat_of_le
      rw [le_div_iff₀ hK]; push_cast; exact h1
    have h3 : (2 : ℚ) ^ (j + 1) ≤ 2 ^ k := pow_le_pow_right₀ (by norm_num) hjk
    have h4 : (2 : ℚ) ^ (j + 1) = 2 * 2 ^ j := by ring
    have h5 : (n : ℚ) ≤ 2 ^ 53 := by exact_mod_cast hn.le
    have h6 : (2 : ℚ) ^ 52 ≤ (rneNat (q * 2 ^ bias / 2 ^ k) : ℚ) := by exact_mod_cast h2
    have hJ : (0 : ℚ) < 2 ^ j := by positivity
    calc (n : ℚ) * 2 ^ j ≤ 2 ^ 53 * 2 ^ j := by gcongr
      _ = 2 ^ 52 * (2 * 2 ^ j) := by ring
      _ ≤ 2 ^ 52 * 2 ^ k := by rw [← h4]; gcongr
      _ ≤ _ := by gcongr
  · obtain ⟨d, rfl⟩ := Nat.exists_eq_add_of_le hjk
    have h1 : (n : ℚ) * 2 ^ (k + d) = ((n * 2 ^ d : ℕ) : ℚ) * 2 ^ k := by push_cast; ring
    rw [h1] at hRQ ⊢
    have : n * 2 ^ d ≤ rneNat (q * 2 ^ bias / 2 ^ k) := by
      apply le_rneNat_of_le; rw [le_div_iff₀ hK]; exact hRQ
    gcongr

theorem rmag_le {q r : ℚ} (hq0 : 0 ≤ q) (hr : Rep r) (h : q ≤ r) : rmag q ≤ r := by
  rcases eq_or_lt_of_le hq0 with hq | hq
  · rw [← hq, rmag_zero]; linarith
  obtain ⟨n, j, hn, hR⟩ := hr
  have hB : (0 : ℚ) < 2 ^ bias := by positivity
  have hRQ : q * 2 ^ bias ≤ (n : ℚ) * 2 ^ j := by
    rw [← hR]; exact mul_le_mul_of_nonneg_right h hB.le
  unfold rmag
  rw [div_le_iff₀ hB, hR]
  have hjk : expIdx q ≤ j := by
    apply expIdx_le hq
    have h5 : (n : ℚ) < 2 ^ 53 := by exact_mod_cast hn
    have hJ : (0 : ℚ) < 2 ^ j := by positivity
    calc q * 2 ^ bias ≤ n * 2 ^ j := hRQ
      _ < _ := by gcongr
  set k := expIdx q with hk
  have hK : (0 : ℚ) < 2 ^ k := by positivity
  obtain ⟨d, rfl⟩ := Nat.exists_eq_add_of_le hjk
  have h1 : (n : ℚ) * 2 ^ (k + d) = ((n * 2 ^ d : ℕ) : ℚ) * 2 ^ k := by push_cast; ring
  rw [h1] at hRQ ⊢
  have : rneNat (q * 2 ^ bias / 2 ^ k) ≤ n * 2 ^ d := by
    apply rneNat_le_of_le (scaled_nonneg hq0 k); rw [div_le_iff₀ hK]; exact hRQ
  gcongr

theorem rmag_exact {q : ℚ} (hq0 : 0 ≤ q) (hr : Rep q) : rmag q = q :=
  le_antisymm (rmag_le hq0 hr le_rfl) (le_rmag hr le_rfl)

theorem rmag_mono {q r : ℚ} (hq : 0 ≤ q) (h : q ≤ r) : rmag q ≤ rmag r := by
  rcases eq_or_lt_of_le hq with hq | hq
  · rw [← hq, rmag_zero]; exact rmag_nonneg r
  have hB : (0 : ℚ) < 2 ^ bias := by positivity
  have hle : expIdx q ≤ expIdx r := by
    apply expIdx_le hq
    calc q * 2 ^ bias ≤ r * 2 ^ bias := by gcongr
      _ < _ := expIdx_upper
  rcases Nat.lt_or_ge (expIdx q) (expIdx r) with hlt | hge
  · -- separated by a power of two
    have h1 : Rep ((2 : ℚ) ^ 52 * 2 ^ (expIdx q + 1) / 2 ^ bias) := by
      refine ⟨2 ^ 52, expIdx q + 1, by norm_num, ?_⟩
      rw [div_mul_cancel₀ _ hB.ne']; norm_num
    have h2 : rmag q ≤ (2 : ℚ) ^ 52 * 2 ^ (expIdx q + 1) / 2 ^ bias := by
      apply rmag_le hq.le h1
      rw [le_div_iff₀ hB]
      have := expIdx_upper (q := q)
      have h3 : (2 : ℚ) ^ 52 * 2 ^ (expIdx q + 1) = 2 ^ 53 * 2 ^ expIdx q := by ring
      rw [h3]; exact this.le
    refine h2.trans (le_rmag h1 ?_)
    rw [div_le_iff₀ hB]
    have h3 := expIdx_lower (hq.trans_le h) (by omega)
    have h4 : (2 : ℚ) ^ (expIdx q + 1) ≤ 2 ^ expIdx r := pow_le_pow_right₀ (by norm_num) hlt
    calc (2 : ℚ) ^ 52 * 2 ^ (expIdx q + 1) ≤ 2 ^ 52 * 2 ^ expIdx r := by gcongr
      _ ≤ _ := h3
  · have heq : expIdx q = expIdx r := le_antisymm hle hge
    unfold rmag
    rw [heq]
    have : rneNat (q * 2 ^ bias / 2 ^ expIdx r) ≤ rneNat (r * 2 ^ bias / 2 ^ expIdx r) := by
      apply rneNat_mono (scaled_nonneg hq.le _)
      gcongr
    gcongr

/-- Rounding error: at most half a unit in the last place. -/
theorem abs_rmag_sub_le {q : ℚ} (hq : 0 < q) {j : ℕ} (h : q * 2 ^ bias < 2 ^ 53 * 2 ^ j) :
    |rmag q - q| ≤ 2 ^ j / 2 ^ bias / 2 := by
  have hk := expIdx_le hq h
  have hB : (0 : ℚ) < 2 ^ bias := by positivity
  set k := expIdx q with hkdef
  have hK : (0 : ℚ) < 2 ^ k := by positivity
  have hKJ : (2 : ℚ) ^ k ≤ 2 ^ j := pow_le_pow_right₀ (by norm_num) hk
  set x := q * 2 ^ bias / 2 ^ k with hx
  have hqx : q = x * 2 ^ k / 2 ^ bias := by rw [hx]; field_simp
  have h1 := rneNat_sub_le (x := x) (scaled_nonneg hq.le k)
  have h2 := sub_rneNat_le (x := x)
  have h3 : rmag q - q = ((rneNat x : ℚ) - x) * (2 ^ k / 2 ^ bias) := by
    have h6 : rmag q = (rneNat x : ℚ) * 2 ^ k / 2 ^ bias := rfl
    rw [h6]
    conv => lhs; rhs; rw [hqx]
    ring
  rw [h3, abs_mul]
  have h4 : |(rneNat x : ℚ) - x| ≤ 1 / 2 := abs_le.mpr ⟨by linarith, h1⟩
  have h5 : |(2 : ℚ) ^ k / 2 ^ bias| = 2 ^ k / 2 ^ bias := abs_of_pos (by positivity)
  rw [h5]
  calc |(rneNat x : ℚ) - x| * (2 ^ k / 2 ^ bias) ≤ 1 / 2 * (2 ^ j / 2 ^ bias) := by gcongr
    _ = _ := by ring

/-! ### Connecting the model's `roundMag` with `rmag` -/

theorem val_fin (s : Bool) (m : Fin (2 ^ 53)) (k : Fin 2046) :
    val (fin s m k) = some (if s then -(magVal m k) else magVal m k) := by
  cases s <;> rfl

theorem magVal_nonneg (m k : ℕ) : 0 ≤ magVal m k := by unfold magVal; positivity

theorem rep_magVal (m : Fin (2 ^ 53)) (k : ℕ) : Rep (magVal m k) := by
  refine ⟨m, k, m.isLt, ?_⟩
  unfold magVal; field_simp

theorem rneNat_scaled_le {q : ℚ} (hq : 0 ≤ q) : rneNat (q * 2 ^ bias / 2 ^ expIdx q) ≤ 2 ^ 53 := by
  apply rneNat_le_of_le (scaled_nonneg hq _)
  rw [div_le_iff₀ (by positivity)]
  push_cast
  exact expIdx_upper.le

/-- `roundMag` either yields the rounded magnitude or overflows to infinity, the latter only for
magnitudes whose rounding is at least `2^1024`. -/
theorem roundMag_cases (s : Bool) {q : ℚ} (hq : 0 ≤ q) :
    (∃ m k, roundMag s q = fin s m k ∧ magVal m k = rmag q) ∨
    (roundMag s q = inf s ∧ (2 : ℚ) ^ 1024 ≤ rmag q) := by
  rcases eq_or_lt_of_le hq with h0 | hpos
  · left
    refine ⟨0, 0, ?_, ?_⟩
    · unfold roundMag; rw [if_pos h0.symm]
    · rw [← h0, rmag_zero]; simp [magVal]
  have hne : q ≠ 0 := hpos.ne'
  have hm := rneNat_scaled_le hq
  have hB : (0 : ℚ) < 2 ^ bias := by positivity
  unfold roundMag
  rw [if_neg hne]
  simp only
  split_ifs with h1 h2
  · left; exact ⟨_, _, rfl, rfl⟩
  · left
    refine ⟨_, _, rfl, ?_⟩
    unfold magVal rmag
    rw [h2.1]
    simp only
    push_cast
    ring
  · right
    refine ⟨rfl, ?_⟩
    unfold rmag
    rw [le_div_iff₀ hB]
    set k := expIdx q with hk
    set m := rneNat (q * 2 ^ bias / 2 ^ k) with hmdef
    have hbias : (2 : ℚ) ^ 1024 * 2 ^ bias = 2 ^ 52 * 2 ^ 2046 := by
      rw [← pow_add, ← pow_add]; rfl
    rw [hbias]
    -- lower bound on the significand
    have hkpos : 0 < k := by
      by_contra h0
      have : k = 0 := by omega
      omega
    have hlow : 2 ^ 52 ≤ m := by
      apply le_rneNat_of_le
      rw [le_div_iff₀ (by positivity)]
      push_cast
      exact expIdx_lower hpos hkpos
    rcases Nat.lt_or_ge k 2046 with hk1 | hk1
    · have hm1 : m = 2 ^ 53 := by omega
      have hk2 : k = 2045 := by omega
      rw [hm1, hk2]; push_cast
      have : (2 : ℚ) ^ 2046 = 2 * 2 ^ 2045 := by rw [← pow_succ']
      rw [this]; apply le_of_eq; generalize (2 : ℚ) ^ 2045 = z; ring
    · have h3 : (2 : ℚ) ^ 2046 ≤ 2 ^ k := pow_le_pow_right₀ (by norm_num) hk1
      have h4 : (2 : ℚ) ^ 52 ≤ m := by exact_mod_cast hlow
      gcongr

/-! ### Signed rounding -/

/-- Signed rounding with unbounded exponent. -/
def rq (q : ℚ) : ℚ := if q < 0 then -(rmag (-q)) else rmag q

theorem rq_nonneg {q : ℚ} (h : 0 ≤ q) : 0 ≤ rq q := by
  unfold rq; rw [if_neg (not_lt.mpr h)]; exact rmag_nonneg q

theorem rq_nonpos {q : ℚ} (h : q ≤ 0) : rq q ≤ 0 := by
  unfold rq; split_ifs with h1
  · have := rmag_nonneg (-q); linarith
  · have : q = 0 := le_antisymm h (not_lt.mp h1)
    rw [this, rmag_zero]

theorem rq_mono {p q : ℚ} (h : p ≤ q) : rq p ≤ rq q := by
  unfold rq; split_ifs with h1 h2 h2
  · have := rmag_mono (q := -q) (r := -p) (by linarith) (by linarith); linarith
  · have := rmag_nonneg (-p); have := rmag_nonneg q; linarith
  · linarith
  · exact rmag_mono (not_lt.mp h1) h

/-- Representable rationals of either sign. -/
def SRep (q : ℚ) : Prop := Rep |q|

theorem rq_exact {q : ℚ} (h : SRep q) : rq q = q := by
  unfold rq; unfold SRep at h
  split_ifs with h1
  · rw [abs_of_neg h1] at h
    rw [rmag_exact (by linarith) h]; ring
  · rw [abs_of_nonneg (not_lt.mp h1)] at h
    exact rmag_exact (not_lt.mp h1) h

theorem le_rq {q r : ℚ} (hr : SRep r) (h : r ≤ q) : r ≤ rq q := by
  rw [← rq_exact hr]; exact rq_mono h

theorem rq_le {q r : ℚ} (hr : SRep r) (h : q ≤ r) : rq q ≤ r := by
  rw [← rq_exact hr]; exact rq_mono h

/-- A dyadic `n / 2^i` with at most 53 significant bits is representable. -/
theorem srep_dyadic (n : ℤ) (i : ℕ) (hi : i ≤ bias) (hn : n.natAbs < 2 ^ 53) :
    SRep ((n : ℚ) / 2 ^ i) := by
  refine ⟨n.natAbs, bias - i, hn, ?_⟩
  have h1 : |(n : ℚ) / 2 ^ i| = (n.natAbs : ℚ) / 2 ^ i := by
    rw [abs_div, abs_of_pos (a := (2 : ℚ) ^ i) (by positivity), Nat.cast_natAbs, Int.cast_abs]
  rw [h1]
  have h2 : (2 : ℚ) ^ bias = 2 ^ (bias - i) * 2 ^ i := by rw [← pow_add]; congr 1; omega
  rw [h2]; field_simp

theorem srep_int (n : ℤ) (hn : n.natAbs < 2 ^ 53) : SRep (n : ℚ) := by
  simpa using srep_dyadic n 0 (by omega) hn

/-- `round` agrees with `rq`, or overflows. -/
theorem round_cases (q : ℚ) :
    val (round q) = some (rq q) ∨
    (∃ s, round q = inf s ∧ (s = true ↔ q < 0) ∧ (2 : ℚ) ^ 1024 ≤ |rq q|) := by
  unfold round rq
  split_ifs with h
  · rcases roundMag_cases true (q := -q) (by linarith) with ⟨m, k, h1, h2⟩ | ⟨h1, h2⟩
    · left; rw [h1, val_fin, h2]; simp
    · right; refine ⟨true, h1, by simp [h], ?_⟩
      rw [abs_neg, abs_of_nonneg (rmag_nonneg _)]; exact h2
  · rcases roundMag_cases false (q := q) (not_lt.mp h) with ⟨m, k, h1, h2⟩ | ⟨h1, h2⟩
    · left; rw [h1, val_fin, h2]; simp
    · right; refine ⟨false, h1, by simp [h], ?_⟩
      rw [abs_of_nonneg (rmag_nonneg _)]; exact h2

theorem val_round_of_lt {q : ℚ} (h : |rq q| < 2 ^ 1024) : val (round q) = some (rq q) := by
  rcases round_cases q with h1 | ⟨s, _, _, h2⟩
  · exact h1
  · exact absurd h (not_lt.mpr h2)

/-- Exact results stay exact. -/
theorem val_round_exact {q : ℚ} (hr : SRep q) (h : |q| < 2 ^ 1024) : val (round q) = some q := by
  have := val_round_of_lt (q := q) (by rw [rq_exact hr]; exact h)
  rwa [rq_exact hr] at this

theorem val_eq_some {x : F64} {q : ℚ} (h : val x = some q) :
    ∃ s m k, x = fin s m k ∧ q = if s then -(magVal m k) else magVal m k := by
  cases x with
  | nan => simp [val] at h
  | inf s => simp [val] at h
  | fin s m k => exact ⟨s, m, k, rfl, by rw [val_fin] at h; exact (Option.some.inj h).symm⟩

theorem srep_of_val {x : F64} {q : ℚ} (h : val x = some q) : SRep q := by
  obtain ⟨s, m, k, rfl, rfl⟩ := val_eq_some h
  unfold SRep
  have : |if s then -(magVal m k) else magVal m k| = magVal m k := by
    split <;> simp [abs_of_nonneg (magVal_nonneg _ _)]
  rw [this]; exact rep_magVal m k

theorem two_pow_split : (2 : ℚ) ^ 2098 = 2 ^ 1024 * 2 ^ bias := by
  rw [← pow_add]; rfl

theorem abs_val_lt {x : F64} {q : ℚ} (h : val x = some q) : |q| < 2 ^ 1024 := by
  obtain ⟨s, m, k, rfl, rfl⟩ := val_eq_some h
  have : |if s then -(magVal m k) else magVal m k| = magVal m k := by
    split <;> simp [abs_of_nonneg (magVal_nonneg _ _)]
  rw [this]
  unfold magVal
  rw [div_lt_iff₀ (by positivity), ← two_pow_split]
  have h1 : ((m : ℕ) : ℚ) < 2 ^ 53 := by exact_mod_cast m.isLt
  have h2 : (2 : ℚ) ^ (k : ℕ) ≤ 2 ^ 2045 := pow_le_pow_right₀ (by norm_num) (by omega)
  calc ((m : ℕ) : ℚ) * 2 ^ (k : ℕ) < 2 ^ 53 * 2 ^ (k : ℕ) := by gcongr
    _ ≤ 2 ^ 53 * 2 ^ 2045 := by gcongr
    _ = 2 ^ 2098 := by rw [← pow_add]

theorem ratOf_fin {s : Bool} {m : Fin (2 ^ 53)} {k : Fin 2046} :
    val (fin s m k) = some (ratOf (fin s m k)) := by
  unfold ratOf; rw [val_fin]; rfl

/-! ### The arithmetic operations, on finite operands -/

theorem add_fin {x y : F64} {p q : ℚ} (hx : val x = some p) (hy : val y = some q) :
    val (add x y) = some (rq (p + q)) ∨
    (∃ s, add x y = inf s ∧ (s = true ↔ p + q < 0) ∧ (2 : ℚ) ^ 1024 ≤ |rq (p + q)|) := by
  obtain ⟨s, m, k, rfl, hp⟩ := val_eq_some hx
  obtain ⟨s', m', k', rfl, hq⟩ := val_eq_some hy
  have e1 : ratOf (fin s m k) = p := by unfold ratOf; rw [hx]; rfl
  have e2 : ratOf (fin s' m' k') = q := by unfold ratOf; rw [hy]; rfl
  unfold add
  simp only [e1, e2]
  split_ifs with h
  · left
    rw [h, val_fin]
    simp [magVal, rq, rmag_zero]
  · exact round_cases (p + q)

theorem add_exact {x y : F64} {p q : ℚ} (hx : val x = some p) (hy : val y = some q)
    (hr : SRep (p + q)) (h : |p + q| < 2 ^ 1024) : val (add x y) = some (p + q) := by
  rcases add_fin hx hy with h1 | ⟨s, _, _, h2⟩
  · rwa [rq_exact hr] at h1
  · rw [rq_exact hr] at h2; exact absurd h (not_lt.mpr h2)

theorem mul_fin {x y : F64} {p q : ℚ} (hx : val x = some p) (hy : val y = some q) :
    val (mul x y) = some (rq (p * q)) ∨
    (∃ s, mul x y = inf s ∧ (p * q ≠ 0 → (s = true ↔ p * q < 0)) ∧
      (2 : ℚ) ^ 1024 ≤ |rq (p * q)|) := by
  obtain ⟨s, m, k, rfl, hp⟩ := val_eq_some hx
  obtain ⟨s', m', k', rfl, hq⟩ := val_eq_some hy
  have hmk := magVal_nonneg m k
  have hmk' := magVal_nonneg m' k'
  have hpos : 0 ≤ magVal m k * magVal m' k' := mul_nonneg hmk hmk'
  have hprod : p * q = if (s != s') then -(magVal m k * magVal m' k')
      else magVal m k * magVal m' k' := by
    rw [hp, hq]; cases s <;> cases s' <;> simp
  have hrq : rq (p * q) = if (s != s') then -(rmag (magVal m k * magVal m' k'))
      else rmag (magVal m k * magVal m' k') := by
    rw [hprod]
    cases hs : (s != s')
    · simp only [Bool.false_eq_true, if_false]
      unfold rq; rw [if_neg (not_lt.mpr hpos)]
    · simp only [if_true]
      unfold rq
      split_ifs with h
      · rw [neg_neg]
      · have h0 : magVal m k * magVal m' k' = 0 := by linarith
        rw [h0]; simp [rmag_zero]
  have hmul : mul (fin s m k) (fin s' m' k') = roundMag (s != s') (magVal m k * magVal m' k') := rfl
  rw [hmul]
  rcases roundMag_cases (s != s') hpos with ⟨a, b, h1, h2⟩ | ⟨h1, h2⟩
  · left; rw [h1, val_fin, hrq, h2]
  · right
    refine ⟨_, h1, ?_, ?_⟩
    · intro hne
      rw [hprod] at hne ⊢
      cases hs : (s != s')
      · simp only [Bool.false_eq_true, if_false, false_iff, not_lt]; exact hpos
      · rw [hs] at hne
        simp only [if_true] at hne
        simp only [if_true, true_iff]
        rcases eq_or_lt_of_le hpos with h0 | h0
        · exact absurd (by rw [← h0]; simp) hne
        · linarith
    · rw [hrq]
      split <;> simp [abs_of_nonneg (rmag_nonneg _), h2]

theorem mul_exact {x y : F64} {p q : ℚ} (hx : val x = some p) (hy : val y = some q)
    (hr : SRep (p * q)) (h : |p * q| < 2 ^ 1024) : val (mul x y) = some (p * q) := by
  rcases mul_fin hx hy with h1 | ⟨s, _, _, h2⟩
  · rwa [rq_exact hr] at h1
  · rw [rq_exact hr] at h2; exact absurd h (not_lt.mpr h2)

theorem div_exact {x y : F64} {p q : ℚ} (hx : val x = some p) (hy : val y = some q) (hq0 : q ≠ 0)
    (hr : SRep (p / q)) (h : |p / q| < 2 ^ 1024) : val (div x y) = some (p / q) := by
  obtain ⟨s, m, k, rfl, hp⟩ := val_eq_some hx
  obtain ⟨s', m', k', rfl, hq⟩ := val_eq_some hy
  have hm' : (m' : ℕ) ≠ 0 := by
    intro h0
    apply hq0; rw [hq, h0]; simp [magVal]
  have hmk := magVal_nonneg m k
  have hmk' := magVal_nonneg m' k'
  have hpos : 0 ≤ magVal m k / magVal m' k' := div_nonneg hmk hmk'
  have hprod : p / q = if (s != s') then -(magVal m k / magVal m' k')
      else magVal m k / magVal m' k' := by
    rw [hp, hq]; cases s <;> cases s' <;> simp [neg_div, div_neg]
  have habs : |p / q| = magVal m k / magVal m' k' := by
    rw [hprod]; split <;> simp [abs_of_nonneg hpos]
  have hdiv : div (fin s m k) (fin s' m' k') = roundMag (s != s') (magVal m k / magVal m' k') := by
    unfold div; simp only [hm', if_false]
  unfold SRep at hr
  rw [habs] at hr h
  have hex := rmag_exact hpos hr
  rw [hdiv]
  rcases roundMag_cases (s != s') hpos with ⟨a, b, h1, h2⟩ | ⟨h1, h2⟩
  · rw [h1, val_fin, h2, hex, hprod]
  · rw [hex] at h2; exact absurd h (not_lt.mpr h2)

theorem val_ofRat_exact {q : ℚ} (hr : SRep q) (h : |q| < 2 ^ 1024) : val (ofRat q) = some q :=
  val_round_exact hr h

/-- The floor of a binary64 number is a binary64 number. -/
theorem srep_floor {q : ℚ} (h : SRep q) : SRep ((⌊q⌋ : ℤ) : ℚ) := by
  by_cases hsmall : (⌊q⌋).natAbs < 2 ^ 53
  · exact srep_int _ hsmall
  by_cases hint : (⌊q⌋ : ℚ) = q
  · rw [hint]; exact h
  -- a non-integer representable number is below 2^53 in magnitude
  have hfl : (⌊q⌋ : ℚ) ≤ q := Int.floor_le q
  have hfl2 : q < ⌊q⌋ + 1 := Int.lt_floor_add_one q
  obtain ⟨n, j, hn, hR⟩ := h
  have hj : j < bias := by
    by_contra hge
    push Not at hge
    apply hint
    obtain ⟨d, rfl⟩ := Nat.exists_eq_add_of_le hge
    have h1 : |q| = ((n * 2 ^ d : ℕ) : ℚ) := by
      have hB : (2 : ℚ) ^ bias ≠ 0 := by positivity
      apply mul_right_cancel₀ hB
      rw [hR]; push_cast; ring
    have : ∃ z : ℤ, q = z := by
      rcases abs_choice q with h2 | h2
      · exact ⟨(n * 2 ^ d : ℕ), by rw [← h2, h1]; push_cast; ring⟩
      · refine ⟨-((n * 2 ^ d : ℕ) : ℤ), ?_⟩
        have : q = -|q| := by rw [h2]; ring
        rw [this, h1]; push_cast; ring
    obtain ⟨z, rfl⟩ := this
    rw [Int.floor_intCast]
  have hlt : |q| < 2 ^ 53 := by
    have hB : (0 : ℚ) < 2 ^ bias := by positivity
    have h5 : (n : ℚ) < 2 ^ 53 := by exact_mod_cast hn
    have h6 : (2 : ℚ) ^ j ≤ 2 ^ bias := pow_le_pow_right₀ (by norm_num) hj.le
    have : |q| * 2 ^ bias < 2 ^ 53 * 2 ^ bias := by
      rw [hR]
      calc (n : ℚ) * 2 ^ j < 2 ^ 53 * 2 ^ j := by gcongr
        _ ≤ _ := by gcongr
    exact lt_of_mul_lt_mul_right this hB.le
  have hb := abs_lt.mp hlt
  -- then the floor is -2^53 exactly
  have hf1 : (-(2 ^ 53) : ℤ) ≤ ⌊q⌋ := by
    apply Int.le_floor.mpr; push_cast; linarith [hb.1]
  have hf2 : ⌊q⌋ < (2 ^ 53 : ℤ) := by
    apply Int.floor_lt.mpr; push_cast; exact hb.2
  have hf3 : ⌊q⌋ = -(2 ^ 53 : ℤ) := by omega
  rw [hf3]
  refine ⟨2 ^ 52, bias + 1, by norm_num, ?_⟩
  push_cast
  rw [abs_neg, abs_of_pos (by positivity)]
  ring

theorem floor_val {x : F64} {q : ℚ} (h : val x = some q) (hlt : |((⌊q⌋ : ℤ) : ℚ)| < 2 ^ 1024) :
    val (floor x) = some ((⌊q⌋ : ℤ) : ℚ) := by
  have hs := srep_floor (srep_of_val h)
  obtain ⟨s, m, k, rfl, hq⟩ := val_eq_some h
  have e1 : ratOf (fin s m k) = q := by unfold ratOf; rw [h]; rfl
  unfold floor
  simp only [e1]
  split_ifs with h0
  · rw [val_fin, h0]; simp [magVal]
  · exact val_round_exact hs hlt

/-- Clamp to the `i32` range. -/
def clampI32 (n : ℤ) : ℤ :=
  if n < -2147483648 then -2147483648 else if 2147483647 < n then 2147483647 else n

theorem toI32_val_int {x : F64} {n : ℤ} (h : val x = some (n : ℚ)) :
    (toI32 x).toInt = clampI32 n := by
  obtain ⟨s, m, k, rfl, hq⟩ := val_eq_some h
  have e1 : ratOf (fin s m k) = (n : ℚ) := by unfold ratOf; rw [h]; rfl
  unfold toI32
  simp only [e1]
  have e2 : (if (n : ℚ) < 0 then ⌈(n : ℚ)⌉ else ⌊(n : ℚ)⌋) = n := by
    split <;> simp
  rw [e2]
  unfold clampI32
  split_ifs with h1 h2
  · rfl
  · rfl
  · apply Int32.toInt_ofInt_of_le <;> omega

end Lcms.F64
