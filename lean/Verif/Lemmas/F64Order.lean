import Verif.Lemmas.Float64

/-! # Lemmas: binary64 arithmetic is monotone -/

namespace Lcms
namespace F64

/-- `x` is the correctly rounded value of `q`. -/
def IsRd (x : F64) (q : ℚ) : Prop :=
  val x = some (rq q) ∨ ∃ s, x = inf s ∧ (s = true ↔ q < 0) ∧ (2 : ℚ) ^ 1024 ≤ |rq q|

theorem le_val {x y : F64} {p q : ℚ} (hx : val x = some p) (hy : val y = some q) : le x y = true ↔ p ≤ q := by
  obtain ⟨s, m, k, rfl, _⟩ := val_eq_some hx
  obtain ⟨s', m', k', rfl, _⟩ := val_eq_some hy
  have e1 : ratOf (fin s m k) = p := by unfold ratOf; rw [hx]; rfl
  have e2 : ratOf (fin s' m' k') = q := by unfold ratOf; rw [hy]; rfl
  simp only [le, e1, e2, decide_eq_true_eq]

theorem lt_val {x y : F64} {p q : ℚ} (hx : val x = some p) (hy : val y = some q) : lt x y = true ↔ p < q := by
  obtain ⟨s, m, k, rfl, _⟩ := val_eq_some hx
  obtain ⟨s', m', k', rfl, _⟩ := val_eq_some hy
  have e1 : ratOf (fin s m k) = p := by unfold ratOf; rw [hx]; rfl
  have e2 : ratOf (fin s' m' k') = q := by unfold ratOf; rw [hy]; rfl
  simp only [lt, e1, e2, decide_eq_true_eq]

theorem bot_le {z : F64} (h : z ≠ nan) : le (inf true) z = true := by
  cases z with
  | nan => exact absurd rfl h
  | inf s => rfl
  | fin s m k => rfl

theorem le_top {z : F64} (h : z ≠ nan) : le z (inf false) = true := by
  cases z with
  | nan => exact absurd rfl h
  | inf s => cases s <;> rfl
  | fin s m k => rfl

theorem le_nn {x y : F64} (h : le x y = true) : x ≠ nan ∧ y ≠ nan := by
  cases x <;> cases y <;> simp_all [le]

theorem IsRd.nn {x : F64} {q : ℚ} (h : IsRd x q) : x ≠ nan := by
  rintro rfl
  rcases h with h | ⟨s, h, _⟩ <;> cases h

/-- The roundings of ordered numbers are ordered, overflow included. -/
theorem le_of_rd {x y : F64} {p q : ℚ} (hx : IsRd x p) (hy : IsRd y q) (h : p ≤ q) : le x y = true := by
  have hm := rq_mono h
  rcases hx with hx' | ⟨s, rfl, hs, hb⟩
  · rcases hy with hy' | ⟨s', rfl, hs', hb'⟩
    · exact (le_val hx' hy').mpr hm
    · cases s' with
      | false => exact le_top (IsRd.nn (.inl hx'))
      | true =>
        have hq : q < 0 := hs'.mp rfl
        have h1 := rq_nonpos hq.le
        rw [abs_of_nonpos h1] at hb'
        have h2 := abs_lt.mp (abs_val_lt hx')
        generalize (2 : ℚ) ^ 1024 = T at hb' h2
        linarith
  · cases s with
    | true => exact bot_le hy.nn
    | false =>
      have hp : 0 ≤ p := by
        by_contra hc
        exact nomatch hs.mpr (not_le.mp hc)
      have h1 := rq_nonneg hp
      rw [abs_of_nonneg h1] at hb
      rcases hy with hy' | ⟨s', rfl, hs', hb'⟩
      · have h2 := abs_lt.mp (abs_val_lt hy')
        generalize (2 : ℚ) ^ 1024 = T at hb h2
        linarith
      · cases s' with
        | false => rfl
        | true =>
          have := hs'.mp rfl
          linarith

theorem exists_val {x : F64} (h1 : x ≠ nan) (h2 : ∀ s, x ≠ inf s) : ∃ q, val x = some q := by
  cases x with
  | nan => exact absurd rfl h1
  | inf s => exact absurd rfl (h2 s)
  | fin s m k => exact ⟨_, val_fin s m k⟩

theorem le_refl {x : F64} (h : x ≠ nan) : le x x = true := by
  cases x with
  | nan => exact absurd rfl h
  | inf s => cases s <;> rfl
  | fin s m k => exact (le_val (val_fin s m k) (val_fin s m k)).mpr (_root_.le_refl _)

theorem le_trans {x y z : F64} (h1 : le x y = true) (h2 : le y z = true) : le x z = true := by
  have hn := (le_nn h2).2
  have hn' := (le_nn h1).1
  cases x with
  | nan => exact absurd rfl hn'
  | inf s =>
    cases s with
    | true => exact bot_le hn
    | false =>
      cases y with
      | nan => cases h1
      | inf s' => cases s' with
        | false => exact h2
        | true => cases h1
      | fin s' m k => cases h1
  | fin s m k =>
    cases y with
    | nan => cases h1
    | inf s' => cases s' with
      | true => cases h1
      | false => cases z with
        | nan => cases h2
        | inf s'' => cases s'' with
          | false => rfl
          | true => cases h2
        | fin _ _ _ => cases h2
    | fin s' m' k' =>
      cases z with
      | nan => cases h2
      | inf s'' => cases s'' with
        | false => rfl
        | true => cases h2
      | fin s'' m'' k'' =>
        rw [le_val (val_fin _ _ _) (val_fin _ _ _)] at h1 h2 ⊢
        exact _root_.le_trans h1 h2

theorem le_of_lt {x y : F64} (h : lt x y = true) : le x y = true := by
  cases x with
  | nan => cases h
  | inf s => cases y with
    | nan => cases h
    | inf s' => cases s <;> cases s' <;> first | rfl | cases h
    | fin _ _ _ => exact h
  | fin s m k => cases y with
    | nan => cases h
    | inf s' => exact h
    | fin s' m' k' =>
      rw [lt_val (val_fin _ _ _) (val_fin _ _ _)] at h
      rw [le_val (val_fin _ _ _) (val_fin _ _ _)]
      exact h.le

/-- Numbers are totally ordered. -/
theorem le_of_not_lt {x y : F64} (hx : x ≠ nan) (hy : y ≠ nan) (h : ¬ lt x y = true) : le y x = true := by
  cases x with
  | nan => exact absurd rfl hx
  | inf s => cases y with
    | nan => exact absurd rfl hy
    | inf s' => cases s <;> cases s' <;> first | rfl | exact absurd rfl h
    | fin _ _ _ => cases s <;> first | rfl | exact absurd rfl h
  | fin s m k => cases y with
    | nan => exact absurd rfl hy
    | inf s' => cases s' <;> first | rfl | exact absurd rfl h
    | fin s' m' k' =>
      rw [lt_val (val_fin _ _ _) (val_fin _ _ _)] at h
      rw [le_val (val_fin _ _ _) (val_fin _ _ _)]
      exact not_lt.mp h

theorem lt_of_not_le {x y : F64} (hx : x ≠ nan) (hy : y ≠ nan) (h : ¬ le x y = true) : lt y x = true := by
  by_contra hc
  exact h (le_of_not_lt hy hx hc)

theorem lt_of_lt_of_le {x y z : F64} (h1 : lt x y = true) (h2 : le y z = true) : lt x z = true := by
  cases x with
  | nan => cases h1
  | inf s => cases y with
    | nan => cases h1
    | inf s' => cases z with
      | nan => cases h2
      | inf s'' => cases s <;> cases s' <;> cases s'' <;> first | rfl | exact (Bool.false_ne_true h1).elim | exact (Bool.false_ne_true h2).elim
      | fin _ _ _ => cases s <;> cases s' <;> first | rfl | exact (Bool.false_ne_true h1).elim
    | fin _ _ _ => cases z with
      | nan => cases h2
      | inf s'' => cases s <;> cases s'' <;> first | rfl | exact (Bool.false_ne_true h1).elim | exact (Bool.false_ne_true h2).elim
      | fin _ _ _ => exact h1
  | fin s m k => cases y with
    | nan => cases h1
    | inf s' => cases z with
      | nan => cases h2
      | inf s'' => cases s' <;> cases s'' <;> first | rfl | exact (Bool.false_ne_true h1).elim | exact (Bool.false_ne_true h2).elim
      | fin _ _ _ => cases s' <;> first | exact (Bool.false_ne_true h1).elim | exact (Bool.false_ne_true h2).elim
    | fin s' m' k' => cases z with
      | nan => cases h2
      | inf s'' => exact h2
      | fin s'' m'' k'' =>
        rw [lt_val (val_fin _ _ _) (val_fin _ _ _)] at h1 ⊢
        rw [le_val (val_fin _ _ _) (val_fin _ _ _)] at h2
        exact _root_.lt_of_lt_of_le h1 h2

theorem lt_of_le_of_lt {x y z : F64} (h1 : le x y = true) (h2 : lt y z = true) : lt x z = true := by
  by_contra hc
  have hz := (le_nn (le_of_lt h2)).2
  have h3 := le_trans (le_of_not_lt (le_nn h1).1 hz hc) h1
  have h4 := lt_of_lt_of_le h2 h3
  cases y with
  | nan => cases h4
  | inf s => cases s <;> cases h4
  | fin s m k =>
    rw [lt_val (val_fin _ _ _) (val_fin _ _ _)] at h4
    exact lt_irrefl _ h4

theorem lt_irrefl' {x : F64} (h : lt x x = true) : False := by
  cases x with
  | nan => cases h
  | inf s => cases s <;> cases h
  | fin s m k =>
    rw [lt_val (val_fin _ _ _) (val_fin _ _ _)] at h
    exact lt_irrefl _ h

/-! ### Operations -/

theorem add_comm (x y : F64) : add x y = add y x := by
  cases x with
  | nan => cases y <;> rfl
  | inf s => cases y with
    | nan => rfl
    | inf s' => cases s <;> cases s' <;> rfl
    | fin _ _ _ => rfl
  | fin s m k => cases y with
    | nan => rfl
    | inf s' => rfl
    | fin s' m' k' =>
      unfold add
      simp only
      rw [_root_.add_comm, Bool.and_comm]

theorem add_rd {x y : F64} {p q : ℚ} (hx : val x = some p) (hy : val y = some q) : IsRd (add x y) (p + q) :=
  add_fin hx hy

theorem mul_rd {x y : F64} {p q : ℚ} (hx : val x = some p) (hy : val y = some q) : IsRd (mul x y) (p * q) := by
  rcases mul_fin hx hy with h | ⟨s, h1, h2, h3⟩
  · exact .inl h
  · refine .inr ⟨s, h1, h2 ?_, h3⟩
    intro h0
    rw [h0] at h3
    have : rq 0 = 0 := le_antisymm (rq_nonpos (_root_.le_refl _)) (rq_nonneg (_root_.le_refl _))
    rw [this, abs_zero] at h3
    exact absurd h3 (not_le.mpr (by positivity))

theorem div_rd {x y : F64} {p q : ℚ} (hx : val x = some p) (hy : val y = some q) (hq0 : q ≠ 0) :
    IsRd (div x y) (p / q) := by
  obtain ⟨s, m, k, rfl, hp⟩ := val_eq_some hx
  obtain ⟨s', m', k', rfl, hq⟩ := val_eq_some hy
  have hm0 : m'.val ≠ 0 := by
    intro h0
    apply hq0
    rw [hq]
    simp [magVal, h0]
  have hmk := magVal_nonneg m k
  have hmk' := magVal_nonneg m' k'
  have hpos : 0 ≤ magVal m k / magVal m' k' := div_nonneg hmk hmk'
  have hquot : p / q = if (s != s') then -(magVal m k / magVal m' k') else magVal m k / magVal m' k' := by
    rw [hp, hq]; cases s <;> cases s' <;> simp [neg_div, div_neg]
  have hdiv : div (fin s m k) (fin s' m' k') = roundMag (s != s') (magVal m k / magVal m' k') := by
    unfold div; simp only; rw [if_neg hm0]
  have hrq : rq (p / q) = if (s != s') then -(rmag (magVal m k / magVal m' k'))
      else rmag (magVal m k / magVal m' k') := by
    rw [hquot]
    unfold rq
    split
    · by_cases h0 : magVal m k / magVal m' k' = 0
      · rw [h0]; simp [rmag_zero]
      · have : 0 < magVal m k / magVal m' k' := lt_of_le_of_ne hpos (Ne.symm h0)
        rw [if_pos (by linarith), neg_neg]
    · rw [if_neg (not_lt.mpr hpos)]
  rw [hdiv]
  rcases roundMag_cases (s != s') hpos with ⟨m1, k1, h1, h2⟩ | ⟨h1, h2⟩
  · left
    rw [h1, val_fin, h2, hrq]
  · right
    refine ⟨_, h1, ?_, ?_⟩
    · have hne : magVal m k / magVal m' k' ≠ 0 := by
        intro h0
        rw [h0, rmag_zero] at h2
        exact absurd h2 (not_le.mpr (by positivity))
      have : 0 < magVal m k / magVal m' k' := lt_of_le_of_ne hpos (Ne.symm hne)
      rw [hquot]
      cases hss : (s != s')
      · simp only [Bool.false_eq_true, if_false, false_iff, not_lt]
        exact hpos
      · simp only [if_true, true_iff]
        linarith
    · rw [hrq]
      split
      · rw [abs_neg, abs_of_nonneg (rmag_nonneg _)]; exact h2
      · rw [abs_of_nonneg (rmag_nonneg _)]; exact h2

/-- Adding a finite number. -/
theorem add_mono {x y c : F64} {r : ℚ} (h : le x y = true) (hc : val c = some r) :
    le (add x c) (add y c) = true := by
  obtain ⟨sc, mc, kc, rfl, -⟩ := val_eq_some hc
  have hnn : ∀ z : F64, z ≠ nan → add z (fin sc mc kc) ≠ nan := by
    intro z hz
    cases z with
    | nan => exact absurd rfl hz
    | inf s => simp [add]
    | fin s m k => exact (add_rd (val_fin s m k) hc).nn
  have hx := (le_nn h).1
  have hy := (le_nn h).2
  cases x with
  | nan => exact absurd rfl hx
  | inf s =>
    cases s with
    | true => exact bot_le (hnn y hy)
    | false => cases y with
      | nan => exact absurd rfl hy
      | inf s' => cases s' with
        | false => rfl
        | true => cases h
      | fin _ _ _ => cases h
  | fin s m k =>
    cases y with
    | nan => exact absurd rfl hy
    | inf s' => cases s' with
      | false => exact le_top (hnn _ hx)
      | true => cases h
    | fin s' m' k' =>
      rw [le_val (val_fin _ _ _) (val_fin _ _ _)] at h
      exact le_of_rd (add_rd (val_fin _ _ _) hc) (add_rd (val_fin _ _ _) hc) (by linarith)

theorem val_neg {x : F64} {q : ℚ} (h : val x = some q) : val (neg x) = some (-q) := by
  obtain ⟨s, m, k, rfl, hq⟩ := val_eq_some h
  show val (fin (!s) m k) = _
  rw [val_fin, hq]
  cases s <;> simp

theorem neg_anti {x y : F64} (h : le x y = true) : le (neg y) (neg x) = true := by
  cases x with
  | nan => cases h
  | inf s => cases y with
    | nan => cases h
    | inf s' => cases s <;> cases s' <;> first | rfl | cases h
    | fin _ _ _ => cases s <;> first | rfl | cases h
  | fin s m k => cases y with
    | nan => cases h
    | inf s' => cases s' <;> first | rfl | cases h
    | fin s' m' k' =>
      have e1 := val_fin s m k
      have e2 := val_fin s' m' k'
      rw [le_val e1 e2] at h
      rw [le_val (val_neg e2) (val_neg e1)]
      linarith

theorem sub_mono {x y c : F64} {r : ℚ} (h : le x y = true) (hc : val c = some r) :
    le (sub x c) (sub y c) = true := add_mono h (val_neg hc)

theorem sub_anti {x y c : F64} {r : ℚ} (h : le x y = true) (hc : val c = some r) :
    le (sub c y) (sub c x) = true := by
  unfold sub
  rw [add_comm c, add_comm c]
  exact add_mono (neg_anti h) hc

/-- Multiplying finite numbers by a non-negative one. -/
theorem mul_mono {x y c : F64} {p q r : ℚ} (hx : val x = some p) (hy : val y = some q) (hc : val c = some r)
    (h : p ≤ q) (h0 : 0 ≤ r) : le (mul x c) (mul y c) = true :=
  le_of_rd (mul_rd hx hc) (mul_rd hy hc) (mul_le_mul_of_nonneg_right h h0)

theorem mul_comm (x y : F64) : mul x y = mul y x := by
  cases x with
  | nan => cases y <;> rfl
  | inf s => cases y with
    | nan => rfl
    | inf s' => cases s <;> cases s' <;> rfl
    | fin s' m k =>
      unfold mul
      simp only [isZero, sign]
      cases s <;> cases s' <;> rfl
  | fin s m k => cases y with
    | nan => rfl
    | inf s' =>
      unfold mul
      simp only [isZero, sign]
      cases s <;> cases s' <;> rfl
    | fin s' m' k' =>
      unfold mul
      simp only
      rw [_root_.mul_comm, show (s != s') = (s' != s) by cases s <;> cases s' <;> rfl]

theorem pos_fin {c : F64} {r : ℚ} (hc : val c = some r) (h0 : 0 < r) :
    ∃ m k, c = fin false m k ∧ m.val ≠ 0 := by
  obtain ⟨s, m, k, rfl, hr⟩ := val_eq_some hc
  refine ⟨m, k, ?_, ?_⟩
  · cases s with
    | false => rfl
    | true =>
      have := magVal_nonneg m k
      rw [if_pos rfl] at hr
      linarith
  · intro hm
    rw [hr] at h0
    simp [magVal, hm] at h0

/-- Multiplying by a positive finite number. -/
theorem mul_mono_pos {x y c : F64} {r : ℚ} (h : le x y = true) (hc : val c = some r) (h0 : 0 < r) :
    le (mul x c) (mul y c) = true := by
  obtain ⟨mc, kc, rfl, hm⟩ := pos_fin hc h0
  have hinf : ∀ s, mul (inf s) (fin false mc kc) = inf s := by
    intro s
    simp only [mul, isZero, sign, hm, decide_false, Bool.false_eq_true, if_false]
    cases s <;> rfl
  have hnn : ∀ z : F64, z ≠ nan → mul z (fin false mc kc) ≠ nan := by
    intro z hz
    cases z with
    | nan => exact absurd rfl hz
    | inf s => rw [hinf]; exact nofun
    | fin s m k => exact (mul_rd (val_fin s m k) hc).nn
  have hx := (le_nn h).1
  have hy := (le_nn h).2
  cases x with
  | nan => exact absurd rfl hx
  | inf s =>
    rw [hinf]
    cases s with
    | true => exact bot_le (hnn y hy)
    | false => cases y with
      | nan => exact absurd rfl hy
      | inf s' => cases s' with
        | false => rw [hinf]; rfl
        | true => cases h
      | fin _ _ _ => cases h
  | fin s m k =>
    cases y with
    | nan => exact absurd rfl hy
    | inf s' => cases s' with
      | false => rw [hinf]; exact le_top (hnn _ hx)
      | true => cases h
    | fin s' m' k' =>
      rw [le_val (val_fin _ _ _) (val_fin _ _ _)] at h
      exact mul_mono (val_fin _ _ _) (val_fin _ _ _) hc h h0.le

/-- Dividing by a positive finite number. -/
theorem div_mono {x y c : F64} {r : ℚ} (h : le x y = true) (hc : val c = some r) (h0 : 0 < r) :
    le (div x c) (div y c) = true := by
  obtain ⟨mc, kc, rfl, hm⟩ := pos_fin hc h0
  have hinf : ∀ s, div (inf s) (fin false mc kc) = inf s := by
    intro s
    simp only [div, sign]
    cases s <;> rfl
  have hnn : ∀ z : F64, z ≠ nan → div z (fin false mc kc) ≠ nan := by
    intro z hz
    cases z with
    | nan => exact absurd rfl hz
    | inf s => rw [hinf]; exact nofun
    | fin s m k => exact (div_rd (val_fin s m k) hc h0.ne').nn
  have hx := (le_nn h).1
  have hy := (le_nn h).2
  cases x with
  | nan => exact absurd rfl hx
  | inf s =>
    rw [hinf]
    cases s with
    | true => exact bot_le (hnn y hy)
    | false => cases y with
      | nan => exact absurd rfl hy
      | inf s' => cases s' with
        | false => rw [hinf]; rfl
        | true => cases h
      | fin _ _ _ => cases h
  | fin s m k =>
    cases y with
    | nan => exact absurd rfl hy
    | inf s' => cases s' with
      | false => rw [hinf]; exact le_top (hnn _ hx)
      | true => cases h
    | fin s' m' k' =>
      rw [le_val (val_fin _ _ _) (val_fin _ _ _)] at h
      exact le_of_rd (div_rd (val_fin _ _ _) hc h0.ne') (div_rd (val_fin _ _ _) hc h0.ne') (by gcongr)

/-- Dividing a non-negative number by a positive one. -/
theorem div_anti {x y c : F64} {p r : ℚ} (hx : val x = some p) (hp : 0 < p) (h : le x y = true)
    (hc : val c = some r) (h0 : 0 ≤ r) : le (div c y) (div c x) = true := by
  have hy := (le_nn h).2
  cases y with
  | nan => exact absurd rfl hy
  | inf s' =>
    obtain ⟨s, m, k, rfl, -⟩ := val_eq_some hx
    obtain ⟨sc, mc, kc, rfl, -⟩ := val_eq_some hc
    cases s' with
    | true => cases h
    | false =>
      have e : div (fin sc mc kc) (inf false) = fin (sc != false) 0 0 := rfl
      rw [e]
      have hz : IsRd (fin (sc != false) 0 0) 0 := by
        left
        rw [val_fin]
        have : rq 0 = 0 := le_antisymm (rq_nonpos (_root_.le_refl _)) (rq_nonneg (_root_.le_refl _))
        rw [this]
        cases sc <;> simp [magVal]
      exact le_of_rd hz (div_rd hc hx hp.ne') (by positivity)
  | fin s' m' k' =>
    obtain ⟨s, m, k, rfl, -⟩ := val_eq_some hx
    rw [le_val hx (val_fin _ _ _)] at h
    refine le_of_rd (div_rd hc (val_fin _ _ _) (by linarith [h]) |> fun z => z) (div_rd hc hx hp.ne') ?_
    exact div_le_div_of_nonneg_left h0 hp h

theorem neg_roundMag (s : Bool) (q : ℚ) : neg (roundMag s q) = roundMag (!s) q := by
  unfold roundMag
  split
  · rfl
  · simp only
    split
    · rfl
    · split <;> rfl

theorem neg_mul (x y : F64) : mul (neg x) y = neg (mul x y) := by
  cases x with
  | nan => cases y <;> rfl
  | inf s => cases y with
    | nan => rfl
    | inf s' => cases s <;> cases s' <;> rfl
    | fin s' m k =>
      by_cases hm : m.val = 0
      · simp [mul, neg, isZero, hm]
      · cases s <;> cases s' <;> simp [mul, neg, isZero, sign, hm]
  | fin s m k => cases y with
    | nan => rfl
    | inf s' =>
      by_cases hm : m.val = 0
      · simp [mul, neg, isZero, hm]
      · cases s <;> cases s' <;> simp [mul, neg, isZero, sign, hm]
    | fin s' m' k' =>
      have e : ∀ t, mul (fin t m k) (fin s' m' k') = roundMag (t != s') (magVal m k * magVal m' k') := fun _ => rfl
      have e' : neg (fin s m k) = fin (!s) m k := rfl
      rw [e', e, e, neg_roundMag]
      cases s <;> cases s' <;> rfl

/-- A number between two finite ones is finite. -/
theorem val_between {x y z : F64} {p q : ℚ} (hx : val x = some p) (hz : val z = some q) (h1 : le x y = true)
    (h2 : le y z = true) : ∃ r, val y = some r ∧ p ≤ r ∧ r ≤ q := by
  obtain ⟨s, m, k, rfl, -⟩ := val_eq_some hx
  obtain ⟨s', m', k', rfl, -⟩ := val_eq_some hz
  cases y with
  | nan => cases h1
  | inf t => cases t with
    | true => cases h1
    | false => cases h2
  | fin t n j =>
    have e := val_fin t n j
    exact ⟨_, e, (le_val hx e).mp h1, (le_val e hz).mp h2⟩

theorem le_max_right {x y : F64} (hx : x ≠ nan) (hy : y ≠ nan) : le y (max x y) = true := by
  have e : max x y = if lt x y = true then y else x := by
    cases x with
    | nan => exact absurd rfl hx
    | inf _ => cases y with
      | nan => exact absurd rfl hy
      | inf _ => rfl
      | fin _ _ _ => rfl
    | fin _ _ _ => cases y with
      | nan => exact absurd rfl hy
      | inf _ => rfl
      | fin _ _ _ => rfl
  rw [e]
  split
  · exact le_refl hy
  · rename_i h
    exact le_of_not_lt hx hy h

end F64
end Lcms
