import Verif.Lemmas.Float64

namespace Lcms

open F64

theorem whole_toNat (w : Int32) : ((w >>> 16) &&& 0xFFFF).toUInt32.toUInt16.toNat = w.toUInt32.toNat / 65536 := by
  have h1 : ((w >>> 16) &&& 0xFFFF).toUInt32.toUInt16.toNat
      = ((w.toBitVec.sshiftRight 16).toNat &&& 65535) % 65536 := by
    rfl
  have h2 : w.toUInt32.toNat = w.toBitVec.toNat := rfl
  have hlt := w.toBitVec.isLt
  rw [h1, h2, show (65535 : Nat) = 2 ^ 16 - 1 from rfl, Nat.and_two_pow_sub_one_eq_mod,
    BitVec.toNat_sshiftRight]
  simp only [Nat.shiftRight_eq_div_pow]
  split <;> omega
theorem frac_toNat (w : Int32) : (w &&& 0xFFFF).toUInt32.toUInt16.toNat = w.toUInt32.toNat % 65536 := by
  have h1 : (w &&& 0xFFFF).toUInt32.toUInt16.toNat
      = (w.toBitVec.toNat &&& 65535) % 65536 := by
    rfl
  have h2 : w.toUInt32.toNat = w.toBitVec.toNat := rfl
  rw [h1, h2, show (65535 : Nat) = 2 ^ 16 - 1 from rfl, Nat.and_two_pow_sub_one_eq_mod]
  omega
theorem absI32_some {t : Target} {v w : Int32} (h : t.absI32 v = some w) : w.toUInt32.toNat = v.toInt.natAbs := by
  have h2 : w.toUInt32.toNat = w.toBitVec.toNat := rfl
  rw [h2]
  unfold Target.absI32 at h
  split at h
  · rename_i hm
    split at h
    · cases h
    · cases h; rw [hm]; rfl
  · rename_i hm
    split at h
    · cases h
      rename_i hneg
      have hneg' : v.toInt < 0 := by simpa [Int32.lt_iff_toInt_lt] using hneg
      rw [Int32.toBitVec_neg, BitVec.toNat_neg]
      have h3 : v.toInt = v.toBitVec.toInt := rfl
      rw [h3] at hneg' ⊢
      rw [BitVec.toInt_eq_toNat_cond] at hneg' ⊢
      have := v.toBitVec.isLt
      split at hneg' <;> simp_all <;> omega
    · cases h
      rename_i hneg
      have hneg' : ¬ v.toInt < 0 := by simpa [Int32.lt_iff_toInt_lt] using hneg
      have h3 : v.toInt = v.toBitVec.toInt := rfl
      rw [h3] at hneg' ⊢
      rw [BitVec.toInt_eq_toNat_cond] at hneg' ⊢
      have := v.toBitVec.isLt
      split at hneg' <;> simp_all

theorem val_lit {q : ℚ} (n : ℤ) (i : ℕ) (hq : q = n / 2 ^ i) (hi : i ≤ bias)
    (hn : n.natAbs < 2 ^ 53) (hlt : |q| < 2 ^ 1024) : val (ofRat q) = some q := by
  apply val_ofRat_exact _ hlt
  rw [hq]; exact srep_dyadic n i hi hn

theorem small_lt_huge {q : ℚ} (h : |q| < 2 ^ 64) : |q| < 2 ^ 1024 :=
  h.trans (pow_lt_pow_right₀ (by norm_num) (by norm_num))

theorem sixteen_le_bias : 16 ≤ bias := by unfold bias; omega

/-- Value of `s15f16_to_f64`, whenever it returns. -/
theorem s15f16ToF64_val {t : Target} {v : Int32} {f : F64} (h : s15f16ToF64 t v = some f) :
    val f = some ((v.toInt : ℚ) / 65536) := by
  unfold s15f16ToF64 at h
  cases habs : t.absI32 v with
  | none => rw [habs] at h; cases h
  | some w =>
    rw [habs] at h
    simp only [Option.bind_eq_bind, Option.bind_some, Option.pure_def, Option.some.injEq] at h
    rw [whole_toNat, frac_toNat] at h
    have hw := absI32_some habs
    rw [hw] at h
    have hrange : v.toInt.natAbs ≤ 2 ^ 31 := by
      have h1 := v.minValue_le_toInt
      have h2 := v.toInt_le
      have h3 : Int32.minValue.toInt = -2147483648 := rfl
      have h4 : Int32.maxValue.toInt = 2147483647 := rfl
      omega
    set a := v.toInt.natAbs with ha
    have hb := sixteen_le_bias
    -- the three literals
    have l1 : val (ofRat ((a % 65536 : ℕ) : ℚ)) = some ((a % 65536 : ℕ) : ℚ) := by
      apply val_lit ((a % 65536 : ℕ) : ℤ) 0 (by rw [Int.cast_natCast]; simp) (by omega) (by omega)
      apply small_lt_huge
      rw [abs_of_nonneg (by positivity)]
      have : (a % 65536 : ℕ) < 2 ^ 64 := by omega
      exact_mod_cast this
    have l2 : val (ofRat 65536) = some 65536 := by
      apply val_lit 65536 0 (by simp) (by omega) (by decide)
      apply small_lt_huge; norm_num
    have l3 : val (ofRat ((a / 65536 : ℕ) : ℚ)) = some ((a / 65536 : ℕ) : ℚ) := by
      apply val_lit ((a / 65536 : ℕ) : ℤ) 0 (by rw [Int.cast_natCast]; simp) (by omega) (by omega)
      apply small_lt_huge
      rw [abs_of_nonneg (by positivity)]
      have : (a / 65536 : ℕ) < 2 ^ 64 := by omega
      exact_mod_cast this
    have l4 := div_exact l1 l2 (by norm_num)
      (by
        have := srep_dyadic ((a % 65536 : ℕ) : ℤ) 16 hb (by omega)
        norm_num at this ⊢; exact this)
      (by
        apply small_lt_huge
        rw [abs_of_nonneg (by positivity), div_lt_iff₀ (by norm_num)]
        have : (a % 65536 : ℕ) < 2 ^ 64 * 65536 := by omega
        exact_mod_cast this)
    have hsum : ((a / 65536 : ℕ) : ℚ) + ((a % 65536 : ℕ) : ℚ) / 65536 = (a : ℚ) / 65536 := by
      have : 65536 * (a / 65536) + a % 65536 = a := Nat.div_add_mod a 65536
      have h1 : (65536 : ℚ) * ((a / 65536 : ℕ) : ℚ) + ((a % 65536 : ℕ) : ℚ) = (a : ℚ) := by
        exact_mod_cast this
      rw [← h1]; ring
    have habslt : |(a : ℚ) / 65536| < 2 ^ 1024 := by
      apply small_lt_huge
      rw [abs_of_nonneg (by positivity), div_lt_iff₀ (by norm_num)]
      have : (a : ℕ) < 2 ^ 64 * 65536 := by omega
      exact_mod_cast this
    have hrep : SRep ((a : ℚ) / 65536) := by
      have := srep_dyadic (a : ℤ) 16 hb (by omega)
      norm_num at this ⊢; exact this
    have l5 := add_exact l3 l4 (by rw [hsum]; exact hrep) (by rw [hsum]; exact habslt)
    rw [hsum] at l5
    rw [← h]
    by_cases hneg : v < 0
    · have hneg' : v.toInt < 0 := by simpa [Int32.lt_iff_toInt_lt] using hneg
      rw [if_pos hneg]
      have l6 : val (ofRat (-1)) = some (-1) := by
        apply val_lit (-1) 0 (by simp) (by omega) (by decide)
        apply small_lt_huge; norm_num
      have h1 : (-1 : ℚ) * ((a : ℚ) / 65536) = (v.toInt : ℚ) / 65536 := by
        have : (v.toInt : ℤ) = -(a : ℤ) := by omega
        rw [this]; push_cast; ring
      have h2 : |(-1 : ℚ) * ((a : ℚ) / 65536)| = |(a : ℚ) / 65536| := by
        rw [neg_one_mul, abs_neg]
      rw [← h1]
      apply mul_exact l6 l5
      · unfold SRep; rw [h2]; exact hrep
      · rw [h2]; exact habslt
    · have hneg' : ¬ v.toInt < 0 := by simpa [Int32.lt_iff_toInt_lt] using hneg
      rw [if_neg hneg]
      have l6 : val (ofRat 1) = some 1 := by
        apply val_lit 1 0 (by simp) (by omega) (by decide)
        apply small_lt_huge; norm_num
      have h1 : (1 : ℚ) * ((a : ℚ) / 65536) = (v.toInt : ℚ) / 65536 := by
        have : (v.toInt : ℤ) = (a : ℤ) := by omega
        rw [this]; push_cast; ring
      rw [← h1]
      apply mul_exact l6 l5
      · rw [one_mul]; exact hrep
      · rw [one_mul]; exact habslt

theorem s15f16ToF64_eq_none {t : Target} {v : Int32} :
    s15f16ToF64 t v = none ↔ (v = Int32.minValue ∧ t.checks = true) := by
  unfold s15f16ToF64
  cases habs : t.absI32 v with
  | none =>
    simp only [Option.bind_eq_bind, Option.bind_none, true_iff]
    unfold Target.absI32 at habs
    split_ifs at habs with h1 h2
    exact ⟨h1, h2⟩
  | some w =>
    simp only [Option.bind_eq_bind, Option.bind_some, Option.pure_def, reduceCtorEq, false_iff]
    rintro ⟨rfl, hc⟩
    unfold Target.absI32 at habs
    rw [if_pos rfl, if_pos hc] at habs
    cases habs

theorem rep_mul_pow {q : ℚ} (h : Rep q) (i : ℕ) : Rep (q * 2 ^ i) := by
  obtain ⟨n, j, hn, hR⟩ := h
  refine ⟨n, j + i, hn, ?_⟩
  rw [pow_add, ← mul_assoc, ← hR]; ring

theorem srep_mul_pow {q : ℚ} (h : SRep q) (i : ℕ) : SRep (q * 2 ^ i) := by
  unfold SRep at *
  rw [abs_mul, abs_of_pos (a := (2 : ℚ) ^ i) (by positivity)]
  exact rep_mul_pow h i

theorem val_half : val (ofRat (1 / 2)) = some (1 / 2) := by
  apply val_lit 1 1 (by norm_num) (by have := sixteen_le_bias; omega) (by decide)
  apply small_lt_huge; norm_num

theorem val_65536 : val (ofRat 65536) = some 65536 := by
  apply val_lit 65536 0 (by simp) (by omega) (by decide)
  apply small_lt_huge; norm_num

theorem clamp_ge {n : ℤ} (h : 2147483647 ≤ n) : clampI32 n = 2147483647 := by
  unfold clampI32; split_ifs <;> omega

theorem clamp_le {n : ℤ} (h : n ≤ -2147483648) : clampI32 n = -2147483648 := by
  unfold clampI32; split_ifs <;> omega

theorem clamp_mono {m n : ℤ} (h : m ≤ n) : clampI32 m ≤ clampI32 n := by
  unfold clampI32; split_ifs <;> omega

theorem clamp_id {n : ℤ} (h1 : -2147483648 ≤ n) (h2 : n ≤ 2147483647) : clampI32 n = n := by
  unfold clampI32; split_ifs <;> omega

/-- What remains of a huge value after `+ 0.5`. -/
theorem huge_floor {q : ℚ} (h : (2 : ℚ) ^ 64 ≤ |q|) :
    clampI32 ⌊rq q⌋ = if q < 0 then -2147483648 else 2147483647 := by
  split_ifs with hneg
  · rw [abs_of_neg hneg] at h
    apply clamp_le
    have hr : SRep ((-2147483648 : ℤ) : ℚ) := srep_int _ (by decide)
    have h1 : rq q ≤ ((-2147483648 : ℤ) : ℚ) := by
      apply rq_le hr; push_cast; linarith [show (2 : ℚ) ^ 64 = 18446744073709551616 by norm_num]
    have h2 : (⌊rq q⌋ : ℚ) ≤ ((-2147483648 : ℤ) : ℚ) := (Int.floor_le _).trans h1
    exact_mod_cast h2
  · rw [abs_of_nonneg (not_lt.mp hneg)] at h
    apply clamp_ge
    have hr : SRep ((2147483647 : ℤ) : ℚ) := srep_int _ (by decide)
    apply Int.le_floor.mpr
    apply le_rq hr; push_cast; linarith [show (2 : ℚ) ^ 64 = 18446744073709551616 by norm_num]

theorem huge_of_rq {q : ℚ} (h : (2 : ℚ) ^ 1024 ≤ |rq q|) : (2 : ℚ) ^ 64 ≤ |q| := by
  by_contra hlt
  push Not at hlt
  have hlt' := abs_lt.mp hlt
  have hpow : (2 : ℚ) ^ 64 = 18446744073709551616 := by norm_num
  have hr : SRep ((2 : ℚ) ^ 64) := by
    refine ⟨1, bias + 64, by norm_num, ?_⟩
    rw [abs_of_pos (by positivity)]; push_cast; ring
  have hr' : SRep (-(2 : ℚ) ^ 64) := by unfold SRep at *; rwa [abs_neg]
  have h1 : rq q ≤ 2 ^ 64 := rq_le hr hlt'.2.le
  have h2 : -(2 : ℚ) ^ 64 ≤ rq q := le_rq hr' hlt'.1.le
  have h3 : |rq q| ≤ 2 ^ 64 := abs_le.mpr ⟨h2, h1⟩
  have h4 : (2 : ℚ) ^ 64 < 2 ^ 1024 := pow_lt_pow_right₀ (by norm_num) (by norm_num)
  exact absurd (h.trans h3) (not_le.mpr h4)

/-- The floor of a representable number below a huge bound is below that bound. -/
theorem abs_floor_lt {z H : ℚ} (hz : SRep z) (hH : (2 : ℚ) ^ 64 ≤ H) (hlt : |z| < H) :
    |((⌊z⌋ : ℤ) : ℚ)| < H := by
  have hlt' := abs_lt.mp hlt
  have h1 : (⌊z⌋ : ℚ) ≤ z := Int.floor_le z
  have h2 : z < ⌊z⌋ + 1 := Int.lt_floor_add_one z
  have h5 : (2 : ℚ) ^ 64 = 18446744073709551616 := by norm_num
  rw [h5] at hH
  by_cases hsmall : |z| < 9007199254740992
  · have h3 := abs_lt.mp hsmall
    rw [abs_lt]; constructor <;> linarith
  · obtain ⟨n, j, hn, hR⟩ := hz
    have hj : F64.bias ≤ j := by
      by_contra hjlt
      push Not at hjlt
      apply hsmall
      have hB : (0 : ℚ) < 2 ^ F64.bias := by positivity
      have h5 : (n : ℚ) < 9007199254740992 := by exact_mod_cast hn
      have h6 : (2 : ℚ) ^ j ≤ 2 ^ F64.bias := pow_le_pow_right₀ (by norm_num) hjlt.le
      have : |z| * 2 ^ F64.bias < 9007199254740992 * 2 ^ F64.bias := by
        rw [hR]
        calc (n : ℚ) * 2 ^ j < 9007199254740992 * 2 ^ j := by gcongr
          _ ≤ _ := by gcongr
      exact lt_of_mul_lt_mul_right this hB.le
    obtain ⟨d, rfl⟩ := Nat.exists_eq_add_of_le hj
    have h7 : |z| = ((n * 2 ^ d : ℕ) : ℚ) := by
      have hB : (2 : ℚ) ^ F64.bias ≠ 0 := by positivity
      apply mul_right_cancel₀ hB
      rw [hR]; push_cast; ring
    have : (⌊z⌋ : ℚ) = z := by
      rcases abs_choice z with h8 | h8
      · have h9 : z = (((n * 2 ^ d : ℕ) : ℤ) : ℚ) := by rw [← h8, h7]; push_cast; ring
        rw [h9, Int.floor_intCast]
      · have h9 : z = ((-((n * 2 ^ d : ℕ) : ℤ) : ℤ) : ℚ) := by
          have : z = -|z| := by rw [h8]; ring
          rw [this, h7]; push_cast; ring
        rw [h9, Int.floor_intCast]
    rw [this]; exact hlt

theorem toI32_inf (s : Bool) : (toI32 (inf s)).toInt = if s then -2147483648 else 2147483647 := by
  cases s <;> rfl

/-- `f64_to_s15f16` on a finite number: scale, add one half (with one rounding), floor, clamp. -/
theorem f64ToS15f16_val {x : F64} {X : ℚ} (hx : val x = some X) :
    (f64ToS15f16 x).toInt = clampI32 ⌊rq (X * 65536 + 1 / 2)⌋ := by
  have hs : SRep (X * 65536) := by
    have := srep_mul_pow (srep_of_val hx) 16; norm_num at this ⊢; exact this
  have hrq : rq (X * 65536) = X * 65536 := rq_exact hs
  have hhalf : ofRat (1 / 2) ≠ nan := by
    intro h; have := val_half; rw [h] at this; cases this
  unfold f64ToS15f16
  rcases mul_fin hx val_65536 with hy | ⟨s, hy, hsgn, hbig⟩
  · rw [hrq] at hy
    rcases add_fin hy val_half with hz | ⟨s, hz, hsgn, hbig⟩
    · -- finite sum
      have hfin : |((⌊rq (X * 65536 + 1 / 2)⌋ : ℤ) : ℚ)| < 2 ^ 1024 :=
        abs_floor_lt (srep_of_val hz) (pow_le_pow_right₀ (by norm_num) (by norm_num)) (abs_val_lt hz)
      exact toI32_val_int (floor_val hz hfin)
    · rw [hz]
      show (toI32 (inf s)).toInt = _
      rw [toI32_inf, huge_floor (huge_of_rq hbig)]
      cases s
      · have : ¬ (X * 65536 + 1 / 2 < 0) := fun h => by simpa using hsgn.mpr h
        rw [if_neg this]; rfl
      · rw [if_pos (hsgn.mp rfl)]; rfl
  · have hbig' := huge_of_rq hbig
    rw [hrq] at hbig
    have hpow : (2 : ℚ) ^ 64 = 18446744073709551616 := by norm_num
    have hbig2 : (2 : ℚ) ^ 64 ≤ |X * 65536 + 1 / 2| := by
      have h3 : (2 : ℚ) ^ 65 ≤ 2 ^ 1024 := pow_le_pow_right₀ (by norm_num) (by norm_num)
      have h4 : (2 : ℚ) ^ 65 = 36893488147419103232 := by norm_num
      have hbig := h3.trans hbig
      rw [hpow]
      rw [h4] at hbig
      clear h3 h4 hpow hbig'
      rcases le_or_gt 0 (X * 65536) with h5 | h5
      · rw [abs_of_nonneg h5] at hbig
        rw [abs_of_nonneg (by linarith)]; linarith
      · rw [abs_of_neg h5] at hbig
        rw [abs_of_neg (by linarith)]; linarith
    have hne : X * 65536 ≠ 0 := by
      intro h0; rw [h0, abs_zero, hpow] at hbig'; clear hbig hbig2; linarith
    have hz : add (mul x (ofRat 65536)) (ofRat (1 / 2)) = inf s := by
      obtain ⟨s', m', k', he, _⟩ := val_eq_some val_half
      rw [hy, he]; rfl
    rw [hz]
    show (toI32 (inf s)).toInt = _
    rw [toI32_inf, huge_floor hbig2]
    have hsg := hsgn hne
    cases s
    · have h5 : ¬ (X * 65536 < 0) := fun h => by simpa using hsg.mpr h
      have h6 : ¬ (X * 65536 + 1 / 2 < 0) := by
        clear hbig hbig2 hbig'; push Not at h5 ⊢; linarith
      rw [if_neg h6]; rfl
    · have h5 := hsg.mp rfl
      have : X * 65536 + 1 / 2 < 0 := by
        rw [abs_of_neg h5, hpow] at hbig'; clear hbig hbig2; linarith
      rw [if_pos this]; rfl

theorem f64ToS15f16_nan : f64ToS15f16 nan = 0 := rfl

theorem f64ToS15f16_inf (s : Bool) :
    f64ToS15f16 (inf s) = if s then Int32.minValue else Int32.maxValue := by
  obtain ⟨s', m', k', he, hv⟩ := val_eq_some val_half
  obtain ⟨s2, m2, k2, he2, hv2⟩ := val_eq_some val_65536
  have hm : m2.val ≠ 0 := by
    intro h0; rw [h0] at hv2; simp [magVal] at hv2
  have hs2 : s2 = false := by
    cases s2
    · rfl
    · have := magVal_nonneg m2 k2
      simp at hv2; linarith
  unfold f64ToS15f16
  rw [he, he2]
  have h1 : mul (inf s) (fin s2 m2 k2) = inf s := by
    show (if isZero (fin s2 m2 k2) then nan else inf (s != sign (fin s2 m2 k2))) = inf s
    have : isZero (fin s2 m2 k2) = false := by simp [isZero, hm]
    rw [this, hs2]; cases s <;> rfl
  rw [h1]
  cases s <;> rfl

/-- Round trip on the 16.16 grid. -/
theorem f64ToS15f16_grid {x : F64} (v : Int32) (hx : val x = some ((v.toInt : ℚ) / 65536)) :
    f64ToS15f16 x = v := by
  apply Int32.toInt_inj.mp
  rw [f64ToS15f16_val hx]
  have h1 := v.minValue_le_toInt
  have h2 := v.toInt_le
  have h3 : Int32.minValue.toInt = -2147483648 := rfl
  have h4 : Int32.maxValue.toInt = 2147483647 := rfl
  have e : (v.toInt : ℚ) / 65536 * 65536 + 1 / 2 = ((2 * v.toInt + 1 : ℤ) : ℚ) / 2 ^ 1 := by
    push_cast; ring
  have hr : SRep (((2 * v.toInt + 1 : ℤ) : ℚ) / 2 ^ 1) :=
    srep_dyadic _ 1 (by have := sixteen_le_bias; omega) (by omega)
  rw [e, rq_exact hr, ← e]
  have hfl : ⌊(v.toInt : ℚ) / 65536 * 65536 + 1 / 2⌋ = v.toInt := by
    rw [Int.floor_eq_iff]; constructor <;> linarith
  rw [hfl, clamp_id (by omega) (by omega)]

end Lcms
