import Verif.Lemmas.Fixed

namespace Lcms

open F64

theorem half_pow_bias : (1 / 2 : ℚ) * 2 ^ bias = 2 ^ 1073 := by
  have : (2 : ℚ) ^ bias = 2 ^ 1073 * 2 := by rw [← pow_succ]; rfl
  rw [this]; generalize (2 : ℚ) ^ 1073 = z; ring

/-- `⌊rq q⌋` is never below `⌊q⌋` for moderate `q`. -/
theorem floor_le_floor_rq {q : ℚ} (h : (⌊q⌋).natAbs < 2 ^ 53) : ⌊q⌋ ≤ ⌊rq q⌋ := by
  apply Int.le_floor.mpr
  exact le_rq (srep_int _ h) (Int.floor_le q)

/-- … and never more than one above. -/
theorem floor_rq_le {q : ℚ} (h : (⌊q⌋ + 1).natAbs < 2 ^ 53) : ⌊rq q⌋ ≤ ⌊q⌋ + 1 := by
  have h1 : rq q ≤ ((⌊q⌋ + 1 : ℤ) : ℚ) := by
    apply rq_le (srep_int _ h)
    push_cast; exact (Int.lt_floor_add_one q).le
  have h2 : ((⌊rq q⌋ : ℤ) : ℚ) ≤ ((⌊q⌋ + 1 : ℤ) : ℚ) := (Int.floor_le _).trans h1
  exact_mod_cast h2

theorem small_pow_le {m : ℕ} (hm : m ≤ 32) : (2 : ℤ) ^ m ≤ 4294967296 := by
  calc (2 : ℤ) ^ m ≤ 2 ^ 32 := pow_le_pow_right₀ (by norm_num) hm
    _ = _ := by norm_num

/-- The only double whose `+ 0.5` rounds across an integer is the predecessor of one half. -/
theorem floor_rq_eq {Y : ℚ} (hY : SRep Y) (hlo : -2147483649 ≤ Y) (hhi : Y ≤ 2147483648)
    (hne : Y ≠ 1 / 2 - 1 / 2 ^ 54) : ⌊rq (Y + 1 / 2)⌋ = ⌊Y + 1 / 2⌋ := by
  set q := Y + 1 / 2 with hq
  have hf1 : -2147483649 ≤ ⌊q⌋ := by
    apply Int.le_floor.mpr; push_cast; linarith
  have hf2 : ⌊q⌋ ≤ 2147483648 := by
    have h1 : (⌊q⌋ : ℚ) ≤ q := Int.floor_le q
    have h2 : ((⌊q⌋ : ℤ) : ℚ) < ((2147483649 : ℤ) : ℚ) := by push_cast; linarith
    have h3 : ⌊q⌋ < 2147483649 := by exact_mod_cast h2
    omega
  have hge := floor_le_floor_rq (q := q) (by omega)
  have hle := floor_rq_le (q := q) (by omega)
  by_contra hcon
  have hN : ⌊rq q⌋ = ⌊q⌋ + 1 := by omega
  set N := ⌊q⌋ + 1 with hNdef
  have hNr : (N : ℚ) ≤ rq q := by rw [← hN]; exact Int.floor_le _
  have hqN : q < N := by rw [hNdef]; push_cast; exact Int.lt_floor_add_one q
  have hNq : (N : ℚ) - 1 ≤ q := by rw [hNdef]; push_cast; linarith [Int.floor_le q]
  -- so q is not representable
  have hnr : ¬ SRep q := by
    intro h; rw [rq_exact h] at hNr; linarith
  -- and no half-integer separates
  have hhalfint : ∀ z : ℤ, z.natAbs < 2 ^ 52 → q ≤ (2 * z - 1 : ℤ) / 2 → ¬ ((N : ℚ) > (2 * z - 1 : ℤ) / 2) := by
    intro z hz hqz hNz
    have hr : SRep (((2 * z - 1 : ℤ) : ℚ) / 2 ^ 1) :=
      srep_dyadic _ 1 (by have := sixteen_le_bias; omega) (by omega)
    rw [pow_one] at hr
    have := rq_le hr hqz
    linarith
  have hB : (0 : ℚ) < 2 ^ bias := by positivity
  obtain ⟨a, j, ha, hR⟩ := hY
  have ha' : (a : ℚ) < 2 ^ 53 := by exact_mod_cast ha
  have hhb := half_pow_bias
  -- integer Y: q is a half-integer
  by_cases hj : bias ≤ j
  · obtain ⟨d, rfl⟩ := Nat.exists_eq_add_of_le hj
    have h7 : |Y| = ((a * 2 ^ d : ℕ) : ℚ) := by
      apply mul_right_cancel₀ hB.ne'
      rw [hR]; push_cast; ring
    have : ∃ z : ℤ, Y = z := by
      rcases abs_choice Y with h8 | h8
      · exact ⟨((a * 2 ^ d : ℕ) : ℤ), by rw [← h8, h7]; push_cast; ring⟩
      · exact ⟨-((a * 2 ^ d : ℕ) : ℤ), by
          have : Y = -|Y| := by rw [h8]; ring
          rw [this, h7]; push_cast; ring⟩
    obtain ⟨z, hz⟩ := this
    apply hnr
    have hz1 : -2147483649 ≤ z := by rw [hz] at hlo; exact_mod_cast hlo
    have hz2 : z ≤ 2147483648 := by rw [hz] at hhi; exact_mod_cast hhi
    have e : q = ((2 * z + 1 : ℤ) : ℚ) / 2 ^ 1 := by rw [hq, hz]; push_cast; ring
    rw [e]; exact srep_dyadic _ 1 (by have := sixteen_le_bias; omega) (by omega)
  · push Not at hj
    have hj' : j ≤ 1073 := by unfold bias at hj; omega
    -- one half in units of 2^j
    set h := 2 ^ (1073 - j) with hh
    have hhalf : (1 / 2 : ℚ) * 2 ^ bias = (h : ℕ) * 2 ^ j := by
      rw [hhb, hh]; push_cast; rw [← pow_add, Nat.sub_add_cancel hj']
    rcases le_or_gt 0 Y with hY0 | hY0
    · -- non-negative
      rw [abs_of_nonneg hY0] at hR
      have hqR : q * 2 ^ bias = ((a + h : ℕ) : ℚ) * 2 ^ j := by
        rw [hq, add_mul, hR, hhalf]; push_cast; ring
      have hq0 : 0 ≤ q := by rw [hq]; linarith
      have hbig : 2 ^ 53 ≤ a + h := by
        by_contra hlt
        push Not at hlt
        apply hnr
        refine ⟨a + h, j, hlt, ?_⟩
        rw [abs_of_nonneg hq0, hqR]
      -- E = 53 + j
      rcases Nat.lt_or_ge (53 + j) bias with hE | hE
      · -- Y < 1/2
        have hE' : 53 + j ≤ 1073 := by unfold bias at hE; omega
        have hYhalf : Y < 1 / 2 := by
          have : Y * 2 ^ bias < 1 / 2 * 2 ^ bias := by
            rw [hR, hhb]
            calc (a : ℚ) * 2 ^ j < 2 ^ 53 * 2 ^ j := by gcongr
              _ = 2 ^ (53 + j) := by rw [← pow_add]
              _ ≤ 2 ^ 1073 := pow_le_pow_right₀ (by norm_num) hE'
          exact lt_of_mul_lt_mul_right this hB.le
        have hN1 : N = 1 := by
          have h1 : (N : ℚ) < ((2 : ℤ) : ℚ) := by push_cast; linarith
          have h2 : ((0 : ℤ) : ℚ) < (N : ℚ) := by push_cast; linarith
          have h3 : N < 2 := by exact_mod_cast h1
          have h4 : 0 < N := by exact_mod_cast h2
          omega
        rw [hN1] at hNr hqN
        push_cast at hNr hqN
        -- lower bound: Y ≥ 1/2 - 2^-54
        have hqpos : 0 < q := by rw [hq]; linarith
        have hlow : 1 / 2 - 1 / 2 ^ 54 ≤ Y := by
          have hb53 : bias = 53 + 1021 := rfl
          have herr := abs_rmag_sub_le (q := q) hqpos (j := 1021) (by
            have : (2 : ℚ) ^ bias = 2 ^ 53 * 2 ^ 1021 := by rw [← pow_add]; rfl
            rw [← this]
            calc q * 2 ^ bias < 1 * 2 ^ bias := by gcongr
              _ = _ := one_mul _)
          have hrq : rq q = rmag q := by unfold rq; rw [if_neg (not_lt.mpr hq0)]
          rw [hrq] at hNr
          have e : (2 : ℚ) ^ 1021 / 2 ^ bias / 2 = 1 / 2 ^ 54 := by
            rw [hb53, pow_add]
            have : (2 : ℚ) ^ 1021 ≠ 0 := by positivity
            generalize (2 : ℚ) ^ 1021 = z at this
            field_simp
          rw [e] at herr
          have := (abs_le.mp herr).2
          rw [hq] at this hNr
          linarith
        -- Y is a multiple of 2^j below 1/2
        apply hne
        apply le_antisymm _ hlow
        -- units: 2^-54 = 2^1020 units of 2^-1074
        have hb54 : (1 / 2 ^ 54 : ℚ) * 2 ^ bias = 2 ^ 1020 := by
          have : (2 : ℚ) ^ bias = 2 ^ 54 * 2 ^ 1020 := by rw [← pow_add]; rfl
          rw [this]; field_simp
        -- a ≥ 2^53 - something forces j = 1020
        have hj1020 : 1020 ≤ j := by
          by_contra hlt
          push Not at hlt
          -- Y < 2^53 * 2^1019 units = 1/4
          have h1 : Y * 2 ^ bias < 2 ^ 53 * 2 ^ 1019 := by
            rw [hR]
            calc (a : ℚ) * 2 ^ j < 2 ^ 53 * 2 ^ j := by gcongr
              _ ≤ 2 ^ 53 * 2 ^ 1019 := by
                have : (2 : ℚ) ^ j ≤ 2 ^ 1019 := pow_le_pow_right₀ (by norm_num) (by omega)
                gcongr
          have h2 : (1 / 4 : ℚ) * 2 ^ bias = 2 ^ 53 * 2 ^ 1019 := by
            have : (2 : ℚ) ^ bias = 2 ^ 55 * 2 ^ 1019 := by rw [← pow_add]; rfl
            rw [this]; generalize (2 : ℚ) ^ 1019 = z; ring
          rw [← h2] at h1
          have h3 : Y < 1 / 4 := lt_of_mul_lt_mul_right h1 hB.le
          have h4 : (1 : ℚ) / 2 ^ 54 ≤ 1 / 8 := by norm_num
          linarith
        have hmul : ∃ b : ℕ, (a : ℚ) * 2 ^ j = (b : ℚ) * 2 ^ 1020 := by
          refine ⟨a * 2 ^ (j - 1020), ?_⟩
          push_cast
          have : (2 : ℚ) ^ j = 2 ^ (j - 1020) * 2 ^ 1020 := by rw [← pow_add, Nat.sub_add_cancel hj1020]
          rw [this, mul_assoc]
        obtain ⟨b, hb⟩ := hmul
        have hblt : b < 2 ^ 53 := by
          have h1 : Y * 2 ^ bias < 1 / 2 * 2 ^ bias := by gcongr
          rw [hR, hb, hhb] at h1
          have h2 : (2 : ℚ) ^ 1073 = 2 ^ 53 * 2 ^ 1020 := by rw [← pow_add]
          rw [h2] at h1
          have h3 : (b : ℚ) < 2 ^ 53 := lt_of_mul_lt_mul_right h1 (by positivity)
          exact_mod_cast h3
        have hfin : Y * 2 ^ bias ≤ (1 / 2 - 1 / 2 ^ 54) * 2 ^ bias := by
          rw [sub_mul, hb54, hhb, hR, hb]
          have h2 : (2 : ℚ) ^ 1073 = 2 ^ 53 * 2 ^ 1020 := by rw [← pow_add]
          rw [h2]
          have h3 : (b : ℚ) + 1 ≤ 2 ^ 53 := by exact_mod_cast hblt
          have h4 : (0 : ℚ) < 2 ^ 1020 := by positivity
          generalize (2 : ℚ) ^ 1020 = z at h4
          nlinarith
        exact le_of_mul_le_mul_right hfin hB
      · -- 2^E is an integer
        obtain ⟨m, hm⟩ := Nat.exists_eq_add_of_le hE
        have hEE : (2 : ℚ) ^ 53 * 2 ^ j = 2 ^ m * 2 ^ bias := by
          rw [← pow_add, hm, pow_add]; ring
        have hqE : (2 : ℚ) ^ m ≤ q := by
          have : (2 : ℚ) ^ m * 2 ^ bias ≤ q * 2 ^ bias := by
            rw [← hEE, hqR]
            have : (2 : ℚ) ^ 53 ≤ ((a + h : ℕ) : ℚ) := by exact_mod_cast hbig
            gcongr
          exact le_of_mul_le_mul_right this hB
        have hYE : Y < (2 : ℚ) ^ m := by
          have : Y * 2 ^ bias < (2 : ℚ) ^ m * 2 ^ bias := by
            rw [← hEE, hR]; gcongr
          exact lt_of_mul_lt_mul_right this hB.le
        have hm32 : m ≤ 32 := by
          by_contra hgt
          push Not at hgt
          have h1 : (2 : ℚ) ^ 33 ≤ 2 ^ m := pow_le_pow_right₀ (by norm_num) hgt
          have h2 : (2 : ℚ) ^ 33 = 8589934592 := by norm_num
          rw [hq] at hqE
          linarith
        have hsm := small_pow_le hm32
        have hpos : (0 : ℤ) < 2 ^ m := by positivity
        apply hhalfint (2 ^ m + 1) (by omega)
        · push_cast; rw [hq]; linarith
        · push_cast
          have h1 : ((2 ^ m : ℤ) : ℚ) < (N : ℚ) := by push_cast; linarith
          have h2 : (2 : ℤ) ^ m < N := by exact_mod_cast h1
          have h3 : ((2 ^ m + 1 : ℤ) : ℚ) ≤ (N : ℚ) := by exact_mod_cast h2
          push_cast at h3
          linarith
    · -- negative
      rw [abs_of_neg hY0] at hR
      rcases le_or_gt q 0 with hq0 | hq0
      · apply hnr
        refine ⟨a - h, j, lt_of_le_of_lt (Nat.sub_le a h) ha, ?_⟩
        have hqR : (-q) * 2 ^ bias = (a : ℚ) * 2 ^ j - (h : ℕ) * 2 ^ j := by
          rw [hq, neg_add, add_mul, hR, neg_mul, hhalf]; ring
        have hle' : h ≤ a := by
          have h1 : 0 ≤ (-q) * 2 ^ bias := mul_nonneg (by linarith) hB.le
          rw [hqR] at h1
          have h2 : ((h : ℕ) : ℚ) * 2 ^ j ≤ (a : ℚ) * 2 ^ j := by linarith
          have h3 := le_of_mul_le_mul_right h2 (by positivity)
          exact_mod_cast h3
        rw [abs_of_nonpos hq0, hqR, Nat.cast_sub hle']; ring
      · -- 0 < q < 1/2
        have hN1 : 1 ≤ N := by
          have h2 : ((0 : ℤ) : ℚ) < (N : ℚ) := by push_cast; linarith
          have h4 : 0 < N := by exact_mod_cast h2
          omega
        apply hhalfint 1 (by decide)
        · push_cast; rw [hq]; linarith
        · have : ((1 : ℤ) : ℚ) ≤ (N : ℚ) := by exact_mod_cast hN1
          push_cast at this ⊢
          linarith

end Lcms

namespace Lcms.F64

/-- `0.49999999999999994 + 0.5` is a tie and rounds up to `1`. -/
theorem rq_tie : rq (1 / 2 - 1 / 2 ^ 54 + 1 / 2) = 1 := by
  set q : ℚ := 1 / 2 - 1 / 2 ^ 54 + 1 / 2 with hq
  have hq1 : q < 1 := by rw [hq]; norm_num
  have hq2 : 1 / 2 < q := by rw [hq]; norm_num
  have hq53 : q * 2 ^ 53 = 9007199254740991 + 1 / 2 := by rw [hq]; norm_num
  clear_value q
  have hB : (0 : ℚ) < 2 ^ bias := by positivity
  have hb : (2 : ℚ) ^ bias = 2 ^ 53 * 2 ^ 1021 := by rw [← pow_add]; rfl
  have hk : expIdx q = 1021 := by
    apply le_antisymm
    · apply expIdx_le (by linarith)
      rw [← hb]
      calc q * 2 ^ bias < 1 * 2 ^ bias := by gcongr
        _ = _ := one_mul _
    · by_contra hlt
      push Not at hlt
      have h1 := expIdx_upper (q := q)
      have h2 : (2 : ℚ) ^ expIdx q ≤ 2 ^ 1020 := pow_le_pow_right₀ (by norm_num) (by omega)
      have h3 : (2 : ℚ) ^ 53 * 2 ^ 1020 = 2 ^ 1073 := by rw [← pow_add]
      have h4 : q * 2 ^ bias < 1 / 2 * 2 ^ bias := by
        rw [half_pow_bias, ← h3]
        refine h1.trans_le ?_
        gcongr
      have := lt_of_mul_lt_mul_right h4 hB.le
      linarith
  have hs : q * 2 ^ bias / 2 ^ 1021 = 9007199254740991 + 1 / 2 := by
    rw [← hq53, hb]
    have : (2 : ℚ) ^ 1021 ≠ 0 := by positivity
    generalize (2 : ℚ) ^ 1021 = z at this
    field_simp
  have hr : rneNat (9007199254740991 + 1 / 2) = 9007199254740992 := by
    have hf : ⌊(9007199254740991 + 1 / 2 : ℚ)⌋₊ = 9007199254740991 := by
      rw [Nat.floor_eq_iff (by norm_num)]; norm_num
    unfold rneNat
    simp only [hf]
    norm_num
  unfold rq
  rw [if_neg (by linarith)]
  unfold rmag
  rw [hk, hs, hr, hb]
  have h0 : (2 : ℚ) ^ 1021 ≠ 0 := by positivity
  generalize (2 : ℚ) ^ 1021 = z at h0
  field_simp
  norm_num

end Lcms.F64
