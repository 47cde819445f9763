import Verif.Props.CurvesBack

/-! # Property C106, types 2, 3, 5 and 6 -/

namespace Lcms.Props

open Lcms.Curves

/-- The error of the root of a number within `κ` of the power of `S`. -/
noncomputable def rootErr (κ : ℝ) (G : ℚ) (ε S : ℝ) : ℝ := 2 * uu * |Real.log S| + 6 * κ / G + 3 * ε

theorem rootErr_nonneg {κ ε S : ℝ} {G : ℚ} (hκ : 0 ≤ κ) (hG : 0 < G) (hε : 0 ≤ ε) : 0 ≤ rootErr κ G ε S := by
  unfold rootErr
  have := uu_pos
  have : (0 : ℝ) < G := by exact_mod_cast hG
  positivity

/-- Root, difference and quotient of a number near the power. -/
theorem PowerPiece.back {l : Libm} {ε κ : ℝ} (hl : AccuratePow l ε) (hε : 0 ≤ ε) {g a b r v : F64} {G A B R V : ℚ}
    (h : PowerPiece g a b r G A B R) (hG : 1 / 1000 ≤ G) (hA : 1 / 1000 ≤ A)
    (hSA : InRange (((A : ℝ) * R + B) / A)) (hκ : 0 ≤ κ) (hκ' : κ ≤ 1 / 2) (hκG : 3 * κ / G ≤ 1 / 5)
    (hρ : rootErr κ G ε ((A : ℝ) * R + B) ≤ 1 / 2) (hv : F64.val v = some V)
    (hV : |(V : ℝ) - ((A : ℝ) * R + B) ^ (G : ℝ)| ≤ κ * ((A : ℝ) * R + B) ^ (G : ℝ)) :
    ∃ Z : ℚ, F64.val (F64.div (F64.sub (l.powf v (F64.div (F64.ofRat 1) g)) b) a) = some Z ∧
      |(Z : ℝ) - R| ≤ (2 * rootErr κ G ε ((A : ℝ) * R + B) + 4 * uu) * (((A : ℝ) * R + B) / A) := by
  have hA0 : 0 < A := by linarith
  have hG' : (1 / 1000 : ℝ) ≤ G := by
    have := (Rat.cast_le (K := ℝ)).mpr hG
    push_cast at this
    exact this
  have hG'' : (G : ℝ) ≤ 1024 := by exact_mod_cast h.hG'
  obtain ⟨P, hP, hPe⟩ := inv_pow_acc hl hε hv h.hg hG' hG'' h.base hκ hκ' hκG hV
  exact affine_back hP h.ha h.hb hA0 h.hB (show (0 : ℝ) ≤ R by exact_mod_cast h.hR) rfl h.base hSA
    (rootErr_nonneg hκ h.hG hε) hρ hPe

/-- The error of adding a constant to the power and subtracting it again. -/
noncomputable def shiftBound (G : ℚ) (ε W C : ℝ) : ℝ := bound G ε + 4 * uu * ((W + C) / W)

/-- Adding a constant to the power and subtracting it again. -/
theorem PowerPiece.shift {l : Libm} {ε : ℝ} (hl : AccuratePow l ε) (hε : 0 ≤ ε) (hε' : ε ≤ 1 / 8) {g a b r c : F64}
    {G A B R C : ℚ} (h : PowerPiece g a b r G A B R) (hc : F64.val c = some C) (hC : 0 ≤ C)
    (hC' : (C : ℝ) ≤ rHi / 2) (hp : ((A : ℝ) * R + B) ^ (G : ℝ) ≤ rHi / 2)
    (hs : shiftBound G ε (((A : ℝ) * R + B) ^ (G : ℝ)) C ≤ 1 / 2) :
    ∃ Y V : ℚ, F64.val (F64.add (l.powf (F64.add (F64.mul a r) b) g) c) = some Y ∧ C < Y ∧
      F64.val (F64.sub (F64.add (l.powf (F64.add (F64.mul a r) b) g) c) c) = some V ∧ 0 < V ∧
      |(V : ℝ) - ((A : ℝ) * R + B) ^ (G : ℝ)| ≤
        shiftBound G ε (((A : ℝ) * R + B) ^ (G : ℝ)) C * ((A : ℝ) * R + B) ^ (G : ℝ) := by
  obtain ⟨-, -, P, hP, hPe⟩ := h.value hl hε
  set W := ((A : ℝ) * R + B) ^ (G : ℝ) with hW
  have hW0 : rLo ≤ W := h.power.1
  have hb0 := bound_nonneg (G := G) hε
  have hb1 := bound_small h.hG' hε'
  have hlo := rLo_pos
  have hWp : 0 < W := by linarith
  have hC0 : (0 : ℝ) ≤ C := by exact_mod_cast hC
  have hu0 := uu_pos
  have hu1 := uu_small
  have h1 := abs_le.mp hPe
  have hbW : bound G ε * W ≤ W / 2 := by nlinarith
  obtain ⟨Y, hY, hYe⟩ := rd_rel ((C104_operations _ c P C hP hc).1)
    (by rw [Rat.cast_add]; linarith) (by rw [Rat.cast_add]; linarith)
  rw [Rat.cast_add] at hYe
  have hYe' : |(Y : ℝ) - (P + C)| ≤ 3 / 2 * (W + C) * uu := by
    refine hYe.trans (mul_le_mul_of_nonneg_right ?_ hu0.le)
    linarith
  have h2 := abs_le.mp hYe'
  have hd : (((Y - C : ℚ)) : ℝ) = Y - C := Rat.cast_sub _ _
  have hrt : 3 / 2 * (W + C) * uu ≤ (W + C) / 100 := by nlinarith
  have hdabs : |(Y : ℝ) - C| ≤ 2 * (W + C) := by
    rw [abs_le]
    constructor <;> linarith
  obtain ⟨V, hV, hVe⟩ := rd_step ((C104_operations _ c Y C hY hc).2.1) (by
    rw [hd]
    linarith)
  rw [hd] at hVe
  have hVe' : |(V : ℝ) - (Y - C)| ≤ 2 * (W + C) * uu := by
    rcases hVe with h | h
    · exact h.trans (mul_le_mul_of_nonneg_right hdabs hu0.le)
    · refine h.trans ?_
      nlinarith
  have e : shiftBound G ε W C * W = bound G ε * W + 4 * uu * (W + C) := by
    unfold shiftBound
    rw [add_mul, mul_assoc (4 * uu), div_mul_cancel₀ _ hWp.ne']
  have hfin : |(V : ℝ) - W| ≤ shiftBound G ε W C * W := by
    rw [e]
    have h3 := abs_le.mp hVe'
    rw [abs_le]
    constructor <;> nlinarith
  have hVpos : (0 : ℝ) < V := by
    have h3 := abs_le.mp hfin
    have : shiftBound G ε W C * W ≤ 1 / 2 * W := mul_le_mul_of_nonneg_right hs hWp.le
    linarith
  have hVpos' : 0 < V := by exact_mod_cast hVpos
  refine ⟨Y, V, hY, ?_, hV, hVpos', hfin⟩
  by_contra hcon
  have h4 : V ≤ 0 := by
    rw [correct_val ((C104_operations _ c Y C hY hc).2.1) hV]
    exact F64.rq_nonpos (by linarith)
  linarith

theorem shiftBound_nonneg {G : ℚ} {ε W C : ℝ} (hε : 0 ≤ ε) (hW : 0 < W) (hC : 0 ≤ C) : 0 ≤ shiftBound G ε W C := by
  unfold shiftBound
  have := bound_nonneg (G := G) hε
  have := uu_pos
  positivity

/-- **C106**, type 2. -/
theorem C106_type2 (l : Libm) (ε : ℝ) (hl : AccuratePow l ε) (hε : 0 ≤ ε) (hε' : ε ≤ 1 / 8)
    (g a b r : F64) (G A B R : ℚ) (h : PowerPiece g a b r G A B R) (hG : 1 / 1000 ≤ G) (hA : 1 / 1000 ≤ A)
    (hSA : InRange (((A : ℝ) * R + B) / A)) (hbG : 3 * bound G ε / G ≤ 1 / 5)
    (hρ : rootErr (bound G ε) G ε ((A : ℝ) * R + B) ≤ 1 / 2) :
    ∃ y z Z, eval (F64.ops l) 2 [g, a, b] r = some y ∧ eval (F64.ops l) (-2) [g, a, b] y = some z ∧
      F64.val z = some Z ∧
      |(Z : ℝ) - R| ≤ (2 * rootErr (bound G ε) G ε ((A : ℝ) * R + B) + 4 * uu) * (((A : ℝ) * R + B) / A) := by
  obtain ⟨h1, -, Y, hY, hYe⟩ := h.value hl hε
  obtain ⟨Z, hZ, hZe⟩ := h.back hl hε hG hA hSA (bound_nonneg hε) (bound_small h.hG' hε') hbG hρ hY hYe
  have hW : (0 : ℝ) < ((A : ℝ) * R + B) ^ (G : ℝ) := Real.rpow_pos_of_pos h.pos _
  have hY0 : (0 : ℝ) < Y := by
    have h2 := abs_le.mp hYe
    have h3 := bound_small h.hG' hε'
    nlinarith
  have hn : F64.lt (l.powf (F64.add (F64.mul a r) b) g) (F64.ofRat 0) = false := by
    by_contra hc
    have h3 := (F64.lt_val hY val_ofRat0).mp (by simpa using hc)
    have h4 : (Y : ℝ) < 0 := by exact_mod_cast h3
    linarith
  have hR0 : (0 : ℝ) ≤ R := by exact_mod_cast h.hR
  have hy : eval (F64.ops l) 2 [g, a, b] r = some (l.powf (F64.add (F64.mul a r) b) g) := by
    show some (f2 (F64.ops l) g a b r) = _
    have hd := disc_le h.ha h.hb h.hr (by linarith) h.hB h.hR
    unfold f2
    simp only [not_tiny64 l h.ha hA, Bool.false_eq_true, if_false]
    simp only [F64.ops, hd, h1, if_true]
  have hz : eval (F64.ops l) (-2) [g, a, b] (l.powf (F64.add (F64.mul a r) b) g) =
      some (if F64.lt (F64.div (F64.sub (l.powf (l.powf (F64.add (F64.mul a r) b) g)
        (F64.div (F64.ofRat 1) g)) b) a) (F64.ofRat 0) = true then F64.ofRat 0
        else F64.div (F64.sub (l.powf (l.powf (F64.add (F64.mul a r) b) g) (F64.div (F64.ofRat 1) g)) b) a) := by
    show some (g2 (F64.ops l) g a b (l.powf (F64.add (F64.mul a r) b) g)) = _
    unfold g2
    simp only [not_tiny64 l h.ha hA, not_tiny64 l h.hg hG, Bool.or_false, Bool.false_eq_true, if_false]
    simp only [F64.ops, hn, Bool.false_eq_true, if_false]
  by_cases hneg : F64.lt (F64.div (F64.sub (l.powf (l.powf (F64.add (F64.mul a r) b) g)
        (F64.div (F64.ofRat 1) g)) b) a) (F64.ofRat 0) = true
  · rw [if_pos hneg] at hz
    refine ⟨_, _, 0, hy, hz, val_ofRat0, le_trans ?_ hZe⟩
    have h3 : Z < 0 := (F64.lt_val hZ val_ofRat0).mp hneg
    have h4 : (Z : ℝ) < 0 := by exact_mod_cast h3
    rw [Rat.cast_zero, zero_sub, abs_neg, abs_of_nonneg hR0, abs_of_neg (by linarith)]
    linarith
  · rw [if_neg hneg] at hz
    exact ⟨_, _, Z, hy, hz, hZ, hZe⟩

/-- **C106**, type 6. -/
theorem C106_type6 (l : Libm) (ε : ℝ) (hl : AccuratePow l ε) (hε : 0 ≤ ε) (hε' : ε ≤ 1 / 8)
    (g a b c r : F64) (G A B C R : ℚ) (h : PowerPiece g a b r G A B R) (hG : 1 / 1000 ≤ G) (hA : 1 / 1000 ≤ A)
    (hc : F64.val c = some C) (hC : 0 ≤ C) (hC' : (C : ℝ) ≤ rHi / 2)
    (hp : ((A : ℝ) * R + B) ^ (G : ℝ) ≤ rHi / 2) (hSA : InRange (((A : ℝ) * R + B) / A)) (κ : ℝ)
    (hκ : κ = shiftBound G ε (((A : ℝ) * R + B) ^ (G : ℝ)) C) (hs : κ ≤ 1 / 2) (hκG : 3 * κ / G ≤ 1 / 5)
    (hρ : rootErr κ G ε ((A : ℝ) * R + B) ≤ 1 / 2) :
    ∃ y z Z, eval (F64.ops l) 6 [g, a, b, c] r = some y ∧ eval (F64.ops l) (-6) [g, a, b, c] y = some z ∧
      F64.val z = some Z ∧
      |(Z : ℝ) - R| ≤ (2 * rootErr κ G ε ((A : ℝ) * R + B) + 4 * uu) * (((A : ℝ) * R + B) / A) := by
  obtain ⟨-, h1, -⟩ := h.value hl hε
  have hW : (0 : ℝ) < ((A : ℝ) * R + B) ^ (G : ℝ) := Real.rpow_pos_of_pos h.pos _
  have hC0 : (0 : ℝ) ≤ C := by exact_mod_cast hC
  obtain ⟨Y, V, hY, -, hV, hV0, hVe⟩ := h.shift hl hε hε' hc hC hC' hp (hκ ▸ hs)
  rw [← hκ] at hVe
  obtain ⟨Z, hZ, hZe⟩ := h.back hl hε hG hA hSA (by rw [hκ]; exact shiftBound_nonneg hε hW hC0) hs hκG hρ hV hVe
  refine ⟨F64.add (l.powf (F64.add (F64.mul a r) b) g) c, _, Z, ?_, ?_, hZ, hZe⟩
  · show some (f6 (F64.ops l) g a b c r) = some (F64.add (l.powf (F64.add (F64.mul a r) b) g) c)
    unfold f6
    simp only [F64.ops, h1, Bool.false_eq_true, if_false]
  · show some (g6 (F64.ops l) g a b c _) = _
    have hn : F64.lt (F64.sub (F64.add (l.powf (F64.add (F64.mul a r) b) g) c) c) (F64.ofRat 0) = false := by
      by_contra hcon
      have := (F64.lt_val hV val_ofRat0).mp (by simpa using hcon)
      linarith
    unfold g6
    simp only [not_tiny64 l h.ha hA, Bool.false_eq_true, if_false]
    simp only [F64.ops, hn, Bool.false_eq_true, if_false]

/-- **C106**, type 3. -/
theorem C106_type3 (l : Libm) (ε : ℝ) (hl : AccuratePow l ε) (hε : 0 ≤ ε) (hε' : ε ≤ 1 / 8)
    (g a b c r : F64) (G A B C R : ℚ) (h : PowerPiece g a b r G A B R) (hG : 1 / 1000 ≤ G) (hA : 1 / 1000 ≤ A)
    (hc : F64.val c = some C) (hC : 0 ≤ C) (hC' : (C : ℝ) ≤ rHi / 2)
    (hp : ((A : ℝ) * R + B) ^ (G : ℝ) ≤ rHi / 2) (hSA : InRange (((A : ℝ) * R + B) / A)) (κ : ℝ)
    (hκ : κ = shiftBound G ε (((A : ℝ) * R + B) ^ (G : ℝ)) C) (hs : κ ≤ 1 / 2) (hκG : 3 * κ / G ≤ 1 / 5)
    (hρ : rootErr κ G ε ((A : ℝ) * R + B) ≤ 1 / 2) :
    ∃ y z Z, eval (F64.ops l) 3 [g, a, b, c] r = some y ∧ eval (F64.ops l) (-3) [g, a, b, c] y = some z ∧
      F64.val z = some Z ∧
      |(Z : ℝ) - R| ≤ (2 * rootErr κ G ε ((A : ℝ) * R + B) + 4 * uu) * (((A : ℝ) * R + B) / A) := by
  obtain ⟨h1, -, -⟩ := h.value hl hε
  have hW : (0 : ℝ) < ((A : ℝ) * R + B) ^ (G : ℝ) := Real.rpow_pos_of_pos h.pos _
  have hC0 : (0 : ℝ) ≤ C := by exact_mod_cast hC
  obtain ⟨Y, V, hY, hCY, hV, hV0, hVe⟩ := h.shift hl hε hε' hc hC hC' hp (hκ ▸ hs)
  rw [← hκ] at hVe
  obtain ⟨Z, hZ, hZe⟩ := h.back hl hε hG hA hSA (by rw [hκ]; exact shiftBound_nonneg hε hW hC0) hs hκG hρ hV hVe
  refine ⟨F64.add (l.powf (F64.add (F64.mul a r) b) g) c, _, Z, ?_, ?_, hZ, hZe⟩
  · show some (f3 (F64.ops l) g a b c r) = some (F64.add (l.powf (F64.add (F64.mul a r) b) g) c)
    have hd := max_le_f64 (disc_le h.ha h.hb h.hr (by linarith) h.hB h.hR) ((F64.le_val val_ofRat0 h.hr).mpr h.hR)
    unfold f3
    simp only [not_tiny64 l h.ha hA, Bool.false_eq_true, if_false]
    simp only [F64.ops, hd, h1, if_true]
  · show some (g3 (F64.ops l) g a b c _) = _
    have hle : F64.le c (F64.add (l.powf (F64.add (F64.mul a r) b) g) c) = true := (F64.le_val hc hY).mpr hCY.le
    have hpos : F64.lt (F64.ofRat 0) (F64.sub (F64.add (l.powf (F64.add (F64.mul a r) b) g) c) c) = true :=
      (F64.lt_val val_ofRat0 hV).mpr hV0
    unfold g3
    simp only [not_tiny64 l h.ha hA, Bool.false_eq_true, if_false]
    simp only [F64.ops, hle, hpos, if_true]

/-- **C106**, type 5: from the joint on, if the line computed at the joint is not above the value. -/
theorem C106_type5_power (l : Libm) (ε : ℝ) (hl : AccuratePow l ε) (hε : 0 ≤ ε) (hε' : ε ≤ 1 / 8)
    (g a b c d e f r : F64) (G A B D E R : ℚ) (h : PowerPiece g a b r G A B R) (hG : 1 / 1000 ≤ G)
    (hA : 1 / 1000 ≤ A) (hd : F64.val d = some D) (hDR : D ≤ R)
    (he : F64.val e = some E) (hE : 0 ≤ E) (hE' : (E : ℝ) ≤ rHi / 2)
    (hj : ∀ y, eval (F64.ops l) 5 [g, a, b, c, d, e, f] r = some y → F64.le (F64.add (F64.mul c d) f) y = true)
    (hp : ((A : ℝ) * R + B) ^ (G : ℝ) ≤ rHi / 2) (hSA : InRange (((A : ℝ) * R + B) / A)) (κ : ℝ)
    (hκ : κ = shiftBound G ε (((A : ℝ) * R + B) ^ (G : ℝ)) E) (hs : κ ≤ 1 / 2) (hκG : 3 * κ / G ≤ 1 / 5)
    (hρ : rootErr κ G ε ((A : ℝ) * R + B) ≤ 1 / 2) :
    ∃ y z Z, eval (F64.ops l) 5 [g, a, b, c, d, e, f] r = some y ∧
      eval (F64.ops l) (-5) [g, a, b, c, d, e, f] y = some z ∧ F64.val z = some Z ∧
      |(Z : ℝ) - R| ≤ (2 * rootErr κ G ε ((A : ℝ) * R + B) + 4 * uu) * (((A : ℝ) * R + B) / A) := by
  obtain ⟨h1, -, -⟩ := h.value hl hε
  have hW : (0 : ℝ) < ((A : ℝ) * R + B) ^ (G : ℝ) := Real.rpow_pos_of_pos h.pos _
  have hE0 : (0 : ℝ) ≤ E := by exact_mod_cast hE
  obtain ⟨Y, V, hY, -, hV, hV0, hVe⟩ := h.shift hl hε hε' he hE hE' hp (hκ ▸ hs)
  rw [← hκ] at hVe
  obtain ⟨Z, hZ, hZe⟩ := h.back hl hε hG hA hSA (by rw [hκ]; exact shiftBound_nonneg hε hW hE0) hs hκG hρ hV hVe
  have hy : eval (F64.ops l) 5 [g, a, b, c, d, e, f] r =
      some (F64.add (l.powf (F64.add (F64.mul a r) b) g) e) := by
    show some (f5 (F64.ops l) g a b c d e f r) = _
    unfold f5
    simp only [F64.ops, (F64.le_val hd h.hr).mpr hDR, h1, if_true]
  refine ⟨_, _, Z, hy, ?_, hZ, hZe⟩
  show some (g5 (F64.ops l) g a b c d e f _) = _
  have hn : F64.lt (F64.sub (F64.add (l.powf (F64.add (F64.mul a r) b) g) e) e) (F64.ofRat 0) = false := by
    by_contra hcon
    have := (F64.lt_val hV val_ofRat0).mp (by simpa using hcon)
    linarith
  have hle := hj _ hy
  unfold g5
  simp only [not_tiny64 l h.ha hA, not_tiny64 l h.hg hG, Bool.or_false, Bool.false_eq_true, if_false]
  simp only [F64.ops, hle, hn, Bool.false_eq_true, if_false, if_true]

/-- **C106**, type 5: below the joint, if the value is below the line computed at the joint. -/
theorem C106_type5_line (l : Libm) (g a b c d e f r : F64) (C D F R : ℚ) (hc : F64.val c = some C)
    (hd : F64.val d = some D) (hf : F64.val f = some F) (hr : F64.val r = some R) (hR : 0 ≤ R) (hRD : R < D)
    (hC : 1 / 1000 ≤ C) (hF : 0 ≤ F)
    (hj : ∀ y, eval (F64.ops l) 5 [g, a, b, c, d, e, f] r = some y → F64.lt y (F64.add (F64.mul c d) f) = true)
    (hin : InRange (R * C + F)) (hin' : InRange ((R * C + F) / C)) :
    ∃ y z Z, eval (F64.ops l) 5 [g, a, b, c, d, e, f] r = some y ∧
      eval (F64.ops l) (-5) [g, a, b, c, d, e, f] y = some z ∧ F64.val z = some Z ∧
      |(Z : ℝ) - R| ≤ 10 * uu * (R + F / C) := by
  have hC' : (1 / 1000 : ℝ) ≤ C := by
    have := (Rat.cast_le (K := ℝ)).mpr hC
    push_cast at this
    exact this
  have hC0 : (0 : ℝ) < C := by linarith
  have hu := uu_pos
  have hu' := uu_small
  obtain ⟨Y, hY, h1, h2⟩ := affine_acc hr hf hc hR hF (by linarith) hin
  have hS0 : (0 : ℝ) < R * C + F := lt_of_lt_of_le rLo_pos hin.1
  have hYe : |(Y : ℝ) - ((C : ℝ) * R + F)| ≤ 3 * uu * ((C : ℝ) * R + F) := by
    rw [mul_comm (C : ℝ)]
    generalize (R : ℝ) * C + F = S at *
    rw [abs_le]
    constructor <;> nlinarith
  have hSe : (C : ℝ) * R + F = R * C + F := by ring
  obtain ⟨Z, hZ, hZe⟩ := affine_back (ρ := 3 * uu) hY hc hf (by linarith) hF
    (show (0 : ℝ) ≤ R by exact_mod_cast hR) rfl (by rw [hSe]; exact hin) (by rw [hSe]; exact hin') (by positivity)
    (by linarith) hYe
  have hy : eval (F64.ops l) 5 [g, a, b, c, d, e, f] r = some (F64.add (F64.mul r c) f) := by
    show some (f5 (F64.ops l) g a b c d e f r) = _
    have hle : F64.le d r = false := by
      by_contra hcon
      have := (F64.le_val hd hr).mp (by simpa using hcon)
      linarith
    unfold f5
    simp only [F64.ops, hle, Bool.false_eq_true, if_false]
  refine ⟨_, F64.div (F64.sub (F64.add (F64.mul r c) f) f) c, Z, hy, ?_, hZ, ?_⟩
  · show some (g5 (F64.ops l) g a b c d e f _) = _
    have hle : F64.le (F64.add (F64.mul c d) f) (F64.add (F64.mul r c) f) = false := by
      by_contra hcon
      exact F64.lt_irrefl' (F64.lt_of_lt_of_le (hj _ hy) (by simpa using hcon))
    unfold g5
    simp only [not_tiny64 l hc hC, Bool.false_eq_true, if_false]
    simp only [F64.ops, hle, Bool.false_eq_true, if_false]
  · refine hZe.trans (le_of_eq ?_)
    rw [add_div, mul_div_cancel_left₀ _ hC0.ne']
    ring

/-- The hypotheses can be met: `(x + 1)^2 + 1` at 1, there and back. -/
example : ∃ y z Z, eval (F64.ops cutLibm) 6 [F64.ofRat 2, F64.ofRat 1, F64.ofRat 1, F64.ofRat 1] (F64.ofRat 1) = some y ∧
    eval (F64.ops cutLibm) (-6) [F64.ofRat 2, F64.ofRat 1, F64.ofRat 1, F64.ofRat 1] y = some z ∧
    F64.val z = some Z ∧ |(Z : ℝ) - 1| ≤ 250 * uu := by
  have hu := uu_pos
  have hu' := uu_small
  have v2 : F64.val (F64.ofRat 2) = some 2 := by decide +kernel
  have hin : ∀ x : ℝ, 1 ≤ x → x ≤ 8 → InRange x := fun x h1 h2 =>
    ⟨rLo_le (le_trans (by norm_num) h1), le_rHi (h2.trans (by norm_num))⟩
  have hW : ((((1 : ℚ) : ℝ) * ((1 : ℚ) : ℝ) + ((1 : ℚ) : ℝ)) ^ (((2 : ℚ) : ℝ))) = 4 := by
    rw [show (((1 : ℚ) : ℝ) * ((1 : ℚ) : ℝ) + ((1 : ℚ) : ℝ)) = 2 by norm_num,
      show (((2 : ℚ) : ℝ)) = ((2 : ℕ) : ℝ) by norm_num, Real.rpow_natCast]
    norm_num
  have hS : (((1 : ℚ) : ℝ) * ((1 : ℚ) : ℝ) + ((1 : ℚ) : ℝ)) = 2 := by norm_num
  have hpiece : PowerPiece (F64.ofRat 2) (F64.ofRat 1) (F64.ofRat 1) (F64.ofRat 1) 2 1 1 1 :=
    ⟨v2, val_ofRat1, val_ofRat1, val_ofRat1, by norm_num, by norm_num, by norm_num, by norm_num, by norm_num,
      by rw [hS]; exact hin _ (by norm_num) (by norm_num), by rw [hW]; exact hin _ (by norm_num) (by norm_num)⟩
  have hκ : shiftBound 2 (2 * uu) 4 ((1 : ℚ) : ℝ) = 15 * uu := by
    unfold shiftBound bound
    rw [max_eq_left (by norm_num)]
    push_cast
    ring
  have hlog : |Real.log 2| ≤ 1 := by
    rw [abs_of_nonneg (Real.log_nonneg (by norm_num))]
    have := Real.log_le_sub_one_of_pos (show (0 : ℝ) < 2 by norm_num)
    linarith
  have hroot : rootErr (15 * uu) 2 (2 * uu) 2 ≤ 53 * uu := by
    unfold rootErr
    push_cast
    nlinarith
  have h8 : (8 : ℝ) ≤ rHi / 2 := by
    have := le_rHi (show (16 : ℝ) ≤ 2 ^ 20 by norm_num)
    linarith
  obtain ⟨y, z, Z, hy, hz, hZ, he⟩ := C106_type6 cutLibm (2 * uu) C106_platform_exists.1 (by linarith) (by linarith)
    _ _ _ _ _ 2 1 1 1 1 hpiece (by norm_num) (by norm_num) val_ofRat1 (by norm_num)
    (by push_cast; linarith) (by rw [hW]; linarith)
    (by rw [hS]; exact hin _ (by norm_num) (by norm_num)) (15 * uu) (by rw [hW, hκ]) (by linarith)
    (by push_cast; linarith) (by rw [hS]; linarith)
  refine ⟨y, z, Z, hy, hz, hZ, ?_⟩
  rw [hS] at he
  push_cast at he
  linarith

/-- Type 2: `(x + 1)^2` at 1 and back. -/
example (l : Libm) (hl : AccuratePow l (2 * uu)) :
    ∃ y z Z, eval (F64.ops l) 2 [F64.ofRat 2, F64.ofRat 1, F64.ofRat 1] (F64.ofRat 1) = some y ∧
      eval (F64.ops l) (-2) [F64.ofRat 2, F64.ofRat 1, F64.ofRat 1] y = some z ∧
      F64.val z = some Z ∧ |(Z : ℝ) - 1| ≤ 160 * uu := by
  have hu := uu_pos
  have hu' := uu_small
  have hlog : uu * |Real.log 2| ≤ uu * 1 := mul_le_mul_of_nonneg_left abs_log_two hu.le
  have hr : rootErr (10 * uu) 2 (2 * uu) 2 ≤ 38 * uu := by
    unfold rootErr
    push_cast
    linarith
  obtain ⟨y, z, Z, h1, h2, h3, h4⟩ := C106_type2 l (2 * uu) hl (by linarith) (by linarith) _ _ _ _ 2 1 1 1 one_piece
    (by norm_num) (by norm_num) (by rw [one_base]; exact inRange_small (by norm_num) (by norm_num))
    (by rw [one_bound]; push_cast; linarith) (by rw [one_base, one_bound]; linarith)
  refine ⟨y, z, Z, h1, h2, h3, ?_⟩
  rw [one_base, one_bound] at h4
  push_cast at h4
  linarith

theorem one_shift : shiftBound 2 (2 * uu) 4 ((1 : ℚ) : ℝ) = 15 * uu := by
  unfold shiftBound
  rw [one_bound]
  push_cast
  ring

theorem one_root : rootErr (15 * uu) 2 (2 * uu) 2 ≤ 53 * uu := by
  have hlog : uu * |Real.log 2| ≤ uu * 1 := mul_le_mul_of_nonneg_left abs_log_two uu_pos.le
  unfold rootErr
  push_cast
  linarith

/-- Type 3: the same and 1, and back. -/
example (l : Libm) (hl : AccuratePow l (2 * uu)) :
    ∃ y z Z, eval (F64.ops l) 3 [F64.ofRat 2, F64.ofRat 1, F64.ofRat 1, F64.ofRat 1] (F64.ofRat 1) = some y ∧
      eval (F64.ops l) (-3) [F64.ofRat 2, F64.ofRat 1, F64.ofRat 1, F64.ofRat 1] y = some z ∧
      F64.val z = some Z ∧ |(Z : ℝ) - 1| ≤ 220 * uu := by
  have hu := uu_pos
  have hu' := uu_small
  have hr := one_root
  obtain ⟨y, z, Z, h1, h2, h3, h4⟩ := C106_type3 l (2 * uu) hl (by linarith) (by linarith) _ _ _ _ _ 2 1 1 1 1 one_piece
    (by norm_num) (by norm_num) val_one1 (by norm_num) (by push_cast; exact le_half_rHi (by norm_num))
    (by rw [one_power]; exact le_half_rHi (by norm_num))
    (by rw [one_base]; exact inRange_small (by norm_num) (by norm_num)) (15 * uu) (by rw [one_power, one_shift])
    (by linarith) (by push_cast; linarith) (by rw [one_base]; linarith)
  refine ⟨y, z, Z, h1, h2, h3, ?_⟩
  rw [one_base] at h4
  push_cast at h4
  linarith

/-- Type 5: the same at the joint 1, above the line `x + 1`, and back. -/
example (l : Libm) (hl : AccuratePow l (2 * uu)) :
    ∃ y z Z, eval (F64.ops l) 5 [F64.ofRat 2, F64.ofRat 1, F64.ofRat 1, F64.ofRat 1, F64.ofRat 1, F64.ofRat 1, F64.ofRat 1]
        (F64.ofRat 1) = some y ∧
      eval (F64.ops l) (-5) [F64.ofRat 2, F64.ofRat 1, F64.ofRat 1, F64.ofRat 1, F64.ofRat 1, F64.ofRat 1, F64.ofRat 1] y =
        some z ∧ F64.val z = some Z ∧ |(Z : ℝ) - 1| ≤ 220 * uu := by
  have hu := uu_pos
  have hu' := uu_small
  have hr := one_root
  obtain ⟨w, W, Y, w1, w2, w3, w4⟩ := C105_type5 l (2 * uu) hl (by linarith) (by linarith) (F64.ofRat 2) (F64.ofRat 1)
    (F64.ofRat 1) (F64.ofRat 1) (F64.ofRat 1) (F64.ofRat 1) (F64.ofRat 1) (F64.ofRat 1) 2 1 1 1 1 1 1 1 val_one1
    val_one1 val_one1 val_one1 val_one1 (by norm_num)
    (fun _ => ⟨one_piece, by norm_num, by push_cast; exact le_half_rHi (by norm_num),
      by rw [one_power]; exact le_half_rHi (by norm_num)⟩) (fun h => absurd h (by norm_num))
  have hm := maps5 (g := ((2 : ℚ) : ℝ)) (by norm_num) ((1 : ℚ) : ℝ) ((1 : ℚ) : ℝ) ((1 : ℚ) : ℝ) ((1 : ℚ) : ℝ)
    ((1 : ℚ) : ℝ) ((1 : ℚ) : ℝ) ((1 : ℚ) : ℝ)
  rw [if_pos (le_refl _), max_eq_right (by norm_num), one_power] at hm
  rw [w3.unique hm, one_bound] at w4
  obtain ⟨y, z, Z, h1, h2, h3, h4⟩ := C106_type5_power l (2 * uu) hl (by linarith) (by linarith) _ _ _ (F64.ofRat 1)
    (F64.ofRat 1) (F64.ofRat 1) (F64.ofRat 1) _ 2 1 1 1 1 1 one_piece
    (by norm_num) (by norm_num) val_one1 (le_refl _) val_one1 (by norm_num) (by push_cast; exact le_half_rHi (by norm_num))
    (by
      intro y hy
      rw [w1] at hy
      obtain rfl := Option.some.inj hy
      refine (F64.le_val (show F64.val _ = some 2 by decide +kernel) w2).mpr ?_
      have h5 := (abs_le.mp w4).1
      push_cast at h5
      have h6 : (2 : ℝ) ≤ W := by linarith
      exact_mod_cast h6)
    (by rw [one_power]; exact le_half_rHi (by norm_num))
    (by rw [one_base]; exact inRange_small (by norm_num) (by norm_num)) (15 * uu) (by rw [one_power, one_shift])
    (by linarith) (by push_cast; linarith) (by rw [one_base]; linarith)
  refine ⟨y, z, Z, h1, h2, h3, ?_⟩
  rw [one_base] at h4
  push_cast at h4
  linarith

/-- Type 5 below its joint: `x / 4 + 2` at 1/8 and back. -/
example : ∃ y z Z, eval (F64.ops cutLibm) 5 [F64.ofRat 2, F64.ofRat 1, F64.ofRat 1, F64.ofRat (1 / 4), F64.ofRat 1,
      F64.ofRat 1, F64.ofRat 2] (F64.ofRat (1 / 8)) = some y ∧
    eval (F64.ops cutLibm) (-5) [F64.ofRat 2, F64.ofRat 1, F64.ofRat 1, F64.ofRat (1 / 4), F64.ofRat 1, F64.ofRat 1,
      F64.ofRat 2] y = some z ∧ F64.val z = some Z ∧ |(Z : ℝ) - 1 / 8| ≤ 90 * uu := by
  have hu := uu_pos
  obtain ⟨y, z, Z, h1, h2, h3, h4⟩ := C106_type5_line cutLibm (F64.ofRat 2) (F64.ofRat 1) (F64.ofRat 1) (F64.ofRat (1 / 4))
    (F64.ofRat 1) (F64.ofRat 1) (F64.ofRat 2) (F64.ofRat (1 / 8)) (1 / 4) 1 2 (1 / 8) (by decide +kernel) val_one1
    val_two' (by decide +kernel) (by norm_num) (by norm_num) (by norm_num) (by norm_num)
    (by
      intro y hy
      have e : eval (F64.ops cutLibm) 5 [F64.ofRat 2, F64.ofRat 1, F64.ofRat 1, F64.ofRat (1 / 4), F64.ofRat 1,
          F64.ofRat 1, F64.ofRat 2] (F64.ofRat (1 / 8)) =
            some (F64.add (F64.mul (F64.ofRat (1 / 8)) (F64.ofRat (1 / 4))) (F64.ofRat 2)) := by
        show some (f5 (F64.ops cutLibm) _ _ _ _ _ _ _ _) = _
        unfold f5
        have : F64.le (F64.ofRat 1) (F64.ofRat (1 / 8)) = false := by decide +kernel
        simp only [F64.ops, this, Bool.false_eq_true, if_false]
      rw [e] at hy
      obtain rfl := Option.some.inj hy
      decide +kernel)
    (by push_cast; exact inRange_small (by norm_num) (by norm_num))
    (by push_cast; exact inRange_small (by norm_num) (by norm_num))
  refine ⟨y, z, Z, h1, h2, h3, ?_⟩
  push_cast at h4
  norm_num at h4 ⊢
  linarith

end Lcms.Props
