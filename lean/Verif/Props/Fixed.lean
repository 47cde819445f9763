import Verif.Lemmas.Nearest
import Verif.Lemmas.Mem
import Verif.Spec.Fixed
import Verif.Spec.Target

/-!
# Properties C19–C23: fixed point numbers
-/

namespace Lcms.Props

open Lcms Spec

/-! ### C19 -/

/-- The full claim C19: whenever the four bytes can be read, the value is exact. -/
def C19_statement : Prop :=
  ∀ (σ : Type) (t : Target) (h : Handler σ) (s s' : σ) (buf : List UInt8),
    h.read (List.replicate 4 0) s = (.ok () s', buf) →
    ∃ f, readS15f16 t h s = .ok f s' ∧ F64.val f = some ((twos32 (fileValue t buf) : ℚ) / 65536)

theorem toInt32_twos (n : Nat) (hn : n < 256 ^ 4) : (UInt32.ofNat n).toInt32.toInt = twos32 n := by
  have h : (UInt32.ofNat n).toInt32.toInt = Int.bmod n (2 ^ 32) := by
    have e : (UInt32.ofNat n).toInt32.toInt = (UInt32.ofNat n).toBitVec.toInt := rfl
    have e2 : (UInt32.ofNat n).toBitVec.toNat = n := by
      have : (UInt32.ofNat n).toBitVec.toNat = (UInt32.ofNat n).toNat := rfl
      rw [this, UInt32.toNat_ofNat']; omega
    rw [e, BitVec.toInt_eq_toNat_bmod, e2]
  rw [h, Int.bmod_def]; unfold twos32
  split <;> split <;> omega

theorem readBuf_of_read {σ : Type} {h : Handler σ} {n : Nat} {s s' : σ} {buf : List UInt8}
    (hr : h.read (List.replicate n 0) s = (.ok () s', buf)) : readBuf h n s = .ok buf s' := by
  unfold readBuf zeros; rw [hr]

theorem readS15f16_eq {σ : Type} (t : Target) (h : Handler σ) (s : σ) :
    readS15f16 t h s = match (readBuf h 4 s).map fun buf => UInt32.ofNat (fileValue t buf) with
      | .ok v s' => (match s15f16ToF64 t v.toInt32 with
        | some x => .ok x s'
        | none => .panic)
      | .err e s' => .err e s'
      | .panic => .panic := by
  unfold readS15f16
  rw [M.bind_apply, readU32_eq]
  cases (readBuf h 4 s).map fun buf => UInt32.ofNat (fileValue t buf) with
  | ok v s' => simp only; cases s15f16ToF64 t v.toInt32 <;> rfl
  | err e s' => rfl
  | panic => rfl

/-- **C19 is false** in debug builds: `i32::MIN.abs()` overflows. -/
theorem C19_refuted : ¬ C19_statement := by
  intro h
  obtain ⟨f, hf, _⟩ := h Mem pc (Mem.vec pc) ⟨[0x80, 0, 0, 0], 0⟩ ⟨[0x80, 0, 0, 0], 4⟩ [0x80, 0, 0, 0]
    (by decide)
  rw [readS15f16_eq] at hf
  have e1 : (readBuf (Mem.vec pc) 4 ⟨[0x80, 0, 0, 0], 0⟩).map
      (fun buf => UInt32.ofNat (fileValue pc buf)) = .ok 0x80000000 ⟨[0x80, 0, 0, 0], 4⟩ := by decide
  rw [e1] at hf
  simp only at hf
  have e2 : s15f16ToF64 pc (UInt32.toInt32 0x80000000) = none :=
    s15f16ToF64_eq_none.mpr ⟨by decide, rfl⟩
  rw [e2] at hf
  cases hf

/-- What is true of **C19**: exact for every bit pattern, except that in builds with overflow checks the one
pattern `0x80000000` is excluded (it panics, `C19_refuted`). -/
theorem C19_exact_partial {σ : Type} (t : Target) (h : Handler σ) (s s' : σ) (buf : List UInt8)
    (hr : h.read (List.replicate 4 0) s = (.ok () s', buf))
    (hne : t.checks = true → fileValue t buf ≠ 0x80000000) :
    ∃ f, readS15f16 t h s = .ok f s' ∧ F64.val f = some ((twos32 (fileValue t buf) : ℚ) / 65536) := by
  have hb := readBuf_of_read hr
  have hlen := (readBuf_ok hb).2
  have hlt : fileValue t buf < 256 ^ 4 := by rw [← hlen]; exact fileValue_lt t buf
  rw [readS15f16_eq, hb]
  simp only [Out.map]
  cases hf : s15f16ToF64 t (UInt32.ofNat (fileValue t buf)).toInt32 with
  | none =>
    obtain ⟨h1, h2⟩ := s15f16ToF64_eq_none.mp hf
    exfalso
    apply hne h2
    have h3 := toInt32_twos _ hlt
    rw [h1] at h3
    have h4 : Int32.minValue.toInt = -2147483648 := rfl
    rw [h4] at h3
    unfold twos32 at h3
    split at h3 <;> omega
  | some f =>
    refine ⟨f, rfl, ?_⟩
    rw [s15f16ToF64_val hf, toInt32_twos _ hlt]

/-- Non-vacuity: minus one and a half. -/
example : ∃ f, readS15f16 pc (Mem.vec pc) ⟨[0xFF, 0xFE, 0x80, 0], 0⟩ = .ok f ⟨[0xFF, 0xFE, 0x80, 0], 4⟩ ∧
    F64.val f = some (-3 / 2) := by
  obtain ⟨f, h1, h2⟩ := C19_exact_partial pc (Mem.vec pc) ⟨[0xFF, 0xFE, 0x80, 0], 0⟩
    ⟨[0xFF, 0xFE, 0x80, 0], 4⟩ [0xFF, 0xFE, 0x80, 0] (by decide) (by decide)
  refine ⟨f, h1, ?_⟩
  rw [h2]
  have : twos32 (fileValue pc [0xFF, 0xFE, 0x80, 0]) = -98304 := by decide
  rw [this]; norm_num

/-! ### C20 -/

/-- **C20** Whatever `read_s15f16` returned is written back by `write_s15f16` as exactly the four bytes it
was read from: for every handler read from and written to, every bit pattern. -/
theorem C20_fixed_round_trip {σ τ : Type} (t : Target) (h : Handler σ) (h2 : Handler τ) (s s' : σ) (f : F64)
    (hr : readS15f16 t h s = .ok f s') :
    ∃ buf, h.read (List.replicate 4 0) s = (.ok () s', buf) ∧ writeS15f16 t h2 f = h2.write buf := by
  rw [readS15f16_eq] at hr
  cases hb : readBuf h 4 s with
  | err e s1 => rw [hb] at hr; cases hr
  | panic => rw [hb] at hr; cases hr
  | ok buf s1 =>
    rw [hb] at hr
    simp only [Out.map] at hr
    obtain ⟨hread, hlen⟩ := readBuf_ok hb
    cases hf : s15f16ToF64 t (UInt32.ofNat (fileValue t buf)).toInt32 with
    | none => rw [hf] at hr; cases hr
    | some x =>
      rw [hf] at hr
      simp only [Out.ok.injEq] at hr
      obtain ⟨rfl, rfl⟩ := hr
      refine ⟨buf, hread, ?_⟩
      unfold writeS15f16
      rw [f64ToS15f16_grid _ (s15f16ToF64_val hf), writeU32_eq]
      have hlt : fileValue t buf < 256 ^ 4 := by rw [← hlen]; exact fileValue_lt t buf
      have e : (UInt32.ofNat (fileValue t buf)).toInt32.toUInt32.toNat = fileValue t buf := by
        have : (UInt32.ofNat (fileValue t buf)).toInt32.toUInt32 = UInt32.ofNat (fileValue t buf) := rfl
        rw [this, UInt32.toNat_ofNat']; omega
      rw [e, fileBytes_fileValue t buf hlen]

/-- Non-vacuity: reads that return exist, also for the extreme pattern in release builds. -/
example : ∃ f, readS15f16 ⟨false, false, true, false⟩ (Mem.vec pc) ⟨[0x80, 0, 0, 0], 0⟩
    = .ok f ⟨[0x80, 0, 0, 0], 4⟩ := by
  obtain ⟨f, h, _⟩ := C19_exact_partial ⟨false, false, true, false⟩ (Mem.vec pc) ⟨[0x80, 0, 0, 0], 0⟩
    ⟨[0x80, 0, 0, 0], 4⟩ [0x80, 0, 0, 0] (by decide) (by decide)
  exact ⟨f, h⟩

/-! ### C21 -/

/-- `write_s15f16(x)` is one write of the file bytes of the two's complement number `n`. -/
def Stores (x : F64) (n : Int) : Prop :=
  ∀ (σ : Type) (t : Target) (h : Handler σ),
    ∃ bs, bs.length = 4 ∧ twos32 (fileValue t bs) = n ∧ writeS15f16 t h x = h.write bs

theorem stores_toInt (x : F64) : Stores x (f64ToS15f16 x).toInt := by
  intro σ t h
  have hlt := u32_lt (f64ToS15f16 x).toUInt32
  refine ⟨fileBytes t 4 (f64ToS15f16 x).toUInt32.toNat, by simp, ?_, writeU32_eq t h _⟩
  rw [fileValue_fileBytes, Nat.mod_eq_of_lt hlt, ← toInt32_twos _ hlt, UInt32.ofNat_toNat]
  rfl

theorem stores_unique {x : F64} {m n : Int} (hm : Stores x m) (hn : Stores x n) : m = n := by
  -- a handler that hands back what was written
  let h : Handler (List UInt8) :=
    { read := fun b s => (.ok () s, b), seek := fun _ => pure (), tell := pure 0,
      write := fun b _ => .ok () b, read_length := fun _ _ => rfl }
  obtain ⟨b1, _, h2, h3⟩ := hm _ pc h
  obtain ⟨b2, _, h5, h6⟩ := hn _ pc h
  have e := congrFun (h3.symm.trans h6) []
  have : b1 = b2 := by injection e
  rw [← h2, ← h5, this]

/-- The full claim C21. -/
def C21_statement : Prop :=
  ∀ (x : F64) (X : ℚ), F64.val x = some X → -32768 ≤ X → X ≤ 2147483647 / 65536 →
    ∃ n, Stores x n ∧ |(n : ℚ) / 65536 - X| ≤ 1 / 131072

/-- The one counterexample: `0.49999999999999994 / 65536` (exact value `(2^53 - 1) / 2^70`). -/
def halfPred : F64 := .fin false ⟨2 ^ 53 - 1, by decide⟩ ⟨1004, by decide⟩

theorem val_halfPred : F64.val halfPred = some ((1 / 2 - 1 / 2 ^ 54) / 65536) := by
  have hb : (2 : ℚ) ^ F64.bias = 2 ^ 70 * 2 ^ 1004 := by rw [← pow_add]; rfl
  unfold halfPred F64.val F64.magVal
  simp only [Option.some.injEq]
  rw [hb]
  have h0 : (2 : ℚ) ^ 1004 ≠ 0 := by positivity
  generalize (2 : ℚ) ^ 1004 = z at h0
  field_simp
  norm_num

/-- **C21 is false** for exactly this value: the addition of `0.5` is itself rounded and carries it to 1. -/
theorem C21_refuted : ¬ C21_statement := by
  intro h
  obtain ⟨n, hn, herr⟩ := h halfPred _ val_halfPred (by norm_num) (by norm_num)
  have hs := stores_toInt halfPred
  rw [f64ToS15f16_val val_halfPred] at hs
  have e : (1 / 2 - 1 / 2 ^ 54 : ℚ) / 65536 * 65536 + 1 / 2 = 1 / 2 - 1 / 2 ^ 54 + 1 / 2 := by ring
  rw [e, F64.rq_tie] at hs
  have hn1 : n = 1 := by
    rw [stores_unique hn hs]; simp [F64.clampI32]
  rw [hn1] at herr
  have := (abs_le.mp herr).2
  norm_num at this

/-- What is true of **C21**: every double in range is rounded to a nearest fixed-point number, with the sole
exception of the value of `C21_refuted`. -/
theorem C21_nearest_partial (x : F64) (X : ℚ) (hx : F64.val x = some X) (hlo : -32768 ≤ X)
    (hhi : X ≤ 2147483647 / 65536) (hne : X ≠ (1 / 2 - 1 / 2 ^ 54) / 65536) :
    ∃ n, Stores x n ∧ |(n : ℚ) / 65536 - X| ≤ 1 / 131072 := by
  refine ⟨_, stores_toInt x, ?_⟩
  have hs : F64.SRep (X * 65536) := by
    have := srep_mul_pow (F64.srep_of_val hx) 16; norm_num at this ⊢; exact this
  rw [f64ToS15f16_val hx, floor_rq_eq hs (by linarith) (by linarith) (by
    intro h; apply hne; rw [← h]; ring)]
  have h1 : (⌊X * 65536 + 1 / 2⌋ : ℚ) ≤ X * 65536 + 1 / 2 := Int.floor_le _
  have h2 : X * 65536 + 1 / 2 < ⌊X * 65536 + 1 / 2⌋ + 1 := Int.lt_floor_add_one _
  have h3 : -2147483648 ≤ ⌊X * 65536 + 1 / 2⌋ := by
    apply Int.le_floor.mpr; push_cast; linarith
  have h4 : ⌊X * 65536 + 1 / 2⌋ ≤ 2147483647 := by
    have : ((⌊X * 65536 + 1 / 2⌋ : ℤ) : ℚ) < ((2147483648 : ℤ) : ℚ) := by push_cast; linarith
    have : ⌊X * 65536 + 1 / 2⌋ < 2147483648 := by exact_mod_cast this
    omega
  rw [clamp_id h3 h4, abs_le]
  constructor <;> linarith

/-- Non-vacuity: a value that is not on the grid (2^-18). -/
example : ∃ x : F64, F64.val x = some (1 / 2 ^ 18) ∧ (-32768 : ℚ) ≤ 1 / 2 ^ 18 ∧
    (1 / 2 ^ 18 : ℚ) ≠ (1 / 2 - 1 / 2 ^ 54) / 65536 := by
  refine ⟨F64.ofRat (1 / 2 ^ 18), ?_, by norm_num, by norm_num⟩
  apply val_lit 1 18 (by norm_num) (by have := sixteen_le_bias; unfold F64.bias; omega) (by decide)
  apply small_lt_huge; rw [abs_of_pos (by positivity)]; norm_num

/-! ### C22 -/

/-- **C22** Saturation, infinities, NaN, and monotonicity of the stored number. -/
theorem C22_saturates :
    (∀ x X, F64.val x = some X → 32768 ≤ X → Stores x 0x7FFFFFFF) ∧
    (∀ x X, F64.val x = some X → X < -32768 → Stores x (-0x80000000)) ∧
    Stores (.inf false) 0x7FFFFFFF ∧ Stores (.inf true) (-0x80000000) ∧ Stores .nan 0 ∧
    (∀ x y X Y m n, F64.val x = some X → F64.val y = some Y → X ≤ Y → Stores x m → Stores y n → m ≤ n) := by
  have hst : ∀ x n, (f64ToS15f16 x).toInt = n → Stores x n := by
    intro x n h; rw [← h]; exact stores_toInt x
  refine ⟨?_, ?_, ?_, ?_, ?_, ?_⟩
  · intro x X hx h
    apply hst
    rw [f64ToS15f16_val hx]
    apply clamp_ge
    apply Int.le_floor.mpr
    exact F64.le_rq (F64.srep_int 2147483647 (by decide)) (by push_cast; linarith)
  · intro x X hx h
    apply hst
    rw [f64ToS15f16_val hx]
    apply clamp_le
    have h1 : F64.rq (X * 65536 + 1 / 2) ≤ ((-4294967295 : ℤ) : ℚ) / 2 ^ 1 := by
      apply F64.rq_le
      · exact F64.srep_dyadic _ 1 (by have := sixteen_le_bias; omega) (by decide)
      · push_cast; linarith
    have h2 : ((⌊F64.rq (X * 65536 + 1 / 2)⌋ : ℤ) : ℚ) < ((-2147483647 : ℤ) : ℚ) := by
      refine (Int.floor_le _).trans_lt (h1.trans_lt ?_)
      push_cast; norm_num
    have h3 : ⌊F64.rq (X * 65536 + 1 / 2)⌋ < -2147483647 := by exact_mod_cast h2
    omega
  · apply hst; rw [f64ToS15f16_inf]; rfl
  · apply hst; rw [f64ToS15f16_inf]; rfl
  · apply hst; rw [f64ToS15f16_nan]; rfl
  · intro x y X Y m n hx hy hXY hm hn
    rw [stores_unique hm (stores_toInt x), stores_unique hn (stores_toInt y), f64ToS15f16_val hx,
      f64ToS15f16_val hy]
    apply clamp_mono
    apply Int.floor_le_floor
    apply F64.rq_mono
    linarith

/-- Non-vacuity: there are values beyond both ends. -/
example : F64.val (F64.ofRat 65536) = some 65536 ∧ F64.val (F64.neg (F64.ofRat 65536)) = some (-65536) := by
  refine ⟨val_65536, ?_⟩
  obtain ⟨s, m, k, he, hv⟩ := F64.val_eq_some val_65536
  have h := val_65536
  rw [he] at h ⊢
  cases s <;> simp only [F64.neg, F64.val, Bool.not_true, Bool.not_false, Option.some.injEq] at h ⊢ <;> linarith

/-! ### C23 -/

/-- A successful `read_s15f16`, in one statement: the read it did, the value, and how it is written back. -/
theorem readS15f16_spec {σ : Type} {t : Target} {h : Handler σ} {s s' : σ} {f : F64}
    (hr : readS15f16 t h s = .ok f s') :
    ∃ buf, h.read (List.replicate 4 0) s = (.ok () s', buf) ∧ buf.length = 4 ∧
      F64.val f = some ((twos32 (fileValue t buf) : ℚ) / 65536) ∧
      ∀ {τ : Type} (h2 : Handler τ), writeS15f16 t h2 f = h2.write buf := by
  obtain ⟨buf, hb, _⟩ := C20_fixed_round_trip t h h s s' f hr
  refine ⟨buf, hb, ?_, ?_, ?_⟩
  · exact (readBuf_ok (readBuf_of_read hb)).2
  · by_cases hne : t.checks = true → fileValue t buf ≠ 0x80000000
    · obtain ⟨f', h1, h2⟩ := C19_exact_partial t h s s' buf hb hne
      rw [hr] at h1
      injection h1 with h1 _
      rw [h1]; exact h2
    · -- then the read would have panicked
      exfalso
      simp only [not_forall, ne_eq, not_not] at hne
      obtain ⟨hc, hv⟩ := hne
      rw [readS15f16_eq, readBuf_of_read hb] at hr
      simp only [Out.map, hv] at hr
      have e2 : s15f16ToF64 t (UInt32.ofNat 0x80000000).toInt32 = none :=
        s15f16ToF64_eq_none.mpr ⟨by decide, hc⟩
      rw [e2] at hr
      cases hr
  · intro τ h2
    obtain ⟨buf', hb', hw⟩ := C20_fixed_round_trip t h h2 s s' f hr
    rw [hb] at hb'
    simp only [Prod.mk.injEq, true_and] at hb'
    rw [hw, hb']

/-- **C23** (any handler). `read_xyz` is three consecutive four-byte reads, in the order X, Y, Z, with the
exact fixed point values, and `write_xyz` of the result (to any handler) is three consecutive writes of those
same bytes in that order. -/
theorem C23_xyz {σ : Type} (t : Target) (h : Handler σ) (s s' : σ) (v : CIEXYZ)
    (hr : readXyz t h s = .ok v s') :
    ∃ s1 s2 bx bY bz,
      h.read (List.replicate 4 0) s = (.ok () s1, bx) ∧
      h.read (List.replicate 4 0) s1 = (.ok () s2, bY) ∧
      h.read (List.replicate 4 0) s2 = (.ok () s', bz) ∧
      bx.length = 4 ∧ bY.length = 4 ∧ bz.length = 4 ∧
      F64.val v.X = some ((twos32 (fileValue t bx) : ℚ) / 65536) ∧
      F64.val v.Y = some ((twos32 (fileValue t bY) : ℚ) / 65536) ∧
      F64.val v.Z = some ((twos32 (fileValue t bz) : ℚ) / 65536) ∧
      ∀ {τ : Type} (h2 : Handler τ),
        writeXyz t h2 v = (do h2.write bx; h2.write bY; h2.write bz) := by
  unfold readXyz at hr
  rw [M.bind_apply] at hr
  cases h1 : readS15f16 t h s with
  | err e s1 => rw [h1] at hr; cases hr
  | panic => rw [h1] at hr; cases hr
  | ok x s1 =>
    rw [h1] at hr; simp only at hr
    rw [M.bind_apply] at hr
    cases h2 : readS15f16 t h s1 with
    | err e s2 => rw [h2] at hr; cases hr
    | panic => rw [h2] at hr; cases hr
    | ok y s2 =>
      rw [h2] at hr; simp only at hr
      rw [M.bind_apply] at hr
      cases h3 : readS15f16 t h s2 with
      | err e s3 => rw [h3] at hr; cases hr
      | panic => rw [h3] at hr; cases hr
      | ok z s3 =>
        rw [h3] at hr
        cases hr
        obtain ⟨bx, a1, a2, a3, a4⟩ := readS15f16_spec h1
        obtain ⟨bY, b1, b2, b3, b4⟩ := readS15f16_spec h2
        obtain ⟨bz, c1, c2, c3, c4⟩ := readS15f16_spec h3
        refine ⟨s1, s2, bx, bY, bz, a1, b1, c1, a2, b2, c2, a3, b3, c3, ?_⟩
        intro τ h2
        unfold writeXyz
        rw [a4 h2, b4 h2, c4 h2]

theorem vec_read4 {t : Target} {s s' : Mem} {b : List UInt8}
    (h : (Mem.vec t).read (List.replicate 4 0) s = (.ok () s', b)) :
    s.pos + 4 ≤ s.buf.length ∧ s' = ⟨s.buf, s.pos + 4⟩ ∧ b = (s.buf.drop s.pos).take 4 := by
  have e : (Mem.vec t).read (List.replicate 4 0) s = Mem.readExact (zeros 4) s := rfl
  rw [e, Mem.readExact_eq] at h
  simp only [zeros_length] at h
  by_cases hc : zeros 4 = [] ∨ s.pos + 4 ≤ s.buf.length
  · rw [if_pos hc] at h
    simp only [Prod.mk.injEq, Out.ok.injEq, true_and] at h
    refine ⟨?_, h.1.symm, h.2.symm⟩
    rcases hc with hc | hc
    · simp [zeros] at hc
    · exact hc
  · rw [if_neg hc] at h; simp at h

/-- **C23** (in memory). Exactly twelve bytes are consumed, and writing the value anywhere reproduces exactly
those twelve bytes, advances by twelve and changes nothing else. -/
theorem C23_xyz_memory (t : Target) (s s' m : Mem) (v : CIEXYZ)
    (hr : readXyz t (Mem.vec t) s = .ok v s') (hfit : m.pos + 12 ≤ t.isizeMax) :
    s.pos + 12 ≤ s.buf.length ∧ s' = ⟨s.buf, s.pos + 12⟩ ∧
    ∃ m', writeXyz t (Mem.vec t) v m = .ok () m' ∧ m'.pos = m.pos + 12 ∧
      m'.buf.length = max m.buf.length (m.pos + 12) ∧
      (∀ i, i < 12 → m'.buf.getD (m.pos + i) 0 = s.buf.getD (s.pos + i) 0) ∧
      (∀ i, i < m.pos ∨ m.pos + 12 ≤ i → m'.buf.getD i 0 = m.buf.getD i 0) := by
  obtain ⟨s1, s2, bx, bY, bz, r1, r2, r3, l1, l2, l3, _, _, _, hw⟩ := C23_xyz t _ s s' v hr
  obtain ⟨p1, rfl, q1⟩ := vec_read4 r1
  obtain ⟨p2, rfl, q2⟩ := vec_read4 r2
  obtain ⟨p3, rfl, q3⟩ := vec_read4 r3
  simp only at p2 p3 q2 q3
  have hu := isizeMax_lt t
  have hwr : ∀ (b : List UInt8) (m : Mem), b.length = 4 → m.pos + 4 ≤ t.isizeMax →
      (Mem.vec t).write b m = .ok () ⟨patch m.buf m.pos b, m.pos + 4⟩ := by
    intro b m hb hf
    have e : (Mem.vec t).write b m = Mem.writeAll (Mem.vecWrite t) b m := rfl
    have hne : b ≠ [] := by intro h; rw [h] at hb; simp at hb
    rw [e, Mem.writeAll_vec, if_neg hne, if_neg (by omega), if_neg (by omega), hb]
  have hcat : bx ++ (bY ++ bz) = (s.buf.drop s.pos).take 12 := by
    rw [q1, q2, q3, show (12 : Nat) = 4 + (4 + 4) from rfl, List.take_add, List.take_add, List.drop_drop,
      List.drop_drop]
  have hcl : (bx ++ (bY ++ bz)).length = 12 := by simp [l1, l2, l3]
  refine ⟨by omega, rfl, ⟨patch m.buf m.pos (bx ++ (bY ++ bz)), m.pos + 12⟩, ?_, rfl, ?_, ?_, ?_⟩
  · rw [hw (Mem.vec t), M.bind_apply, hwr bx m l1 (by omega)]
    simp only
    rw [M.bind_apply, hwr bY _ l2 (by simp only; omega)]
    simp only
    rw [hwr bz _ l3 (by simp only; omega)]
    have e1 := patch_patch m.buf m.pos bx bY
    rw [l1] at e1
    have e2 := patch_patch m.buf m.pos (bx ++ bY) bz
    rw [show (bx ++ bY).length = 8 by simp [l1, l2]] at e2
    simp only [e1, show m.pos + 4 + 4 = m.pos + 8 from rfl, e2, List.append_assoc]
  · simp only [patch_length, hcl]
  · intro i hi
    simp only [patch_getD, hcl]
    rw [if_pos (by omega), hcat, Nat.add_sub_cancel_left]
    simp only [List.getD_eq_getElem?_getD, List.getElem?_take, List.getElem?_drop]
    rw [if_pos hi]
  · intro i hi
    simp only [patch_getD, hcl]
    rw [if_neg (by omega)]

/-- Non-vacuity: the D50 illuminant as stored in every ICC header is read successfully. -/
example : ∃ v s', readXyz pc (Mem.vec pc) ⟨[0, 0, 0xF6, 0xD6, 0, 1, 0, 0, 0, 0, 0xD3, 0x2D], 0⟩ = .ok v s' := by
  obtain ⟨x, hx, _⟩ := C19_exact_partial pc (Mem.vec pc)
    ⟨[0, 0, 0xF6, 0xD6, 0, 1, 0, 0, 0, 0, 0xD3, 0x2D], 0⟩
    ⟨[0, 0, 0xF6, 0xD6, 0, 1, 0, 0, 0, 0, 0xD3, 0x2D], 4⟩ [0, 0, 0xF6, 0xD6] (by decide) (by decide)
  obtain ⟨y, hy, _⟩ := C19_exact_partial pc (Mem.vec pc)
    ⟨[0, 0, 0xF6, 0xD6, 0, 1, 0, 0, 0, 0, 0xD3, 0x2D], 4⟩
    ⟨[0, 0, 0xF6, 0xD6, 0, 1, 0, 0, 0, 0, 0xD3, 0x2D], 8⟩ [0, 1, 0, 0] (by decide) (by decide)
  obtain ⟨z, hz, _⟩ := C19_exact_partial pc (Mem.vec pc)
    ⟨[0, 0, 0xF6, 0xD6, 0, 1, 0, 0, 0, 0, 0xD3, 0x2D], 8⟩
    ⟨[0, 0, 0xF6, 0xD6, 0, 1, 0, 0, 0, 0, 0xD3, 0x2D], 12⟩ [0, 0, 0xD3, 0x2D] (by decide) (by decide)
  refine ⟨⟨x, y, z⟩, ⟨[0, 0, 0xF6, 0xD6, 0, 1, 0, 0, 0, 0, 0xD3, 0x2D], 12⟩, ?_⟩
  unfold readXyz
  rw [M.bind_apply, hx]; simp only
  rw [M.bind_apply, hy]; simp only
  rw [M.bind_apply, hz]; rfl

end Lcms.Props
