import Verif.Lemmas.Fixed
import Verif.Lemmas.Mem
import Verif.Props.File
import Verif.Spec.Target

/-!
# Properties C13–C16: FileNull
-/

namespace Lcms.Props

open Lcms Spec

/-! ### C13 -/

/-- The full claim C13: whatever happened before, a read hands out zeros. -/
def C13_statement : Prop :=
  ∀ (t : Target) (ops : List Op) (s : Null) (buf got : List UInt8) (s' : Null),
    (runWith (hstep (Null.handler t)) ops Null.new).2 = some s →
    (Null.handler t).read buf s = (.ok () s', got) → ∀ b ∈ got, b = 0

/-- **C13 is false**: `FileNull::read` never touches the caller's buffer, so a non-zero buffer is "read" as
it was. -/
theorem C13_refuted : ¬ C13_statement := by
  intro h
  have := h pc [.write [1]] ⟨1, 1⟩ [7] [7] ⟨2, 1⟩ (by decide) (by decide) 7 (by simp)
  exact absurd this (by decide)

theorem null_readBuf (t : Target) (n : Nat) (s : Null) :
    readBuf (Null.handler t) n s = .panic ∨
    ∃ s', readBuf (Null.handler t) n s = .ok (zeros n) s' := by
  have e : (Null.handler t).read (zeros n) s = Null.read t (zeros n) s := rfl
  unfold readBuf
  rw [e]; unfold Null.read
  cases t.addUsize s.pointer (zeros n).length with
  | none => exact Or.inl rfl
  | some p => exact Or.inr ⟨_, rfl⟩

theorem foldl_zeros (n : Nat) :
    (zeros n).foldl (fun acc (b : UInt8) => acc * 256 + b.toNat) 0 = 0 := by
  unfold zeros
  induction n with
  | zero => rfl
  | succ n ih => simpa [List.replicate_succ] using ih

theorem fileValue_zeros (t : Target) (n : Nat) : fileValue t (zeros n) = 0 := by
  have hrev : (zeros n).reverse = zeros n := by simp [zeros]
  unfold fileValue lsbFirst msbFirst
  rw [hrev, foldl_zeros]; simp

/-- What is true of **C13**: every *typed* read gives the value zero (its buffer starts out zeroed), and so
does every item of a `u16` array; and a raw read into a zeroed buffer.  Missing: raw reads into a caller
buffer that is not zero (`C13_refuted`). -/
theorem C13_typed_partial (t : Target) (s : Null) :
    (∀ v s', readU8 (Null.handler t) s = .ok v s' → v = 0) ∧
    (∀ v s', readU16 t (Null.handler t) s = .ok v s' → v = 0) ∧
    (∀ v s', readU32 t (Null.handler t) s = .ok v s' → v = 0) ∧
    (∀ v s', readU64 t (Null.handler t) s = .ok v s' → v = 0) ∧
    (∀ v s', readF32 t (Null.handler t) s = .ok v s' → v.bits = 0) ∧
    (∀ v s', readS15f16 t (Null.handler t) s = .ok v s' → F64.val v = some 0) ∧
    (∀ xs s', (readU16Array t (Null.handler t) xs s).1 = .ok () s' →
      (readU16Array t (Null.handler t) xs s).2 = List.replicate xs.length 0) ∧
    (∀ n s' got, (Null.handler t).read (zeros n) s = (.ok () s', got) → got = List.replicate n 0) := by
  have h32 : ∀ s v s', readU32 t (Null.handler t) s = .ok v s' → v = 0 := by
    intro s v s' h
    rw [readU32_eq] at h
    rcases null_readBuf t 4 s with hb | ⟨s1, hb⟩
    · rw [hb] at h; cases h
    · rw [hb] at h
      simp only [Out.map, fileValue_zeros, Out.ok.injEq] at h
      exact h.1.symm
  have h16 : ∀ s v s', readU16 t (Null.handler t) s = .ok v s' → v = 0 := by
    intro s v s' h
    rw [readU16_eq] at h
    rcases null_readBuf t 2 s with hb | ⟨s1, hb⟩
    · rw [hb] at h; cases h
    · rw [hb] at h
      simp only [Out.map, fileValue_zeros, Out.ok.injEq] at h
      exact h.1.symm
  refine ⟨?_, fun v s' h => h16 s v s' h, fun v s' h => h32 s v s' h, ?_, ?_, ?_, ?_, ?_⟩
  · intro v s' h
    rw [readU8_eq t] at h
    rcases null_readBuf t 1 s with hb | ⟨s1, hb⟩
    · rw [hb] at h; cases h
    · rw [hb] at h
      simp only [Out.map, fileValue_zeros, Out.ok.injEq] at h
      exact h.1.symm
  · intro v s' h
    rw [readU64_eq] at h
    rcases null_readBuf t 8 s with hb | ⟨s1, hb⟩
    · rw [hb] at h; cases h
    · rw [hb] at h
      simp only [Out.map, fileValue_zeros, Out.ok.injEq] at h
      exact h.1.symm
  · intro v s' h
    unfold readF32 at h
    rw [M.bind_apply] at h
    cases hr : readU32 t (Null.handler t) s with
    | ok u s1 =>
      rw [hr] at h
      have := h32 s u s1 hr
      subst this
      cases h; rfl
    | err e s1 => rw [hr] at h; cases h
    | panic => rw [hr] at h; cases h
  · intro v s' h
    unfold readS15f16 at h
    rw [M.bind_apply] at h
    cases hr : readU32 t (Null.handler t) s with
    | ok u s1 =>
      rw [hr] at h
      have := h32 s u s1 hr
      subst this
      simp only at h
      cases hf : s15f16ToF64 t (UInt32.toInt32 0) with
      | none => rw [hf] at h; cases h
      | some x =>
        rw [hf] at h
        cases h
        have := s15f16ToF64_val hf
        rw [this]
        have e0 : (UInt32.toInt32 0).toInt = 0 := by decide
        rw [e0]; norm_num
    | err e s1 => rw [hr] at h; cases h
    | panic => rw [hr] at h; cases h
  · intro xs
    induction xs generalizing s with
    | nil => intro s' h; rfl
    | cons x xs ih =>
      intro s' h
      unfold readU16Array at h ⊢
      cases hr : readU16 t (Null.handler t) s with
      | ok u s1 =>
        rw [hr] at h
        have := h16 s u s1 hr
        subst this
        simp only at h ⊢
        rw [ih s1 s' h]; rfl
      | err e s1 => rw [hr] at h; cases h
      | panic => rw [hr] at h; cases h
  · intro n s' got h
    have e : (Null.handler t).read (zeros n) s = Null.read t (zeros n) s := rfl
    rw [e] at h
    unfold Null.read at h
    cases ha : t.addUsize s.pointer (zeros n).length with
    | none => rw [ha] at h; simp at h
    | some p => rw [ha] at h; simp only [Prod.mk.injEq] at h; exact h.2.symm

/-- Non-vacuity: reads do succeed, after writes, beyond the end. -/
example : readU32 pc (Null.handler pc) ⟨3, 3⟩ = .ok 0 ⟨7, 3⟩ ∧
    readU16Array pc (Null.handler pc) [1, 2] ⟨3, 3⟩ = (.ok () ⟨7, 3⟩, [0, 0]) := by decide

/-! ### C14 -/

/-- Every call succeeds in memory, at positions that fit `usize`. -/
def FitsUsize (t : Target) : Mem → Op → Obs → Mem → Prop := fun _ _ o m' =>
  o.isOk = true ∧ m'.pos < t.usizeMod

/-- The full claim C14. Stated for the end of the history; every prefix of a history is one too. -/
def C14_statement : Prop :=
  ∀ (t : Target) (ops : List Op), Along (hstep (Mem.vec t)) (FitsUsize t) ops (Mem.new []) →
    ∃ m n, (runWith (hstep (Mem.vec t)) ops (Mem.new [])).2 = some m ∧
      (runWith (hstep (Null.handler t)) ops Null.new).2 = some n ∧
      n.pointer = m.pos ∧ n.usedSpace = m.buf.length

/-- **C14 is false** in debug builds: stepping back over what was just written panics. -/
theorem C14_refuted : ¬ C14_statement := by
  intro h
  obtain ⟨m, n, _, h2, _⟩ := h pc [.write [1], .seek (.current (-1))]
    ⟨.unit, ⟨[1], 1⟩, by decide, ⟨rfl, by decide⟩, .unit, ⟨[1], 0⟩, by decide, ⟨rfl, by decide⟩, trivial⟩
  revert h2
  have : (runWith (hstep (Null.handler pc)) [.write [1], .seek (.current (-1))] Null.new).2 = none := by
    decide
  rw [this]; intro h2; cases h2

/-- **C14 is also false** in release builds: an empty write past the end makes the predicted size grow. -/
theorem C14_refuted_release :
    let t : Target := ⟨false, false, true, false⟩
    let ops : List Op := [.seek (.start 5), .write [], .size]
    Along (hstep (Mem.vec t)) (FitsUsize t) ops (Mem.new []) ∧
    (runWith (hstep (Mem.vec t)) ops (Mem.new [])).1 = [.unit, .unit, .num 0] ∧
    (runWith (hstep (Null.handler t)) ops Null.new).1 = [.unit, .unit, .num 5] := by
  refine ⟨⟨.unit, ⟨[], 5⟩, by decide, ⟨rfl, by decide⟩, .unit, ⟨[], 5⟩, by decide, ⟨rfl, by decide⟩,
    .num 0, ⟨[], 5⟩, by decide, ⟨rfl, by decide⟩, trivial⟩, by decide⟩

/-- The histories for which the prediction is right: as in C14, and additionally relative seeks go backwards
only in builds without overflow checks, and an empty write does not happen past the end. -/
def Predictable (t : Target) : Mem → Op → Obs → Mem → Prop := fun m op o m' =>
  FitsUsize t m op o m' ∧
  (t.checks = true → (∀ d, op = .seek (.current d) → 0 ≤ d.toInt) ∧
    (∀ d, op = .seek (.end_ d) → 0 ≤ d.toInt)) ∧
  (op = .write [] → m.pos ≤ m.buf.length)

theorem addUsize_seek (t : Target) (a : Nat) (d : Int) (ha : a < t.usizeMod)
    (hq : 0 ≤ (a : Int) + d) (hq2 : (a : Int) + d < t.usizeMod) (hd : t.checks = true → 0 ≤ d) :
    t.addUsize a (Null.asUsize t d) = some ((a : Int) + d).toNat := by
  have hpos := usizeMod_pos t
  generalize hM : t.usizeMod = M at *
  have hmz : (M : Int) ≠ 0 := by omega
  unfold Target.addUsize Null.asUsize
  rw [hM]
  by_cases hneg : 0 ≤ d
  · have e : d % (M : Int) = d := Int.emod_eq_of_lt hneg (by omega)
    rw [e, if_pos (by omega)]
    congr 1; omega
  · have hc : t.checks = false := by
      cases h : t.checks with
      | false => rfl
      | true => exact absurd (hd h) hneg
    have e : d % (M : Int) = d + M := by
      rw [← Int.add_emod_right, Int.emod_eq_of_lt (by omega) (by omega)]
    rw [e, if_neg (by omega), hc]
    simp only [Bool.false_eq_true, if_false]
    congr 1
    have : a + (d + (M : Int)).toNat = ((a : Int) + d).toNat + M := by omega
    rw [this, Nat.add_mod_right, Nat.mod_eq_of_lt (by omega)]

theorem null_step (t : Target) (op : Op) (m m' : Mem) (o : Obs) (hl : m.buf.length ≤ t.isizeMax)
    (hp : m.pos < t.usizeMod)
    (hst : hstep (Mem.vec t) op m = (o, some m')) (hP : Predictable t m op o m') :
    ∃ o', hstep (Null.handler t) op ⟨m.pos, m.buf.length⟩ = (o', some ⟨m'.pos, m'.buf.length⟩) ∧
      (op = .tell ∨ op = .size → o' = o) := by
  obtain ⟨⟨hok, hp'⟩, hneg, hempty⟩ := hP
  have hu := isizeMax_lt t
  cases op with
  | read b =>
    have e : (Null.handler t).read b ⟨m.pos, m.buf.length⟩ = Null.read t b ⟨m.pos, m.buf.length⟩ := rfl
    simp only [hstep, e, Null.read]
    simp only [hstep, Mem.vec, Mem.readExact_eq] at hst
    by_cases hc : b = [] ∨ m.pos + b.length ≤ m.buf.length
    · rw [if_pos hc] at hst
      simp only [obsRead, Prod.mk.injEq, Option.some.injEq] at hst
      obtain ⟨rfl, rfl⟩ := hst
      have : m.pos + b.length < t.usizeMod := hp'
      simp only [Target.addUsize, if_pos this, obsRead]
      exact ⟨_, rfl, by simp⟩
    · rw [if_neg hc] at hst
      simp only [obsRead, Prod.mk.injEq] at hst
      rw [← hst.1] at hok; simp [Obs.isOk] at hok
  | write b =>
    have e : (Null.handler t).write b ⟨m.pos, m.buf.length⟩ = Null.write t b ⟨m.pos, m.buf.length⟩ := rfl
    simp only [hstep, e, Null.write]
    simp only [hstep, Mem.vec, Mem.writeAll_vec] at hst
    by_cases hb : b = []
    · subst hb
      have := hempty rfl
      simp only [if_true, obsUnit, Prod.mk.injEq, Option.some.injEq] at hst
      obtain ⟨rfl, rfl⟩ := hst
      simp only [List.length_nil, Nat.add_zero, Target.addUsize, if_pos hp, obsUnit]
      rw [if_neg (by omega)]
      exact ⟨_, rfl, by simp⟩
    by_cases h1 : t.usizeMod ≤ m.pos
    · omega
    by_cases h2 : t.isizeMax < m.pos + b.length
    · simp only [hb, h1, h2, if_true, if_false, obsUnit, Prod.mk.injEq] at hst
      simp at hst
    · simp only [hb, h1, h2, if_false, obsUnit, Prod.mk.injEq, Option.some.injEq] at hst
      obtain ⟨rfl, rfl⟩ := hst
      have h3 : m.pos + b.length < t.usizeMod := by omega
      simp only [Target.addUsize, if_pos h3, obsUnit, patch_length]
      refine ⟨.unit, ?_, by simp⟩
      congr 3
      split <;> omega
  | seek p =>
    have e : (Mem.vec t).seek p m = Mem.seek p m := rfl
    simp only [hstep, e, mem_seek_eq] at hst
    by_cases hc : 0 ≤ seekTarget m.buf.length m.pos p ∧
        seekTarget m.buf.length m.pos p < 18446744073709551616
    · rw [if_pos hc] at hst
      simp only [obsUnit, Prod.mk.injEq, Option.some.injEq] at hst
      obtain ⟨rfl, rfl⟩ := hst
      simp only at hp'
      have e2 : (Null.handler t).seek p ⟨m.pos, m.buf.length⟩
          = .ok () ⟨(seekTarget m.buf.length m.pos p).toNat, m.buf.length⟩ := by
        have e3 : (Null.handler t).seek = Null.seek t := rfl
        rw [e3]; unfold Null.seek
        cases p with
        | start n =>
          have h4 : n.toNat < t.usizeMod := by simpa [seekTarget] using hp'
          have : Null.asUsize t (n.toNat : Nat) = n.toNat := by
            unfold Null.asUsize
            rw [← Int.natCast_mod, Int.toNat_natCast, Nat.mod_eq_of_lt h4]
          simp only [this, seekTarget]; simp
        | end_ d =>
          simp only [seekTarget] at hc hp' ⊢
          rw [addUsize_seek t _ d.toInt (by omega) hc.1 (by omega) (fun h => (hneg h).2 d rfl)]
        | current d =>
          simp only [seekTarget] at hc hp' ⊢
          rw [addUsize_seek t _ d.toInt (by omega) hc.1 (by omega) (fun h => (hneg h).1 d rfl)]
      simp only [hstep, e2, obsUnit]
      exact ⟨_, rfl, by simp⟩
    · rw [if_neg hc] at hst
      simp only [obsUnit, Prod.mk.injEq] at hst
      rw [← hst.1] at hok; simp [Obs.isOk] at hok
  | tell =>
    have e : hstep (Mem.vec t) .tell m = (.num (m.pos % t.usizeMod), some m) := rfl
    rw [e] at hst
    simp only [Prod.mk.injEq, Option.some.injEq] at hst
    obtain ⟨rfl, rfl⟩ := hst
    refine ⟨.num m.pos, rfl, ?_⟩
    intro _; rw [Nat.mod_eq_of_lt hp]
  | size =>
    simp only [hstep] at hst ⊢
    rw [reportedSize_mem t (Mem.vec t) m rfl rfl (by omega), Nat.mod_eq_of_lt hp] at hst
    simp only [obsNum, Prod.mk.injEq, Option.some.injEq] at hst
    obtain ⟨rfl, rfl⟩ := hst
    rw [(C12_reported_size t).2.2 ⟨m.pos, m.buf.length⟩ hp (by simp only; omega)]
    exact ⟨_, rfl, by simp⟩

/-- What is true of **C14**: for predictable histories the `FileNull` ends at the position and size of the
real stream (so `tell` and `reported_size` agree after every step).  Missing: backward relative seeks in
debug builds and empty writes past the end (`C14_refuted`, `C14_refuted_release`). -/
theorem C14_predicts_partial (t : Target) (ops : List Op)
    (hall : Along (hstep (Mem.vec t)) (Predictable t) ops (Mem.new [])) :
    ∃ m n, (runWith (hstep (Mem.vec t)) ops (Mem.new [])).2 = some m ∧
      (runWith (hstep (Null.handler t)) ops Null.new).2 = some n ∧
      n.pointer = m.pos ∧ n.usedSpace = m.buf.length := by
  suffices H : ∀ (ops : List Op) (m : Mem), m.buf.length ≤ t.isizeMax → m.pos < t.usizeMod →
      Along (hstep (Mem.vec t)) (Predictable t) ops m →
      ∃ m', (runWith (hstep (Mem.vec t)) ops m).2 = some m' ∧
        (runWith (hstep (Null.handler t)) ops ⟨m.pos, m.buf.length⟩).2
          = some ⟨m'.pos, m'.buf.length⟩ by
    obtain ⟨m', h1, h2⟩ := H ops (Mem.new []) (Nat.zero_le _) (usizeMod_pos t) hall
    exact ⟨m', _, h1, h2, rfl, rfl⟩
  intro ops
  induction ops with
  | nil => intro m _ _ _; exact ⟨m, rfl, rfl⟩
  | cons op ops ih =>
    intro m hl hp hall
    obtain ⟨o, m1, hst, hP, hrest⟩ := hall
    obtain ⟨o', hn, _⟩ := null_step t op m m1 o hl hp hst hP
    have hl1 : m1.buf.length ≤ t.isizeMax := (vec_step_sim t op m hl).2 m1 (by rw [hst])
    obtain ⟨m', e1, e2⟩ := ih m1 hl1 hP.1.2 hrest
    refine ⟨m', ?_, ?_⟩
    · simp only [runWith, hst]; exact e1
    · simp only [runWith, hn]; exact e2

/-- Non-vacuity: in a release build a history with backward seeks and overwriting is predictable. -/
example : let t : Target := ⟨false, false, true, false⟩
    let ops : List Op := [.write [1, 2, 3], .seek (.current (-2)), .write [9], .seek (.end_ 2), .write [5]]
    Along (hstep (Mem.vec t)) (Predictable t) ops (Mem.new []) ∧
    (runWith (hstep (Null.handler t)) ops Null.new).2 = some ⟨6, 6⟩ := by
  refine ⟨⟨.unit, ⟨[1, 2, 3], 3⟩, by decide, ⟨⟨rfl, by decide⟩, by simp, by simp⟩,
    .unit, ⟨[1, 2, 3], 1⟩, by decide, ⟨⟨rfl, by decide⟩, by simp, by simp⟩,
    .unit, ⟨[1, 9, 3], 2⟩, by decide, ⟨⟨rfl, by decide⟩, by simp, by simp⟩,
    .unit, ⟨[1, 9, 3], 5⟩, by decide, ⟨⟨rfl, by decide⟩, by simp, by simp⟩,
    .unit, ⟨[1, 9, 3, 0, 0, 5], 6⟩, by decide, ⟨⟨rfl, by decide⟩, by simp, by simp⟩, trivial⟩, by decide⟩

/-- An unpredictable step of a history that fits goes wrong: the `FileNull` panics or ends in a different
state. -/
theorem null_step_wrong (t : Target) (op : Op) (m m' : Mem) (o : Obs) (hl : m.buf.length ≤ t.isizeMax)
    (hp : m.pos < t.usizeMod) (hst : hstep (Mem.vec t) op m = (o, some m')) (hF : FitsUsize t m op o m')
    (hP : ¬ Predictable t m op o m') :
    (hstep (Null.handler t) op ⟨m.pos, m.buf.length⟩).2 ≠ some ⟨m'.pos, m'.buf.length⟩ := by
  have hu := isizeMax_lt t
  have hpos := usizeMod_pos t
  have hneg : ∀ (a : Nat) (d : Int), a < t.usizeMod → t.checks = true → d < 0 → 0 ≤ (a : Int) + d →
      t.addUsize a (Null.asUsize t d) = none := by
    intro a d ha hc hd hq
    generalize hM : t.usizeMod = M at *
    have e : d % (M : Int) = d + M := by
      rw [← Int.add_emod_right, Int.emod_eq_of_lt (by omega) (by omega)]
    unfold Target.addUsize Null.asUsize
    rw [hM, e, if_neg (by omega), hc]
    rfl
  have hseek : ∀ p, op = .seek p → 0 ≤ seekTarget m.buf.length m.pos p := by
    rintro p rfl
    have e : (Mem.vec t).seek p m = Mem.seek p m := rfl
    simp only [hstep, e, mem_seek_eq] at hst
    by_cases hc : 0 ≤ seekTarget m.buf.length m.pos p ∧
        seekTarget m.buf.length m.pos p < 18446744073709551616
    · exact hc.1
    · rw [if_neg hc] at hst
      simp only [obsUnit, Prod.mk.injEq] at hst
      have := hF.1
      rw [← hst.1] at this
      simp [Obs.isOk] at this
  have hcases : (∃ d, t.checks = true ∧ d.toInt < 0 ∧ (op = .seek (.current d) ∨ op = .seek (.end_ d))) ∨
      (op = .write [] ∧ m.buf.length < m.pos) := by
    by_contra hno
    refine hP ⟨hF, ?_, ?_⟩
    · intro hc
      refine ⟨fun d hd => ?_, fun d hd => ?_⟩ <;> by_contra hlt <;> refine hno (.inl ⟨d, hc, by omega, ?_⟩)
      · exact .inl hd
      · exact .inr hd
    · intro hw
      by_contra hlt
      exact hno (.inr ⟨hw, by omega⟩)
  rcases hcases with ⟨d, hc, hd, rfl | rfl⟩ | ⟨rfl, hw⟩
  · have e := hneg m.pos d.toInt hp hc hd (hseek _ rfl)
    have e2 : (Null.handler t).seek (.current d) ⟨m.pos, m.buf.length⟩ = .panic := by
      have e3 : (Null.handler t).seek = Null.seek t := rfl
      rw [e3]
      unfold Null.seek
      simp only [e]
    simp only [hstep, e2, obsUnit]
    exact fun h => by cases h
  · have e := hneg m.buf.length d.toInt (by omega) hc hd (hseek _ rfl)
    have e2 : (Null.handler t).seek (.end_ d) ⟨m.pos, m.buf.length⟩ = .panic := by
      have e3 : (Null.handler t).seek = Null.seek t := rfl
      rw [e3]
      unfold Null.seek
      simp only [e]
    simp only [hstep, e2, obsUnit]
    exact fun h => by cases h
  · have e2 : (Null.handler t).write [] ⟨m.pos, m.buf.length⟩ = .ok () ⟨m.pos, m.pos⟩ := by
      show Null.write t _ _ = _
      unfold Null.write
      simp only [List.length_nil, Nat.add_zero, Target.addUsize, if_pos hp, gt_iff_lt, if_pos hw]
    simp only [hstep, Mem.vec, Mem.writeAll_vec, if_true, obsUnit, Prod.mk.injEq, Option.some.injEq] at hst
    obtain ⟨rfl, rfl⟩ := hst
    simp only [hstep, e2, obsUnit]
    intro h
    have := congrArg Null.usedSpace (Option.some.inj h)
    simp only at this
    omega

/-- **C14**, the exact extent of the part that holds: of the histories that fit `usize`, the predictable ones
are precisely those throughout which (after every prefix) the `FileNull` has the position and size of the real
stream. -/
theorem C14_exact (t : Target) (ops : List Op) (hfit : Along (hstep (Mem.vec t)) (FitsUsize t) ops (Mem.new [])) :
    Along (hstep (Mem.vec t)) (Predictable t) ops (Mem.new []) ↔
      ∀ k, ∃ m n, (runWith (hstep (Mem.vec t)) (ops.take k) (Mem.new [])).2 = some m ∧
        (runWith (hstep (Null.handler t)) (ops.take k) Null.new).2 = some n ∧
        n.pointer = m.pos ∧ n.usedSpace = m.buf.length := by
  suffices H : ∀ (ops : List Op) (m : Mem), m.buf.length ≤ t.isizeMax → m.pos < t.usizeMod →
      Along (hstep (Mem.vec t)) (FitsUsize t) ops m →
      (Along (hstep (Mem.vec t)) (Predictable t) ops m ↔
        ∀ k, ∃ m', (runWith (hstep (Mem.vec t)) (ops.take k) m).2 = some m' ∧
          (runWith (hstep (Null.handler t)) (ops.take k) ⟨m.pos, m.buf.length⟩).2
            = some ⟨m'.pos, m'.buf.length⟩) by
    rw [H ops (Mem.new []) (Nat.zero_le _) (usizeMod_pos t) hfit]
    refine forall_congr' fun k => ⟨?_, ?_⟩
    · rintro ⟨m', h1, h2⟩
      exact ⟨m', _, h1, h2, rfl, rfl⟩
    · rintro ⟨m', n, h1, h2, h3, h4⟩
      refine ⟨m', h1, ?_⟩
      rw [← h3, ← h4]
      exact h2
  intro ops
  induction ops with
  | nil => intro m _ _ _; exact ⟨fun _ k => ⟨m, by simp [runWith], by simp [runWith]⟩, fun _ => trivial⟩
  | cons op ops ih =>
    intro m hl hp hall
    obtain ⟨o, m1, hst, hF, hrest⟩ := hall
    have hl1 : m1.buf.length ≤ t.isizeMax := (vec_step_sim t op m hl).2 m1 (by rw [hst])
    have ih' := ih m1 hl1 hF.2 hrest
    by_cases hP : Predictable t m op o m1
    · obtain ⟨o', hn, _⟩ := null_step t op m m1 o hl hp hst hP
      have e : Along (hstep (Mem.vec t)) (Predictable t) (op :: ops) m ↔
          Along (hstep (Mem.vec t)) (Predictable t) ops m1 := by
        constructor
        · rintro ⟨o2, m2, h, -, h3⟩
          rw [hst] at h
          cases h
          exact h3
        · intro h
          exact ⟨o, m1, hst, hP, h⟩
      rw [e, ih']
      constructor
      · intro h k
        cases k with
        | zero => exact ⟨m, by simp [runWith], by simp [runWith]⟩
        | succ k =>
          obtain ⟨m', h1, h2⟩ := h k
          exact ⟨m', by simp only [List.take_succ_cons, runWith, hst]; exact h1,
            by simp only [List.take_succ_cons, runWith, hn]; exact h2⟩
      · intro h k
        obtain ⟨m', h1, h2⟩ := h (k + 1)
        simp only [List.take_succ_cons, runWith, hst] at h1
        simp only [List.take_succ_cons, runWith, hn] at h2
        exact ⟨m', h1, h2⟩
    · have hwrong := null_step_wrong t op m m1 o hl hp hst hF hP
      constructor
      · rintro ⟨o2, m2, h, h2, -⟩
        rw [hst] at h
        cases h
        exact absurd h2 hP
      · intro h
        exfalso
        obtain ⟨m', h1, h2⟩ := h 1
        simp only [List.take_succ_cons, List.take_zero, runWith, hst] at h1
        cases h1
        refine hwrong ?_
        simp only [List.take_succ_cons, List.take_zero, runWith] at h2
        revert h2
        cases hs : hstep (Null.handler t) op ⟨m.pos, m.buf.length⟩ with
        | mk o3 r => cases r <;> exact fun h => h

/-- In a debug build the first backward step goes wrong, not before. -/
example : Along (hstep (Mem.vec pc)) (FitsUsize pc) [.write [1], .seek (.current (-1))] (Mem.new []) ∧
    ¬ Along (hstep (Mem.vec pc)) (Predictable pc) [.write [1], .seek (.current (-1))] (Mem.new []) ∧
    Along (hstep (Mem.vec pc)) (Predictable pc) [.write [1]] (Mem.new []) := by
  have hf : Along (hstep (Mem.vec pc)) (FitsUsize pc) [.write [1], .seek (.current (-1))] (Mem.new []) :=
    ⟨.unit, ⟨[1], 1⟩, by decide, ⟨rfl, by decide⟩, .unit, ⟨[1], 0⟩, by decide, ⟨rfl, by decide⟩, trivial⟩
  refine ⟨hf, ?_, .unit, ⟨[1], 1⟩, by decide, ⟨⟨rfl, by decide⟩, by simp, by simp⟩, trivial⟩
  rw [C14_exact pc _ hf]
  intro h
  obtain ⟨m, n, -, h2, -⟩ := h 2
  revert h2
  have : (runWith (hstep (Null.handler pc)) ([.write [1], .seek (.current (-1))].take 2) Null.new).2 = none := by
    decide
  rw [this]; intro h2; cases h2

/-! ### C15 -/

/-- The full claim C15. -/
def C15_statement : Prop :=
  ∀ (t : Target) (s : Null) (d : Int64), s.pointer < t.usizeMod → s.usedSpace < t.usizeMod → d.toInt < 0 →
    (0 ≤ (s.pointer : Int) + d.toInt →
      (Null.handler t).seek (.current d) s = .ok () ⟨(s.pointer + d.toInt).toNat, s.usedSpace⟩) ∧
    (0 ≤ (s.usedSpace : Int) + d.toInt →
      (Null.handler t).seek (.end_ d) s = .ok () ⟨(s.usedSpace + d.toInt).toNat, s.usedSpace⟩)

/-- **C15 is false**, and badly so: in a debug build on a 64-bit target *every* legitimate backward seek
panics. -/
theorem C15_refuted (t : Target) (hw : t.wide = true) (hc : t.checks = true) (s : Null) (d : Int64)
    (hd : d.toInt < 0) :
    (0 ≤ (s.pointer : Int) + d.toInt → (Null.handler t).seek (.current d) s = .panic) ∧
    (0 ≤ (s.usedSpace : Int) + d.toInt → (Null.handler t).seek (.end_ d) s = .panic) := by
  have hM : t.usizeMod = 18446744073709551616 := by
    unfold Target.usizeMod Target.usizeBits; rw [hw]; rfl
  have hrange := d.le_toInt
  have e : Null.asUsize t d.toInt = (d.toInt + 18446744073709551616).toNat := by
    unfold Null.asUsize
    rw [hM, ← Int.add_emod_right]
    rw [Int.emod_eq_of_lt (by omega) (by omega)]; rfl
  have e3 : (Null.handler t).seek = Null.seek t := rfl
  rw [e3]
  unfold Null.seek
  simp only [e, Target.addUsize, hc, hM, if_true]
  refine ⟨?_, ?_⟩
  · intro h
    rw [if_neg (by omega)]
  · intro h
    rw [if_neg (by omega)]

theorem C15_statement_refuted : ¬ C15_statement := by
  intro h
  have h1 := (h pc ⟨5, 5⟩ (-1) (by decide) (by decide) (by decide)).1 (by decide)
  have h2 := (C15_refuted pc rfl rfl ⟨5, 5⟩ (-1) (by decide)).1 (by decide)
  rw [h1] at h2; cases h2

/-- What is true of **C15**: without overflow checks the wrapping addition moves back correctly.  Missing:
debug builds (`C15_refuted`). -/
theorem C15_negative_seek_partial (t : Target) (hc : t.checks = false) (s : Null) (d : Int64)
    (hp : s.pointer < t.usizeMod) (hu : s.usedSpace < t.usizeMod) (hd : d.toInt < 0) :
    (0 ≤ (s.pointer : Int) + d.toInt →
      (Null.handler t).seek (.current d) s = .ok () ⟨(s.pointer + d.toInt).toNat, s.usedSpace⟩) ∧
    (0 ≤ (s.usedSpace : Int) + d.toInt →
      (Null.handler t).seek (.end_ d) s = .ok () ⟨(s.usedSpace + d.toInt).toNat, s.usedSpace⟩) := by
  have e3 : (Null.handler t).seek = Null.seek t := rfl
  rw [e3]
  unfold Null.seek
  refine ⟨?_, ?_⟩
  · intro h
    simp only
    rw [addUsize_seek t _ d.toInt hp h (by omega) (by simp [hc])]
  · intro h
    simp only
    rw [addUsize_seek t _ d.toInt hu h (by omega) (by simp [hc])]

/-- **C15**, exactly: on every width, a legitimate backward seek arrives if and only if the build has no overflow
checks (with them it panics). -/
theorem C15_exact (t : Target) (s : Null) (d : Int64) (hp : s.pointer < t.usizeMod) (hu : s.usedSpace < t.usizeMod)
    (hd : d.toInt < 0) :
    (0 ≤ (s.pointer : Int) + d.toInt → (Null.handler t).seek (.current d) s =
      if t.checks = true then .panic else .ok () ⟨(s.pointer + d.toInt).toNat, s.usedSpace⟩) ∧
    (0 ≤ (s.usedSpace : Int) + d.toInt → (Null.handler t).seek (.end_ d) s =
      if t.checks = true then .panic else .ok () ⟨(s.usedSpace + d.toInt).toNat, s.usedSpace⟩) := by
  cases hc : t.checks with
  | false =>
    simp only [Bool.false_eq_true, if_false]
    exact C15_negative_seek_partial t hc s d hp hu hd
  | true =>
    simp only [if_true]
    have hneg : ∀ a : Nat, a < t.usizeMod → 0 ≤ (a : Int) + d.toInt →
        t.addUsize a (Null.asUsize t d.toInt) = none := by
      intro a ha hq
      generalize hM : t.usizeMod = M at *
      have e : d.toInt % (M : Int) = d.toInt + M := by
        rw [← Int.add_emod_right, Int.emod_eq_of_lt (by omega) (by omega)]
      unfold Target.addUsize Null.asUsize
      rw [hM, e, if_neg (by omega), hc]
      rfl
    have e3 : (Null.handler t).seek = Null.seek t := rfl
    rw [e3]
    unfold Null.seek
    exact ⟨fun h => by simp only [hneg _ hp h], fun h => by simp only [hneg _ hu h]⟩

example : (Null.handler ⟨false, false, false, false⟩).seek (.current (-3)) ⟨10, 20⟩ = .ok () ⟨7, 20⟩ ∧
    (Null.handler pc).seek (.current (-3)) ⟨10, 20⟩ = .panic := by decide

/-! ### C16 -/

/-- Never `Err`. -/
def NeverErr {σ α : Type} (m : M σ α) : Prop := ∀ s e s', m s ≠ .err e s'

theorem NeverErr.bind {σ α β : Type} {m : M σ α} {f : α → M σ β} (hm : NeverErr m)
    (hf : ∀ a, NeverErr (f a)) : NeverErr (m >>= f) := by
  intro s e s' h
  rw [M.bind_apply] at h
  cases hms : m s with
  | ok a s1 => rw [hms] at h; exact hf a s1 e s' h
  | err e1 s1 => exact hm s e1 s1 hms
  | panic => rw [hms] at h; cases h

theorem NeverErr.pure {σ α : Type} (a : α) : NeverErr (pure a : M σ α) := by
  intro s e s' h; cases h

theorem NeverErr.panic {σ α : Type} : NeverErr (M.panic : M σ α) := by
  intro s e s' h; cases h

theorem null_read_never (t : Target) (n : Nat) : NeverErr (readBuf (Null.handler t) n) := by
  intro s e s' h
  rcases null_readBuf t n s with hb | ⟨s1, hb⟩ <;> · rw [hb] at h; cases h

theorem null_write_never (t : Target) (b : List UInt8) : NeverErr ((Null.handler t).write b) := by
  intro s e s' h
  have e0 : (Null.handler t).write b s = Null.write t b s := rfl
  rw [e0] at h
  unfold Null.write at h
  cases ha : t.addUsize s.pointer b.length with
  | none => rw [ha] at h; cases h
  | some p => rw [ha] at h; cases h

theorem null_seek_never (t : Target) (p : SeekFrom) : NeverErr ((Null.handler t).seek p) := by
  intro s e s' h
  have e0 : (Null.handler t).seek p s = Null.seek t p s := rfl
  rw [e0] at h
  unfold Null.seek at h
  cases p with
  | start n => cases h
  | end_ d =>
    simp only at h
    cases ha : t.addUsize s.usedSpace (Null.asUsize t d.toInt) with
    | none => rw [ha] at h; cases h
    | some p => rw [ha] at h; cases h
  | current d =>
    simp only at h
    cases ha : t.addUsize s.pointer (Null.asUsize t d.toInt) with
    | none => rw [ha] at h; cases h
    | some p => rw [ha] at h; cases h

/-- **C16** No call on a `FileNull` ever returns an I/O error: not the four required methods and
`reported_size` (first part, as observations), not the typed accessors. -/
theorem C16_null_never_errs (t : Target) :
    (∀ op s e b, (hstep (Null.handler t) op s).1 ≠ .err e ∧ (hstep (Null.handler t) op s).1 ≠ .readErr e b) ∧
    NeverErr (readU8 (Null.handler t)) ∧ NeverErr (readU16 t (Null.handler t)) ∧
    NeverErr (readU32 t (Null.handler t)) ∧ NeverErr (readF32 t (Null.handler t)) ∧
    NeverErr (readU64 t (Null.handler t)) ∧ NeverErr (readS15f16 t (Null.handler t)) ∧
    NeverErr (readXyz t (Null.handler t)) ∧
    (∀ xs, NeverErr fun s => (readU16Array t (Null.handler t) xs s).1) ∧
    (∀ v, NeverErr (writeU8 (Null.handler t) v)) ∧ (∀ v, NeverErr (writeU16 t (Null.handler t) v)) ∧
    (∀ v, NeverErr (writeU32 t (Null.handler t) v)) ∧ (∀ v, NeverErr (writeF32 t (Null.handler t) v)) ∧
    (∀ v, NeverErr (writeU64 t (Null.handler t) v)) ∧ (∀ v, NeverErr (writeS15f16 t (Null.handler t) v)) ∧
    (∀ v, NeverErr (writeXyz t (Null.handler t) v)) ∧
    (∀ xs, NeverErr (writeU16Array t (Null.handler t) xs)) := by
  have h16 : NeverErr (readU16 t (Null.handler t)) := by
    unfold readU16; exact (null_read_never t 2).bind fun _ => NeverErr.pure _
  have h32 : NeverErr (readU32 t (Null.handler t)) := by
    unfold readU32; exact (null_read_never t 4).bind fun _ => NeverErr.pure _
  have hs : NeverErr (readS15f16 t (Null.handler t)) := by
    unfold readS15f16
    refine h32.bind fun v => ?_
    cases s15f16ToF64 t v.toInt32 with
    | none => exact NeverErr.panic
    | some x => exact NeverErr.pure _
  have hw16 : ∀ v, NeverErr (writeU16 t (Null.handler t) v) := by
    intro v; unfold writeU16; exact null_write_never t _
  have hw32 : ∀ v, NeverErr (writeU32 t (Null.handler t) v) := by
    intro v; unfold writeU32; exact null_write_never t _
  have hws : ∀ v, NeverErr (writeS15f16 t (Null.handler t) v) := by
    intro v; unfold writeS15f16; exact hw32 _
  refine ⟨?_, ?_, h16, h32, ?_, ?_, hs, ?_, ?_, ?_, hw16, hw32, ?_, ?_, hws, ?_, ?_⟩
  · intro op s e b
    cases op with
    | read buf =>
      have e0 : (Null.handler t).read buf s = Null.read t buf s := rfl
      simp only [hstep, e0, Null.read]
      cases t.addUsize s.pointer buf.length with
      | none => simp [obsRead]
      | some p => simp [obsRead]
    | write buf =>
      simp only [hstep]
      cases h : (Null.handler t).write buf s with
      | ok a s1 => simp [obsUnit]
      | err e1 s1 => exact absurd h (null_write_never t buf s e1 s1)
      | panic => simp [obsUnit]
    | seek p =>
      simp only [hstep]
      cases h : (Null.handler t).seek p s with
      | ok a s1 => simp [obsUnit]
      | err e1 s1 => exact absurd h (null_seek_never t p s e1 s1)
      | panic => simp [obsUnit]
    | tell =>
      have e0 : (Null.handler t).tell s = .ok s.pointer s := rfl
      simp only [hstep, e0, obsNum]; simp
    | size =>
      simp only [hstep]
      cases h : reportedSize (Null.handler t) s with
      | ok a s1 => simp [obsNum]
      | err e1 s1 =>
        exfalso
        unfold reportedSize at h
        have ht : ∀ s : Null, (Null.handler t).tell s = .ok s.pointer s := fun _ => rfl
        rw [ht] at h
        simp only at h
        cases h2 : (Null.handler t).seek (.end_ 0) s with
        | err e2 s2 => exact null_seek_never t _ _ _ _ h2
        | panic => rw [h2] at h; cases h
        | ok u s2 =>
          rw [h2] at h
          simp only [ht] at h
          cases h3 : (Null.handler t).seek (.start (UInt64.ofNat s.pointer)) s2 with
          | err e2 s2 => exact null_seek_never t _ _ _ _ h3
          | panic => rw [h3] at h; cases h
          | ok u s3 => rw [h3] at h; cases h
      | panic => simp [obsNum]
  · unfold readU8
    refine (null_read_never t 1).bind fun v => ?_
    cases v with
    | nil => exact NeverErr.panic
    | cons a l => exact NeverErr.pure _
  · unfold readF32; exact h32.bind fun _ => NeverErr.pure _
  · unfold readU64; exact (null_read_never t 8).bind fun _ => NeverErr.pure _
  · unfold readXyz
    exact hs.bind fun _ => hs.bind fun _ => hs.bind fun _ => NeverErr.pure _
  · intro xs
    induction xs with
    | nil => intro s e s' h; cases h
    | cons x xs ih =>
      intro s e s' h
      simp only [readU16Array] at h
      cases hr : readU16 t (Null.handler t) s with
      | ok v s1 => rw [hr] at h; exact ih s1 e s' h
      | err e1 s1 => exact h16 s e1 s1 hr
      | panic => rw [hr] at h; cases h
  · intro v; unfold writeU8; exact null_write_never t _
  · intro v; unfold writeF32; exact hw32 _
  · intro v; unfold writeU64; exact null_write_never t _
  · intro v; unfold writeXyz
    exact (hws _).bind fun _ => (hws _).bind fun _ => hws _
  · intro xs
    induction xs with
    | nil => exact NeverErr.pure _
    | cons x xs ih => unfold writeU16Array; exact (hw16 x).bind fun _ => ih

/-- Non-vacuity: the same calls do fail on other handlers. -/
example : readU8 (Mem.vec pc) ⟨[], 0⟩ = .err .unexpectedEof ⟨[], 0⟩ ∧
    readU8 (Null.handler pc) ⟨0, 0⟩ = .ok 0 ⟨1, 0⟩ := by decide

end Lcms.Props
