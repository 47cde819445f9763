import Verif.Props.Endian
import Verif.Props.Fixed
import Verif.Props.TwoPasses

/-! # Property C115: the examples in the documentation of `lcms2::io`, for all values -/

namespace Lcms.Props

open Lcms.Spec

/-- The examples whose expectation is stated through `adjust_endianness_*` or does not involve byte order, each
for every value in place of the printed one. -/
structure OrderFree (t : Target) : Prop where
  /-- src/io/io_handler.rs:30-42: the call succeeds with the next bytes. -/
  read : ∀ pre bs post old : List UInt8, old.length = bs.length →
    (Mem.vec t).read old ⟨pre ++ bs ++ post, pre.length⟩ =
      (.ok () ⟨pre ++ bs ++ post, pre.length + bs.length⟩, bs)
  /-- src/io/io_handler.rs:54-82 -/
  seek : ∀ a b c d e x : UInt8,
    (runWith (hstep (Mem.fixed t))
      [.seek (.end_ (-1)), .read [x], .seek (.start 0), .read [x], .seek (.current 2), .read [x],
       .seek (.start 2), .read [x], .seek (.current (-2)), .read [x], .seek (.start 4), .read [x],
       .seek (.end_ (-5)), .read [x]] (Mem.new [a, b, c, d, e])).1 =
    [.unit, .bytes [e], .unit, .bytes [a], .unit, .bytes [d], .unit, .bytes [c], .unit, .bytes [b],
     .unit, .bytes [e], .unit, .bytes [a]]
  /-- src/io/io_handler.rs:115-134 -/
  tell : ∀ (a : UInt64) (b : UInt32) (c : UInt16) (d : UInt8), ∃ s1 s2 s3 s4,
    (Mem.vec t).tell (Mem.new []) = .ok 0 (Mem.new []) ∧
    writeU64 t (Mem.vec t) a (Mem.new []) = .ok () s1 ∧ (Mem.vec t).tell s1 = .ok 8 s1 ∧
    writeU32 t (Mem.vec t) b s1 = .ok () s2 ∧ (Mem.vec t).tell s2 = .ok 12 s2 ∧
    writeU16 t (Mem.vec t) c s2 = .ok () s3 ∧ (Mem.vec t).tell s3 = .ok 14 s3 ∧
    writeU8 (Mem.vec t) d s3 = .ok () s4 ∧ (Mem.vec t).tell s4 = .ok 15 s4
  /-- src/io/io_handler.rs:175-182 -/
  read_u8 : ∀ v : UInt8, readU8 (Mem.fixed t) (Mem.new [v]) = .ok v ⟨[v], 1⟩
  /-- src/io/io_handler.rs:323-332 -/
  write_u8 : ∀ v old : UInt8, writeU8 (Mem.fixed t) v (Mem.new [old]) = .ok () ⟨[v], 1⟩
  /-- src/io/io_handler.rs:339-352 -/
  write_u16 : ∀ (v : UInt16) (old : List UInt8), old.length = 2 →
    ∃ buf, writeU16 t (Mem.fixed t) v (Mem.new old) = .ok () ⟨buf, 2⟩ ∧
      hostValue t (adjustEndianness16 t buf) = v.toNat
  /-- src/io/io_handler.rs:360-376 -/
  write_u16_array : ∀ (vs : List UInt16) (old : List UInt8), old.length = 2 * vs.length →
    ∃ bs, writeU16Array t (Mem.fixed t) vs (Mem.new old) = .ok () ⟨bs.flatten, 2 * vs.length⟩ ∧
      List.Forall₂ (fun b v => b.length = 2 ∧ hostValue t (adjustEndianness16 t b) = v.toNat) bs vs
  /-- src/io/io_handler.rs:386-399 -/
  write_u32 : ∀ (v : UInt32) (old : List UInt8), old.length = 4 →
    ∃ buf, writeU32 t (Mem.fixed t) v (Mem.new old) = .ok () ⟨buf, 4⟩ ∧
      hostValue t (adjustEndianness32 t buf) = v.toNat
  /-- src/io/io_handler.rs:407-420 (the same `f32`, NaN payloads included) -/
  write_f32 : ∀ (v : F32) (old : List UInt8), old.length = 4 →
    ∃ buf, writeF32 t (Mem.fixed t) v (Mem.new old) = .ok () ⟨buf, 4⟩ ∧
      hostValue t (adjustEndianness32 t buf) = v.bits.toNat
  /-- src/io/io_handler.rs:430-443 -/
  write_u64 : ∀ (v : UInt64) (old : List UInt8), old.length = 8 →
    ∃ buf, writeU64 t (Mem.fixed t) v (Mem.new old) = .ok () ⟨buf, 8⟩ ∧
      hostValue t (adjustEndianness64 t buf) = v.toNat
  /-- src/io/file_mem.rs:25-37 -/
  file_mem : ∀ (buf : List UInt8) (n : UInt64) (v : UInt8), n.toNat < buf.length → ∃ s1 s2,
    (Mem.fixed t).seek (.start n) (Mem.new buf) = .ok () s1 ∧ writeU8 (Mem.fixed t) v s1 = .ok () s2 ∧
      s2.buf.length = buf.length ∧ s2.buf[n.toNat]? = some v
  /-- src/io/file_null.rs:13-28 -/
  file_null : ∀ (bs : List UInt8), bs.length < t.usizeMod → ∃ s1 s2 s3,
    (Null.handler t).tell Null.new = .ok 0 Null.new ∧
    (Null.handler t).write bs Null.new = .ok () s1 ∧ (Null.handler t).tell s1 = .ok bs.length s1 ∧
    (Null.handler t).seek (.start 0) s1 = .ok () s2 ∧ readU32 t (Null.handler t) s2 = .ok 0 s3

/-- The examples that spell out bytes, most significant first, each for every value. -/
structure MsbFirst (t : Target) : Prop where
  /-- src/io/io_handler.rs:192-199 -/
  read_u16 : ∀ (v : UInt16) (bs : List UInt8), bs.length = 2 → msbFirst bs = v.toNat →
    readU16 t (Mem.fixed t) (Mem.new bs) = .ok v ⟨bs, 2⟩
  /-- src/io/io_handler.rs:210-223 -/
  read_u16_array : ∀ (vs old : List UInt16) (bs : List (List UInt8)), old.length = vs.length →
    List.Forall₂ (fun b v => b.length = 2 ∧ msbFirst b = v.toNat) bs vs →
    readU16Array t (Mem.fixed t) old (Mem.new bs.flatten) = (.ok () ⟨bs.flatten, 2 * vs.length⟩, vs)
  /-- src/io/io_handler.rs:233-240 -/
  read_u32 : ∀ (v : UInt32) (bs : List UInt8), bs.length = 4 → msbFirst bs = v.toNat →
    readU32 t (Mem.fixed t) (Mem.new bs) = .ok v ⟨bs, 4⟩
  /-- src/io/io_handler.rs:251-258 -/
  read_f32 : ∀ (v : F32) (bs : List UInt8), bs.length = 4 → msbFirst bs = v.bits.toNat →
    readF32 t (Mem.fixed t) (Mem.new bs) = .ok v ⟨bs, 4⟩
  /-- src/io/io_handler.rs:269-276 -/
  read_u64 : ∀ (v : UInt64) (bs : List UInt8), bs.length = 8 → msbFirst bs = v.toNat →
    readU64 t (Mem.fixed t) (Mem.new bs) = .ok v ⟨bs, 8⟩
  /-- src/io/io_handler.rs:287-294 -/
  read_s15f16 : ∀ (n : Int) (bs : List UInt8), bs.length = 4 → twos32 (msbFirst bs) = n → n ≠ -2147483648 →
    ∃ f, readS15f16 t (Mem.fixed t) (Mem.new bs) = .ok f ⟨bs, 4⟩ ∧ F64.val f = some ((n : ℚ) / 65536)
  /-- src/io/io_handler.rs:302-312 -/
  read_xyz : ∀ (x y z : Int) (bx bY bz : List UInt8), bx.length = 4 → bY.length = 4 → bz.length = 4 →
    twos32 (msbFirst bx) = x → twos32 (msbFirst bY) = y → twos32 (msbFirst bz) = z →
    x ≠ -2147483648 → y ≠ -2147483648 → z ≠ -2147483648 →
    ∃ c, readXyz t (Mem.fixed t) (Mem.new (bx ++ bY ++ bz)) = .ok c ⟨bx ++ bY ++ bz, 12⟩ ∧
      F64.val c.X = some ((x : ℚ) / 65536) ∧ F64.val c.Y = some ((y : ℚ) / 65536) ∧
      F64.val c.Z = some ((z : ℚ) / 65536)
  /-- src/io/io_handler.rs:451-460 -/
  write_s15f16 : ∀ (n : Int) (x : F64) (old : List UInt8), old.length = 4 → -2147483648 ≤ n → n < 2147483648 →
    F64.val x = some ((n : ℚ) / 65536) →
    ∃ buf, writeS15f16 t (Mem.fixed t) x (Mem.new old) = .ok () ⟨buf, 4⟩ ∧ buf.length = 4 ∧
      twos32 (msbFirst buf) = n
  /-- src/io/io_handler.rs:468-480 -/
  write_xyz : ∀ (x y z : Int) (c : CIEXYZ) (old : List UInt8), old.length = 12 →
    -2147483648 ≤ x → x < 2147483648 → -2147483648 ≤ y → y < 2147483648 → -2147483648 ≤ z → z < 2147483648 →
    F64.val c.X = some ((x : ℚ) / 65536) → F64.val c.Y = some ((y : ℚ) / 65536) →
    F64.val c.Z = some ((z : ℚ) / 65536) →
    ∃ bx bY bz, writeXyz t (Mem.fixed t) c (Mem.new old) = .ok () ⟨bx ++ bY ++ bz, 12⟩ ∧
      bx.length = 4 ∧ bY.length = 4 ∧ bz.length = 4 ∧
      twos32 (msbFirst bx) = x ∧ twos32 (msbFirst bY) = y ∧ twos32 (msbFirst bz) = z

/-- The full claim C115: the examples hold for all values in every build. -/
def C115_statement : Prop := ∀ t : Target, OrderFree t ∧ MsbFirst t

/-! ### Reading and writing in a fixed buffer -/

private theorem buf_fixed (t : Target) (pre bs post : List Byte) {n : Nat} (hn : bs.length = n) :
    readBuf (Mem.fixed t) n ⟨pre ++ (bs ++ post), pre.length⟩ =
      .ok bs ⟨pre ++ (bs ++ post), pre.length + n⟩ := by
  subst hn
  have h : (Mem.fixed t).read (zeros bs.length) ⟨pre ++ (bs ++ post), pre.length⟩ =
      (.ok () ⟨pre ++ (bs ++ post), pre.length + bs.length⟩, bs) := by
    show Mem.readExact _ _ = _
    rw [Mem.readExact_eq, if_pos (by right; simp)]
    simp
  unfold readBuf
  rw [h]

private theorem buf_start (t : Target) (bs : List Byte) {n : Nat} (hn : bs.length = n) :
    readBuf (Mem.fixed t) n (Mem.new bs) = .ok bs ⟨bs, n⟩ := by
  have := buf_fixed t [] bs [] hn
  simpa [Mem.new] using this

private theorem put_fixed (t : Target) (pre old post b : List Byte) (h : b.length = old.length) :
    (Mem.fixed t).write b ⟨pre ++ (old ++ post), pre.length⟩ =
      .ok () ⟨pre ++ (b ++ post), pre.length + b.length⟩ := by
  have := fixed_chunks t [b] pre (old ++ post)
  rw [if_pos (by simp; omega)] at this
  have e : writeChunks (Mem.fixed t) [b] ⟨pre ++ (old ++ post), pre.length⟩ =
      (Mem.fixed t).write b ⟨pre ++ (old ++ post), pre.length⟩ := by
    rw [writeChunks, M.bind_apply]
    cases (Mem.fixed t).write b ⟨pre ++ (old ++ post), pre.length⟩ <;> rfl
  rw [e] at this
  rw [this]
  simp [h]

private theorem put_start (t : Target) (old b : List Byte) (h : b.length = old.length) :
    (Mem.fixed t).write b (Mem.new old) = .ok () ⟨b, b.length⟩ := by
  have := put_fixed t [] old [] b h
  simpa [Mem.new] using this

private theorem host16 (t : Target) (b : List Byte) (h : b.length = 2) :
    hostValue t (adjustEndianness16 t b) = fileValue t b :=
  (C02_array_reexports_follow_feature t b (zeros 4) (zeros 8) h (by simp) (by simp)).1

private theorem host32 (t : Target) (b : List Byte) (h : b.length = 4) :
    hostValue t (adjustEndianness32 t b) = fileValue t b :=
  (C02_array_reexports_follow_feature t (zeros 2) b (zeros 8) (by simp) h (by simp)).2.1

private theorem host64 (t : Target) (b : List Byte) (h : b.length = 8) :
    hostValue t (adjustEndianness64 t b) = fileValue t b :=
  (C02_array_reexports_follow_feature t (zeros 2) (zeros 4) b (by simp) (by simp) h).2.2

private theorem file_fit (t : Target) (n x : Nat) (hx : x < 256 ^ n) : fileValue t (fileBytes t n x) = x := by
  rw [fileValue_fileBytes, Nat.mod_eq_of_lt hx]

private theorem put_array (t : Target) (vs : List UInt16) (pre old : List Byte) (h : old.length = 2 * vs.length) :
    ∃ bs, writeU16Array t (Mem.fixed t) vs ⟨pre ++ old, pre.length⟩ =
        .ok () ⟨pre ++ bs.flatten, pre.length + 2 * vs.length⟩ ∧
      List.Forall₂ (fun b v => b.length = 2 ∧ hostValue t (adjustEndianness16 t b) = v.toNat) bs vs := by
  induction vs generalizing pre old with
  | nil =>
    have : old = [] := List.length_eq_zero_iff.mp (by simpa using h)
    subst this
    exact ⟨[], rfl, .nil⟩
  | cons v vs ih =>
    simp only [List.length_cons] at h
    set b := fileBytes t 2 v.toNat with hb
    have hl : b.length = 2 := by simp [hb]
    obtain ⟨bs, h1, h2⟩ := ih (pre ++ b) (old.drop 2) (by simp; omega)
    refine ⟨b :: bs, ?_, .cons ⟨hl, ?_⟩ h2⟩
    · have hw := put_fixed t pre (old.take 2) (old.drop 2) b (by simp; omega)
      rw [List.take_append_drop] at hw
      rw [writeU16Array, M.bind_apply, writeU16_eq, ← hb, hw]
      simp only
      rw [List.append_assoc, List.length_append] at h1
      rw [h1]
      simp only [List.append_assoc, List.flatten_cons, hl, List.length_cons]
      congr 2
      omega
    · rw [host16 t b hl, hb, file_fit t 2 _ (u16_lt v)]

private theorem vec_put (t : Target) (d b : List Byte) (h : d.length + b.length < 100) :
    (Mem.vec t).write b ⟨d, d.length⟩ = .ok () ⟨d ++ b, (d ++ b).length⟩ := by
  show Mem.writeAll (Mem.vecWrite t) b _ = _
  have hi : 100 ≤ t.isizeMax := by unfold Target.isizeMax Target.usizeBits; cases t.wide <;> decide
  have hu := isizeMax_lt t
  rw [Mem.writeAll_vec]
  by_cases hb : b = []
  · subst hb; simp
  rw [if_neg hb]
  simp only
  rw [if_neg (by omega), if_neg (by omega)]
  simp [patch, zeros]

private theorem vec_tell (t : Target) (d : List Byte) (h : d.length < 100) :
    (Mem.vec t).tell ⟨d, d.length⟩ = .ok d.length ⟨d, d.length⟩ := by
  have hi : 100 ≤ t.isizeMax := by unfold Target.isizeMax Target.usizeBits; cases t.wide <;> decide
  have hu := isizeMax_lt t
  show Out.ok (d.length % t.usizeMod) _ = _
  rw [Nat.mod_eq_of_lt (by omega)]

private theorem seek_next (t : Target) (l : List UInt8) (pos n : Nat) (p : SeekFrom) (x v : UInt8)
    (hp : Mem.seek p ⟨l, pos⟩ = .ok () ⟨l, n⟩) (hv : l[n]? = some v) {ops : List Op} :
    (runWith (hstep (Mem.fixed t)) (.seek p :: .read [x] :: ops) ⟨l, pos⟩).1 =
      .unit :: .bytes [v] :: (runWith (hstep (Mem.fixed t)) ops ⟨l, n + 1⟩).1 := by
  obtain ⟨hlt, e⟩ := List.getElem?_eq_some_iff.mp hv
  have h1 : (Mem.fixed t).seek p ⟨l, pos⟩ = .ok () ⟨l, n⟩ := hp
  have h2 : (Mem.fixed t).read [x] ⟨l, n⟩ = (.ok () ⟨l, n + 1⟩, [v]) := by
    show Mem.readExact _ _ = _
    rw [Mem.readExact_eq, if_pos (by right; simp only [List.length_singleton]; omega)]
    simp only [List.length_singleton]
    rw [List.drop_eq_getElem_cons hlt, e]
    rfl
  simp only [runWith, hstep, h1, obsUnit, h2, obsRead]

/-- **C115** (1) The examples that do not spell out a byte order hold for all values in every build. -/
theorem C115_any_build_partial (t : Target) : OrderFree t where
  read := by
    intro pre bs post old h
    show Mem.readExact _ _ = _
    rw [Mem.readExact_eq, if_pos (by right; simp; omega), h]
    simp
  seek := by
    intro a b c d e x
    unfold Mem.new
    have hl : [a, b, c, d, e].length = 5 := rfl
    have he : ∀ (k : Int64) (m : Nat) (p : Nat), (5 : Int) + k.toInt = m → m < 100 →
        Mem.seek (.end_ k) ⟨[a, b, c, d, e], p⟩ = .ok () ⟨[a, b, c, d, e], m⟩ := by
      intro k m p h hm
      unfold Mem.seek
      simp only [hl, Nat.cast_ofNat, h]
      rw [if_pos (by omega)]
      rfl
    have hc : ∀ (k : Int64) (m : Nat) (p : Nat), (p : Int) + k.toInt = m → m < 100 →
        Mem.seek (.current k) ⟨[a, b, c, d, e], p⟩ = .ok () ⟨[a, b, c, d, e], m⟩ := by
      intro k m p h hm
      unfold Mem.seek
      simp only [h]
      rw [if_pos (by omega)]
      rfl
    rw [seek_next t _ 0 4 (.end_ (-1)) x e (he _ _ _ (by decide) (by omega)) rfl, seek_next t _ 5 0 (.start 0) x a rfl rfl,
      seek_next t _ 1 3 (.current 2) x d (hc _ _ _ (by decide) (by omega)) rfl, seek_next t _ 4 2 (.start 2) x c rfl rfl,
      seek_next t _ 3 1 (.current (-2)) x b (hc _ _ _ (by decide) (by omega)) rfl, seek_next t _ 2 4 (.start 4) x e rfl rfl,
      seek_next t _ 5 0 (.end_ (-5)) x a (he _ _ _ (by decide) (by omega)) rfl]
    rfl
  tell := by
    intro a b c d
    have l1 : (fileBytes t 8 a.toNat).length = 8 := by simp
    have l2 : (fileBytes t 4 b.toNat).length = 4 := by simp
    have l3 : (fileBytes t 2 c.toNat).length = 2 := by simp
    simp only [writeU64_eq, writeU32_eq, writeU16_eq]
    generalize fileBytes t 8 a.toNat = x at *
    generalize fileBytes t 4 b.toNat = y at *
    generalize fileBytes t 2 c.toNat = z at *
    have e0 := vec_tell t [] (by simp)
    have w1 := vec_put t [] x (by simp; omega)
    have e1 := vec_tell t ([] ++ x) (by simp; omega)
    have w2 := vec_put t ([] ++ x) y (by simp; omega)
    have e2 := vec_tell t (([] ++ x) ++ y) (by simp; omega)
    have w3 := vec_put t (([] ++ x) ++ y) z (by simp; omega)
    have e3 := vec_tell t ((([] ++ x) ++ y) ++ z) (by simp; omega)
    have w4 := vec_put t ((([] ++ x) ++ y) ++ z) [d] (by simp; omega)
    have e4 := vec_tell t (((([] ++ x) ++ y) ++ z) ++ [d]) (by simp; omega)
    refine ⟨_, _, _, _, e0, w1, ?_, w2, ?_, w3, ?_, w4, ?_⟩
    · rw [e1]; simp [l1]
    · rw [e2]; simp [l1, l2]
    · rw [e3]; simp [l1, l2, l3]
    · rw [e4]; simp [l1, l2, l3]
  read_u8 := by intro v; rfl
  write_u8 := by intro v old; exact put_start t [old] [v] rfl
  write_u16 := by
    intro v old h
    refine ⟨fileBytes t 2 v.toNat, ?_, ?_⟩
    · rw [writeU16_eq, put_start t old _ (by simp [h])]; simp
    · rw [host16 t _ (by simp), file_fit t 2 _ (u16_lt v)]
  write_u16_array := by
    intro vs old h
    obtain ⟨bs, h1, h2⟩ := put_array t vs [] old h
    exact ⟨bs, by simpa [Mem.new] using h1, h2⟩
  write_u32 := by
    intro v old h
    refine ⟨fileBytes t 4 v.toNat, ?_, ?_⟩
    · rw [writeU32_eq, put_start t old _ (by simp [h])]; simp
    · rw [host32 t _ (by simp), file_fit t 4 _ (u32_lt v)]
  write_f32 := by
    intro v old h
    refine ⟨fileBytes t 4 v.bits.toNat, ?_, ?_⟩
    · rw [writeF32, writeU32_eq, put_start t old _ (by simp [h])]; simp
    · rw [host32 t _ (by simp), file_fit t 4 _ (u32_lt v.bits)]
  write_u64 := by
    intro v old h
    refine ⟨fileBytes t 8 v.toNat, ?_, ?_⟩
    · rw [writeU64_eq, put_start t old _ (by simp [h])]; simp
    · rw [host64 t _ (by simp), file_fit t 8 _ (u64_lt v)]
  file_mem := by
    intro buf n v h
    have e : buf = buf.take n.toNat ++ ([buf[n.toNat]] ++ buf.drop (n.toNat + 1)) := by
      rw [List.singleton_append, ← List.drop_eq_getElem_cons h, List.take_append_drop]
    have hl : (buf.take n.toNat).length = n.toNat := by simp; omega
    have hw := put_fixed t (buf.take n.toNat) [buf[n.toNat]] (buf.drop (n.toNat + 1)) [v] rfl
    rw [← e, hl] at hw
    refine ⟨⟨buf, n.toNat⟩, _, rfl, hw, ?_, ?_⟩
    · simp; omega
    · simp only
      rw [List.getElem?_append_right (by omega), hl]
      simp
  file_null := by
    intro bs h
    have hu : 100 ≤ t.usizeMod := by unfold Target.usizeMod Target.usizeBits; cases t.wide <;> decide
    have hw : (Null.handler t).write bs Null.new = .ok () ⟨bs.length, bs.length⟩ := by
      show Null.write t bs _ = _
      unfold Null.write Target.addUsize Null.new
      simp only [Nat.zero_add]
      rw [if_pos h]
      simp only [Out.ok.injEq, Null.mk.injEq, true_and]
      split <;> omega
    have hr : readBuf (Null.handler t) 4 ⟨0, bs.length⟩ = .ok (zeros 4) ⟨4, bs.length⟩ := by
      have e : (Null.handler t).read (zeros 4) ⟨0, bs.length⟩ = (.ok () ⟨4, bs.length⟩, zeros 4) := by
        show Null.read t _ _ = _
        unfold Null.read Target.addUsize
        simp only [zeros_length, Nat.zero_add]
        rw [if_pos (by omega)]
      unfold readBuf
      rw [e]
    refine ⟨_, ⟨0, bs.length⟩, ⟨4, bs.length⟩, rfl, hw, rfl, ?_, ?_⟩
    · show Out.ok () _ = _
      simp [Null.asUsize]
    · rw [readU32_eq, hr]
      have : fileValue t (zeros 4) = 0 := by
        unfold fileValue; cases t.leFeature <;> rfl
      simp only [Out.map, this]
      rfl

private theorem get_array (t : Target) (hle : t.leFeature = false) (vs old : List UInt16) (bs : List (List Byte))
    (pre : List Byte) (hl : old.length = vs.length)
    (h : List.Forall₂ (fun b v => b.length = 2 ∧ msbFirst b = v.toNat) bs vs) :
    readU16Array t (Mem.fixed t) old ⟨pre ++ bs.flatten, pre.length⟩ =
      (.ok () ⟨pre ++ bs.flatten, pre.length + 2 * vs.length⟩, vs) := by
  induction h generalizing old pre with
  | nil =>
    have : old = [] := List.length_eq_zero_iff.mp (by simpa using hl)
    subst this
    rfl
  | @cons b v bs vs hb _ ih =>
    obtain ⟨o, old, rfl⟩ : ∃ o os, old = o :: os := by
      cases old with
      | nil => simp at hl
      | cons o os => exact ⟨o, os, rfl⟩
    have ih := ih old (pre ++ b) (by simpa using hl)
    rw [List.append_assoc, List.length_append, hb.1] at ih
    rw [readU16Array, readU16_eq, List.flatten_cons, buf_fixed t pre b bs.flatten hb.1]
    have e : UInt16.ofNat (fileValue t b) = v := by
      unfold fileValue
      rw [hle]
      simp [hb.2]
    simp only [Out.map, e, ih, List.length_cons]
    congr 3
    omega

private theorem get_s15 (t : Target) (hle : t.leFeature = false) (n : Int) (pre bs post : List Byte)
    (hl : bs.length = 4) (hn : twos32 (msbFirst bs) = n) (hne : n ≠ -2147483648) :
    ∃ f, readS15f16 t (Mem.fixed t) ⟨pre ++ (bs ++ post), pre.length⟩ =
        .ok f ⟨pre ++ (bs ++ post), pre.length + 4⟩ ∧ F64.val f = some ((n : ℚ) / 65536) := by
  have hb := (readBuf_ok (buf_fixed t pre bs post hl)).1
  have hv : fileValue t bs = msbFirst bs := by unfold fileValue; rw [hle]; rfl
  obtain ⟨f, h1, h2⟩ := C19_exact_partial t (Mem.fixed t) _ _ bs hb (by
    intro _ h
    rw [hv] at h
    rw [h] at hn
    exact hne hn.symm)
  rw [hv, hn] at h2
  exact ⟨f, h1, h2⟩

private theorem put_s15 (t : Target) (hle : t.leFeature = false) (n : Int) (x : F64) (h1 : -2147483648 ≤ n)
    (h2 : n < 2147483648) (hx : F64.val x = some ((n : ℚ) / 65536)) :
    ∃ b, b.length = 4 ∧ twos32 (msbFirst b) = n ∧ writeS15f16 t (Mem.fixed t) x = (Mem.fixed t).write b := by
  have hn : (Int32.ofInt n).toInt = n := Int32.toInt_ofInt_of_le (by norm_num; omega) (by norm_num; omega)
  have hg : f64ToS15f16 x = Int32.ofInt n := f64ToS15f16_grid _ (by rw [hn]; exact hx)
  obtain ⟨b, hb1, hb2, hb3⟩ := stores_toInt x Mem t (Mem.fixed t)
  rw [hg, hn] at hb2
  refine ⟨b, hb1, ?_, hb3⟩
  rw [← hb2]
  unfold fileValue
  rw [hle]
  rfl

private theorem msb (t : Target) (hle : t.leFeature = false) : MsbFirst t := by
  have hv : ∀ bs, fileValue t bs = msbFirst bs := by intro bs; unfold fileValue; rw [hle]; rfl
  constructor
  · intro v bs hl h
    rw [readU16_eq, buf_start t bs hl, Out.map, hv, h, UInt16.ofNat_toNat]
  · intro vs old bs hl h
    have := get_array t hle vs old bs [] hl h
    simpa [Mem.new] using this
  · intro v bs hl h
    rw [readU32_eq, buf_start t bs hl, Out.map, hv, h, UInt32.ofNat_toNat]
  · intro v bs hl h
    rw [readF32, M.bind_apply, readU32_eq, buf_start t bs hl, Out.map, hv, h, UInt32.ofNat_toNat]
    rfl
  · intro v bs hl h
    rw [readU64_eq, buf_start t bs hl, Out.map, hv, h, UInt64.ofNat_toNat]
  · intro n bs hl h hne
    have := get_s15 t hle n [] bs [] hl h hne
    simpa [Mem.new] using this
  · intro x y z bx bY bz lx ly lz hx hy hz nx ny nz
    obtain ⟨f, f1, f2⟩ := get_s15 t hle x [] bx (bY ++ bz) lx hx nx
    obtain ⟨g, g1, g2⟩ := get_s15 t hle y bx bY bz ly hy ny
    obtain ⟨k, k1, k2⟩ := get_s15 t hle z (bx ++ bY) bz [] lz hz nz
    refine ⟨⟨f, g, k⟩, ?_, f2, g2, k2⟩
    simp only [List.nil_append, List.append_nil, List.append_assoc, List.length_append, List.length_nil, lx, ly] at f1 g1 k1
    simp only [readXyz, M.bind_apply, Mem.new, List.append_assoc, f1, g1, k1]
    rfl
  · intro n x old hl h1 h2 hx
    obtain ⟨b, hb1, hb2, hb3⟩ := put_s15 t hle n x h1 h2 hx
    refine ⟨b, ?_, hb1, hb2⟩
    rw [hb3, put_start t old b (by omega), hb1]
  · intro x y z c old hl x1 x2 y1 y2 z1 z2 hx hy hz
    obtain ⟨bx, lx, vx, wx⟩ := put_s15 t hle x c.X x1 x2 hx
    obtain ⟨bY, ly, vy, wy⟩ := put_s15 t hle y c.Y y1 y2 hy
    obtain ⟨bz, lz, vz, wz⟩ := put_s15 t hle z c.Z z1 z2 hz
    refine ⟨bx, bY, bz, ?_, lx, ly, lz, vx, vy, vz⟩
    have e1 := put_fixed t [] (old.take 4) (old.drop 4) bx (by simp; omega)
    have e2 := put_fixed t bx ((old.drop 4).take 4) ((old.drop 4).drop 4) bY (by simp; omega)
    have e3 := put_fixed t (bx ++ bY) ((old.drop 4).drop 4) [] bz (by simp; omega)
    rw [List.take_append_drop] at e1 e2
    simp only [List.nil_append, List.append_nil, List.append_assoc, List.length_append, List.length_nil, lx, ly, lz] at e1 e2 e3
    simp only [writeXyz, M.bind_apply, wx, wy, wz, Mem.new, e1, e2, e3, List.append_assoc]

/-- **C115** (2) The examples that spell out bytes hold, for all values, exactly in the builds without
`use_little_endian`. -/
theorem C115_byte_examples_partial (t : Target) : MsbFirst t ↔ t.leFeature = false := by
  refine ⟨fun h => ?_, msb t⟩
  have h2 := h.read_u16 42 [0, 42] rfl rfl
  cases hle : t.leFeature with
  | false => rfl
  | true =>
    exfalso
    rw [readU16_eq, buf_start t [0, 42] (n := 2) rfl, Out.map] at h2
    have hv : fileValue t [0, 42] = 10752 := by unfold fileValue; rw [hle]; rfl
    rw [hv] at h2
    injection h2 with h3
    exact absurd h3 (by decide)

/-- **C115 is false**: with `use_little_endian` the example of `read_u16` reads 10752 instead of 42. -/
theorem C115_refuted : ¬ C115_statement := by
  intro h
  have := (C115_byte_examples_partial ⟨false, true, true, true⟩).mp (h _).2
  exact absurd this (by decide)

/-- The printed examples. -/
example : readU16 pc (Mem.fixed pc) (Mem.new [0, 42]) = .ok 42 ⟨[0, 42], 2⟩ ∧
    readU16Array pc (Mem.fixed pc) [0, 0, 0] (Mem.new [0, 42, 0, 69, 0, 255]) = (.ok () ⟨[0, 42, 0, 69, 0, 255], 6⟩, [42, 69, 255]) ∧
    writeU16Array pc (Mem.fixed pc) [42, 69, 255] (Mem.new (zeros 6)) = .ok () ⟨[0, 42, 0, 69, 0, 255], 6⟩ ∧
    readU16 ⟨false, true, true, true⟩ (Mem.fixed pc) (Mem.new [0, 42]) = .ok 10752 ⟨[0, 42], 2⟩ := by decide +kernel

end Lcms.Props
