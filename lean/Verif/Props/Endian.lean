import Verif.Lemmas.Endian

/-!
# Properties C01, C02: byte order conversion
-/

namespace Lcms.Props

open Lcms Spec

/-- **C01** (integers): adjusting twice is the identity, both modules, every host. -/
theorem C01_integers_involutive (t : Target) (a : UInt16) (b : UInt32) (c : UInt64) :
    BigEndian.adjustU16 t (BigEndian.adjustU16 t a) = a ∧
    BigEndian.adjustU32 t (BigEndian.adjustU32 t b) = b ∧
    BigEndian.adjustU64 t (BigEndian.adjustU64 t c) = c ∧
    LittleEndian.adjustU16 t (LittleEndian.adjustU16 t a) = a ∧
    LittleEndian.adjustU32 t (LittleEndian.adjustU32 t b) = b ∧
    LittleEndian.adjustU64 t (LittleEndian.adjustU64 t c) = c := by
  refine ⟨?_, ?_, ?_, ?_, ?_, ?_⟩
  · apply UInt16.toNat_inj.mp
    have h := toBe_lt t 2 a.toNat (u16_lt a)
    simp only [BigEndian.adjustU16, UInt16.toNat_ofNat']
    rw [Nat.mod_eq_of_lt (a := toBe t 2 a.toNat) (by omega), toBe_toBe t 2 _ (u16_lt a)]
    exact Nat.mod_eq_of_lt a.toNat_lt
  · apply UInt32.toNat_inj.mp
    have h := toBe_lt t 4 b.toNat (u32_lt b)
    simp only [BigEndian.adjustU32, UInt32.toNat_ofNat']
    rw [Nat.mod_eq_of_lt (a := toBe t 4 b.toNat) (by omega), toBe_toBe t 4 _ (u32_lt b)]
    exact Nat.mod_eq_of_lt b.toNat_lt
  · apply UInt64.toNat_inj.mp
    have h := toBe_lt t 8 c.toNat (u64_lt c)
    simp only [BigEndian.adjustU64, UInt64.toNat_ofNat']
    rw [Nat.mod_eq_of_lt (a := toBe t 8 c.toNat) (by omega), toBe_toBe t 8 _ (u64_lt c)]
    exact Nat.mod_eq_of_lt c.toNat_lt
  · apply UInt16.toNat_inj.mp
    have h := toLe_lt t 2 a.toNat (u16_lt a)
    simp only [LittleEndian.adjustU16, UInt16.toNat_ofNat']
    rw [Nat.mod_eq_of_lt (a := toLe t 2 a.toNat) (by omega), toLe_toLe t 2 _ (u16_lt a)]
    exact Nat.mod_eq_of_lt a.toNat_lt
  · apply UInt32.toNat_inj.mp
    have h := toLe_lt t 4 b.toNat (u32_lt b)
    simp only [LittleEndian.adjustU32, UInt32.toNat_ofNat']
    rw [Nat.mod_eq_of_lt (a := toLe t 4 b.toNat) (by omega), toLe_toLe t 4 _ (u32_lt b)]
    exact Nat.mod_eq_of_lt b.toNat_lt
  · apply UInt64.toNat_inj.mp
    have h := toLe_lt t 8 c.toNat (u64_lt c)
    simp only [LittleEndian.adjustU64, UInt64.toNat_ofNat']
    rw [Nat.mod_eq_of_lt (a := toLe t 8 c.toNat) (by omega), toLe_toLe t 8 _ (u64_lt c)]
    exact Nat.mod_eq_of_lt c.toNat_lt

/-- Reading a byte string in one order and writing it natively, twice, is the identity. -/
private theorem be_twice (t : Target) {n : Nat} (v : List Byte) (h : v.length = n) :
    neBytes t n (beVal (neBytes t n (beVal v))) = v := by
  cases hb : t.hostBig <;> simp only [neBytes, hb, if_true, Bool.false_eq_true, if_false]
  · have : beVal (leBytes n (beVal v)) = leVal v := by
      have h1 : leBytes n (beVal v) = v.reverse := by
        have := leBytes_leVal' (n := n) v.reverse (by simpa using h)
        simpa [beVal] using this
      rw [h1]; simp [beVal]
    rw [this]; exact leBytes_leVal' v h
  · rw [beBytes_beVal' v h]; exact beBytes_beVal' v h

private theorem le_twice (t : Target) {n : Nat} (v : List Byte) (h : v.length = n) :
    neBytes t n (leVal (neBytes t n (leVal v))) = v := by
  cases hb : t.hostBig <;> simp only [neBytes, hb, if_true, Bool.false_eq_true, if_false]
  · rw [leBytes_leVal' v h]; exact leBytes_leVal' v h
  · have h1 : beBytes n (leVal v) = v.reverse := by
      unfold beBytes; rw [leBytes_leVal' v h]
    rw [h1]
    have h2 : leVal v.reverse = beVal v := rfl
    rw [h2]; exact beBytes_beVal' v h

/-- **C01** (byte arrays): adjusting twice is the identity, both modules, every host. -/
theorem C01_arrays_involutive (t : Target) (a b c : List Byte)
    (ha : a.length = 2) (hb : b.length = 4) (hc : c.length = 8) :
    BigEndian.adjust16 t (BigEndian.adjust16 t a) = a ∧
    BigEndian.adjust32 t (BigEndian.adjust32 t b) = b ∧
    BigEndian.adjust64 t (BigEndian.adjust64 t c) = c ∧
    LittleEndian.adjust16 t (LittleEndian.adjust16 t a) = a ∧
    LittleEndian.adjust32 t (LittleEndian.adjust32 t b) = b ∧
    LittleEndian.adjust64 t (LittleEndian.adjust64 t c) = c := by
  have m16 : ∀ x, x < 256 ^ 2 → (UInt16.ofNat x).toNat = x := by
    intro x hx; rw [UInt16.toNat_ofNat']; exact Nat.mod_eq_of_lt (by omega)
  have m32 : ∀ x, x < 256 ^ 4 → (UInt32.ofNat x).toNat = x := by
    intro x hx; rw [UInt32.toNat_ofNat']; exact Nat.mod_eq_of_lt (by omega)
  have m64 : ∀ x, x < 256 ^ 8 → (UInt64.ofNat x).toNat = x := by
    intro x hx; rw [UInt64.toNat_ofNat']; exact Nat.mod_eq_of_lt (by omega)
  have bl : ∀ (n : Nat) (v : List Byte), v.length = n → beVal v < 256 ^ n := by
    intro n v h; rw [← h]; exact beVal_lt v
  have ll : ∀ (n : Nat) (v : List Byte), v.length = n → leVal v < 256 ^ n := by
    intro n v h; rw [← h]; exact leVal_lt v
  refine ⟨?_, ?_, ?_, ?_, ?_, ?_⟩
  · simp only [BigEndian.adjust16]
    rw [m16 _ (bl 2 _ ha), m16 _ (bl 2 _ (by simp)), be_twice t a ha]
  · simp only [BigEndian.adjust32]
    rw [m32 _ (bl 4 _ hb), m32 _ (bl 4 _ (by simp)), be_twice t b hb]
  · simp only [BigEndian.adjust64]
    rw [m64 _ (bl 8 _ hc), m64 _ (bl 8 _ (by simp)), be_twice t c hc]
  · simp only [LittleEndian.adjust16]
    rw [m16 _ (ll 2 _ ha), m16 _ (ll 2 _ (by simp)), le_twice t a ha]
  · simp only [LittleEndian.adjust32]
    rw [m32 _ (ll 4 _ hb), m32 _ (ll 4 _ (by simp)), le_twice t b hb]
  · simp only [LittleEndian.adjust64]
    rw [m64 _ (ll 8 _ hc), m64 _ (ll 8 _ (by simp)), le_twice t c hc]

/-- Non-vacuity: on a little-endian host the adjustment really swaps. -/
example : BigEndian.adjust16 ⟨false, false, true, true⟩ [1, 2] = [2, 1] ∧
    BigEndian.adjustU16 ⟨false, false, true, true⟩ 0x0102 = 0x0201 ∧
    LittleEndian.adjustU32 ⟨true, false, true, true⟩ 0x01020304 = 0x04030201 := by decide

/-- **C02** (arrays): the host reads from the adjusted array the big-endian (little-endian) value of the
original bytes, whatever the host is. -/
theorem C02_arrays_same_on_every_host (t : Target) (a b c : List Byte)
    (ha : a.length = 2) (hb : b.length = 4) (hc : c.length = 8) :
    (hostValue t (BigEndian.adjust16 t a) = msbFirst a ∧
     hostValue t (BigEndian.adjust32 t b) = msbFirst b ∧
     hostValue t (BigEndian.adjust64 t c) = msbFirst c) ∧
    (hostValue t (LittleEndian.adjust16 t a) = lsbFirst a ∧
     hostValue t (LittleEndian.adjust32 t b) = lsbFirst b ∧
     hostValue t (LittleEndian.adjust64 t c) = lsbFirst c) := by
  have bl : ∀ (n : Nat) (v : List Byte), v.length = n → beVal v < 256 ^ n := by
    intro n v h; rw [← h]; exact beVal_lt v
  have ll : ∀ (n : Nat) (v : List Byte), v.length = n → leVal v < 256 ^ n := by
    intro n v h; rw [← h]; exact leVal_lt v
  have b1 := bl 2 a ha; have b2 := bl 4 b hb; have b3 := bl 8 c hc
  have l1 := ll 2 a ha; have l2 := ll 4 b hb; have l3 := ll 8 c hc
  simp only [BigEndian.adjust16, BigEndian.adjust32, BigEndian.adjust64, LittleEndian.adjust16,
    LittleEndian.adjust32, LittleEndian.adjust64, ← neVal_eq_hostValue, neVal_neBytes,
    ← beVal_eq_msbFirst, ← leVal_eq_lsbFirst, UInt16.toNat_ofNat', UInt32.toNat_ofNat',
    UInt64.toNat_ofNat']
  refine ⟨⟨?_, ?_, ?_⟩, ?_, ?_, ?_⟩ <;> omega

/-- **C02** (integers): adjusting the integer the host read from `bytes` gives the big-endian
(little-endian) value of `bytes`, so the integer and array variants agree. -/
theorem C02_integers_same_on_every_host (t : Target) (a b c : List Byte)
    (ha : a.length = 2) (hb : b.length = 4) (hc : c.length = 8)
    (x : UInt16) (y : UInt32) (z : UInt64)
    (hx : x.toNat = hostValue t a) (hy : y.toNat = hostValue t b) (hz : z.toNat = hostValue t c) :
    ((BigEndian.adjustU16 t x).toNat = msbFirst a ∧
     (BigEndian.adjustU32 t y).toNat = msbFirst b ∧
     (BigEndian.adjustU64 t z).toNat = msbFirst c) ∧
    ((LittleEndian.adjustU16 t x).toNat = lsbFirst a ∧
     (LittleEndian.adjustU32 t y).toNat = lsbFirst b ∧
     (LittleEndian.adjustU64 t z).toNat = lsbFirst c) := by
  have bl : ∀ (n : Nat) (v : List Byte), v.length = n → beVal v < 256 ^ n := by
    intro n v h; rw [← h]; exact beVal_lt v
  have ll : ∀ (n : Nat) (v : List Byte), v.length = n → leVal v < 256 ^ n := by
    intro n v h; rw [← h]; exact leVal_lt v
  have b1 := bl 2 a ha; have b2 := bl 4 b hb; have b3 := bl 8 c hc
  have l1 := ll 2 a ha; have l2 := ll 4 b hb; have l3 := ll 8 c hc
  simp only [BigEndian.adjustU16, BigEndian.adjustU32, BigEndian.adjustU64, LittleEndian.adjustU16,
    LittleEndian.adjustU32, LittleEndian.adjustU64, hx, hy, hz, ← neVal_eq_hostValue,
    toBe_neVal t a ha, toBe_neVal t b hb, toBe_neVal t c hc,
    toLe_neVal t a ha, toLe_neVal t b hb, toLe_neVal t c hc,
    ← beVal_eq_msbFirst, ← leVal_eq_lsbFirst, UInt16.toNat_ofNat', UInt32.toNat_ofNat',
    UInt64.toNat_ofNat']
  refine ⟨⟨?_, ?_, ?_⟩, ?_, ?_, ?_⟩ <;> omega

/-- **C02** (re-exports of `lcms2::io`): what the feature selects reads file bytes in file order. -/
theorem C02_reexports_follow_feature (t : Target) (a b c : List Byte)
    (ha : a.length = 2) (hb : b.length = 4) (hc : c.length = 8)
    (x : UInt16) (y : UInt32) (z : UInt64)
    (hx : x.toNat = hostValue t a) (hy : y.toNat = hostValue t b) (hz : z.toNat = hostValue t c) :
    (adjustEndiannessU16 t x).toNat = fileValue t a ∧
    (adjustEndiannessU32 t y).toNat = fileValue t b ∧
    (adjustEndiannessU64 t z).toNat = fileValue t c := by
  obtain ⟨⟨h1, h2, h3⟩, h4, h5, h6⟩ := C02_integers_same_on_every_host t a b c ha hb hc x y z hx hy hz
  unfold adjustEndiannessU16 adjustEndiannessU32 adjustEndiannessU64 fileValue
  cases t.leFeature
  · exact ⟨h1, h2, h3⟩
  · exact ⟨h4, h5, h6⟩

/-- **C02** (array re-exports of `lcms2::io`): the same for the array functions, which therefore agree with the
integer ones. -/
theorem C02_array_reexports_follow_feature (t : Target) (a b c : List Byte)
    (ha : a.length = 2) (hb : b.length = 4) (hc : c.length = 8) :
    hostValue t (adjustEndianness16 t a) = fileValue t a ∧
    hostValue t (adjustEndianness32 t b) = fileValue t b ∧
    hostValue t (adjustEndianness64 t c) = fileValue t c := by
  obtain ⟨⟨h1, h2, h3⟩, h4, h5, h6⟩ := C02_arrays_same_on_every_host t a b c ha hb hc
  unfold adjustEndianness16 adjustEndianness32 adjustEndianness64 fileValue
  cases t.leFeature
  · exact ⟨h1, h2, h3⟩
  · exact ⟨h4, h5, h6⟩

/-- The value of the adjusted bytes on a little-endian and a big-endian host. -/
example : hostValue ⟨false, false, true, true⟩ (BigEndian.adjust32 ⟨false, false, true, true⟩ [0, 0, 0x12, 0x34]) = 0x1234 ∧
    hostValue ⟨true, false, true, true⟩ (BigEndian.adjust32 ⟨true, false, true, true⟩ [0, 0, 0x12, 0x34]) = 0x1234 ∧
    hostValue ⟨true, false, true, true⟩ (LittleEndian.adjust16 ⟨true, false, true, true⟩ [0x12, 0x34]) = 0x3412 := by
  decide +kernel

/-- Non-vacuity of the hypotheses of C02. -/
example : ∃ (t : Target) (a : List Byte) (x : UInt16), a.length = 2 ∧ x.toNat = hostValue t a ∧
    msbFirst a = 0x1234 := ⟨⟨false, false, true, true⟩, [0x12, 0x34], 0x3412, by decide⟩

end Lcms.Props
