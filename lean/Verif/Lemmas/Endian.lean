import Verif.Model.Endian
import Verif.Spec.Bytes

namespace Lcms
open Spec

@[simp] theorem leBytes_length (n x : Nat) : (leBytes n x).length = n := by
  induction n generalizing x with
  | zero => rfl
  | succ n ih => simp [leBytes, ih]

@[simp] theorem beBytes_length (n x : Nat) : (beBytes n x).length = n := by simp [beBytes]

@[simp] theorem neBytes_length (t : Target) (n x : Nat) : (neBytes t n x).length = n := by
  unfold neBytes; split <;> simp

theorem leVal_lt (bs : List Byte) : leVal bs < 256 ^ bs.length := by
  induction bs with
  | nil => simp [leVal]
  | cons b bs ih =>
    have := b.toNat_lt
    simp only [leVal, List.length_cons, Nat.pow_succ]
    omega

theorem beVal_lt (bs : List Byte) : beVal bs < 256 ^ bs.length := by
  simpa [beVal] using leVal_lt bs.reverse

theorem leVal_leBytes (n x : Nat) : leVal (leBytes n x) = x % 256 ^ n := by
  induction n generalizing x with
  | zero => simp [leBytes, leVal, Nat.mod_one]
  | succ n ih =>
    simp only [leBytes, leVal, ih, UInt8.toNat_ofNat']
    rw [show 256 ^ (n + 1) = 256 * 256 ^ n by rw [Nat.pow_succ, Nat.mul_comm], Nat.mod_mul]

theorem leBytes_leVal (bs : List Byte) : leBytes bs.length (leVal bs) = bs := by
  induction bs with
  | nil => rfl
  | cons b bs ih =>
    have hb := b.toNat_lt
    have h1 : (b.toNat + 256 * leVal bs) / 256 = leVal bs := by omega
    have h2 : UInt8.ofNat (b.toNat + 256 * leVal bs) = b := by
      apply UInt8.toNat_inj.mp
      simp only [UInt8.toNat_ofNat']
      omega
    simp only [List.length_cons, leBytes, leVal, h1, h2, ih]

theorem leBytes_leVal' {n : Nat} (bs : List Byte) (h : bs.length = n) :
    leBytes n (leVal bs) = bs := by subst h; exact leBytes_leVal bs

theorem beVal_beBytes (n x : Nat) : beVal (beBytes n x) = x % 256 ^ n := by
  simp [beVal, beBytes, leVal_leBytes]

theorem beBytes_beVal' {n : Nat} (bs : List Byte) (h : bs.length = n) :
    beBytes n (beVal bs) = bs := by
  simp only [beBytes, beVal]
  rw [leBytes_leVal' _ (by simpa using h)]; simp

theorem neVal_neBytes (t : Target) (n x : Nat) : neVal t (neBytes t n x) = x % 256 ^ n := by
  unfold neVal neBytes; split <;> simp [beVal_beBytes, leVal_leBytes]

theorem neVal_lt (t : Target) (bs : List Byte) : neVal t bs < 256 ^ bs.length := by
  unfold neVal; split
  · exact beVal_lt bs
  · exact leVal_lt bs

theorem neBytes_neVal' (t : Target) {n : Nat} (bs : List Byte) (h : bs.length = n) :
    neBytes t n (neVal t bs) = bs := by
  unfold neVal neBytes; split
  · exact beBytes_beVal' bs h
  · exact leBytes_leVal' bs h

/-! ### Agreement with the specification's positional values -/

theorem foldl_horner (bs : List UInt8) (acc : Nat) :
    bs.foldl (fun acc b => acc * 256 + b.toNat) acc = acc * 256 ^ bs.length + msbFirst bs := by
  induction bs generalizing acc with
  | nil => simp [msbFirst]
  | cons b bs ih =>
    simp only [msbFirst, List.foldl_cons, List.length_cons]
    rw [ih, ih (0 * 256 + b.toNat), Nat.pow_succ]
    simp only [Nat.zero_mul, Nat.zero_add, Nat.add_mul, Nat.mul_assoc, Nat.mul_comm 256,
      Nat.add_assoc]

theorem msbFirst_append (as bs : List UInt8) :
    msbFirst (as ++ bs) = msbFirst as * 256 ^ bs.length + msbFirst bs := by
  conv => lhs; unfold msbFirst
  rw [List.foldl_append, foldl_horner]; rfl

theorem leVal_eq_lsbFirst (bs : List Byte) : leVal bs = lsbFirst bs := by
  induction bs with
  | nil => rfl
  | cons b bs ih =>
    unfold lsbFirst at *
    rw [List.reverse_cons, msbFirst_append, ← ih]
    simp [leVal, msbFirst]; omega

theorem beVal_eq_msbFirst (bs : List Byte) : beVal bs = msbFirst bs := by
  simp [beVal, leVal_eq_lsbFirst, lsbFirst]

theorem neVal_eq_hostValue (t : Target) (bs : List Byte) : neVal t bs = hostValue t bs := by
  simp only [neVal, hostValue, beVal_eq_msbFirst, leVal_eq_lsbFirst]

/-- Bytes of a value in file order. -/
def fileBytes (t : Target) (n x : Nat) : List Byte :=
  if t.leFeature then leBytes n x else beBytes n x

@[simp] theorem fileBytes_length (t : Target) (n x : Nat) : (fileBytes t n x).length = n := by
  unfold fileBytes; split <;> simp

theorem fileValue_eq (t : Target) (bs : List Byte) :
    fileValue t bs = if t.leFeature then leVal bs else beVal bs := by
  simp only [fileValue, beVal_eq_msbFirst, leVal_eq_lsbFirst]

theorem fileValue_lt (t : Target) (bs : List Byte) : fileValue t bs < 256 ^ bs.length := by
  rw [fileValue_eq]; split
  · exact leVal_lt bs
  · exact beVal_lt bs

theorem fileValue_fileBytes (t : Target) (n x : Nat) :
    fileValue t (fileBytes t n x) = x % 256 ^ n := by
  rw [fileValue_eq]; unfold fileBytes
  split <;> simp [leVal_leBytes, beVal_beBytes]

theorem fileBytes_fileValue (t : Target) {n : Nat} (bs : List Byte) (h : bs.length = n) :
    fileBytes t n (fileValue t bs) = bs := by
  rw [fileValue_eq]; unfold fileBytes
  split
  · exact leBytes_leVal' bs h
  · exact beBytes_beVal' bs h

theorem isFileBytes_iff (t : Target) (n x : Nat) (bs : List Byte) (hx : x < 256 ^ n) :
    IsFileBytes t n x bs ↔ bs = fileBytes t n x := by
  constructor
  · rintro ⟨h1, h2⟩
    rw [← h2, fileBytes_fileValue t bs h1]
  · rintro rfl
    exact ⟨by simp, by rw [fileValue_fileBytes, Nat.mod_eq_of_lt hx]⟩

/-! ### Byte swapping -/

theorem swapBytes_lt (n x : Nat) : swapBytes n x < 256 ^ n := by
  simpa [swapBytes] using beVal_lt (leBytes n x)

theorem swapBytes_leVal {n : Nat} (bs : List Byte) (h : bs.length = n) :
    swapBytes n (leVal bs) = beVal bs := by
  rw [swapBytes, leBytes_leVal' bs h]

theorem swapBytes_beVal {n : Nat} (bs : List Byte) (h : bs.length = n) :
    swapBytes n (beVal bs) = leVal bs := by
  have := swapBytes_leVal bs.reverse (n := n) (by simpa using h)
  simpa [beVal] using this

theorem swapBytes_swapBytes (n x : Nat) (hx : x < 256 ^ n) : swapBytes n (swapBytes n x) = x := by
  conv => lhs; rw [swapBytes.eq_1 n x]
  rw [swapBytes_beVal _ (by simp), leVal_leBytes, Nat.mod_eq_of_lt hx]

theorem toBe_lt (t : Target) (n x : Nat) (hx : x < 256 ^ n) : toBe t n x < 256 ^ n := by
  unfold toBe; split
  · exact hx
  · exact swapBytes_lt n x

theorem toLe_lt (t : Target) (n x : Nat) (hx : x < 256 ^ n) : toLe t n x < 256 ^ n := by
  unfold toLe; split
  · exact swapBytes_lt n x
  · exact hx

theorem toBe_toBe (t : Target) (n x : Nat) (hx : x < 256 ^ n) : toBe t n (toBe t n x) = x := by
  unfold toBe; split
  · rfl
  · exact swapBytes_swapBytes n x hx

theorem toLe_toLe (t : Target) (n x : Nat) (hx : x < 256 ^ n) : toLe t n (toLe t n x) = x := by
  unfold toLe; split
  · exact swapBytes_swapBytes n x hx
  · rfl

theorem toBe_neVal (t : Target) {n : Nat} (bs : List Byte) (h : bs.length = n) :
    toBe t n (neVal t bs) = beVal bs := by
  unfold toBe neVal; split
  · rfl
  · exact swapBytes_leVal bs h

theorem toLe_neVal (t : Target) {n : Nat} (bs : List Byte) (h : bs.length = n) :
    toLe t n (neVal t bs) = leVal bs := by
  unfold toLe neVal; split
  · exact swapBytes_beVal bs h
  · rfl

theorem neBytes_toBe (t : Target) (n x : Nat) : neBytes t n (toBe t n x) = beBytes n x := by
  unfold neBytes toBe; split
  · rfl
  · have := leBytes_leVal' (n := n) (leBytes n x).reverse (by simp)
    rw [swapBytes, beVal, this, beBytes]

theorem neBytes_toLe (t : Target) (n x : Nat) : neBytes t n (toLe t n x) = leBytes n x := by
  unfold neBytes toLe; split
  · exact beBytes_beVal' _ (by simp)
  · rfl

/-! ### The exported integer adjusters -/

theorem adjustU16_neVal (t : Target) (bs : List Byte) (h : bs.length = 2) :
    adjustEndiannessU16 t (UInt16.ofNat (neVal t bs)) = UInt16.ofNat (fileValue t bs) := by
  have hlt := neVal_lt t bs; rw [h] at hlt
  rw [fileValue_eq]
  unfold adjustEndiannessU16 LittleEndian.adjustU16 BigEndian.adjustU16
  rw [UInt16.toNat_ofNat_of_lt' (by simpa using hlt), toBe_neVal t bs h, toLe_neVal t bs h]
  split <;> rfl

theorem adjustU32_neVal (t : Target) (bs : List Byte) (h : bs.length = 4) :
    adjustEndiannessU32 t (UInt32.ofNat (neVal t bs)) = UInt32.ofNat (fileValue t bs) := by
  have hlt := neVal_lt t bs; rw [h] at hlt
  rw [fileValue_eq]
  unfold adjustEndiannessU32 LittleEndian.adjustU32 BigEndian.adjustU32
  rw [UInt32.toNat_ofNat_of_lt' (by simpa using hlt), toBe_neVal t bs h, toLe_neVal t bs h]
  split <;> rfl

theorem adjustU64_neVal (t : Target) (bs : List Byte) (h : bs.length = 8) :
    adjustEndiannessU64 t (UInt64.ofNat (neVal t bs)) = UInt64.ofNat (fileValue t bs) := by
  have hlt := neVal_lt t bs; rw [h] at hlt
  rw [fileValue_eq]
  unfold adjustEndiannessU64 LittleEndian.adjustU64 BigEndian.adjustU64
  rw [UInt64.toNat_ofNat_of_lt' (by simpa using hlt), toBe_neVal t bs h, toLe_neVal t bs h]
  split <;> rfl

theorem u16_lt (v : UInt16) : v.toNat < 256 ^ 2 := by have := v.toNat_lt; omega
theorem u32_lt (v : UInt32) : v.toNat < 256 ^ 4 := by have := v.toNat_lt; omega
theorem u64_lt (v : UInt64) : v.toNat < 256 ^ 8 := by have := v.toNat_lt; omega

theorem neBytes_adjustU16 (t : Target) (v : UInt16) :
    neBytes t 2 (adjustEndiannessU16 t v).toNat = fileBytes t 2 v.toNat := by
  unfold adjustEndiannessU16 LittleEndian.adjustU16 BigEndian.adjustU16 fileBytes
  split
  · rw [UInt16.toNat_ofNat_of_lt' (by simpa using toLe_lt t 2 _ (u16_lt v)), neBytes_toLe]
  · rw [UInt16.toNat_ofNat_of_lt' (by simpa using toBe_lt t 2 _ (u16_lt v)), neBytes_toBe]

theorem neBytes_adjustU32 (t : Target) (v : UInt32) :
    neBytes t 4 (adjustEndiannessU32 t v).toNat = fileBytes t 4 v.toNat := by
  unfold adjustEndiannessU32 LittleEndian.adjustU32 BigEndian.adjustU32 fileBytes
  split
  · rw [UInt32.toNat_ofNat_of_lt' (by simpa using toLe_lt t 4 _ (u32_lt v)), neBytes_toLe]
  · rw [UInt32.toNat_ofNat_of_lt' (by simpa using toBe_lt t 4 _ (u32_lt v)), neBytes_toBe]

theorem neBytes_adjustU64 (t : Target) (v : UInt64) :
    neBytes t 8 (adjustEndiannessU64 t v).toNat = fileBytes t 8 v.toNat := by
  unfold adjustEndiannessU64 LittleEndian.adjustU64 BigEndian.adjustU64 fileBytes
  split
  · rw [UInt64.toNat_ofNat_of_lt' (by simpa using toLe_lt t 8 _ (u64_lt v)), neBytes_toLe]
  · rw [UInt64.toNat_ofNat_of_lt' (by simpa using toBe_lt t 8 _ (u64_lt v)), neBytes_toBe]

end Lcms
