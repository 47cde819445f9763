import Verif.Lemmas.Store
import Verif.Props.Fixed
import Verif.Spec.Target

/-! # Properties C80–C81: records of typed values -/

namespace Lcms.Props

open Lcms.Spec

/-! ### C80 -/

/-- Write a record, go back to where it begins, read it with the same accessors. -/
def thereAndBack {σ : Type} (t : Target) (h : Handler σ) (start : Nat) (vs : List Val) : M σ (List Val) := do
  putAll t h vs
  h.seek (.start (UInt64.ofNat start))
  getAll t h (vs.map Val.ty)

/-- The length of a record. -/
def recordLength (vs : List Val) : Nat := (vs.map fun v => v.ty.size).sum

theorem recordLength_eq (t : Target) (vs : List Val) : (vs.flatMap (bytesOf t)).length = recordLength vs := by
  unfold recordLength
  induction vs with
  | nil => rfl
  | cons v vs ih => rw [List.flatMap_cons, List.length_append, ih, bytesOf_length, List.map_cons, List.sum_cons]

theorem record_lawful {σ : Type} {h : Handler σ} {C : σ → List Byte → Nat → Prop} {room : List Byte → Nat → Prop}
    (L : Lawful h C room) (t : Target) (vs : List Val) (hx : ∀ v ∈ vs, v.Exact) {s : σ} {d : List Byte} {p : Nat}
    (hs : C s d p) (hp : p < 2 ^ 63) (hr : room d (p + recordLength vs)) (bss : List (List Byte))
    (henc : List.Forall₂ (Encodes t) vs bss) :
    ∃ s' d' ws, thereAndBack t h p vs s = .ok ws s' ∧ List.Forall₂ Val.Same vs ws ∧ C s' d' (p + recordLength vs) ∧
      Overwritten d p bss.flatten d' := by
  have hb : bss.flatten = vs.flatMap (bytesOf t) := by rw [encodes_all t vs bss henc, flatMap_bytesOf]
  rw [← recordLength_eq t] at hr ⊢
  obtain ⟨s1, e1, c1⟩ := L.putAll t vs hs hr
  obtain ⟨s2, e2, c2⟩ := L.seek p c1 hp
  obtain ⟨s3, ws, e3, v3, c3⟩ := L.getAll t vs hx c2 (holdsAt_written ..)
  refine ⟨s3, _, ws, ?_, v3, c3, (overwritten_iff ..).mpr (by rw [hb])⟩
  unfold thereAndBack
  rw [M.bind_apply, e1]
  simp only
  rw [M.bind_apply, e2]
  exact e3

/-- **C80** on a growable buffer: any record of typed values written at any position reads back as itself, and the
buffer is the old one overwritten with the encodings of the values.  (Fixed-point numbers must be representable;
the buffer must not exceed the largest allocation.) -/
theorem C80_record_vec (t : Target) (vs : List Val) (hx : ∀ v ∈ vs, v.Exact) (s : Mem)
    (hfit : s.pos + recordLength vs ≤ t.isizeMax) (bss : List (List Byte))
    (henc : List.Forall₂ (Encodes t) vs bss) :
    ∃ d' ws, thereAndBack t (Mem.vec t) s.pos vs s = .ok ws ⟨d', s.pos + recordLength vs⟩ ∧
      List.Forall₂ Val.Same vs ws ∧
      Overwritten s.buf s.pos bss.flatten d' := by
  have := isizeMax_lt_i64 t
  obtain ⟨s', d', ws, h1, h2, rfl, h3⟩ := record_lawful (vec_lawful t) t vs hx (s := s) (d := s.buf) (p := s.pos) rfl
    (by omega) hfit bss henc
  exact ⟨d', ws, h1, h2, h3⟩

/-- **C80** on a fixed buffer, if the record lies within it. -/
theorem C80_record_fixed (t : Target) (vs : List Val) (hx : ∀ v ∈ vs, v.Exact) (s : Mem)
    (hfit : s.pos + recordLength vs ≤ s.buf.length) (hlen : s.buf.length ≤ t.isizeMax) (bss : List (List Byte))
    (henc : List.Forall₂ (Encodes t) vs bss) :
    ∃ d' ws, thereAndBack t (Mem.fixed t) s.pos vs s = .ok ws ⟨d', s.pos + recordLength vs⟩ ∧
      List.Forall₂ Val.Same vs ws ∧
      Overwritten s.buf s.pos bss.flatten d' := by
  have := isizeMax_lt_i64 t
  obtain ⟨s', d', ws, h1, h2, rfl, h3⟩ := record_lawful (fixed_lawful t) t vs hx (s := s) (d := s.buf) (p := s.pos) rfl
    (by omega) hfit bss henc
  exact ⟨d', ws, h1, h2, h3⟩

/-- **C80** on a file, for every schedule of short transfers and interrupts. -/
theorem C80_record_file (t : Target) (vs : List Val) (hx : ∀ v ∈ vs, v.Exact) (s : OsFile)
    (hr : s.readable = true) (hw : s.writable = true) (hpos : s.pos < 9223372036854775808)
    (bss : List (List Byte)) (henc : List.Forall₂ (Encodes t) vs bss) :
    ∃ s' ws, thereAndBack t (OsFile.handler t) s.pos vs s = .ok ws s' ∧ List.Forall₂ Val.Same vs ws ∧
      s'.pos = s.pos + recordLength vs ∧
      Overwritten s.data s.pos bss.flatten s'.data := by
  obtain ⟨s', d', ws, h1, hv, h2, h3⟩ := record_lawful (file_lawful t) t vs hx (s := s) (d := s.data) (p := s.pos)
    ⟨rfl, rfl, hr, hw⟩ hpos trivial bss henc
  exact ⟨s', ws, h1, hv, h2.pos, by rw [h2.data]; exact h3⟩

/-- A record of values of six kinds. -/
def sampleRecord : List Val :=
  [.u8 1, .u16 0x0203, .u16s [0x0405, 0x0607], .u32 0x08090A0B, .f32 ⟨0x7FC00001⟩, .u64 0x0C0D0E0F10111213]

/-- It is written behind the end of the buffer and read back. -/
example : thereAndBack pc (Mem.vec pc) 2 sampleRecord ⟨[9], 2⟩ = .ok sampleRecord
    ⟨[9, 0, 1, 2, 3, 4, 5, 6, 7, 8, 9, 10, 11, 0x7F, 0xC0, 0, 1, 12, 13, 14, 15, 16, 17, 18, 19], 25⟩ := by
  decide +kernel

/-- Fixed-point values are covered too: whatever `read_s15f16` returned, except the smallest number, can be
stored without loss. -/
example : ∃ f, readS15f16 pc (Mem.vec pc) ⟨[0xFF, 0xFE, 0x80, 0], 0⟩ = .ok f ⟨[0xFF, 0xFE, 0x80, 0], 4⟩ ∧
    (Val.s15 f).Exact := by
  obtain ⟨f, h1, h2⟩ := C19_exact_partial pc (Mem.vec pc) ⟨[0xFF, 0xFE, 0x80, 0], 0⟩
    ⟨[0xFF, 0xFE, 0x80, 0], 4⟩ [0xFF, 0xFE, 0x80, 0] (by decide) (by decide)
  refine ⟨f, h1, -98304, by norm_num, by norm_num, ?_⟩
  rw [h2]
  have : twos32 (fileValue pc [0xFF, 0xFE, 0x80, 0]) = -98304 := by decide
  rw [this]

/-- The encoding of such a number is the two's complement number of 65536ths. -/
theorem C80_fixed_encoding (t : Target) (x : F64) (n : Int) (h1 : -2147483648 < n) (h2 : n < 2147483648)
    (hx : F64.val x = some ((n : ℚ) / 65536)) (bs : List Byte) (hb : Encodes t (.s15 x) bs) :
    bs.length = 4 ∧ twos32 (fileValue t bs) = n := by
  rw [encodes_iff] at hb
  have hn : (Int32.ofInt n).toInt = n := Int32.toInt_ofInt_of_le (by norm_num; omega) (by norm_num; omega)
  have hg : f64ToS15f16 x = Int32.ofInt n := f64ToS15f16_grid _ (by rw [hn]; exact hx)
  simp only [chunks, List.flatten_cons, List.flatten_nil, List.append_nil] at hb
  subst hb
  have hlt := u32_lt (f64ToS15f16 x).toUInt32
  refine ⟨fileBytes_length .., ?_⟩
  rw [fileValue_fileBytes, Nat.mod_eq_of_lt hlt, ← toInt32_twos _ hlt, UInt32.ofNat_toNat]
  have : (f64ToS15f16 x).toUInt32.toInt32 = f64ToS15f16 x := rfl
  rw [this, hg, hn]

/-! ### C81 -/

/-- **C81** on a growable or fixed buffer: cells of any types at disjoint places behave, for every history of
assignments and reads, like independent variables; nothing outside the cells changes. -/
theorem C81_cells_mem (t : Target) (h : Handler Mem) (hh : h = Mem.vec t ∨ h = Mem.fixed t) {n : Nat}
    (cells : Fin n → Cell) (hd : Apart cells) (ops : List (CellOp n)) (hw : WellTyped cells ops)
    (env : Fin n → Val) (s : Mem) (hlen : s.buf.length ≤ t.isizeMax) (hr : Represents t cells s.buf env) :
    ∃ s' ws, runCells t h cells ops s = .ok ws s' ∧ List.Forall₂ Val.Same (runVars ops env).1 ws ∧
      Represents t cells s'.buf (runVars ops env).2 ∧ SameElsewhere cells s.buf s'.buf := by
  have := isizeMax_lt_i64 t
  rcases hh with rfl | rfl
  · obtain ⟨s', d', p', ws, h1, h2, rfl, h3, h4⟩ := (vec_lawful t).cells t cells hd ops hw env (s := s) (d := s.buf)
      (p := s.pos) rfl hlen (by omega) hr
    exact ⟨_, ws, h1, h2, h3, h4⟩
  · obtain ⟨s', d', p', ws, h1, h2, rfl, h3, h4⟩ := (fixed_lawful t).cells t cells hd ops hw env (s := s) (d := s.buf)
      (p := s.pos) rfl le_rfl (by omega) hr
    exact ⟨_, ws, h1, h2, h3, h4⟩

/-- **C81** on a file. -/
theorem C81_cells_file (t : Target) {n : Nat} (cells : Fin n → Cell) (hd : Apart cells) (ops : List (CellOp n))
    (hw : WellTyped cells ops) (env : Fin n → Val) (s : OsFile) (hrd : s.readable = true)
    (hwr : s.writable = true) (hlen : s.data.length < 9223372036854775808) (hr : Represents t cells s.data env) :
    ∃ s' ws, runCells t (OsFile.handler t) cells ops s = .ok ws s' ∧
      List.Forall₂ Val.Same (runVars ops env).1 ws ∧
      Represents t cells s'.data (runVars ops env).2 ∧ SameElsewhere cells s.data s'.data := by
  obtain ⟨s', d', p', ws, h1, hv, h2, h3, h4⟩ := (file_lawful t).cells t cells hd ops hw env (s := s) (d := s.data)
    (p := s.pos) ⟨rfl, rfl, hrd, hwr⟩ trivial hlen hr
  exact ⟨s', ws, h1, hv, by rw [h2.data]; exact h3, by rw [h2.data]; exact h4⟩

/-- Two neighbouring cells in a file with a schedule. -/
def twoCells (i : Fin 2) : Cell := if i = 0 then ⟨1, .u16⟩ else ⟨3, .u32⟩

/-- They are disjoint, and zero bytes represent zero variables. -/
example : Apart twoCells ∧
    Represents pc twoCells [7, 0, 0, 0, 0, 0, 0, 7] (fun i => if i = 0 then .u16 0 else .u32 0) := by
  refine ⟨by unfold Apart; decide, ?_⟩
  rw [represents_iff]
  intro i
  have hi : i = 0 ∨ i = 1 := by omega
  rcases hi with rfl | rfl
  · exact ⟨by decide, ⟨rfl, trivial⟩, by unfold HoldsAt; decide +kernel⟩
  · exact ⟨by decide, ⟨rfl, trivial⟩, by unfold HoldsAt; decide +kernel⟩

example : (match runCells pc (OsFile.handler pc) twoCells [.set 0 (.u16 0x1122), .set 1 (.u32 5), .get 0, .get 1]
      ⟨[7, 0, 0, 0, 0, 0, 0, 7], 4, true, true, [.chunk 0, .interrupted, .chunk 1, .chunk 0]⟩ with
    | .ok vs s => some (vs, s.data)
    | _ => none) = some ([.u16 0x1122, .u32 5], [7, 0x11, 0x22, 0, 0, 0, 5, 7]) := by decide +kernel

end Lcms.Props
