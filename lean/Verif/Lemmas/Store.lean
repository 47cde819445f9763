import Verif.Lemmas.Record
import Verif.Lemmas.Profile
import Verif.Lemmas.Fixed

/-! # Lemmas: handlers that store bytes -/

namespace Lcms

open Lcms.Spec
open Lcms.SharedFile (written)

/-! ### Bytes at a place -/

/-- The bytes `c` are at `p` in `d`. -/
def HoldsAt (d : List Byte) (p : Nat) (c : List Byte) : Prop := slice d p c.length = c

theorem holdsAt_iff (d : List Byte) (p : Nat) (c : List Byte) :
    HoldsAt d p c ↔ c = [] ∨ (p + c.length ≤ d.length ∧ ∀ i < c.length, d.getD (p + i) 0 = c.getD i 0) := by
  unfold HoldsAt slice
  by_cases hc : c = []
  · subst hc; simp
  have hpos := List.length_pos_iff.mpr hc
  simp only [hc, false_or]
  constructor
  · intro h
    have hl : c.length ≤ d.length - p := by
      have := congrArg List.length h
      simp only [List.length_take, List.length_drop] at this
      omega
    refine ⟨by omega, fun i hi => ?_⟩
    have : c.getD i 0 = (((d.drop p).take c.length)).getD i 0 := by rw [h]
    rw [this]
    simp only [List.getD_eq_getElem?_getD, List.getElem?_take, hi, if_true, List.getElem?_drop]
  · rintro ⟨h1, h2⟩
    apply List.ext_getElem
    · simp only [List.length_take, List.length_drop]; omega
    · intro i hi hi'
      have := h2 i hi'
      rw [List.getD_eq_getElem?_getD, List.getD_eq_getElem?_getD, List.getElem?_eq_getElem hi',
        List.getElem?_eq_getElem (by omega : p + i < d.length)] at this
      simpa using this

theorem HoldsAt.bound {d : List Byte} {p : Nat} {c : List Byte} (h : HoldsAt d p c) (hc : c ≠ []) :
    p + c.length ≤ d.length := by
  rcases (holdsAt_iff d p c).mp h with h | h
  · exact absurd h hc
  · exact h.1

theorem holdsAt_append {d : List Byte} {p : Nat} {a b : List Byte} :
    HoldsAt d p (a ++ b) ↔ HoldsAt d p a ∧ HoldsAt d (p + a.length) b := by
  unfold HoldsAt
  rw [List.length_append, SharedFile.slice_split]
  constructor
  · intro h
    have hl : (slice d p a.length).length = a.length ∨ (slice d p a.length).length < a.length := by
      unfold slice; rw [List.length_take]; omega
    rcases hl with hl | hl
    · exact List.append_inj h hl
    · have h2 : slice d (p + a.length) b.length = [] := by
        unfold slice at hl ⊢
        rw [List.length_take, List.length_drop] at hl
        rw [List.drop_eq_nil_of_le (by omega)]; simp
      have := congrArg List.length h
      rw [h2] at this
      simp at this
      omega
  · rintro ⟨h1, h2⟩; rw [h1, h2]

theorem holdsAt_written (d : List Byte) (p : Nat) (b : List Byte) : HoldsAt (written d p b) p b := by
  unfold HoldsAt written slice
  split
  · rename_i h; subst h; simp
  · exact patch_read d p b

theorem holdsAt_written_other {d : List Byte} {p : Nat} {b : List Byte} {q : Nat} {c : List Byte}
    (h : HoldsAt d q c) (hd : q + c.length ≤ p ∨ p + b.length ≤ q) : HoldsAt (written d p b) q c := by
  unfold written
  split
  · exact h
  rw [holdsAt_iff] at h ⊢
  rcases h with h | ⟨h1, h2⟩
  · exact Or.inl h
  · refine Or.inr ⟨by rw [patch_length]; omega, fun i hi => ?_⟩
    rw [patch_getD, if_neg (by omega)]
    exact h2 i hi

theorem written_length (d : List Byte) (p : Nat) (b : List Byte) : d.length ≤ (written d p b).length := by
  unfold written
  split
  · exact le_rfl
  · rw [patch_length]; omega

theorem written_getD_other (d : List Byte) (p : Nat) (b : List Byte) (i : Nat) (hi : i < p ∨ p + b.length ≤ i) :
    (written d p b).getD i 0 = d.getD i 0 := by
  unfold written
  split
  · rfl
  · rw [patch_getD, if_neg (by omega)]

/-! ### Handlers -/

/-- A handler that stores bytes: `C s d p` says that state `s` has content `d` and position `p`; `room d e` that
it can be written up to `e`. -/
structure Lawful {σ : Type} (h : Handler σ) (C : σ → List Byte → Nat → Prop) (room : List Byte → Nat → Prop) :
    Prop where
  room_le : ∀ {d e e'}, room d e → e' ≤ e → room d e'
  room_written : ∀ {d e} p b, room d e → room (written d p b) e
  write : ∀ {s d p} b, C s d p → room d (p + b.length) →
    ∃ s', h.write b s = .ok () s' ∧ C s' (written d p b) (p + b.length)
  read : ∀ {s d p} n, 0 < n → C s d p → p + n ≤ d.length → ∃ s', readBuf h n s = .ok (slice d p n) s' ∧ C s' d (p + n)
  seek : ∀ {s d p} q, C s d p → q < 2 ^ 63 → ∃ s', h.seek (.start (UInt64.ofNat q)) s = .ok () s' ∧ C s' d q

section
variable {σ : Type} {h : Handler σ} {C : σ → List Byte → Nat → Prop} {room : List Byte → Nat → Prop}

theorem Lawful.writeChunks (L : Lawful h C room) (bs : List (List Byte)) {s : σ} {d : List Byte} {p : Nat}
    (hs : C s d p) (hr : room d (p + bs.flatten.length)) :
    ∃ s', Lcms.writeChunks h bs s = .ok () s' ∧ C s' (written d p bs.flatten) (p + bs.flatten.length) := by
  induction bs generalizing s d p with
  | nil => exact ⟨s, rfl, by simpa [written] using hs⟩
  | cons b bs ih =>
    rw [List.flatten_cons, List.length_append] at hr
    obtain ⟨s1, e1, c1⟩ := L.write b hs (L.room_le hr (by omega))
    obtain ⟨s2, e2, c2⟩ := ih c1 (L.room_written _ _ (by rw [Nat.add_assoc]; exact hr))
    refine ⟨s2, ?_, ?_⟩
    · rw [Lcms.writeChunks, M.bind_apply, e1]; exact e2
    · rw [SharedFile.written_written, Nat.add_assoc] at c2
      rw [List.flatten_cons, List.length_append]
      exact c2

/-- The bytes of a value. -/
def bytesOf (t : Target) (v : Val) : List Byte := (chunks t v).flatten

theorem Lawful.put (L : Lawful h C room) (t : Target) (v : Val) {s : σ} {d : List Byte} {p : Nat}
    (hs : C s d p) (hr : room d (p + (bytesOf t v).length)) :
    ∃ s', v.put t h s = .ok () s' ∧ C s' (written d p (bytesOf t v)) (p + (bytesOf t v).length) := by
  rw [put_chunks]; exact L.writeChunks (chunks t v) hs hr

theorem flatMap_bytesOf (t : Target) (vs : List Val) : vs.flatMap (bytesOf t) = (vs.flatMap (chunks t)).flatten := by
  induction vs with
  | nil => rfl
  | cons v vs ih => rw [List.flatMap_cons, List.flatMap_cons, List.flatten_append, ih]; rfl

theorem Lawful.putAll (L : Lawful h C room) (t : Target) (vs : List Val) {s : σ} {d : List Byte} {p : Nat}
    (hs : C s d p) (hr : room d (p + (vs.flatMap (bytesOf t)).length)) :
    ∃ s', Spec.putAll t h vs s = .ok () s' ∧
      C s' (written d p (vs.flatMap (bytesOf t))) (p + (vs.flatMap (bytesOf t)).length) := by
  rw [flatMap_bytesOf] at hr ⊢
  rw [putAll_chunks]
  exact L.writeChunks _ hs hr

theorem Lawful.number (L : Lawful h C room) (t : Target) (n x : Nat) (hn : 0 < n) {s : σ} {d : List Byte} {p : Nat}
    (hs : C s d p) (hh : HoldsAt d p (fileBytes t n x)) :
    ∃ s', readBuf h n s = .ok (fileBytes t n x) s' ∧ C s' d (p + n) := by
  have hl := fileBytes_length t n x
  have hne : fileBytes t n x ≠ [] := by intro e; rw [e] at hl; simp at hl; omega
  have hb := hh.bound hne
  rw [hl] at hb
  obtain ⟨s', e1, c1⟩ := L.read n hn hs hb
  refine ⟨s', ?_, c1⟩
  unfold HoldsAt at hh
  rw [hl] at hh
  rw [e1, hh]

theorem Lawful.u16 (L : Lawful h C room) (t : Target) (v : UInt16) {s : σ} {d : List Byte} {p : Nat}
    (hs : C s d p) (hh : HoldsAt d p (fileBytes t 2 v.toNat)) : ∃ s', readU16 t h s = .ok v s' ∧ C s' d (p + 2) := by
  obtain ⟨s', e, c⟩ := L.number t 2 v.toNat (by omega) hs hh
  refine ⟨s', ?_, c⟩
  rw [readU16_eq, e]
  simp only [Out.map, fileValue_fileBytes, Nat.mod_eq_of_lt (u16_lt v), UInt16.ofNat_toNat]

theorem Lawful.u32 (L : Lawful h C room) (t : Target) (v : UInt32) {s : σ} {d : List Byte} {p : Nat}
    (hs : C s d p) (hh : HoldsAt d p (fileBytes t 4 v.toNat)) : ∃ s', readU32 t h s = .ok v s' ∧ C s' d (p + 4) := by
  obtain ⟨s', e, c⟩ := L.number t 4 v.toNat (by omega) hs hh
  refine ⟨s', ?_, c⟩
  rw [readU32_eq, e]
  simp only [Out.map, fileValue_fileBytes, Nat.mod_eq_of_lt (u32_lt v), UInt32.ofNat_toNat]

theorem fixed_round (t : Target) (x : F64) (hx : FixedPoint x) :
    ∃ w, s15f16ToF64 t (f64ToS15f16 x) = some w ∧ F64.val x = F64.val w := by
  obtain ⟨n, h1, h2, h3⟩ := hx
  have hn : (Int32.ofInt n).toInt = n := Int32.toInt_ofInt_of_le (by norm_num; omega) (by norm_num; omega)
  have hg : f64ToS15f16 x = Int32.ofInt n := f64ToS15f16_grid _ (by rw [hn]; exact h3)
  cases hw : s15f16ToF64 t (f64ToS15f16 x) with
  | none =>
    rw [hg] at hw
    have := (s15f16ToF64_eq_none.mp hw).1
    rw [this] at hn
    have h4 : Int32.minValue.toInt = -2147483648 := rfl
    omega
  | some w =>
    refine ⟨w, rfl, ?_⟩
    rw [s15f16ToF64_val hw, hg, hn, h3]

theorem Lawful.s15 (L : Lawful h C room) (t : Target) (v : F64) {s : σ} {d : List Byte} {p : Nat}
    (hx : FixedPoint v)
    (hs : C s d p) (hh : HoldsAt d p (fileBytes t 4 (f64ToS15f16 v).toUInt32.toNat)) :
    ∃ s' w, readS15f16 t h s = .ok w s' ∧ F64.val v = F64.val w ∧ C s' d (p + 4) := by
  obtain ⟨s', e, c⟩ := L.u32 t _ hs hh
  obtain ⟨w, hw, hv⟩ := fixed_round t v hx
  refine ⟨s', w, ?_, hv, c⟩
  unfold readS15f16
  rw [M.bind_apply, e]
  simp only
  have : (f64ToS15f16 v).toUInt32.toInt32 = f64ToS15f16 v := rfl
  rw [this, hw]
  rfl

theorem Lawful.array (L : Lawful h C room) (t : Target) (vs old : List UInt16) (ho : old.length = vs.length) {s : σ}
    {d : List Byte} {p : Nat} (hs : C s d p) (hh : HoldsAt d p (vs.flatMap fun v => fileBytes t 2 v.toNat)) :
    ∃ s', readU16Array t h old s = (.ok () s', vs) ∧ C s' d (p + 2 * vs.length) := by
  induction vs generalizing old s p with
  | nil =>
    rw [List.length_nil, List.length_eq_zero_iff] at ho
    subst ho
    exact ⟨s, rfl, hs⟩
  | cons v vs ih =>
    cases old with
    | nil => cases ho
    | cons o old =>
      rw [List.flatMap_cons, holdsAt_append] at hh
      obtain ⟨s1, e1, c1⟩ := L.u16 t v hs hh.1
      have hh2 := hh.2
      rw [fileBytes_length] at hh2
      obtain ⟨s2, e2, c2⟩ := ih old (by simpa using ho) c1 hh2
      refine ⟨s2, ?_, by rw [List.length_cons]; convert c2 using 1; omega⟩
      rw [readU16Array, e1]
      simp only [e2]

/-- Reading back what is there. -/
theorem Lawful.get (L : Lawful h C room) (t : Target) (v : Val) (hx : v.Exact) {s : σ} {d : List Byte} {p : Nat}
    (hs : C s d p) (hh : HoldsAt d p (bytesOf t v)) :
    ∃ s' w, v.ty.get t h s = .ok w s' ∧ v.Same w ∧ C s' d (p + (bytesOf t v).length) := by
  cases v with
  | u8 v =>
    simp only [bytesOf, chunks, List.flatten_cons, List.flatten_nil, List.append_nil] at hh ⊢
    obtain ⟨s', e, c⟩ := L.number t 1 v.toNat (by omega) hs hh
    refine ⟨s', _, ?_, rfl, by rw [fileBytes_length]; exact c⟩
    simp only [Val.ty, Ty.get]
    rw [M.bind_apply, readU8_eq t, e]
    have hv : v.toNat < 256 ^ 1 := by have := v.toNat_lt; omega
    simp only [Out.map, fileValue_fileBytes, Nat.mod_eq_of_lt hv, UInt8.ofNat_toNat]
    rfl
  | u16 v =>
    simp only [bytesOf, chunks, List.flatten_cons, List.flatten_nil, List.append_nil] at hh ⊢
    obtain ⟨s', e, c⟩ := L.u16 t v hs hh
    refine ⟨s', _, ?_, rfl, by rw [fileBytes_length]; exact c⟩
    simp only [Val.ty, Ty.get]
    rw [M.bind_apply, e]; rfl
  | u32 v =>
    simp only [bytesOf, chunks, List.flatten_cons, List.flatten_nil, List.append_nil] at hh ⊢
    obtain ⟨s', e, c⟩ := L.u32 t v hs hh
    refine ⟨s', _, ?_, rfl, by rw [fileBytes_length]; exact c⟩
    simp only [Val.ty, Ty.get]
    rw [M.bind_apply, e]; rfl
  | f32 v =>
    simp only [bytesOf, chunks, List.flatten_cons, List.flatten_nil, List.append_nil] at hh ⊢
    obtain ⟨s', e, c⟩ := L.u32 t v.bits hs hh
    refine ⟨s', _, ?_, rfl, by rw [fileBytes_length]; exact c⟩
    simp only [Val.ty, Ty.get, readF32]
    rw [M.bind_apply, M.bind_apply, e]; rfl
  | u64 v =>
    simp only [bytesOf, chunks, List.flatten_cons, List.flatten_nil, List.append_nil] at hh ⊢
    obtain ⟨s', e, c⟩ := L.number t 8 v.toNat (by omega) hs hh
    refine ⟨s', _, ?_, rfl, by rw [fileBytes_length]; exact c⟩
    simp only [Val.ty, Ty.get]
    rw [M.bind_apply, readU64_eq t, e]
    simp only [Out.map, fileValue_fileBytes, Nat.mod_eq_of_lt (u64_lt v), UInt64.ofNat_toNat]
    rfl
  | s15 v =>
    simp only [bytesOf, chunks, List.flatten_cons, List.flatten_nil, List.append_nil] at hh ⊢
    obtain ⟨s', w, e, ev, c⟩ := L.s15 t v hx hs hh
    refine ⟨s', .s15 w, ?_, ev, by rw [fileBytes_length]; exact c⟩
    simp only [Val.ty, Ty.get]
    rw [M.bind_apply, e]; rfl
  | xyz v =>
    simp only [bytesOf, chunks, List.flatten_cons, List.flatten_nil, List.append_nil] at hh ⊢
    rw [holdsAt_append, holdsAt_append, fileBytes_length, fileBytes_length] at hh
    obtain ⟨h1, h2, h3⟩ := hh
    obtain ⟨x1, x2, x3⟩ := hx
    obtain ⟨s1, w1, e1, v1, c1⟩ := L.s15 t v.X x1 hs h1
    obtain ⟨s2, w2, e2, v2, c2⟩ := L.s15 t v.Y x2 c1 h2
    obtain ⟨s3, w3, e3, v3, c3⟩ := L.s15 t v.Z x3 c2 h3
    refine ⟨s3, .xyz ⟨w1, w2, w3⟩, ?_, ⟨v1, v2, v3⟩, by simp only [List.length_append, fileBytes_length]; exact c3⟩
    simp only [Val.ty, Ty.get, readXyz]
    simp only [M.bind_apply, e1, e2, e3]
    rfl
  | u16s vs =>
    have e0 : bytesOf t (.u16s vs) = vs.flatMap fun v => fileBytes t 2 v.toNat := by
      simp only [bytesOf, chunks, List.flatMap_def]
    rw [e0] at hh ⊢
    obtain ⟨s', e, c⟩ := L.array t vs (List.replicate vs.length 0) (by simp) hs hh
    refine ⟨s', .u16s vs, ?_, rfl, ?_⟩
    · simp only [Val.ty, Ty.get, e]
    · have hl : (vs.flatMap fun v => fileBytes t 2 v.toNat).length = 2 * vs.length := by
        clear hh c e e0
        induction vs with
        | nil => rfl
        | cons v vs ih => rw [List.flatMap_cons, List.length_append, fileBytes_length, ih (by simp [Val.Exact]), List.length_cons]; omega
      rw [hl]; exact c

theorem Lawful.getAll (L : Lawful h C room) (t : Target) (vs : List Val) (hx : ∀ v ∈ vs, v.Exact) {s : σ}
    {d : List Byte} {p : Nat} (hs : C s d p) (hh : HoldsAt d p (vs.flatMap (bytesOf t))) :
    ∃ s' ws, Spec.getAll t h (vs.map Val.ty) s = .ok ws s' ∧ List.Forall₂ Val.Same vs ws ∧ C s' d (p + (vs.flatMap (bytesOf t)).length) := by
  induction vs generalizing s p with
  | nil => exact ⟨s, [], rfl, .nil, hs⟩
  | cons v vs ih =>
    rw [List.flatMap_cons, holdsAt_append] at hh
    obtain ⟨s1, w, e1, v1, c1⟩ := L.get t v (hx v (by simp)) hs hh.1
    obtain ⟨s2, ws, e2, v2, c2⟩ := ih (fun w hw => hx w (by simp [hw])) c1 hh.2
    refine ⟨s2, w :: ws, ?_, .cons v1 v2, by rw [List.flatMap_cons, List.length_append, ← Nat.add_assoc]; exact c2⟩
    rw [List.map_cons, Spec.getAll, M.bind_apply, e1]
    simp only
    rw [M.bind_apply, e2]
    rfl

end

/-! ### Instances -/

theorem vec_lawful (t : Target) :
    Lawful (Mem.vec t) (fun s d p => s = ⟨d, p⟩) (fun _ e => e ≤ t.isizeMax) where
  room_le := fun h h' => by omega
  room_written := fun _ _ h => h
  write := by
    rintro s d p b rfl hr
    have e : (Mem.vec t).write b = Mem.writeAll (Mem.vecWrite t) b := rfl
    have := isizeMax_lt t
    refine ⟨_, ?_, rfl⟩
    rw [e, Mem.writeAll_vec]
    unfold written
    by_cases hb : b = []
    · subst hb; simp
    · rw [if_neg hb, if_neg hb]
      simp only
      rw [if_neg (by omega), if_neg (by omega)]
  read := by
    rintro s d p n hn rfl hb
    refine ⟨_, ?_, rfl⟩
    have : (Mem.vec t).read (zeros n) ⟨d, p⟩ = (.ok () ⟨d, p + n⟩, slice d p n) := by
      show Mem.readExact _ _ = _
      rw [Mem.readExact_eq]
      simp only [zeros_length]
      rw [if_pos (Or.inr hb)]; rfl
    unfold readBuf; rw [this]
  seek := by
    rintro s d p q rfl hq
    refine ⟨_, ?_, rfl⟩
    show Mem.seek (.start (UInt64.ofNat q)) ⟨d, p⟩ = _
    unfold Mem.seek
    simp only [UInt64.toNat_ofNat', Nat.mod_eq_of_lt (show q < 2 ^ 64 by omega)]

theorem fixed_lawful (t : Target) :
    Lawful (Mem.fixed t) (fun s d p => s = ⟨d, p⟩) (fun d e => e ≤ d.length) where
  room_le := fun h h' => by omega
  room_written := fun {d} _ p b h => h.trans (written_length d p b)
  write := by
    rintro s d p b rfl hr
    have e : (Mem.fixed t).write b = Mem.writeAll Mem.sliceWrite b := rfl
    refine ⟨_, ?_, rfl⟩
    rw [e, Mem.writeAll_fixed]
    unfold written
    by_cases hb : b = []
    · subst hb; simp
    · have hl := List.length_pos_iff.mpr hb
      have hf : Mem.fits b ⟨d, p⟩ = b.length := by unfold Mem.fits; simp only; omega
      rw [if_neg hb, if_neg hb, hf, if_neg (by omega), if_pos rfl]
  read := by
    rintro s d p n hn rfl hb
    refine ⟨_, ?_, rfl⟩
    have : (Mem.fixed t).read (zeros n) ⟨d, p⟩ = (.ok () ⟨d, p + n⟩, slice d p n) := by
      show Mem.readExact _ _ = _
      rw [Mem.readExact_eq]
      simp only [zeros_length]
      rw [if_pos (Or.inr hb)]; rfl
    unfold readBuf; rw [this]
  seek := by
    rintro s d p q rfl hq
    refine ⟨_, ?_, rfl⟩
    show Mem.seek (.start (UInt64.ofNat q)) ⟨d, p⟩ = _
    unfold Mem.seek
    simp only [UInt64.toNat_ofNat', Nat.mod_eq_of_lt (show q < 2 ^ 64 by omega)]

/-- An open file with the given content and position. -/
structure FileAt (s : OsFile) (d : List Byte) (p : Nat) : Prop where
  data : s.data = d
  pos : s.pos = p
  readable : s.readable = true
  writable : s.writable = true

theorem file_lawful (t : Target) : Lawful (OsFile.handler t) FileAt (fun _ _ => True) where
  room_le := fun h _ => h
  room_written := fun _ _ h => h
  write := by
    rintro s d p b hs -
    obtain ⟨sc, e⟩ := OsFile.writeAll_eq b s
    have e0 : (OsFile.handler t).write b s = OsFile.writeAll b s := rfl
    rw [e0, e]
    unfold written
    by_cases hb : b = []
    · subst hb; exact ⟨s, by simp, by simpa using hs⟩
    · rw [if_neg hb, if_neg hb, if_neg (by rw [hs.writable]; decide)]
      exact ⟨_, rfl, by rw [← hs.data, ← hs.pos], by rw [← hs.pos], hs.readable, hs.writable⟩
  read := by
    rintro s d p n hn hs hb
    obtain ⟨f', h1, h2, h3, h4, h5⟩ := readBuf_file t n hn s hs.readable
    rw [hs.data, hs.pos] at h4 h5
    rw [if_pos hb] at h5
    exact ⟨f', h5, h1.trans hs.data, h4 hb, h2, h3.trans hs.writable⟩
  seek := by
    rintro s d p q hs hq
    have e0 : (OsFile.handler t).seek (.start (UInt64.ofNat q)) s = OsFile.seek (.start (UInt64.ofNat q)) s := rfl
    have hq' : seekTarget s.data.length s.pos (.start (UInt64.ofNat q)) = q := by
      show ((UInt64.ofNat q).toNat : Int) = q
      rw [UInt64.toNat_ofNat', Nat.mod_eq_of_lt (by omega)]
    rw [e0, OsFile.seek_eq, hq', if_pos (by omega)]
    exact ⟨_, rfl, hs.data, by simp, hs.readable, hs.writable⟩

end Lcms

/-! ### Cells -/

namespace Lcms

open Lcms.Spec
open Lcms.SharedFile (written)

theorem bytesOf_length (t : Target) (v : Val) : (bytesOf t v).length = v.ty.size := by
  cases v with
  | u16s vs =>
    simp only [bytesOf, chunks, Val.ty, Ty.size]
    induction vs with
    | nil => rfl
    | cons v vs ih =>
      rw [List.map_cons, List.flatten_cons, List.length_append, fileBytes_length, ih, List.length_cons]; omega
  | _ => simp [bytesOf, chunks, Val.ty, Ty.size, fileBytes_length]

theorem represents_iff {n : Nat} (t : Target) (cells : Fin n → Cell) (d : List Byte) (env : Fin n → Val) :
    Represents t cells d env ↔ ∀ i, (cells i).offset + (cells i).ty.size ≤ d.length ∧ Fits (cells i) (env i) ∧
      HoldsAt d (cells i).offset (bytesOf t (env i)) := by
  refine forall_congr' fun i => and_congr_right fun _ => and_congr_right fun hf => ?_
  rw [encodes_iff]
  unfold HoldsAt
  rw [bytesOf_length, hf.1]
  rfl

theorem written_length_inside (d : List Byte) (p : Nat) (b : List Byte) (h : p + b.length ≤ d.length) :
    (written d p b).length = d.length := by
  unfold written
  split
  · rfl
  · rw [patch_length]; omega

theorem SameElsewhere.refl {n : Nat} (cells : Fin n → Cell) (d : List Byte) : SameElsewhere cells d d :=
  ⟨rfl, fun _ _ => rfl⟩

theorem SameElsewhere.trans {n : Nat} {cells : Fin n → Cell} {a b c : List Byte} (h : SameElsewhere cells a b)
    (h' : SameElsewhere cells b c) : SameElsewhere cells a c :=
  ⟨h'.1.trans h.1, fun k hk => (h'.2 k hk).trans (h.2 k hk)⟩

/-- The cells behave like variables. -/
theorem Lawful.cells {σ : Type} {h : Handler σ} {C : σ → List Byte → Nat → Prop} {room : List Byte → Nat → Prop}
    (L : Lawful h C room) {n : Nat} (t : Target) (cells : Fin n → Cell) (hd : Apart cells)
    (ops : List (CellOp n)) (hw : WellTyped cells ops) (env : Fin n → Val) {s : σ} {d : List Byte} {p : Nat}
    (hs : C s d p) (hroom : room d d.length) (hlen : d.length < 2 ^ 63) (hr : Represents t cells d env) :
    ∃ s' d' p' ws, runCells t h cells ops s = .ok ws s' ∧ List.Forall₂ Val.Same (runVars ops env).1 ws ∧ C s' d' p' ∧
      Represents t cells d' (runVars ops env).2 ∧ SameElsewhere cells d d' := by
  induction ops generalizing env s d p with
  | nil => exact ⟨s, d, p, [], rfl, .nil, hs, hr, SameElsewhere.refl _ _⟩
  | cons op ops ih =>
    have hw' : WellTyped cells ops := fun i v hm => hw i v (List.mem_cons_of_mem _ hm)
    have hr' := (represents_iff ..).mp hr
    cases op with
    | get i =>
      obtain ⟨b1, f1, o1⟩ := hr' i
      obtain ⟨s1, e1, c1⟩ := L.seek (cells i).offset hs (by omega)
      obtain ⟨s2, w, e2, v2, c2⟩ := L.get t (env i) f1.2 c1 o1
      obtain ⟨s3, d3, p3, ws, e3, v3, c3, r3, w3⟩ := ih hw' env c2 hroom hlen hr
      refine ⟨s3, d3, p3, w :: ws, ?_, .cons v2 v3, c3, r3, w3⟩
      rw [f1.1] at e2
      simp only [runCells]
      rw [M.bind_apply, e1]
      simp only
      rw [M.bind_apply, e2]
      simp only
      rw [M.bind_apply, e3]
      rfl
    | set i v =>
      have hv := hw i v (by simp)
      obtain ⟨b1, -, -⟩ := hr' i
      have hvl : (bytesOf t v).length = (cells i).ty.size := by rw [bytesOf_length, hv.1]
      obtain ⟨s1, e1, c1⟩ := L.seek (cells i).offset hs (by omega)
      obtain ⟨s2, e2, c2⟩ := L.put t v c1 (L.room_le hroom (by omega))
      have hl := written_length_inside d (cells i).offset (bytesOf t v) (by omega)
      have hr2 : Represents t cells (written d (cells i).offset (bytesOf t v)) (fun j => if j = i then v else env j) := by
        rw [represents_iff]
        intro j
        obtain ⟨b2, f2, o2⟩ := hr' j
        refine ⟨by rw [hl]; exact b2, ?_⟩
        by_cases hj : j = i
        · subst hj
          simp only [if_true]
          exact ⟨hv, holdsAt_written ..⟩
        · simp only [hj, if_false]
          refine ⟨f2, holdsAt_written_other o2 ?_⟩
          rw [hvl, bytesOf_length, f2.1]
          exact hd j i hj
      obtain ⟨s3, d3, p3, ws, e3, v3, c3, r3, w3⟩ := ih hw' _ c2 (by rw [hl]; exact L.room_written _ _ hroom)
        (by rw [hl]; exact hlen) hr2
      refine ⟨s3, d3, p3, ws, ?_, v3, c3, r3, SameElsewhere.trans ⟨hl, fun k hk => ?_⟩ w3⟩
      · simp only [runCells]
        rw [M.bind_apply, e1]
        simp only
        rw [M.bind_apply, e2]
        exact e3
      · apply written_getD_other
        rw [hvl]; exact hk i

end Lcms
