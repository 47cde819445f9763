import Verif.Spec.Record
import Verif.Lemmas.Shared

/-! # Lemmas: typed values as byte strings -/

namespace Lcms

open Lcms.Spec

/-- The `write` calls of a value. -/
def chunks (t : Target) : Val → List (List Byte)
  | .u8 v => [fileBytes t 1 v.toNat]
  | .u16 v => [fileBytes t 2 v.toNat]
  | .u16s vs => vs.map fun v => fileBytes t 2 v.toNat
  | .u32 v => [fileBytes t 4 v.toNat]
  | .f32 v => [fileBytes t 4 v.bits.toNat]
  | .u64 v => [fileBytes t 8 v.toNat]
  | .s15 v => [fileBytes t 4 (f64ToS15f16 v).toUInt32.toNat]
  | .xyz v => [fileBytes t 4 (f64ToS15f16 v.X).toUInt32.toNat, fileBytes t 4 (f64ToS15f16 v.Y).toUInt32.toNat,
      fileBytes t 4 (f64ToS15f16 v.Z).toUInt32.toNat]

/-- Consecutive `write` calls. -/
def writeChunks {σ : Type} (h : Handler σ) : List (List Byte) → M σ Unit
  | [] => pure ()
  | b :: bs => h.write b >>= fun _ => writeChunks h bs

theorem M.bind_assoc {σ α β γ : Type} (m : M σ α) (f : α → M σ β) (g : β → M σ γ) :
    (m >>= f) >>= g = m >>= fun a => f a >>= g := by
  funext s
  simp only [M.bind_apply]
  cases m s <;> rfl

theorem M.bind_pure {σ : Type} (m : M σ Unit) : (m >>= fun _ => (pure () : M σ Unit)) = m := by
  funext s
  rw [M.bind_apply]
  cases m s <;> rfl

theorem M.pure_bind {σ α β : Type} (a : α) (f : α → M σ β) : ((pure a : M σ α) >>= f) = f a := rfl

theorem writeChunks_append {σ : Type} (h : Handler σ) (as bs : List (List Byte)) :
    writeChunks h (as ++ bs) = writeChunks h as >>= fun _ => writeChunks h bs := by
  induction as with
  | nil => rfl
  | cons a as ih =>
    simp only [List.cons_append, writeChunks]
    rw [ih, M.bind_assoc]

theorem put_chunks {σ : Type} (t : Target) (h : Handler σ) (v : Val) : v.put t h = writeChunks h (chunks t v) := by
  have one : ∀ b, writeChunks h [b] = h.write b := fun b => M.bind_pure _
  cases v with
  | u8 v => simp only [Val.put, chunks, one]; exact writeU8_eq t h v
  | u16 v => simp only [Val.put, chunks, one]; exact writeU16_eq t h v
  | u32 v => simp only [Val.put, chunks, one]; exact writeU32_eq t h v
  | f32 v => simp only [Val.put, chunks, one]; exact writeU32_eq t h v.bits
  | u64 v => simp only [Val.put, chunks, one]; exact writeU64_eq t h v
  | s15 v => simp only [Val.put, chunks, one]; exact writeU32_eq t h _
  | xyz v =>
    simp only [Val.put, chunks, writeXyz, writeS15f16, writeU32_eq]
    rw [writeChunks, writeChunks, one]
  | u16s vs =>
    simp only [Val.put, chunks]
    induction vs with
    | nil => rfl
    | cons v vs ih =>
      simp only [writeU16Array, List.map_cons, writeChunks]
      rw [ih, writeU16_eq]

theorem putAll_chunks {σ : Type} (t : Target) (h : Handler σ) (vs : List Val) :
    putAll t h vs = writeChunks h (vs.flatMap (chunks t)) := by
  induction vs with
  | nil => rfl
  | cons v vs ih =>
    simp only [putAll, List.flatMap_cons]
    rw [writeChunks_append, put_chunks, ih]

theorem encodes_iff (t : Target) (v : Val) (bs : List Byte) : Encodes t v bs ↔ bs = (chunks t v).flatten := by
  have u32 : ∀ x : UInt32, ∀ b, IsFileBytes t 4 x.toNat b ↔ b = fileBytes t 4 x.toNat := fun x b =>
    isFileBytes_iff t 4 _ b (u32_lt x)
  cases v with
  | u8 v => simpa [Encodes, chunks] using isFileBytes_iff t 1 _ bs (by have := v.toNat_lt; omega)
  | u16 v => simpa [Encodes, chunks] using isFileBytes_iff t 2 _ bs (u16_lt v)
  | u32 v => simpa [Encodes, chunks] using u32 v bs
  | f32 v => simpa [Encodes, chunks] using u32 v.bits bs
  | u64 v => simpa [Encodes, chunks] using isFileBytes_iff t 8 _ bs (u64_lt v)
  | s15 v => simpa [Encodes, chunks] using u32 _ bs
  | xyz v => simp [Encodes, chunks, u32]
  | u16s vs =>
    simp only [Encodes, chunks]
    have h : ∀ bss, List.Forall₂ (fun v b => IsFileBytes t 2 (UInt16.toNat v) b) vs bss ↔
        bss = vs.map fun v => fileBytes t 2 v.toNat := by
      induction vs with
      | nil => intro bss; simp
      | cons v vs ih =>
        intro bss
        cases bss with
        | nil => simp
        | cons b bss =>
          rw [List.forall₂_cons, ih, isFileBytes_iff t 2 _ b (u16_lt v)]
          simp
    simp only [h, exists_eq_left]

theorem encodes_all (t : Target) (vs : List Val) (bss : List (List Byte)) (h : List.Forall₂ (Encodes t) vs bss) :
    bss.flatten = (vs.flatMap (chunks t)).flatten := by
  induction h with
  | nil => rfl
  | cons h _ ih =>
    rw [encodes_iff] at h
    simp only [List.flatten_cons, List.flatMap_cons, List.flatten_append, ih, h]

theorem chunk_ne_nil (t : Target) (v : Val) : ∀ b ∈ chunks t v, b ≠ [] := by
  have hl : ∀ n x, 0 < n → fileBytes t n x ≠ [] := by
    intro n x hn h
    have := fileBytes_length t n x
    rw [h] at this
    simp at this; omega
  cases v <;> simp only [chunks, List.mem_map, List.mem_cons, List.not_mem_nil, or_false, forall_eq] <;>
    try exact hl _ _ (by omega)
  · rintro b ⟨v, -, rfl⟩; exact hl _ _ (by omega)
  · rintro b (rfl | rfl | rfl) <;> exact hl _ _ (by omega)

theorem overwritten_iff (d : List Byte) (p : Nat) (b d' : List Byte) :
    Overwritten d p b d' ↔ d' = SharedFile.written d p b := by
  unfold Overwritten SharedFile.written
  by_cases hb : b = []
  · rw [if_pos hb, if_pos hb]
  · rw [if_neg hb, if_neg hb]
    constructor
    · rintro ⟨h1, h2⟩
      apply List.ext_getElem
      · rw [h1, patch_length]
      · intro i hi hi'
        have := h2 i hi
        have hp := patch_getD d p b i
        rw [← hp, List.getD_eq_getElem?_getD, List.getD_eq_getElem?_getD, List.getElem?_eq_getElem hi,
          List.getElem?_eq_getElem hi'] at this
        simpa using this
    · rintro rfl
      exact ⟨patch_length .., fun i _ => patch_getD d p b i⟩

/-! ### Failing writes -/

/-- How a sequence of writes can end on a failing file that nobody truncates. -/
theorem writeChunks_ends (t : Target) (bs : List (List Byte)) (s : SharedFile) (hw : s.writable = true)
    (ht : OsEvent.truncated ∉ s.script) :
    SharedFile.WriteEnds bs.flatten s (writeChunks (SharedFile.handler t) bs s) := by
  induction bs generalizing s with
  | nil => exact ⟨0, s.script, by simp, fun e he => he, Or.inl ⟨by simp [SharedFile.written]; rfl, rfl⟩⟩
  | cons b bs ih =>
    obtain ⟨k, sc, k1, k2, o⟩ := SharedFile.writeAll_ends b s hw ht
    have e : (SharedFile.handler t).write b s = SharedFile.writeAll b s := rfl
    simp only [writeChunks, List.flatten_cons]
    rw [M.bind_apply, e]
    rcases o with ⟨o, ok⟩ | ⟨n, o, ok, oo⟩
    · rw [o]
      simp only
      subst ok
      rw [List.take_length]
      obtain ⟨k', sc', k1', k2', o'⟩ := ih
        { s with data := SharedFile.written s.data s.pos b, pos := s.pos + b.length, script := sc } hw (fun h => ht (k2 _ h))
      refine ⟨b.length + k', sc', by rw [List.length_append]; omega, fun e he => k2 e (k2' e he), ?_⟩
      simp only at o' ⊢
      rw [SharedFile.written_written, Nat.add_assoc] at o'
      rw [List.take_append, List.take_of_length_le (by omega), Nat.add_sub_cancel_left, List.length_append]
      rcases o' with ⟨o', ok'⟩ | ⟨n, o', ok', oo'⟩
      · exact Or.inl ⟨o', by omega⟩
      · exact Or.inr ⟨n, o', by omega, k2 _ oo'⟩
    · rw [o]
      simp only
      refine ⟨k, sc, by rw [List.length_append]; omega, k2, Or.inr ⟨n, ?_, by rw [List.length_append]; omega, oo⟩⟩
      rw [List.take_append, Nat.sub_eq_zero_of_le k1, List.take_zero, List.append_nil]

end Lcms
