import Verif.Lemmas.IO

/-! # Lemmas: one call on `FileMem`, and its view as a tape -/

namespace Lcms.Props

open Lcms Spec

/-- A functional simulation carries over to whole histories. -/
theorem runWith_sim {σ τ : Type} (f : Op → σ → Obs × Option σ) (g : Op → τ → Obs × Option τ)
    (abs : σ → τ) (wf : σ → Prop)
    (h : ∀ op s, wf s → g op (abs s) = ((f op s).1, (f op s).2.map abs) ∧
      ∀ s', (f op s).2 = some s' → wf s') (ops : List Op) (s : σ) (hs : wf s) :
    runWith g ops (abs s) = ((runWith f ops s).1, (runWith f ops s).2.map abs) := by
  induction ops generalizing s with
  | nil => rfl
  | cons op ops ih =>
    obtain ⟨h1, h2⟩ := h op s hs
    simp only [runWith, h1]
    cases hf : f op s with
    | mk o r =>
      cases r with
      | none => rfl
      | some s' =>
        have := ih s' (h2 s' (by rw [hf]))
        simp only [Option.map, this]

/-- Seen as a tape. -/
def Mem.tape (s : Mem) : Tape := Tape.ofList s.buf s.pos

private theorem tape_read (buf : List UInt8) (p n : Nat) (h : p + n ≤ buf.length) :
    (List.range n).map (fun i => buf.getD (p + i) 0) = (buf.drop p).take n := by
  apply List.ext_getElem
  · simp; omega
  · intro i h1 h2
    simp only [List.length_map, List.length_range] at h1
    simp only [List.getElem_map, List.getElem_range, List.getElem_take, List.getElem_drop]
    rw [List.getD_eq_getElem?_getD, List.getElem?_eq_getElem (by omega), Option.getD_some]

theorem mem_seek_eq (p : SeekFrom) (s : Mem) :
    Mem.seek p s =
      if 0 ≤ seekTarget s.buf.length s.pos p ∧ seekTarget s.buf.length s.pos p < 18446744073709551616 then
        .ok () ⟨s.buf, (seekTarget s.buf.length s.pos p).toNat⟩
      else .err .invalidInput s := by
  cases p with
  | start n =>
    have := n.toNat_lt
    have h : 0 ≤ seekTarget s.buf.length s.pos (.start n) ∧
        seekTarget s.buf.length s.pos (.start n) < 18446744073709551616 := by
      simp only [seekTarget]; omega
    rw [if_pos h]; simp [Mem.seek, seekTarget]
  | end_ d => rfl
  | current d => rfl

theorem reportedSize_mem (t : Target) (h : Handler Mem) (s : Mem)
    (hs : h.seek = Mem.seek) (ht : h.tell = Mem.tell t) (hl : s.buf.length < t.usizeMod) :
    reportedSize h s = .ok s.buf.length ⟨s.buf, s.pos % t.usizeMod⟩ := by
  have hu := usizeMod_le t
  have hp := Nat.mod_lt s.pos (usizeMod_pos t)
  have e : seekTarget s.buf.length s.pos (.end_ 0) = s.buf.length := by simp [seekTarget]
  refine reportedSize_ok h (s1 := s) (s2 := ⟨s.buf, s.buf.length⟩) (s3 := ⟨s.buf, s.buf.length⟩)
    (c := s.pos % t.usizeMod) (by rw [ht]; rfl) ?_ ?_ ?_
  · rw [hs, mem_seek_eq, e, if_pos (by omega)]; simp
  · rw [ht]; unfold Mem.tell; rw [Nat.mod_eq_of_lt hl]
  · rw [hs]; unfold Mem.seek
    simp only [UInt64.toNat_ofNat']
    rw [Nat.mod_eq_of_lt (a := s.pos % t.usizeMod) (by omega)]

/-- One call on `FileMem<Vec<u8>>` is one call on the tape. -/
theorem vec_step_sim (t : Target) (op : Op) (s : Mem) (hs : s.buf.length ≤ t.isizeMax) :
    Tape.step t op (Mem.tape s) =
      ((hstep (Mem.vec t) op s).1, (hstep (Mem.vec t) op s).2.map Mem.tape) ∧
    ∀ s', (hstep (Mem.vec t) op s).2 = some s' → s'.buf.length ≤ t.isizeMax := by
  cases op with
  | read b =>
    simp only [hstep, Mem.vec, Mem.readExact_eq, Tape.step, Mem.tape, Tape.ofList]
    by_cases h : b = [] ∨ s.pos + b.length ≤ s.buf.length
    · simp only [h, if_true, obsRead]
      refine ⟨?_, ?_⟩
      · rcases h with h | h
        · subst h; simp [Tape.ofList, Mem.tape]
        · rw [tape_read _ _ _ h]; rfl
      · intro s' h'; cases h'; exact hs
    · simp only [h, if_false, obsRead]
      refine ⟨rfl, ?_⟩
      intro s' h'; cases h'; exact hs
  | write b =>
    simp only [hstep, Mem.vec, Mem.writeAll_vec, Tape.step, Mem.tape, Tape.ofList]
    by_cases hb : b = []
    · simp only [hb, if_true, obsUnit]
      refine ⟨rfl, ?_⟩
      intro s' h'; cases h'; exact hs
    by_cases h1 : t.usizeMod ≤ s.pos
    · simp only [hb, h1, if_true, if_false, obsUnit]
      refine ⟨rfl, ?_⟩
      intro s' h'; cases h'; exact hs
    by_cases h2 : t.isizeMax < s.pos + b.length
    · simp only [hb, h1, h2, if_true, if_false, obsUnit]
      refine ⟨rfl, ?_⟩
      intro s' h'; cases h'
    · simp only [hb, h1, h2, if_false, obsUnit]
      refine ⟨?_, ?_⟩
      · simp only [Option.map, Mem.tape, Tape.ofList, patch_length, patch_getD]
        rfl
      · intro s' h'; cases h'
        simp only [patch_length]; omega
  | seek p =>
    have e : (Mem.vec t).seek p s = Mem.seek p s := rfl
    simp only [hstep, e, mem_seek_eq, Tape.step, Mem.tape, Tape.ofList]
    by_cases hc : 0 ≤ seekTarget s.buf.length s.pos p ∧ seekTarget s.buf.length s.pos p < 18446744073709551616
    · simp only [hc, and_self, if_true]
      refine ⟨rfl, ?_⟩
      intro s' h'; cases h'; exact hs
    · simp only [hc, if_false]
      refine ⟨rfl, ?_⟩
      intro s' h'; cases h'; exact hs
  | tell =>
    refine ⟨rfl, ?_⟩
    intro s' h'; cases h'; exact hs
  | size =>
    have := isizeMax_lt t
    simp only [hstep]
    rw [reportedSize_mem t (Mem.vec t) s rfl rfl (by omega)]
    refine ⟨rfl, ?_⟩
    intro s' h'; cases h'; exact hs

theorem tape_inj {a b : List UInt8} {p q : Nat} (h : Tape.ofList a p = Tape.ofList b q) : a = b ∧ p = q := by
  simp only [Tape.ofList, Tape.mk.injEq] at h
  obtain ⟨h1, h2, h3⟩ := h
  refine ⟨?_, h3⟩
  apply List.ext_getElem h2
  intro i ha hb
  have := congrFun h1 i
  simpa [List.getD_eq_getElem?_getD, List.getElem?_eq_getElem ha, List.getElem?_eq_getElem hb] using this

end Lcms.Props
