import Verif.Model.FileShared
import Verif.Lemmas.File
import Verif.Lemmas.Sim

/-! # Lemmas: transfers on a failing, shared file -/

namespace Lcms

open Lcms.Spec

namespace SharedFile

theorem next_mem (es : List OsEvent) :
    (∀ e ∈ (next es).2.2, e ∈ es) ∧ ((next es).1 = true → OsEvent.truncated ∈ es) ∧
    (∀ n, (next es).2.1 = .fail n → OsEvent.fail n ∈ es) ∧ (next es).2.2.length ≤ es.length ∧
    ((next es).2.1 ≠ .all → (next es).2.2.length < es.length) ∧ (∀ k, (next es).2.1 = .upTo k → 0 < k) := by
  induction es with
  | nil => simp [next]
  | cons e es ih =>
    obtain ⟨h1, -, h3, h4, h5, h6⟩ := ih
    cases e with
    | interrupted => simp [next]; exact fun e he => Or.inr he
    | chunk k => simp [next]; exact fun e he => Or.inr he
    | fail n => simp [next]; exact fun e he => Or.inr he
    | truncated =>
      simp only [next, List.mem_cons, true_or, List.length_cons, implies_true, true_and]
      refine ⟨fun e he => Or.inr (h1 e he), fun n hn => Or.inr (h3 n hn), by omega, fun h => ?_, h6⟩
      have := h5 h
      omega

theorem settle_mem (es : List OsEvent) :
    (∀ e ∈ (settle es).2, e ∈ es) ∧ ((settle es).1 = true → OsEvent.truncated ∈ es) := by
  induction es with
  | nil => simp [settle]
  | cons e es ih =>
    cases e with
    | interrupted => exact ⟨fun e he => he, fun h => by cases h⟩
    | chunk k => exact ⟨fun e he => he, fun h => by cases h⟩
    | fail n => exact ⟨fun e he => he, fun h => by cases h⟩
    | truncated =>
      refine ⟨fun e he => List.mem_cons_of_mem _ (ih.1 e he), fun _ => List.mem_cons_self ..⟩

/-- What can have become of the file `s` in the meantime. -/
structure Later (s s' : SharedFile) : Prop where
  readable : s'.readable = s.readable
  writable : s'.writable = s.writable
  script : ∀ e ∈ s'.script, e ∈ s.script
  data : s'.data = s.data ∨ (s'.data = [] ∧ OsEvent.truncated ∈ s.script)

theorem Later.refl (s : SharedFile) : Later s s := ⟨rfl, rfl, fun _ h => h, Or.inl rfl⟩

theorem Later.trans {a b c : SharedFile} (h : Later a b) (h' : Later b c) : Later a c := by
  refine ⟨h'.readable.trans h.readable, h'.writable.trans h.writable, fun e he => h.script e (h'.script e he), ?_⟩
  rcases h'.data with e | ⟨e, m⟩
  · rw [e]; exact h.data
  · exact Or.inr ⟨e, h.script _ m⟩

/-- The state after consuming one answer. -/
def stepped (s : SharedFile) : SharedFile :=
  { s with data := after (next s.script).1 s.data, script := (next s.script).2.2 }

theorem later_stepped (s : SharedFile) (p : Nat) : Later s { stepped s with pos := p } := by
  obtain ⟨h1, h2, -⟩ := next_mem s.script
  refine ⟨rfl, rfl, h1, ?_⟩
  unfold stepped after
  simp only
  cases hc : (next s.script).1 with
  | false => exact Or.inl rfl
  | true => exact Or.inr ⟨rfl, h2 hc⟩

/-- How a complete read of the buffer `rest` can end. -/
def ReadEnds (rest : List Byte) (s : SharedFile) (r : Out SharedFile Unit × List Byte) : Prop :=
  ∃ s' k, Later s s' ∧ s'.pos = s.pos + k ∧ k ≤ rest.length ∧ s.pos + k ≤ max s.pos s.data.length ∧
    r.2 = slice s.data s.pos k ++ rest.drop k ∧
    ((r.1 = .ok () s' ∧ k = rest.length) ∨
     (r.1 = .err .unexpectedEof s' ∧ k < rest.length ∧
       (OsEvent.truncated ∈ s.script ∨ s.data.length ≤ s.pos + k)) ∨
     ∃ n, r.1 = .err (.other n) s' ∧ k < rest.length ∧ OsEvent.fail n ∈ s.script)

theorem slice_split (b : List Byte) (p i k : Nat) : slice b p (i + k) = slice b p i ++ slice b (p + i) k := by
  unfold slice
  rw [List.take_add, List.drop_drop]

theorem readExactLoop_ends (fuel : Nat) (rest : List Byte) (s : SharedFile) (hr : s.readable = true)
    (hf : rest.length + s.script.length < fuel) : ReadEnds rest s (readExactLoop fuel rest s) := by
  induction fuel generalizing rest s with
  | zero => omega
  | succ fuel ih =>
    by_cases hz : rest = []
    · subst hz
      unfold readExactLoop
      rw [if_pos rfl]
      exact ⟨s, 0, Later.refl s, rfl, by simp, by omega, by simp [slice], Or.inl ⟨rfl, rfl⟩⟩
    have hrl := List.length_pos_iff.mpr hz
    unfold readExactLoop
    rw [if_neg hz, if_neg (by simp [hr])]
    obtain ⟨m1, m2, m3, m4, m5, m6⟩ := next_mem s.script
    -- one transfer of at most `m` bytes
    have key : ∀ m, 0 < m → m ≤ rest.length →
        ((next s.script).2.2.length < s.script.length ∨ m = rest.length) →
        (next s.script).2.2.length ≤ s.script.length →
        ReadEnds rest s (match (Sys.done (((stepped s).data.drop s.pos).take m)
            { stepped s with pos := s.pos + (((stepped s).data.drop s.pos).take m).length } : Sys (List Byte)) with
          | .interrupted s' => readExactLoop fuel rest s'
          | .failed n s' => (.err (.other n) s', rest)
          | .done got s' =>
            if got = [] then (.err .unexpectedEof s', rest)
            else
              let r := readExactLoop fuel (rest.drop got.length) s'
              (r.1, got ++ r.2)) := by
      intro m hm hml hlt hle
      simp only
      have hl := later_stepped s s.pos
      by_cases hg : ((stepped s).data.drop s.pos).take m = []
      · rw [if_pos hg, hg]
        refine ⟨{ stepped s with pos := s.pos + 0 }, 0, hl, rfl, by omega, by omega, by simp [slice], Or.inr (Or.inl ⟨rfl, hrl, ?_⟩)⟩
        rcases hl.data with e | ⟨-, m⟩
        · right
          have e : (stepped s).data = s.data := e
          rw [e] at hg
          rcases List.take_eq_nil_iff.mp hg with h | h
          · omega
          · simpa using h
        · exact Or.inl m
      · rw [if_neg hg]
        have hgl := List.length_pos_iff.mpr hg
        -- the data is still the old one
        have e : (stepped s).data = s.data := by
          rcases hl.data with e | ⟨e, -⟩
          · exact e
          · have e : (stepped s).data = [] := e
            rw [e] at hg; simp at hg
        rw [e] at hg hgl ⊢
        have hlen : ((s.data.drop s.pos).take m).length = min m (s.data.length - s.pos) := by simp
        obtain ⟨got, hgot⟩ : ∃ g, g = ((s.data.drop s.pos).take m).length := ⟨_, rfl⟩
        have htake : (s.data.drop s.pos).take m = slice s.data s.pos got := by
          unfold slice
          by_cases hc : m ≤ s.data.length - s.pos
          · rw [hgot, hlen, Nat.min_eq_left hc]
          · rw [hgot, hlen, Nat.min_eq_right (by omega), List.take_of_length_le (by simp; omega),
              List.take_of_length_le (by simp)]
        rw [htake, show (slice s.data s.pos got).length = got by rw [← htake]; exact hgot.symm]
        rw [← hgot] at hgl hlen
        have hsc : ({ stepped s with pos := s.pos + got } : SharedFile).script = (next s.script).2.2 := rfl
        obtain ⟨s', k, l, p, k1, k2, b, o⟩ := ih (rest.drop got) { stepped s with pos := s.pos + got } hr (by
          rw [hsc, List.length_drop]; omega)
        have hl' := later_stepped s (s.pos + got)
        simp only at p k2 b o
        rw [e] at k2 b o
        rw [List.length_drop] at k1 o
        refine ⟨s', got + k, hl'.trans l, by omega, by omega, by omega, ?_, ?_⟩
        · simp only
          rw [b, slice_split, List.append_assoc, List.drop_drop]
        · simp only
          rcases o with ⟨o, ok⟩ | ⟨o, ok, oo⟩ | ⟨n, o, ok, oo⟩
          · exact Or.inl ⟨o, by omega⟩
          · refine Or.inr (Or.inl ⟨o, by omega, ?_⟩)
            rcases oo with oo | oo
            · exact Or.inl (m1 _ oo)
            · exact Or.inr (by omega)
          · exact Or.inr (Or.inr ⟨n, o, by omega, m1 _ oo⟩)
    have hsys : sysRead rest.length s =
        match (next s.script).2.1 with
        | .interrupted => .interrupted (stepped s)
        | .fail n => .failed n (stepped s)
        | .upTo k => .done (((stepped s).data.drop s.pos).take (min rest.length k))
            { stepped s with pos := s.pos + (((stepped s).data.drop s.pos).take (min rest.length k)).length }
        | .all => .done (((stepped s).data.drop s.pos).take rest.length)
            { stepped s with pos := s.pos + (((stepped s).data.drop s.pos).take rest.length).length } := rfl
    rw [hsys]
    cases ha : (next s.script).2.1 with
    | interrupted =>
      simp only
      have hlt := m5 (by rw [ha]; simp)
      obtain ⟨s', k, l, p, k1, k2, b, o⟩ := ih rest (stepped s) hr (by
        have : (stepped s).script = (next s.script).2.2 := rfl
        rw [this]; omega)
      have hl := later_stepped s s.pos
      have hps : (stepped s).pos = s.pos := rfl
      rw [hps] at p k2 b o
      have hscr : ∀ ev, ev ∈ (stepped s).script → ev ∈ s.script := m1
      rcases hl.data with e | ⟨e, hm⟩
      · have e : (stepped s).data = s.data := e
        rw [e] at k2 b o
        refine ⟨s', k, Later.trans hl l, p, k1, k2, b, ?_⟩
        rcases o with o | ⟨o, ok, oo⟩ | ⟨n, o, ok, oo⟩
        · exact Or.inl o
        · exact Or.inr (Or.inl ⟨o, ok, oo.imp_left (hscr _)⟩)
        · exact Or.inr (Or.inr ⟨n, o, ok, hscr _ oo⟩)
      · have e : (stepped s).data = [] := e
        rw [e] at k2 b o
        have hk : k = 0 := by simp at k2; omega
        subst hk
        refine ⟨s', 0, Later.trans hl l, p, k1, by omega, ?_, ?_⟩
        · rw [b]; simp [slice]
        · rcases o with ⟨o, ok⟩ | ⟨o, ok, oo⟩ | ⟨n, o, ok, oo⟩
          · omega
          · exact Or.inr (Or.inl ⟨o, ok, Or.inl hm⟩)
          · exact Or.inr (Or.inr ⟨n, o, ok, hscr _ oo⟩)
    | fail n =>
      simp only
      exact ⟨stepped s, 0, later_stepped s s.pos, rfl, by omega, by omega, by simp [slice],
        Or.inr (Or.inr ⟨n, rfl, hrl, m3 n ha⟩)⟩
    | upTo k =>
      have hlt := m5 (by rw [ha]; simp)
      have hk := m6 k ha
      exact key (min rest.length k) (by omega) (by omega) (Or.inl hlt) m4
    | all => exact key rest.length hrl (le_refl _) (Or.inr rfl) m4

theorem readExact_ends (buf : List Byte) (s : SharedFile) (hr : s.readable = true) :
    ReadEnds buf s (readExact buf s) := readExactLoop_ends _ buf s hr (by omega)

end SharedFile

end Lcms

namespace Lcms.SharedFile

/-- The content after writing `b` at `p`; writing nothing changes nothing. -/
def written (d : List Byte) (p : Nat) (b : List Byte) : List Byte := if b = [] then d else patch d p b

theorem put_written (b : List Byte) (s : SharedFile) :
    put b s = { s with data := written s.data s.pos b, pos := s.pos + b.length } := by
  unfold put written patch
  by_cases hb : b = []
  · subst hb; simp
  · rw [if_neg hb, if_neg hb]

theorem patch_patch (d : List Byte) (p : Nat) (a b : List Byte) :
    patch (patch d p a) (p + a.length) b = patch d p (a ++ b) := by
  apply List.ext_getElem?
  intro i
  have hl : ∀ d p b i, (patch d p b)[i]? =
      if i < max d.length (p + b.length) then some ((patch d p b).getD i 0) else none := by
    intro d p b i
    by_cases h : i < (patch d p b).length
    · rw [if_pos (by rwa [patch_length] at h), List.getElem?_eq_getElem h, List.getD_eq_getElem?_getD,
        List.getElem?_eq_getElem h]; rfl
    · rw [if_neg (by rwa [patch_length] at h), List.getElem?_eq_none (by omega)]
  rw [hl, hl, patch_length]
  have e : max (max d.length (p + a.length)) (p + a.length + b.length) = max d.length (p + (a ++ b).length) := by
    rw [List.length_append]; omega
  rw [e]
  split
  · congr 1
    have h1 := patch_getD (patch d p a) (p + a.length) b i
    have h2 := patch_getD d p a i
    have h3 := patch_getD d p (a ++ b) i
    rw [h1, h2, h3]
    rw [List.length_append]
    split_ifs <;> first
      | rfl
      | omega
      | (rw [List.getD_append_right _ _ _ _ (by omega)]; congr 1; omega)
      | (rw [List.getD_append _ _ _ _ (by omega)])
  · rfl

theorem written_written (d : List Byte) (p : Nat) (a b : List Byte) :
    written (written d p a) (p + a.length) b = written d p (a ++ b) := by
  unfold written
  by_cases ha : a = []
  · subst ha; simp
  by_cases hb : b = []
  · subst hb; simp [ha]
  rw [if_neg ha, if_neg hb, if_neg (by simp [ha]), patch_patch]

/-- How a complete write of `b` can end if nobody truncates the file. -/
def WriteEnds (b : List Byte) (s : SharedFile) (r : Out SharedFile Unit) : Prop :=
  ∃ k sc, k ≤ b.length ∧ (∀ e ∈ sc, e ∈ s.script) ∧
    let s' := { s with data := written s.data s.pos (b.take k), pos := s.pos + k, script := sc }
    ((r = .ok () s' ∧ k = b.length) ∨ ∃ n, r = .err (.other n) s' ∧ k < b.length ∧ OsEvent.fail n ∈ s.script)

theorem writeAllLoop_ends (fuel : Nat) (b : List Byte) (s : SharedFile) (hw : s.writable = true)
    (ht : OsEvent.truncated ∉ s.script) (hf : b.length + s.script.length < fuel) :
    WriteEnds b s (writeAllLoop fuel b s) := by
  induction fuel generalizing b s with
  | zero => omega
  | succ fuel ih =>
    by_cases hz : b = []
    · subst hz
      unfold writeAllLoop
      rw [if_pos rfl]
      exact ⟨0, s.script, by simp, fun e he => he, Or.inl ⟨by simp [written], rfl⟩⟩
    have hbl := List.length_pos_iff.mpr hz
    unfold writeAllLoop
    rw [if_neg hz, if_neg (by simp [hw])]
    obtain ⟨m1, m2, m3, m4, m5, m6⟩ := next_mem s.script
    have hcut : (next s.script).1 = false := by
      cases h : (next s.script).1 with
      | false => rfl
      | true => exact absurd (m2 h) ht
    have hst : stepped s = { s with script := (next s.script).2.2 } := by
      unfold stepped after; rw [hcut]; rfl
    have ht' : OsEvent.truncated ∉ (next s.script).2.2 := fun h => ht (m1 _ h)
    have key : ∀ j, 0 < j → j ≤ b.length →
        ((next s.script).2.2.length < s.script.length ∨ j = b.length) →
        WriteEnds b s (match (Sys.done j (put (b.take j) (stepped s)) : Sys Nat) with
          | .interrupted s' => writeAllLoop fuel b s'
          | .failed n s' => .err (.other n) s'
          | .done n s' => if n = 0 then .err .writeZero s' else writeAllLoop fuel (b.drop n) s') := by
      intro j hj hjl hlt
      simp only
      rw [if_neg (by omega), put_written, hst]
      have htl : (b.take j).length = j := by rw [List.length_take]; omega
      obtain ⟨k, sc, k1, k2, o⟩ := ih (b.drop j)
        { s with data := written s.data s.pos (b.take j), pos := s.pos + (b.take j).length,
                 script := (next s.script).2.2 } hw ht' (by simp only [List.length_drop]; omega)
      rw [List.length_drop] at k1 o
      refine ⟨j + k, sc, by omega, fun e he => m1 _ (k2 e he), ?_⟩
      simp only at o ⊢
      rw [written_written, ← List.take_add, htl, Nat.add_assoc] at o
      rcases o with ⟨o, ok⟩ | ⟨n, o, ok, oo⟩
      · exact Or.inl ⟨by rw [htl]; exact o, by omega⟩
      · exact Or.inr ⟨n, by rw [htl]; exact o, by omega, m1 _ oo⟩
    have hsys : sysWrite b s =
        match (next s.script).2.1 with
        | .interrupted => .interrupted (stepped s)
        | .fail n => .failed n (stepped s)
        | .upTo k => .done (b.take k).length (put (b.take k) (stepped s))
        | .all => .done b.length (put b (stepped s)) := rfl
    rw [hsys]
    cases ha : (next s.script).2.1 with
    | interrupted =>
      simp only
      have hlt := m5 (by rw [ha]; simp)
      rw [hst]
      obtain ⟨k, sc, k1, k2, o⟩ := ih b { s with script := (next s.script).2.2 } hw ht' (by simp only; omega)
      refine ⟨k, sc, k1, fun e he => m1 _ (k2 e he), ?_⟩
      rcases o with o | ⟨n, o, ok, oo⟩
      · exact Or.inl o
      · exact Or.inr ⟨n, o, ok, m1 _ oo⟩
    | fail n =>
      simp only
      rw [hst]
      exact ⟨0, (next s.script).2.2, by omega, m1, Or.inr ⟨n, by simp [written], hbl, m3 n ha⟩⟩
    | upTo k =>
      have hlt := m5 (by rw [ha]; simp)
      have hk := m6 k ha
      have h := key (min k b.length) (by omega) (by omega) (Or.inl hlt)
      have e : b.take (min k b.length) = b.take k := by
        by_cases hc : k ≤ b.length
        · rw [Nat.min_eq_left hc]
        · rw [Nat.min_eq_right (by omega), List.take_of_length_le (le_refl _), List.take_of_length_le (by omega)]
      rw [e, show min k b.length = (b.take k).length by simp] at h
      exact h
    | all =>
      have h := key b.length hbl (le_refl _) (Or.inr rfl)
      rw [List.take_length] at h
      exact h

theorem writeAll_ends (b : List Byte) (s : SharedFile) (hw : s.writable = true)
    (ht : OsEvent.truncated ∉ s.script) : WriteEnds b s (writeAll b s) :=
  writeAllLoop_ends _ b s hw ht (by omega)

end Lcms.SharedFile
