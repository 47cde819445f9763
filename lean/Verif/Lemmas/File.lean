import Verif.Spec.File
import Verif.Lemmas.IO

namespace Lcms

open Spec

namespace OsFile

/-- Forget the schedule. -/
def abs (s : OsFile) : PFile := ⟨s.data, s.pos, s.readable, s.writable⟩

/-- Closed form of a complete read at the state of `s`, with a remaining schedule. -/
def readDone (buf : List Byte) (s : OsFile) (sc : List OsResp) : Out OsFile Unit × List Byte :=
  let got := (s.data.drop s.pos).take buf.length
  let s' : OsFile := { s with pos := s.pos + got.length, sched := sc }
  if got.length = buf.length then (.ok () s', got)
  else (.err .unexpectedEof s', got ++ buf.drop got.length)

theorem readDone_step (rest : List Byte) (s : OsFile) (k : Nat) (sc : List OsResp)
    (hk : k ≤ rest.length) (hd : k ≤ (s.data.drop s.pos).length) (sc0 : List OsResp) :
    (let r := readDone (rest.drop k) { s with pos := s.pos + k, sched := sc0 } sc
     (r.1, (s.data.drop s.pos).take k ++ r.2)) = readDone rest s sc := by
  simp only [List.length_drop] at hd
  unfold readDone
  simp only [List.length_take, List.length_drop]
  have e : (List.drop s.pos s.data).take rest.length =
      (List.drop s.pos s.data).take k ++ ((s.data.drop (s.pos + k)).take (rest.length - k)) := by
    have : rest.length = k + (rest.length - k) := by omega
    rw [this, List.take_add, List.drop_drop]; simp
  have em : min rest.length (s.data.length - s.pos)
      = k + min (rest.length - k) (s.data.length - (s.pos + k)) := by omega
  rw [em]
  by_cases hc : min (rest.length - k) (s.data.length - (s.pos + k)) = rest.length - k
  · rw [if_pos hc, if_pos (by omega)]
    simp only [e, Nat.add_assoc]
  · rw [if_neg hc, if_neg (by omega)]
    simp only [e, Nat.add_assoc, List.append_assoc, List.drop_drop]

theorem readExactLoop_eq (fuel : Nat) (rest : List Byte) (s : OsFile)
    (hf : rest.length + s.sched.length < fuel) :
    ∃ sc, readExactLoop fuel rest s =
      if rest = [] then (.ok () s, [])
      else if s.readable = false then (.err .badFd s, rest)
      else readDone rest s sc := by
  induction fuel generalizing rest s with
  | zero => omega
  | succ fuel ih =>
    by_cases hr : rest = []
    · exact ⟨[], by unfold readExactLoop; simp [hr]⟩
    have hrl := List.length_pos_iff.mpr hr
    by_cases hread : s.readable = false
    · exact ⟨[], by unfold readExactLoop; simp [hr, hread]⟩
    simp only [if_neg hr, if_neg hread]
    unfold readExactLoop
    rw [if_neg hr, if_neg hread]
    -- one complete `read(2)` of at most `m` bytes, `m ≥ 1`
    have key : ∀ (m : Nat) (sc0 : List OsResp), 0 < m → m ≤ rest.length →
        sc0.length ≤ s.sched.length →
        ∃ sc, (let got := (s.data.drop s.pos).take m
          let s' : OsFile := { s with sched := sc0, pos := s.pos + got.length }
          if got = [] then ((.err .unexpectedEof s', rest) : Out OsFile Unit × List Byte)
          else
            let r := readExactLoop fuel (rest.drop got.length) s'
            (r.1, got ++ r.2)) = readDone rest s sc := by
      intro m sc0 hm hml hsc
      by_cases hg : (s.data.drop s.pos).take m = []
      · refine ⟨sc0, ?_⟩
        simp only [hg, if_true]
        have hd : s.data.drop s.pos = [] := by
          rcases List.take_eq_nil_iff.mp hg with h | h
          · omega
          · exact h
        unfold readDone
        simp only [hd, List.take_nil, List.length_nil, Nat.add_zero, List.nil_append, List.drop_zero]
        rw [if_neg (by omega)]
      · simp only [hg, if_false]
        have hgl := List.length_pos_iff.mpr hg
        set got := (s.data.drop s.pos).take m with hgot
        have hgm : got.length ≤ m := by rw [hgot]; simp
        have hgd : got.length ≤ (s.data.drop s.pos).length := by
          rw [hgot, List.length_take]; omega
        have hgot' : got = (s.data.drop s.pos).take got.length := by
          rw [hgot, List.length_take]
          by_cases hc : m ≤ (s.data.drop s.pos).length
          · rw [Nat.min_eq_left hc]
          · rw [Nat.min_eq_right (by omega), List.take_of_length_le (by omega),
              List.take_of_length_le (by omega)]
        obtain ⟨sc, hsc'⟩ := ih (rest.drop got.length) { s with sched := sc0, pos := s.pos + got.length }
          (by simp only [List.length_drop]; omega)
        rw [hsc']
        by_cases hre : rest.drop got.length = []
        · refine ⟨sc0, ?_⟩
          rw [if_pos hre]
          have hle : rest.length ≤ got.length := by simpa using hre
          have hee : got.length = rest.length := by omega
          simp only [List.append_nil]
          unfold readDone
          simp only [← hee, ← hgot', if_true]
        · refine ⟨sc, ?_⟩
          rw [if_neg hre, if_neg hread]
          have := readDone_step rest s got.length sc (by omega) hgd sc0
          rw [← hgot'] at this
          exact this
    unfold sysRead
    cases hs : s.sched with
    | nil =>
      obtain ⟨sc, h⟩ := key rest.length [] hrl (le_refl _) (by simp)
      refine ⟨sc, ?_⟩
      rw [← h]
    | cons a as =>
      cases a with
      | interrupted =>
        simp only
        obtain ⟨sc, h⟩ := ih rest { s with sched := as } (by rw [hs] at hf; simp at hf ⊢; omega)
        refine ⟨sc, ?_⟩
        rw [h, if_neg hr, if_neg hread]; rfl
      | chunk k =>
        exact key (min rest.length (k + 1)) as (by omega) (by omega) (by rw [hs]; simp)

/-- `read_exact` does not depend on the schedule. -/
theorem readExact_eq (buf : List Byte) (s : OsFile) :
    ∃ sc, readExact buf s =
      if buf = [] then (.ok () s, [])
      else if s.readable = false then (.err .badFd s, buf)
      else readDone buf s sc :=
  readExactLoop_eq _ buf s (by omega)

theorem put_eq (b : List Byte) (hb : b ≠ []) (s : OsFile) :
    put b s = { s with data := patch s.data s.pos b, pos := s.pos + b.length } := by
  unfold put; rw [if_neg hb]; rfl

theorem writeAllLoop_eq (fuel : Nat) (b : List Byte) (s : OsFile)
    (hf : b.length + s.sched.length < fuel) :
    ∃ sc, writeAllLoop fuel b s =
      if b = [] then .ok () s
      else if s.writable = false then .err .badFd s
      else .ok () { s with data := patch s.data s.pos b, pos := s.pos + b.length, sched := sc } := by
  induction fuel generalizing b s with
  | zero => omega
  | succ fuel ih =>
    by_cases hb : b = []
    · exact ⟨[], by unfold writeAllLoop; simp [hb]⟩
    have hbl := List.length_pos_iff.mpr hb
    by_cases hw : s.writable = false
    · exact ⟨[], by unfold writeAllLoop; simp [hb, hw]⟩
    simp only [if_neg hb, if_neg hw]
    unfold writeAllLoop
    rw [if_neg hb, if_neg hw]
    unfold sysWrite
    cases hs : s.sched with
    | nil =>
      refine ⟨[], ?_⟩
      simp only
      rw [if_neg (by omega), List.drop_length, put_eq b hb]
      cases fuel <;> simp [writeAllLoop, hs]
    | cons a as =>
      cases a with
      | interrupted =>
        simp only
        obtain ⟨sc, h⟩ := ih b { s with sched := as } (by rw [hs] at hf; simp at hf ⊢; omega)
        refine ⟨sc, ?_⟩
        rw [h, if_neg hb, if_neg hw]
      | chunk k =>
        have hn : b.take (k + 1) ≠ [] := by simp [hb]
        have hnl : (b.take (k + 1)).length = min (k + 1) b.length := by simp
        simp only
        rw [if_neg (by omega), put_eq _ hn]
        obtain ⟨sc, h⟩ := ih (b.drop (b.take (k + 1)).length)
          { s with data := patch s.data s.pos (b.take (k + 1)), pos := s.pos + (b.take (k + 1)).length,
                   sched := as } (by
            rw [hs] at hf; simp only [List.length_cons, List.length_drop, hnl] at hf ⊢; omega)
        simp only at h
        have hsplit : b = b.take (k + 1) ++ b.drop (b.take (k + 1)).length := by
          rw [hnl]
          by_cases hc : k + 1 ≤ b.length
          · rw [Nat.min_eq_left hc, List.take_append_drop]
          · rw [Nat.min_eq_right (by omega), List.drop_length, List.append_nil,
              List.take_of_length_le (by omega)]
        have hpp := patch_patch s.data s.pos (b.take (k + 1)) (b.drop (b.take (k + 1)).length)
        rw [← hsplit] at hpp
        have hlen : s.pos + (b.take (k + 1)).length + (b.drop (b.take (k + 1)).length).length
            = s.pos + b.length := by simp only [List.length_drop, hnl]; omega
        rw [hpp, hlen] at h
        by_cases hd : b.drop (b.take (k + 1)).length = []
        · refine ⟨as, ?_⟩
          rw [h, if_pos hd]
          rw [hd, List.append_nil] at hsplit
          rw [← hsplit]
        · refine ⟨sc, ?_⟩
          rw [h, if_neg hd, if_neg hw]

/-- `write_all` does not depend on the schedule. -/
theorem writeAll_eq (b : List Byte) (s : OsFile) :
    ∃ sc, writeAll b s =
      if b = [] then .ok () s
      else if s.writable = false then .err .badFd s
      else .ok () { s with data := patch s.data s.pos b, pos := s.pos + b.length, sched := sc } :=
  writeAllLoop_eq _ b s (by omega)

theorem seek_eq (p : SeekFrom) (s : OsFile) :
    seek p s =
      if 0 ≤ seekTarget s.data.length s.pos p ∧
          seekTarget s.data.length s.pos p < 9223372036854775808 then
        .ok () { s with pos := (seekTarget s.data.length s.pos p).toNat }
      else .err .invalidInput s := by
  cases p with
  | start n =>
    have hlt := n.toNat_lt
    have hi : n.toInt64.toInt = Int.bmod n.toNat (2 ^ 64) := by
      rw [UInt64.toInt64, Int64.toInt, BitVec.toInt_eq_toNat_bmod]; rfl
    have e : seek (.start n) s =
        if 0 ≤ n.toInt64.toInt ∧ n.toInt64.toInt < 9223372036854775808 then
          .ok () { s with pos := n.toInt64.toInt.toNat } else .err .invalidInput s := rfl
    rw [e, hi]
    have e2 : seekTarget s.data.length s.pos (.start n) = n.toNat := rfl
    rw [e2]
    by_cases hc : n.toNat < 9223372036854775808
    · have : Int.bmod (n.toNat : Int) (2 ^ 64) = n.toNat := by
        rw [Int.bmod_def]; split <;> omega
      rw [this]
    · have h2 : Int.bmod (n.toNat : Int) (2 ^ 64) < 0 := by
        rw [Int.bmod_def]; split <;> omega
      rw [if_neg (by omega), if_neg (by omega)]
  | end_ d => rfl
  | current d => rfl

/-- Extensional form of a patch. -/
theorem patch_eq_range (d : List Byte) (p : Nat) (b : List Byte) :
    patch d p b = (List.range (max d.length (p + b.length))).map fun i =>
      if p ≤ i ∧ i < p + b.length then b.getD (i - p) 0 else d.getD i 0 := by
  apply List.ext_getElem
  · simp [patch_length]
  · intro i h1 h2
    have := patch_getD d p b i
    rw [List.getD_eq_getElem?_getD, List.getElem?_eq_getElem h1, Option.getD_some] at this
    rw [this]; simp

/-- `reported_size` on a file whose length fits an `i64`. -/
theorem reportedSize_eq (t : Target) (s : OsFile) (hl : s.data.length < 9223372036854775808)
    (hp : s.pos % t.usizeMod < 9223372036854775808) :
    reportedSize (handler t) s =
      .ok (s.data.length % t.usizeMod) { s with pos := s.pos % t.usizeMod } := by
  refine reportedSize_ok (handler t) (s1 := s) (s2 := { s with pos := s.data.length })
    (s3 := { s with pos := s.data.length }) (c := s.pos % t.usizeMod) rfl ?_ rfl ?_
  · have e0 : (handler t).seek = seek := rfl
    rw [e0, seek_eq]
    have e : seekTarget s.data.length s.pos (.end_ 0) = s.data.length := by simp [seekTarget]
    rw [e, if_pos (by omega)]; simp
  · have e0 : (handler t).seek = seek := rfl
    rw [e0, seek_eq]
    generalize s.pos % t.usizeMod = c at hp ⊢
    have e : seekTarget s.data.length s.data.length (.start (UInt64.ofNat c)) = (c : Int) := by
      simp only [seekTarget, UInt64.toNat_ofNat']; omega
    simp only [e]
    rw [if_pos (by omega)]; simp

end OsFile

end Lcms
