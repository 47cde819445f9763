import Verif.Lemmas.File
import Verif.Lemmas.Mem
import Verif.Spec.Target
import Verif.Model.FileNull

/-!
# Properties C12, C17, C18: std::fs::File, and reported_size on all handlers
-/

namespace Lcms.Props

open Lcms Spec

/-! ### C17 -/

theorem file_step_sim (t : Target) (op : Op) (s : OsFile) (hl : s.data.length < 2 ^ 63)
    (hp : s.pos < 2 ^ 63) (hsmall : ∀ b, op = .write b → s.pos + b.length < 2 ^ 63)
    (hsmall' : ∀ b, op = .read b → s.pos + b.length < 2 ^ 63) :
    PFile.step t op (OsFile.abs s) =
      ((hstep (OsFile.handler t) op s).1, (hstep (OsFile.handler t) op s).2.map OsFile.abs) ∧
    ∀ s', (hstep (OsFile.handler t) op s).2 = some s' → s'.data.length < 2 ^ 63 ∧ s'.pos < 2 ^ 63 := by
  cases op with
  | read b =>
    obtain ⟨sc, h⟩ := OsFile.readExact_eq b s
    have e : (OsFile.handler t).read b s = OsFile.readExact b s := rfl
    simp only [hstep, e, h, PFile.step, OsFile.abs]
    by_cases hb : b = []
    · simp only [hb, if_true, obsRead]
      exact ⟨rfl, by intro s' h'; cases h'; exact ⟨hl, hp⟩⟩
    by_cases hr : s.readable = false
    · simp only [hb, hr, if_true, if_false, obsRead]
      refine ⟨?_, by intro s' h'; cases h'; exact ⟨hl, hp⟩⟩
      simp only [Option.map, OsFile.abs, hr]
    · have := hsmall' b rfl
      have hlen : ((s.data.drop s.pos).take b.length).length ≤ b.length := by simp
      simp only [hb, hr, if_false, Bool.true_eq_false, OsFile.readDone]
      by_cases hc : ((s.data.drop s.pos).take b.length).length = b.length
      · simp only [hc, if_true, obsRead]
        refine ⟨rfl, ?_⟩
        intro s' h'; cases h'; exact ⟨hl, by simp only; omega⟩
      · simp only [hc, if_false, obsRead]
        refine ⟨rfl, ?_⟩
        intro s' h'; cases h'; exact ⟨hl, by simp only; omega⟩
  | write b =>
    obtain ⟨sc, h⟩ := OsFile.writeAll_eq b s
    have e : (OsFile.handler t).write b s = OsFile.writeAll b s := rfl
    simp only [hstep, e, h, PFile.step, OsFile.abs]
    by_cases hb : b = []
    · simp only [hb, if_true, obsUnit]
      exact ⟨rfl, by intro s' h'; cases h'; exact ⟨hl, hp⟩⟩
    by_cases hw : s.writable = false
    · simp only [hb, hw, if_true, if_false, obsUnit]
      refine ⟨?_, by intro s' h'; cases h'; exact ⟨hl, hp⟩⟩
      simp only [Option.map, OsFile.abs, hw]
    · have := hsmall b rfl
      simp only [hb, hw, if_false, Bool.true_eq_false, obsUnit]
      refine ⟨?_, ?_⟩
      · simp only [Option.map, OsFile.abs, OsFile.patch_eq_range]
        rfl
      · intro s' h'; cases h'
        simp only [patch_length]; omega
  | seek p =>
    have e : (OsFile.handler t).seek p s = OsFile.seek p s := rfl
    simp only [hstep, e, OsFile.seek_eq, PFile.step, OsFile.abs]
    by_cases hc : 0 ≤ seekTarget s.data.length s.pos p ∧
        seekTarget s.data.length s.pos p < 9223372036854775808
    · simp only [hc, and_self, if_true, obsUnit]
      refine ⟨rfl, ?_⟩
      intro s' h'; cases h'; exact ⟨hl, by simp only; omega⟩
    · simp only [hc, if_false, obsUnit]
      refine ⟨rfl, ?_⟩
      intro s' h'; cases h'; exact ⟨hl, hp⟩
  | tell =>
    refine ⟨rfl, ?_⟩
    intro s' h'; cases h'; exact ⟨hl, hp⟩
  | size =>
    have hm := Nat.mod_le s.pos t.usizeMod
    simp only [hstep]
    rw [OsFile.reportedSize_eq t s (by omega) (by omega)]
    refine ⟨rfl, ?_⟩
    intro s' h'; cases h'; exact ⟨hl, by simp only; omega⟩

/-- A history stays below `2^63`, the largest file offset of the operating system. -/
def Small : PFile → Op → Obs → PFile → Prop := fun f op _ _ =>
  match op with
  | .read b => f.pos + b.length < 2 ^ 63
  | .write b => f.pos + b.length < 2 ^ 63
  | _ => True

/-- **C17** Whatever the OS schedule of short transfers and interruptions: a history of calls on a `File`
makes the observations of complete transfers and ends with the same content and position.  The history is
any whose accesses stay below offset `2^63` (`Small`), with any access rights. -/
theorem C17_schedule_independent (t : Target) (ops : List Op) (s : OsFile)
    (hl : s.data.length < 2 ^ 63) (hp : s.pos < 2 ^ 63)
    (hsm : Along (PFile.step t) Small ops ⟨s.data, s.pos, s.readable, s.writable⟩) :
    runWith (PFile.step t) ops ⟨s.data, s.pos, s.readable, s.writable⟩ =
      ((runWith (hstep (OsFile.handler t)) ops s).1,
       (runWith (hstep (OsFile.handler t)) ops s).2.map
         fun s' => ⟨s'.data, s'.pos, s'.readable, s'.writable⟩) := by
  show runWith (PFile.step t) ops (OsFile.abs s) = (_, Option.map OsFile.abs _)
  change Along (PFile.step t) Small ops (OsFile.abs s) at hsm
  induction ops generalizing s with
  | nil => rfl
  | cons op ops ih =>
    obtain ⟨o, f', hst, hP, hrest⟩ := hsm
    obtain ⟨h1, h2⟩ := file_step_sim t op s hl hp
      (by intro b hb; subst hb; exact hP) (by intro b hb; subst hb; exact hP)
    simp only [runWith]
    rw [h1]
    rw [h1] at hst
    cases hf : hstep (OsFile.handler t) op s with
    | mk o' r =>
      rw [hf] at hst h2
      cases r with
      | none => simp at hst
      | some s' =>
        simp only [Option.map, Prod.mk.injEq, Option.some.injEq] at hst
        obtain ⟨_, hfe⟩ := hst
        obtain ⟨hl', hp'⟩ := h2 s' rfl
        have := ih s' hl' hp' (by rw [hfe]; exact hrest)
        simp only [Option.map, this]

/-- Consequence, in the words of the claim: two schedules give the same observations and results. -/
theorem C17_two_schedules (t : Target) (ops : List Op) (d : List UInt8) (p : Nat) (r w : Bool)
    (sc1 sc2 : List OsResp) (hl : d.length < 2 ^ 63) (hp : p < 2 ^ 63)
    (hsm : Along (PFile.step t) Small ops ⟨d, p, r, w⟩) :
    (runWith (hstep (OsFile.handler t)) ops ⟨d, p, r, w, sc1⟩).1 =
      (runWith (hstep (OsFile.handler t)) ops ⟨d, p, r, w, sc2⟩).1 ∧
    ∀ s1, (runWith (hstep (OsFile.handler t)) ops ⟨d, p, r, w, sc1⟩).2 = some s1 →
      ∃ s2, (runWith (hstep (OsFile.handler t)) ops ⟨d, p, r, w, sc2⟩).2 = some s2 ∧
        s2.data = s1.data ∧ s2.pos = s1.pos := by
  have e1 := C17_schedule_independent t ops ⟨d, p, r, w, sc1⟩ hl hp hsm
  have e2 := C17_schedule_independent t ops ⟨d, p, r, w, sc2⟩ hl hp hsm
  have e := e1.symm.trans e2
  simp only [Prod.mk.injEq] at e
  refine ⟨e.1, ?_⟩
  intro s1 h1
  have e3 := e.2
  rw [h1] at e3
  simp only [Option.map_some] at e3
  obtain ⟨s2, hs2, he⟩ := Option.map_eq_some_iff.mp e3.symm
  refine ⟨s2, hs2, ?_, ?_⟩
  · exact congrArg PFile.data he
  · exact congrArg PFile.pos he

/-- Non-vacuity: byte-by-byte transfers with interruptions. -/
example : Along (PFile.step pc) Small [.write [1, 2, 3], .seek (.start 1), .read [0, 0], .read [5]]
      ⟨[], 0, true, true⟩ ∧
    runWith (hstep (OsFile.handler pc)) [.write [1, 2, 3], .seek (.start 1), .read [0, 0], .read [5]]
      ⟨[], 0, true, true, [.chunk 0, .interrupted, .chunk 0, .chunk 7, .interrupted, .chunk 0]⟩
    = ([.unit, .unit, .bytes [2, 3], .readErr .unexpectedEof [5]],
        some ⟨[1, 2, 3], 3, true, true, []⟩) := by
  refine ⟨⟨.unit, ⟨[1, 2, 3], 3, true, true⟩, by decide, ?_, .unit, ⟨[1, 2, 3], 1, true, true⟩, by decide,
    trivial, .bytes [2, 3], ⟨[1, 2, 3], 3, true, true⟩, by decide, ?_, .readErr .unexpectedEof [5],
    ⟨[1, 2, 3], 3, true, true⟩, by decide, ?_, trivial⟩, by decide⟩ <;> simp [Small]

/-! ### C18 -/

/-- Every call succeeds, at positions below `2^63`. -/
def AllOk : Mem → Op → Obs → Mem → Prop := fun _ _ o m' => o.isOk = true ∧ m'.pos < 2 ^ 63

theorem vec_file_step (t : Target) (op : Op) (m m' : Mem) (o : Obs)
    (hlen : m.buf.length ≤ t.isizeMax)
    (hst : hstep (Mem.vec t) op m = (o, some m')) (hok : o.isOk = true) (hp' : m'.pos < 2 ^ 63) :
    PFile.step t op ⟨m.buf, m.pos, true, true⟩ = (o, some ⟨m'.buf, m'.pos, true, true⟩) := by
  have hi := isizeMax_lt_i64 t
  have hu := isizeMax_lt t
  cases op with
  | read b =>
    simp only [hstep, Mem.vec, Mem.readExact_eq] at hst
    by_cases hb : b = []
    · subst hb
      simp only [true_or, if_true, obsRead, Prod.mk.injEq, Option.some.injEq] at hst
      obtain ⟨rfl, rfl⟩ := hst
      simp [PFile.step]
    by_cases hc : m.pos + b.length ≤ m.buf.length
    · have hb' : ¬ b = [] := hb
      simp only [hb', hc, or_true, if_true, obsRead, Prod.mk.injEq, Option.some.injEq] at hst
      obtain ⟨rfl, rfl⟩ := hst
      have hl : ((m.buf.drop m.pos).take b.length).length = b.length := by
        simp only [List.length_take, List.length_drop]; omega
      simp only [PFile.step, hl, if_true, if_neg hb]
      rfl
    · simp only [hb, hc, or_self, if_false, obsRead, Prod.mk.injEq] at hst
      rw [← hst.1] at hok; simp [Obs.isOk] at hok
  | write b =>
    simp only [hstep, Mem.vec, Mem.writeAll_vec] at hst
    by_cases hb : b = []
    · subst hb
      simp only [if_true, obsUnit, Prod.mk.injEq, Option.some.injEq] at hst
      obtain ⟨rfl, rfl⟩ := hst
      simp [PFile.step]
    by_cases h1 : t.usizeMod ≤ m.pos
    · simp only [hb, h1, if_true, if_false, obsUnit, Prod.mk.injEq] at hst
      rw [← hst.1] at hok; simp [Obs.isOk] at hok
    by_cases h2 : t.isizeMax < m.pos + b.length
    · simp only [hb, h1, h2, if_true, if_false, obsUnit, Prod.mk.injEq] at hst
      simp at hst
    · simp only [hb, h1, h2, if_false, obsUnit, Prod.mk.injEq, Option.some.injEq] at hst
      obtain ⟨rfl, rfl⟩ := hst
      simp only [PFile.step, if_neg hb, OsFile.patch_eq_range]
      rfl
  | seek p =>
    have e : (Mem.vec t).seek p m = Mem.seek p m := rfl
    simp only [hstep, e, mem_seek_eq] at hst
    by_cases hc : 0 ≤ seekTarget m.buf.length m.pos p ∧
        seekTarget m.buf.length m.pos p < 18446744073709551616
    · rw [if_pos hc] at hst
      simp only [obsUnit, Prod.mk.injEq, Option.some.injEq] at hst
      obtain ⟨rfl, rfl⟩ := hst
      simp only at hp'
      have hc' : 0 ≤ seekTarget m.buf.length m.pos p ∧
        seekTarget m.buf.length m.pos p < 9223372036854775808 := by omega
      simp only [PFile.step, if_pos hc']
    · rw [if_neg hc] at hst
      simp only [obsUnit, Prod.mk.injEq] at hst
      rw [← hst.1] at hok; simp [Obs.isOk] at hok
  | tell =>
    have e : hstep (Mem.vec t) .tell m = (.num (m.pos % t.usizeMod), some m) := rfl
    rw [e] at hst
    simp only [Prod.mk.injEq, Option.some.injEq] at hst
    obtain ⟨rfl, rfl⟩ := hst
    rfl
  | size =>
    simp only [hstep] at hst
    rw [reportedSize_mem t (Mem.vec t) m rfl rfl (by omega)] at hst
    simp only [obsNum, Prod.mk.injEq, Option.some.injEq] at hst
    obtain ⟨rfl, rfl⟩ := hst
    simp only [PFile.step, Nat.mod_eq_of_lt (show m.buf.length < t.usizeMod by omega)]

/-- **C18** A history that succeeds throughout on `FileMem<Vec<u8>>`, at positions below `2^63`, makes the
same observations on a read/write `File` with the same content and position, under any OS schedule, and
leaves the same content and position. -/
theorem C18_file_like_vec (t : Target) (ops : List Op) (m : Mem) (sc : List OsResp)
    (hlen : m.buf.length ≤ t.isizeMax) (hpos : m.pos < 2 ^ 63)
    (hall : Along (hstep (Mem.vec t)) AllOk ops m) :
    ∃ m' sc', (runWith (hstep (Mem.vec t)) ops m).2 = some m' ∧
      runWith (hstep (OsFile.handler t)) ops ⟨m.buf, m.pos, true, true, sc⟩ =
        ((runWith (hstep (Mem.vec t)) ops m).1, some ⟨m'.buf, m'.pos, true, true, sc'⟩) := by
  have hi := isizeMax_lt_i64 t
  induction ops generalizing m sc with
  | nil => exact ⟨m, sc, rfl, rfl⟩
  | cons op ops ih =>
    obtain ⟨o, m1, hst, ⟨hok, hp1⟩, hrest⟩ := hall
    have hpf := vec_file_step t op m m1 o hlen hst hok hp1
    have hlen1 : m1.buf.length ≤ t.isizeMax := (vec_step_sim t op m hlen).2 m1 (by rw [hst])
    -- the accesses of a successful call are below 2^63
    have hacc : ∀ b, op = .write b ∨ op = .read b → m.pos + b.length < 2 ^ 63 := by
      intro b hb
      rcases hb with rfl | rfl
      · have h0 := hst
        simp only [hstep, Mem.vec, Mem.writeAll_vec] at h0
        by_cases hbn : b = []
        · subst hbn; simpa using hpos
        by_cases h1 : t.usizeMod ≤ m.pos
        · simp only [hbn, h1, if_true, if_false, obsUnit, Prod.mk.injEq] at h0
          rw [← h0.1] at hok; simp [Obs.isOk] at hok
        by_cases h2 : t.isizeMax < m.pos + b.length
        · simp only [hbn, h1, h2, if_true, if_false, obsUnit, Prod.mk.injEq] at h0
          simp at h0
        · omega
      · have h0 := hst
        simp only [hstep, Mem.vec, Mem.readExact_eq] at h0
        by_cases hbn : b = []
        · subst hbn; simpa using hpos
        by_cases hc : m.pos + b.length ≤ m.buf.length
        · omega
        · simp only [hbn, hc, or_self, if_false, obsRead, Prod.mk.injEq] at h0
          rw [← h0.1] at hok; simp [Obs.isOk] at hok
    obtain ⟨h1, _⟩ := file_step_sim t op ⟨m.buf, m.pos, true, true, sc⟩ (by simp only; omega) hpos
      (fun b hb => hacc b (Or.inl hb)) (fun b hb => hacc b (Or.inr hb))
    have h1' : (o, some (⟨m1.buf, m1.pos, true, true⟩ : PFile)) = _ := hpf.symm.trans h1
    cases hf : hstep (OsFile.handler t) op ⟨m.buf, m.pos, true, true, sc⟩ with
    | mk o' r =>
      rw [hf] at h1'
      cases r with
      | none => simp at h1'
      | some s1 =>
        simp only [Option.map, Prod.mk.injEq, Option.some.injEq, OsFile.abs, PFile.mk.injEq] at h1'
        obtain ⟨rfl, hd, hpp, hr, hw⟩ := h1'
        have hs1 : s1 = ⟨m1.buf, m1.pos, true, true, s1.sched⟩ := by
          cases s1; simp_all
        obtain ⟨m', sc', e1, e2⟩ := ih m1 s1.sched hlen1 hp1 hrest
        rw [← hs1] at e2
        refine ⟨m', sc', ?_, ?_⟩
        · simp only [runWith, hst]; exact e1
        · simp only [runWith, hst, hf, e2]

/-- Non-vacuity: a history with a gap and a relative seek; it satisfies `AllOk`. -/
example : Along (hstep (Mem.vec pc)) AllOk
    [.seek (.start 2), .write [7, 8], .seek (.current (-3)), .read [0, 0], .size, .tell] (Mem.new [1]) ∧
    (runWith (hstep (OsFile.handler pc))
      [.seek (.start 2), .write [7, 8], .seek (.current (-3)), .read [0, 0], .size, .tell]
      ⟨[1], 0, true, true, [.chunk 0, .interrupted]⟩).1
      = [.unit, .unit, .unit, .bytes [0, 7], .num 4, .num 3] := by
  refine ⟨?_, by decide⟩
  refine ⟨.unit, ⟨[1], 2⟩, by decide, ⟨rfl, by decide⟩, .unit, ⟨[1, 0, 7, 8], 4⟩, by decide,
    ⟨rfl, by decide⟩, .unit, ⟨[1, 0, 7, 8], 1⟩, by decide, ⟨rfl, by decide⟩, .bytes [0, 7],
    ⟨[1, 0, 7, 8], 3⟩, by decide, ⟨rfl, by decide⟩, .num 4, ⟨[1, 0, 7, 8], 3⟩, by decide,
    ⟨rfl, by decide⟩, .num 3, ⟨[1, 0, 7, 8], 3⟩, by decide, ⟨rfl, by decide⟩, trivial⟩

/-! ### C12 -/

/-- **C12** On every handler, `reported_size` returns the stream length and leaves position and contents
exactly as they were, in every state whose length and position the target can represent. -/
theorem C12_reported_size (t : Target) :
    (∀ s : Mem, s.buf.length < t.usizeMod → s.pos < t.usizeMod →
      reportedSize (Mem.vec t) s = .ok s.buf.length s ∧
      reportedSize (Mem.fixed t) s = .ok s.buf.length s) ∧
    (∀ s : OsFile, s.data.length < t.usizeMod → s.pos < t.usizeMod → s.data.length < 2 ^ 63 →
      s.pos < 2 ^ 63 → reportedSize (OsFile.handler t) s = .ok s.data.length s) ∧
    (∀ s : Null, s.pointer < t.usizeMod → s.usedSpace < t.usizeMod →
      reportedSize (Null.handler t) s = .ok s.usedSpace s) := by
  refine ⟨?_, ?_, ?_⟩
  · intro s hl hp
    refine ⟨?_, ?_⟩
    · rw [reportedSize_mem t (Mem.vec t) s rfl rfl hl, Nat.mod_eq_of_lt hp]
    · rw [reportedSize_mem t (Mem.fixed t) s rfl rfl hl, Nat.mod_eq_of_lt hp]
  · intro s hl hp h1 h2
    have e := Nat.mod_eq_of_lt hp
    rw [OsFile.reportedSize_eq t s (by omega) (by rw [e]; omega), Nat.mod_eq_of_lt hl, e]
  · intro s hp hu
    have hpos := usizeMod_pos t
    have hle := usizeMod_le t
    refine reportedSize_ok (Null.handler t) (s1 := s) (s2 := ⟨s.usedSpace, s.usedSpace⟩)
      (s3 := ⟨s.usedSpace, s.usedSpace⟩) (c := s.pointer) rfl ?_ rfl ?_
    · have e0 : (Null.handler t).seek = Null.seek t := rfl
      have e1 : Null.asUsize t (Int64.toInt 0) = 0 := by simp [Null.asUsize]
      rw [e0]; unfold Null.seek
      simp only [e1, Target.addUsize, Nat.add_zero, if_pos hu]
    · have e0 : (Null.handler t).seek = Null.seek t := rfl
      have e1 : Null.asUsize t ((UInt64.ofNat s.pointer).toNat : Nat) = s.pointer := by
        unfold Null.asUsize
        rw [UInt64.toNat_ofNat', Nat.mod_eq_of_lt (by omega)]
        rw [← Int.natCast_mod, Int.toNat_natCast, Nat.mod_eq_of_lt hp]
      rw [e0]; unfold Null.seek
      simp only [e1]

/-- Non-vacuity: position beyond the end, 32-bit target, one handler of each kind. -/
example : let t : Target := ⟨false, false, false, true⟩
    reportedSize (Mem.vec t) ⟨[1, 2], 4000000000⟩ = .ok 2 ⟨[1, 2], 4000000000⟩ ∧
    reportedSize (OsFile.handler t) ⟨[1, 2], 7, true, false, []⟩ = .ok 2 ⟨[1, 2], 7, true, false, []⟩ ∧
    reportedSize (Null.handler t) ⟨7, 3⟩ = .ok 3 ⟨7, 3⟩ := by decide

end Lcms.Props
