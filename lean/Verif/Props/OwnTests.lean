import Verif.Props.Open
import Verif.Props.File

/-!
# C96: the repository's own tests, for all surroundings

The tests of src/types/profile.rs and src/io/file_file.rs run one file, one context, one operating system
behaviour.  Here their assertions are shown for all of them.
-/

namespace Lcms.Props
open Lcms.Spec

/-- The first 240 bytes of resources/test/sRGB_v4_ICC_preference.icc: header and tag directory. -/
def srgbHead : List UInt8 :=
  [0, 0, 238, 32, 0, 0, 0, 0, 4, 32, 0, 0, 115, 112, 97, 99, 82, 71, 66, 32,
   76, 97, 98, 32, 7, 215, 0, 7, 0, 25, 0, 0, 0, 5, 0, 37, 97, 99, 115, 112,
   0, 0, 0, 0, 0, 0, 0, 0, 0, 0, 0, 0, 0, 0, 0, 0, 0, 0, 0, 0,
   0, 0, 0, 0, 0, 0, 0, 0, 0, 0, 246, 214, 0, 1, 0, 0, 0, 0, 211, 45,
   0, 0, 0, 0, 52, 86, 42, 191, 153, 76, 205, 6, 109, 44, 87, 33, 208, 214, 140, 93,
   0, 0, 0, 0, 0, 0, 0, 0, 0, 0, 0, 0, 0, 0, 0, 0, 0, 0, 0, 0,
   0, 0, 0, 0, 0, 0, 0, 0, 0, 0, 0, 9, 100, 101, 115, 99, 0, 0, 0, 240,
   0, 0, 0, 118, 65, 50, 66, 48, 0, 0, 1, 104, 0, 0, 116, 16, 65, 50, 66, 49,
   0, 0, 117, 120, 0, 0, 1, 180, 66, 50, 65, 48, 0, 0, 119, 44, 0, 0, 116, 52,
   66, 50, 65, 49, 0, 0, 235, 96, 0, 0, 1, 252, 114, 105, 103, 48, 0, 0, 237, 92,
   0, 0, 0, 12, 119, 116, 112, 116, 0, 0, 237, 104, 0, 0, 0, 20, 99, 112, 114, 116,
   0, 0, 237, 124, 0, 0, 0, 118, 99, 104, 97, 100, 0, 0, 237, 244, 0, 0, 0, 44]

/-- `expected` of src/types/profile.rs:282-326. -/
def srgbExpected : Profile :=
  { io := none
    created := ⟨⟨2007, 206⟩, ⟨337, 0⟩⟩
    version := 0x04200000
    deviceClass := ⟨0x73706163⟩
    colorSpace := ⟨0x52474220⟩
    pcs := ⟨0x4c616220⟩
    renderingIntent := 0
    flags := 0
    manufacturer := 0
    model := 0
    attributes := 0
    creator := 0
    profileId := ⟨#v[0x34, 0x56, 0x2a, 0xbf, 0x99, 0x4c, 0xcd, 0x06, 0x6d, 0x2c, 0x57, 0x21, 0xd0, 0xd6, 0x8c, 0x5d]⟩
    tagCount := 9
    tagNames := ["desc", "A2B0", "A2B1", "B2A0", "B2A1", "rig0", "wtpt", "cprt", "chad"].map
        (fun s => ⟨(s.toList.foldl (fun a c => a * 256 + c.toNat.toUInt32) 0)⟩) ++
      List.replicate 91 ⟨0x20202020⟩
    tagLinked := List.replicate 100 none
    tagSizes := [118, 29712, 436, 29748, 508, 12, 20, 118, 44] ++ List.replicate 91 0
    tagOffsets := [240, 360, 30072, 30508, 60256, 60764, 60776, 60796, 60916] ++ List.replicate 91 0
    tagSaveAsRaw := List.replicate 100 false
    isWrite := false }

theorem srgb_num (t : Target) (hle : t.leFeature = false) (rest : List UInt8) (o n : Nat) (h : o + n ≤ 240) :
    num t (srgbHead ++ rest) o n = num ⟨false, false, true, true⟩ srgbHead o n := by
  rw [num_append _ _ _ _ _ h]
  exact num_host hle _ _ _

theorem srgb_verdict (t : Target) (hle : t.leFeature = false) (rest : List UInt8) (hr : rest.length = 60720) :
    verdict t (srgbHead ++ rest) = .table
      [⟨0x64657363, 240, 118⟩, ⟨0x41324230, 360, 29712⟩, ⟨0x41324231, 30072, 436⟩, ⟨0x42324130, 30508, 29748⟩,
       ⟨0x42324131, 60256, 508⟩, ⟨0x72696730, 60764, 12⟩, ⟨0x77747074, 60776, 20⟩, ⟨0x63707274, 60796, 118⟩,
       ⟨0x63686164, 60916, 44⟩] := by
  have hn := srgb_num t hle rest
  have hl : (srgbHead ++ rest).length = 60960 := by
    rw [List.length_append, hr]; rfl
  have hu : 60960 % t.usizeMod = 60960 := by unfold Target.usizeMod Target.usizeBits; split <;> rfl
  have hd : declared t (srgbHead ++ rest) = 9 := by
    unfold declared; rw [hn _ _ (by omega)]; decide +kernel
  have hlim : limit t (srgbHead ++ rest) = 60960 := by
    unfold limit; rw [hn _ _ (by omega), hl, hu]; decide +kernel
  have he : (List.range 9).map (entry t (srgbHead ++ rest)) = (List.range 9).map (entry ⟨false, false, true, true⟩ srgbHead) := by
    apply List.map_congr_left
    intro i hi
    rw [List.mem_range] at hi
    unfold entry
    rw [hn _ _ (by omega), hn _ _ (by omega), hn _ _ (by omega)]
  have hi : ∀ i < 9, entry t (srgbHead ++ rest) i = entry ⟨false, false, true, true⟩ srgbHead i := by
    intro i hi
    unfold entry
    rw [hn _ _ (by omega), hn _ _ (by omega), hn _ _ (by omega)]
  have hp : present (srgbHead ++ rest) = 5069 := by unfold present; rw [hl]
  have hov : ¬ Overflows t (srgbHead ++ rest) := by
    unfold Overflows
    rw [hd, hp]
    rintro ⟨i, h, h'⟩
    have h9 : i < 9 := by omega
    rw [hi i h9] at h'
    revert h'
    revert i
    decide +kernel
  have hm : num t (srgbHead ++ rest) 36 4 = acsp := by rw [hn _ _ (by omega)]; decide +kernel
  have hdt : DateOk t (srgbHead ++ rest) := by
    unfold DateOk
    rw [hn _ _ (by omega), hn _ _ (by omega), hn _ _ (by omega), hn _ _ (by omega), hn _ _ (by omega),
      hn _ _ (by omega)]
    decide +kernel
  unfold verdict
  rw [hl, hd, hp, if_neg (by omega), if_neg (by simp [hm]), if_neg (by simp [hdt]), if_neg (by omega),
    if_neg (by omega), if_neg (by simp [hov]), if_neg (by omega)]
  unfold kept
  rw [hd, hlim, he]
  decide +kernel

/-- **C96** Every file of 60960 bytes that starts like the test resource opens, in every build without
`use_little_endian`, on every host, whatever context, clock and transfer schedule, as the profile which
`test_file_loads_with_proper_data_and_endianness` expects (compared with the program's own `==`); neither the
context nor the file system changes. -/
theorem C96_reference_file (t : Target) (hle : t.leFeature = false) (env : Handlers) (now : NaiveDateTime)
    (sched : List OsResp) (ctx : CState) (fs : FS) (path : Path) (rest : List UInt8)
    (hr : rest.length = 60720) (hmay : fs.mayRead path = none) (hfile : fs.files path = some (srgbHead ++ rest)) :
    ∃ p, openFromFileThr t env now sched ctx fs path .read = (.ok p, ctx, fs) ∧ p.eq srgbExpected = true := by
  have hl : (srgbHead ++ rest).length = 60960 := by rw [List.length_append, hr]; rfl
  have hn := srgb_num t hle rest
  have hv := srgb_verdict t hle rest hr
  have ho := openRead_eq t env now sched ctx fs path _ (by rw [hl]; omega) hmay hfile
  unfold outcome at ho
  rw [hv] at ho
  obtain ⟨⟨d, f, h1, h2, h3, h4, h5⟩, h6⟩ := ho
  refine ⟨_, Prod.ext h5 h6, ?_⟩
  have hk := (verdict_table hv).2.2.2.2.1
  have hs := (good_describes (by rw [hv, hk]) now d f h2 h3 h4 h1).profileId
  rw [Profile.eq_iff]
  unfold goodProfile onFile withTable filled
  rw [← hk]
  rw [headerOf_eq t _ (by omega)] at h1 ⊢
  simp only [hn 0 4 (by omega), hn 4 4 (by omega), hn 8 4 (by omega), hn 12 4 (by omega), hn 16 4 (by omega),
    hn 20 4 (by omega), hn 24 2 (by omega), hn 26 2 (by omega), hn 28 2 (by omega), hn 30 2 (by omega),
    hn 32 2 (by omega), hn 34 2 (by omega), hn 36 4 (by omega), hn 40 4 (by omega), hn 44 4 (by omega),
    hn 48 4 (by omega), hn 52 4 (by omega), hn 56 8 (by omega), hn 64 4 (by omega), hn 68 4 (by omega),
    hn 72 4 (by omega), hn 76 4 (by omega), hn 80 4 (by omega)] at h1 ⊢
  have hd : d = ⟨⟨2007, 206⟩, ⟨337, 0⟩⟩ := by
    have : (⟨⟨2007, 206⟩, ⟨337, 0⟩⟩ : NaiveDateTime) = d := by
      rw [← Option.some.injEq, ← h1]; decide +kernel
    exact this.symm
  have hid : memBytes (srgbHead ++ rest) 84 16 = srgbExpected.profileId.id8 := by
    apply Vector.toList_inj.mp
    have e : (memBytes (srgbHead ++ rest) 84 16).toList = at_ (srgbHead ++ rest) 84 16 := by
      have := hs
      unfold goodProfile onFile withTable filled at this
      rw [headerOf_eq t _ (by omega)] at this
      exact this
    rw [e, at_append _ _ _ _ (show 84 + 16 ≤ 240 by omega)]
    decide +kernel
  rw [hd, hid]
  simp only [Profile.mk.injEq, Profile.setHeader, srgbExpected, Profile.new]
  decide +kernel

/-- The date of `expected` is `NaiveDate::from_ymd(2007, 07, 25).and_hms(0, 5, 37)`. -/
example : srgbExpected.created.date.year = 2007 ∧ srgbExpected.created.date.month = 7 ∧
    srgbExpected.created.date.day = 25 ∧ srgbExpected.created.time.hour = 0 ∧
    srgbExpected.created.time.minute = 5 ∧ srgbExpected.created.time.second = 37 := by decide +kernel

/-- A file system in which the theorem applies. -/
example : ∃ fs : FS, fs.mayRead "x".toList = none ∧
    fs.files "x".toList = some (srgbHead ++ List.replicate 60720 7) ∧ (List.replicate 60720 (7 : UInt8)).length = 60720 :=
  ⟨⟨fun _ => some (srgbHead ++ List.replicate 60720 7), fun _ => none, fun _ => none⟩, rfl, rfl, List.length_replicate ..⟩

/-- **C96** In a build with `use_little_endian` the same test fails, whatever follows the first 240 bytes: the
signature is not recognised. -/
theorem C96_reference_file_little (t : Target) (hle : t.leFeature = true) (env : Handlers) (now : NaiveDateTime)
    (sched : List OsResp) (ctx : CState) (fs : FS) (path : Path) (rest : List UInt8)
    (hret : HandlerReturns env ctx) (hr : rest.length < 2 ^ 62)
    (hmay : fs.mayRead path = none) (hfile : fs.files path = some (srgbHead ++ rest)) :
    (openFromFileThr t env now sched ctx fs path .read).1 = .err .invalidData := by
  have hl : (srgbHead ++ rest).length = 240 + rest.length := by rw [List.length_append]; rfl
  have hv : verdict t (srgbHead ++ rest) = .badMagic := by
    unfold verdict
    rw [hl, if_neg (by omega), if_pos]
    rw [num_append _ _ _ _ _ (show 36 + 4 ≤ 240 by omega), num_host (t' := ⟨false, true, true, true⟩) hle]
    decide +kernel
  have h := C35_open_read t env now sched ctx fs path hret (by
    intro b hb
    rw [hfile] at hb
    cases hb
    rw [hl]; omega)
  rw [hmay, hfile] at h
  simp only [hv] at h
  exact h

/-! ### The tests of src/io/file_file.rs -/

/-- One round of the seek test on the complete-transfer file. -/
theorem seek_read (t : Target) (l : List UInt8) (pos n : Nat) (w : Bool) (p : SeekFrom) (x v : UInt8)
    (h : seekTarget l.length pos p = n) (hn : n + 1 < 2 ^ 63) (hv : l[n]? = some v) (ops : List Op) (os : List Obs)
    (ih : Along (PFile.step t) Small ops ⟨l, n + 1, true, w⟩ ∧
      (runWith (PFile.step t) ops ⟨l, n + 1, true, w⟩).1 = os) :
    Along (PFile.step t) Small (.seek p :: .read [x] :: ops) ⟨l, pos, true, w⟩ ∧
      (runWith (PFile.step t) (.seek p :: .read [x] :: ops) ⟨l, pos, true, w⟩).1 = .unit :: .bytes [v] :: os := by
  have h1 : PFile.step t (.seek p) ⟨l, pos, true, w⟩ = (.unit, some ⟨l, n, true, w⟩) := by
    simp only [PFile.step, h]
    rw [if_pos (by omega)]
    rfl
  have hd : (l.drop n).take 1 = [v] := by
    obtain ⟨hlt, e⟩ := List.getElem?_eq_some_iff.mp hv
    rw [List.drop_eq_getElem_cons hlt, e]
    rfl
  have h2 : PFile.step t (.read [x]) ⟨l, n, true, w⟩ = (.bytes [v], some ⟨l, n + 1, true, w⟩) := by
    simp [PFile.step, hd]
  refine ⟨⟨_, _, h1, trivial, _, _, h2, hn, ih.1⟩, ?_⟩
  simp only [runWith, h1, h2, ih.2]

/-- **C96** `test_file_seeks_to_the_correct_location` (src/io/file_file.rs:97-143) for any five bytes and any
transfer schedule. -/
theorem C96_seek_test (t : Target) (a b c d e x : UInt8) (w : Bool) (sched : List OsResp) :
    (runWith (hstep (OsFile.handler t))
      [.seek (.end_ (-1)), .read [x], .seek (.start 0), .read [x], .seek (.current 2), .read [x],
       .seek (.start 2), .read [x], .seek (.current (-2)), .read [x], .seek (.start 4), .read [x],
       .seek (.end_ (-5)), .read [x]]
      ⟨[a, b, c, d, e], 0, true, w, sched⟩).1 =
    [.unit, .bytes [e], .unit, .bytes [a], .unit, .bytes [d], .unit, .bytes [c], .unit, .bytes [b],
     .unit, .bytes [e], .unit, .bytes [a]] := by
  have h : Along (PFile.step t) Small _ ⟨[a, b, c, d, e], 0, true, w⟩ ∧ _ :=
    seek_read t _ 0 4 w (.end_ (-1)) x e (by simp only [List.length]; decide) (by omega) rfl _ _ <|
    seek_read t _ 5 0 w (.start 0) x a (by simp only [List.length]; decide) (by omega) rfl _ _ <|
    seek_read t _ 1 3 w (.current 2) x d (by simp only [List.length]; decide) (by omega) rfl _ _ <|
    seek_read t _ 4 2 w (.start 2) x c (by simp only [List.length]; decide) (by omega) rfl _ _ <|
    seek_read t _ 3 1 w (.current (-2)) x b (by simp only [List.length]; decide) (by omega) rfl _ _ <|
    seek_read t _ 2 4 w (.start 4) x e (by simp only [List.length]; decide) (by omega) rfl _ _ <|
    seek_read t _ 5 0 w (.end_ (-5)) x a (by simp only [List.length]; decide) (by omega) rfl [] []
      ⟨trivial, rfl⟩
  have h' := C17_schedule_independent t _ ⟨[a, b, c, d, e], 0, true, w, sched⟩ (by simp) (by simp) h.1
  have h2 := h.2
  rw [h'] at h2
  dsimp only at h2
  exact h2

example : (runWith (hstep (OsFile.handler pc)) [.seek (.end_ (-1)), .read [0]]
    ⟨[42, 69, 123, 7, 255], 0, true, false, [.interrupted]⟩).1 = [.unit, .bytes [255]] := by decide +kernel

/-- What `tell` reports after each of a row of writes. -/
def sums (n : Nat) : List (List UInt8) → List Nat
  | [] => []
  | b :: bs => (n + b.length) :: sums (n + b.length) bs

/-- **C96** `test_file_tell_reports_correct_location` (src/io/file_file.rs:38-57) for any row of writes through
the handler to a new file and any transfer schedule: each write succeeds, `tell` reports the number of bytes
written so far, and the file holds the written bytes in order. -/
theorem C96_tell_test (t : Target) (bs : List (List UInt8)) (sched : List OsResp) :
    ∃ sched', runWith (hstep (OsFile.handler t)) (bs.flatMap fun b => [.write b, .tell]) ⟨[], 0, false, true, sched⟩ =
      ((sums 0 bs).flatMap (fun n => [.unit, .num (n % t.usizeMod)]),
        some ⟨bs.flatten, bs.flatten.length, false, true, sched'⟩) := by
  suffices H : ∀ (d : List UInt8) (sched : List OsResp), ∃ sched',
      runWith (hstep (OsFile.handler t)) (bs.flatMap fun b => [.write b, .tell]) ⟨d, d.length, false, true, sched⟩ =
        ((sums d.length bs).flatMap (fun n => [.unit, .num (n % t.usizeMod)]),
          some ⟨d ++ bs.flatten, (d ++ bs.flatten).length, false, true, sched'⟩) by
    exact H [] sched
  induction bs with
  | nil => intro d sched; exact ⟨sched, by simp [runWith, sums]⟩
  | cons b bs ih =>
    intro d sched
    obtain ⟨sc, h⟩ := OsFile.writeAll_eq b ⟨d, d.length, false, true, sched⟩
    have hw : ∃ sc, OsFile.writeAll b ⟨d, d.length, false, true, sched⟩ =
        .ok () ⟨d ++ b, (d ++ b).length, false, true, sc⟩ := by
      by_cases hb : b = []
      · subst hb; exact ⟨sched, by rw [h, if_pos rfl, List.append_nil]⟩
      · refine ⟨sc, ?_⟩
        rw [h, if_neg hb, if_neg (by simp)]
        simp [patch, zeros]
    obtain ⟨sc, hw⟩ := hw
    obtain ⟨sched', ih⟩ := ih (d ++ b) sc
    refine ⟨sched', ?_⟩
    have e : (OsFile.handler t).write b ⟨d, d.length, false, true, sched⟩ = _ := hw
    rw [List.append_assoc] at ih
    simp only [List.flatMap_cons, List.cons_append, List.nil_append, runWith, hstep, e, obsUnit, sums, List.flatten_cons]
    have e2 : (OsFile.handler t).tell ⟨d ++ b, (d ++ b).length, false, true, sc⟩ =
      .ok ((d ++ b).length % t.usizeMod) ⟨d ++ b, (d ++ b).length, false, true, sc⟩ := rfl
    simp only [e2, obsNum]
    rw [ih]
    simp only [List.length_append]

/-- The numbers of the test. -/
example : sums 0 [zeros 8, zeros 4, zeros 2, zeros 1] = [8, 12, 14, 15] := by decide

/-- **C96** `test_file_writes_data_to_disk` and `test_file_reads_data_from_disk` (src/io/file_file.rs:58-95) for
any bytes, file system and schedules: what is written through the handler of a created file is on disk, and
a handler on the file opened afterwards reads it back. -/
theorem C96_write_read_test (t : Target) (fs : FS) (path : Path) (buf old : List UInt8) (sc1 sc2 : List OsResp)
    (hc : fs.mayCreate path = none) (hr : fs.mayRead path = none) (hlen : old.length = buf.length) :
    ∃ f f', fs.create path sc1 = .ok f ∧ (OsFile.handler t).write buf f = .ok () f' ∧
      ∃ g g', (fs.put path f'.data).open path sc2 = .ok g ∧ (OsFile.handler t).read old g = (.ok () g', buf) := by
  obtain ⟨sc, h⟩ := OsFile.writeAll_eq buf ⟨[], 0, false, true, sc1⟩
  have hw : ∃ sc, OsFile.writeAll buf ⟨[], 0, false, true, sc1⟩ = .ok () ⟨buf, buf.length, false, true, sc⟩ := by
    by_cases hb : buf = []
    · subst hb; exact ⟨sc1, by rw [h, if_pos rfl]; rfl⟩
    · refine ⟨sc, ?_⟩
      rw [h, if_neg hb, if_neg (by simp)]
      simp [patch, zeros]
  obtain ⟨sc, hw⟩ := hw
  refine ⟨_, _, by unfold FS.create; rw [hc], hw, ⟨buf, 0, true, false, sc2⟩, ?_⟩
  obtain ⟨sc', h⟩ := OsFile.readExact_eq old ⟨buf, 0, true, false, sc2⟩
  by_cases hb : old = []
  · subst hb
    have : buf = [] := List.eq_nil_of_length_eq_zero hlen.symm
    subst this
    refine ⟨_, ?_, h.trans (by rw [if_pos rfl])⟩
    simp [FS.open, FS.put, hr]
  · refine ⟨⟨buf, buf.length, true, false, sc'⟩, by simp [FS.open, FS.put, hr], h.trans ?_⟩
    rw [if_neg hb, if_neg (by simp)]
    simp [OsFile.readDone, hlen]

example : ∃ fs : FS, fs.mayCreate "f".toList = none ∧ fs.mayRead "f".toList = none :=
  ⟨⟨fun _ => none, fun _ => none, fun _ => none⟩, rfl, rfl⟩

end Lcms.Props
