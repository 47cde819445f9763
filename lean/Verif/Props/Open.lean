import Verif.Lemmas.Open
import Verif.Spec.Target

/-! # Properties C35–C45, C51: opening a profile -/

namespace Lcms.Props

open Lcms.Spec

/-! ### Sample files -/

/-- Four bytes, most significant first. -/
def be4 (n : Nat) : List Byte :=
  [UInt8.ofNat (n / 16777216), UInt8.ofNat (n / 65536), UInt8.ofNat (n / 256), UInt8.ofNat n]

/-- A profile file: size field, date bytes, tag count, directory lines (name, offset, size) and the rest. -/
def sample (size : Nat) (date : List Byte) (count : Nat) (lines : List (Nat × Nat × Nat)) (rest : List Byte) :
    List Byte :=
  be4 size ++ zeros 4 ++ be4 0x04200000 ++ be4 0x6D6E7472 ++ be4 0x52474220 ++ be4 0x58595A20 ++ date ++
    be4 0x61637370 ++ zeros 88 ++ be4 count ++
    (lines.flatMap fun l => be4 l.1 ++ be4 l.2.1 ++ be4 l.2.2) ++ rest

/-- 2007-07-25 00:05:37 -/
def goodDate : List Byte := [0x07, 0xD7, 0, 7, 0, 25, 0, 0, 0, 5, 0, 37]

/-- A good file with three lines: `desc`, one out of range, `wtpt`. -/
def goodFile : List Byte :=
  sample 180 goodDate 3 [(0x64657363, 168, 4), (0x41324230, 176, 5), (0x77747074, 172, 8)] (zeros 12)

/-- A file system with one readable file. -/
def oneFile (path : Path) (b : List Byte) : FS :=
  ⟨fun q => if q = path then some b else none, fun _ => none, fun _ => none⟩

theorem oneFile_files (path : Path) (b : List Byte) : (oneFile path b).files path = some b := by
  simp [oneFile]

/-- A handler that returns. -/
def quiet : Handlers := fun _ c _ _ => .returns c

/-- 2026-11-16 12:00:00 -/
def noon : NaiveDateTime := ⟨⟨2026, 320⟩, ⟨43200, 0⟩⟩

/-- A new context without signalled errors. -/
def ctx0 : CState := ⟨Context.new none, []⟩

/-! ### C35 -/

/-- The installed handler returns whatever it is told. -/
def HandlerReturns (env : Handlers) (c : CState) : Prop :=
  ∀ code text, ∃ c', callHandler env c.ctx.errorHandler c.ctx code text = .returns c'

/-- **C35**: `open_from_file_thr(Read)` returns what the ICC rules say about the content of the file — the
described profile or the prescribed failure — for every content, every read schedule of the OS, every clock
value, every target; a path the OS refuses to open gives the OS's error.  (`hlen`: file sizes fit `off_t`.) -/
theorem C35_open_read (t : Target) (env : Handlers) (now : NaiveDateTime) (sched : List OsResp) (ctx : CState)
    (fs : FS) (path : Path) (hret : HandlerReturns env ctx)
    (hlen : ∀ b, fs.files path = some b → b.length < 9223372036854775808) :
    let r := (openFromFileThr t env now sched ctx fs path .read).1
    match fs.mayRead path, fs.files path with
    | some e, _ => r = .err e
    | none, none => r = .err .notFound
    | none, some b =>
      match verdict t b with
      | .short => r = .err .unexpectedEof
      | .badMagic => r = .err .invalidData
      | .badDate => r = .panic
      | .tooMany _ => r = .err .invalidData
      | .overflow => r = .panic
      | .table es => ∃ p, r = .ok p ∧ Describes t b es p := by
  intro r
  cases hmay : fs.mayRead path with
  | some e =>
    simp only [r, openFromFileThr, FS.open, hmay]
  | none =>
    cases hfile : fs.files path with
    | none => simp only [r, openFromFileThr, FS.open, hmay, hfile]
    | some b =>
      have ho := openRead_eq t env now sched ctx fs path b (hlen b hfile) hmay hfile
      have hs : ∀ code text, ∃ c', signalError env code text ctx = .done () c' := by
        intro code text
        obtain ⟨c', h⟩ := hret code text
        unfold signalError
        rw [h]
        exact ⟨_, rfl⟩
      unfold outcome at ho
      simp only
      cases hv : verdict t b with
      | short => rw [hv] at ho; simp only at ho ⊢; simp only [r, ho]
      | badMagic =>
        rw [hv] at ho; simp only at ho ⊢
        obtain ⟨c', h⟩ := hs .badSignature "not an ICC profile, invalid signature".toList
        rw [h] at ho
        simp only [r, ho]
      | badDate => rw [hv] at ho; simp only at ho ⊢; simp only [r, ho]
      | tooMany n =>
        rw [hv] at ho; simp only at ho ⊢
        obtain ⟨c', h⟩ := hs .range ("Too many tags ".toList ++ decimal n)
        rw [h] at ho
        simp only [r, ho]
      | overflow => rw [hv] at ho; simp only at ho ⊢; simp only [r, ho]
      | table es =>
        rw [hv] at ho; simp only at ho ⊢
        obtain ⟨⟨d, f, h1, h2, h3, h4, h5⟩, -⟩ := ho
        have hes := (verdict_table hv).2.2.2.2.1
        subst hes
        exact ⟨_, h5, good_describes hv now d f h2 h3 h4 h1⟩

/-- The sample file is a good one, with two tags. -/
example : verdict pc goodFile = .table [⟨0x64657363, 168, 4⟩, ⟨0x77747074, 172, 8⟩] := by decide +kernel

/-- And truncating it anywhere in the directory makes it too short. -/
example : verdict pc (goodFile.take 150) = .short := by decide +kernel

/-! ### C36 -/

/-- **C36**: every tag of an opened profile ends, in unbounded arithmetic, at or before both the size in the
header and the end of the file. -/
theorem C36_tags_inside (t : Target) (env : Handlers) (now : NaiveDateTime) (sched : List OsResp) (ctx : CState)
    (fs : FS) (path : Path) (b : List Byte) (hlen : b.length < 9223372036854775808)
    (hfile : fs.files path = some b) (p : Profile)
    (h : (openFromFileThr t env now sched ctx fs path .read).1 = .ok p) (i : Nat) (hi : i < p.getTagCount) :
    ∃ o z, p.tagOffsets[i]? = some o ∧ p.tagSizes[i]? = some z ∧ o + z ≤ num t b 0 4 ∧ o + z ≤ b.length := by
  obtain ⟨d, f, hv, -, -, -, -, rfl⟩ := openRead_ok hlen hfile h
  have hi' : i < (kept t b).length := hi
  refine ⟨(kept t b)[i].offset, (kept t b)[i].size, ?_, ?_, ?_⟩
  · rw [offsets_get t b now d f hv, if_pos hi', List.getElem?_eq_getElem hi']; rfl
  · rw [sizes_get t b now d f hv, if_pos hi', List.getElem?_eq_getElem hi']; rfl
  · have hm : (kept t b)[i] ∈ kept t b := List.getElem_mem hi'
    generalize (kept t b)[i] = e at hm
    unfold kept at hm
    rw [List.mem_filter] at hm
    have hle : e.offset + e.size ≤ limit t b := by simpa using hm.2
    have h1 : limit t b ≤ num t b 0 4 := Nat.min_le_left _ _
    have h2 : limit t b ≤ b.length := (Nat.min_le_right _ _).trans (Nat.mod_le _ _)
    exact ⟨hle.trans h1, hle.trans h2⟩

/-! ### C37 -/

/-- The in-range lines of the directory, in order. -/
def inRange (t : Target) (b : List Byte) : List Entry :=
  ((List.range (num t b 128 4)).map (entry t b)).filter fun e =>
    e.offset + e.size ≤ num t b 0 4 ∧ e.offset + e.size ≤ b.length

/-- An opened profile lists exactly the in-range lines, in directory order. -/
def C37_statement : Prop :=
  ∀ (t : Target) (env : Handlers) (now : NaiveDateTime) (sched : List OsResp) (ctx : CState)
    (fs : FS) (path : Path) (b : List Byte) (_ : b.length < 9223372036854775808)
    (_ : fs.files path = some b) (p : Profile)
    (_ : (openFromFileThr t env now sched ctx fs path .read).1 = .ok p),
    listed p = (inRange t b).map fun e => (some e.name, some e.offset, some e.size)

theorem inRange_eq_kept (t : Target) (b : List Byte) (h : b.length < t.usizeMod) : inRange t b = kept t b := by
  unfold inRange kept limit
  rw [Nat.mod_eq_of_lt h]
  apply List.filter_congr
  intro e _
  simp only [decide_eq_decide]
  omega

/-- **C37**, the part that holds: whenever the file length fits a `usize` (always on 64-bit hosts), an opened
profile lists exactly the in-range directory lines, in directory order. -/
theorem C37_table_partial (t : Target) (env : Handlers) (now : NaiveDateTime) (sched : List OsResp)
    (ctx : CState) (fs : FS) (path : Path) (b : List Byte) (hlen : b.length < 9223372036854775808)
    (hus : b.length < t.usizeMod) (hfile : fs.files path = some b) (p : Profile)
    (h : (openFromFileThr t env now sched ctx fs path .read).1 = .ok p) :
    listed p = (inRange t b).map fun e => (some e.name, some e.offset, some e.size) := by
  obtain ⟨d, f, hv, -, -, -, -, rfl⟩ := openRead_ok hlen hfile h
  rw [listed_good t b now d f hv, inRange_eq_kept t b hus]

/-- The first 144 bytes of a file with one line. -/
def hugeHead : List Byte := sample 200 goodDate 1 [(0x64657363, 150, 4)] []

/-- A 32-bit host. -/
def pc32 : Target := ⟨false, false, false, true⟩

/-- Files of 4 GiB with that head, read on a 32-bit host. -/
theorem huge_verdict (tl b : List Byte) (hb : b = hugeHead ++ tl) (hl : b.length = 4294967296) :
    verdict pc32 b = .table [] ∧ inRange pc32 b = [⟨0x64657363, 150, 4⟩] := by
  have hn : ∀ o n, o + n ≤ 144 → num pc32 b o n = num pc32 hugeHead o n := by
    intro o n h
    rw [hb]
    have : hugeHead.length = 144 := by decide +kernel
    exact num_append pc32 hugeHead tl o n (by omega)
  have hdec : num pc32 b 128 4 = 1 := by rw [hn 128 4 (by omega)]; decide +kernel
  have hent : entry pc32 b 0 = ⟨0x64657363, 150, 4⟩ := by
    unfold entry
    rw [hn _ _ (by omega), hn _ _ (by omega), hn _ _ (by omega)]
    decide +kernel
  have hsize : num pc32 b 0 4 = 200 := by rw [hn 0 4 (by omega)]; decide +kernel
  have hmod : pc32.usizeMod = 4294967296 := by decide +kernel
  constructor
  · have hdate : DateOk pc32 b := by
      unfold DateOk
      rw [hn 24 2 (by omega), hn 26 2 (by omega), hn 28 2 (by omega), hn 30 2 (by omega), hn 32 2 (by omega),
        hn 34 2 (by omega)]
      decide +kernel
    have hmag : num pc32 b 36 4 = acsp := by rw [hn 36 4 (by omega)]; decide +kernel
    have hpres : 1 ≤ present b := by unfold present; rw [hl]; norm_num
    have hov : ¬ Overflows pc32 b := by
      rintro ⟨i, hi, h⟩
      unfold declared at hi
      rw [hdec] at hi
      have : i = 0 := by omega
      subst this
      rw [hent] at h
      norm_num at h
    have hk : kept pc32 b = [] := by
      unfold kept limit declared
      rw [hdec, hl, hmod]
      simp [hent]
    unfold verdict declared
    rw [if_neg (by rw [hl]; norm_num), if_neg (not_not_intro hmag), if_neg (not_not_intro hdate),
      if_neg (by rw [hl]; norm_num), if_neg (by rw [hdec]; norm_num), if_neg (fun h => hov h.2),
      if_neg (by rw [hdec]; omega), hk]
  · unfold inRange
    rw [hdec, hsize, hl]
    simp [hent]

/-- **C37** is violated on 32-bit hosts: `stream_position()? as usize` truncates the length of a 4 GiB file to
0, so an in-range tag is dropped. -/
theorem C37_refuted : ¬ C37_statement := by
  intro h
  obtain ⟨tl, htl⟩ : ∃ tl : List Byte, tl.length = 4294967152 := ⟨List.replicate _ 0, List.length_replicate⟩
  obtain ⟨b, hb⟩ : ∃ b, b = hugeHead ++ tl := ⟨_, rfl⟩
  have hl : b.length = 4294967296 := by
    have h : hugeHead.length = 144 := by decide +kernel
    rw [hb, List.length_append, htl, h]
  have hv := huge_verdict tl b hb hl
  have hlen : b.length < 9223372036854775808 := by rw [hl]; norm_num
  have hfile : (oneFile [] b).files [] = some b := oneFile_files _ _
  have ho := openRead_eq pc32 quiet noon [] ctx0 (oneFile [] b) [] b hlen rfl hfile
  rw [hv.1] at ho
  obtain ⟨⟨d, f, h1, h2, h3, h4, h5⟩, -⟩ := ho
  have := h pc32 quiet noon [] ctx0 (oneFile [] b) [] b hlen hfile _ h5
  have hk := (verdict_table hv.1).2.2.2.2.1
  rw [listed_good pc32 b noon d f (by rw [← hk]; exact hv.1), ← hk, hv.2] at this
  cases this

example : inRange pc goodFile = [⟨0x64657363, 168, 4⟩, ⟨0x77747074, 172, 8⟩] := by decide +kernel

/-! ### C38 -/

/-- **C38**: an opened profile has at most 100 tags, at most as many as its directory declares, its five tag
arrays have 100 cells; a declaration of more than 100 is never accepted; and the only panics during opening
are a non-existent date, the sum of a tag's offset and size, and the handler's own: never an index. -/
theorem C38_tag_count (t : Target) (env : Handlers) (now : NaiveDateTime) (sched : List OsResp) (ctx : CState)
    (fs : FS) (path : Path) (b : List Byte) (hlen : b.length < 9223372036854775808)
    (hfile : fs.files path = some b) :
    let r := (openFromFileThr t env now sched ctx fs path .read).1
    (∀ p, r = .ok p → p.getTagCount ≤ 100 ∧ p.getTagCount ≤ num t b 128 4 ∧ num t b 128 4 ≤ 100 ∧
      p.tagNames.length = 100 ∧ p.tagLinked.length = 100 ∧ p.tagSizes.length = 100 ∧
      p.tagOffsets.length = 100 ∧ p.tagSaveAsRaw.length = 100) ∧
    (r = .panic → ¬ DateOk t b ∨ (t.checks = true ∧ Overflows t b) ∨
      ∃ code text c', callHandler env ctx.ctx.errorHandler ctx.ctx code text = .panics c') := by
  intro r
  constructor
  · intro p hp
    obtain ⟨d, f, hv, -, -, -, -, rfl⟩ := openRead_ok hlen hfile hp
    have h := verdict_table hv
    have hk := kept_length t b
    have h100 := kept_100 hv
    refine ⟨h100, hk, h.2.2.1, column_length _ _ (by simpa using h100),
      column_length _ _ (by rw [linkCol_length]; exact h100), column_length _ _ (by simpa using h100),
      column_length _ _ (by simpa using h100), List.length_replicate⟩
  · intro hp
    cases hmay : fs.mayRead path with
    | some e =>
      exfalso
      simp only [r, openFromFileThr, FS.open, hmay] at hp
      cases hp
    | none =>
      have ho := openRead_eq t env now sched ctx fs path b hlen hmay hfile
      have hs : ∀ code text c', signalError env code text ctx = .panic c' →
          ∃ c', callHandler env ctx.ctx.errorHandler ctx.ctx code text = .panics c' := by
        intro code text c' h
        unfold signalError at h
        split at h
        · exact ⟨_, by assumption⟩
        · cases h
      unfold outcome at ho
      cases hv : verdict t b with
      | short => rw [hv] at ho; simp only at ho; simp only [r, ho] at hp; cases hp
      | badMagic =>
        rw [hv] at ho; simp only at ho; simp only [r, ho] at hp
        split at hp
        · cases hp
        · rename_i heq; exact Or.inr (Or.inr ⟨_, _, hs _ _ _ heq⟩)
      | badDate =>
        left
        unfold verdict at hv
        split at hv
        · cases hv
        split at hv
        · cases hv
        split at hv
        · assumption
        split at hv
        · cases hv
        split at hv
        · cases hv
        split at hv
        · cases hv
        split at hv <;> cases hv
      | tooMany n =>
        rw [hv] at ho; simp only at ho; simp only [r, ho] at hp
        split at hp
        · cases hp
        · rename_i heq; exact Or.inr (Or.inr ⟨_, _, hs _ _ _ heq⟩)
      | overflow =>
        right; left
        unfold verdict at hv
        split at hv
        · cases hv
        split at hv
        · cases hv
        split at hv
        · cases hv
        split at hv
        · cases hv
        split at hv
        · cases hv
        split at hv
        · assumption
        split at hv <;> cases hv
      | table es =>
        rw [hv] at ho; simp only at ho
        obtain ⟨⟨d, f, h1, h2, h3, h4, h5⟩, -⟩ := ho
        simp only [r, h5] at hp
        cases hp

/-- 101 declared tags are refused, however many there are. -/
example : verdict pc (sample 5000 goodDate 101 (List.replicate 101 (1, 0, 0)) []) = .tooMany 101 := by
  decide +kernel

/-! ### C39 -/

/-- `get_tag_signature(n)` is the signature of the `n`-th tag, or the default one if there is none. -/
def C39_statement : Prop :=
  ∀ (t : Target) (env : Handlers) (now : NaiveDateTime) (sched : List OsResp) (ctx : CState)
    (fs : FS) (path : Path) (b : List Byte) (_ : b.length < 9223372036854775808)
    (_ : fs.files path = some b) (p : Profile)
    (_ : (openFromFileThr t env now sched ctx fs path .read).1 = .ok p) (n : Nat),
    p.getTagSignature n = some (if h : n < (kept t b).length then ⟨UInt32.ofNat (kept t b)[n].name⟩ else ⟨0x20202020⟩)

/-- **C39**, the part that holds: everywhere except for `n = 100` on a profile with 100 tags. -/
theorem C39_tag_signature_partial (t : Target) (env : Handlers) (now : NaiveDateTime) (sched : List OsResp)
    (ctx : CState) (fs : FS) (path : Path) (b : List Byte) (hlen : b.length < 9223372036854775808)
    (hfile : fs.files path = some b) (p : Profile)
    (h : (openFromFileThr t env now sched ctx fs path .read).1 = .ok p) (n : Nat)
    (hn : ¬ (n = 100 ∧ p.getTagCount = 100)) :
    p.getTagSignature n =
      some (if h : n < (kept t b).length then ⟨UInt32.ofNat (kept t b)[n].name⟩ else ⟨0x20202020⟩) := by
  obtain ⟨d, f, hv, -, -, -, -, rfl⟩ := openRead_ok hlen hfile h
  have hc : (goodProfile t b now d f).tagCount = (kept t b).length := rfl
  have h100 := kept_100 hv
  have hdef : Signature.default = ⟨0x20202020⟩ := by decide
  unfold Profile.getTagSignature
  rw [hc]
  have hn' : ¬ (n = 100 ∧ (kept t b).length = 100) := hn
  by_cases h1 : n > (kept t b).length
  · rw [if_pos h1, dif_neg (by omega), hdef]
  · rw [if_neg h1, names_get t b now d f hv]
    by_cases h2 : n < (kept t b).length
    · rw [if_pos h2, dif_pos h2, List.getElem?_eq_getElem h2]; rfl
    · rw [if_neg h2, if_pos (by omega), dif_neg h2, hdef]

/-- Header and tag count of a file with 100 tags. -/
def fullHead : List Byte := sample 1332 goodDate 100 [] []

/-- A file with 100 empty tags. -/
theorem full_exists : ∃ b, verdict pc b = .table (kept pc b) ∧ (kept pc b).length = 100 ∧
    b.length < 9223372036854775808 := by
  have hl : fullHead.length = 132 := by decide +kernel
  have hfacts : num pc fullHead 36 4 = acsp ∧ DateOk pc fullHead ∧ num pc fullHead 128 4 = 100 := by
    decide +kernel
  have hn : ∀ o n, o + n ≤ 132 → num pc (fullHead ++ List.replicate 1200 0) o n = num pc fullHead o n := by
    intro o n h
    exact num_append pc fullHead _ o n (by omega)
  have he : ∀ i, entry pc (fullHead ++ List.replicate 1200 0) i = ⟨0, 0, 0⟩ := by
    have hz : ∀ o, 132 ≤ o → num pc (fullHead ++ List.replicate 1200 0) o 4 = 0 := by
      intro o ho
      have : at_ (fullHead ++ List.replicate 1200 0) o 4 = [0, 0, 0, 0] := by
        have hg : ∀ k, 132 ≤ k → (fullHead ++ List.replicate 1200 (0 : Byte)).getD k 0 = 0 := by
          intro k hk
          rw [List.getD_eq_getElem?_getD, List.getElem?_append_right (by omega), List.getElem?_replicate]
          split <;> rfl
        have : List.range 4 = [0, 1, 2, 3] := by decide
        unfold at_
        rw [this]
        simp only [List.map_cons, List.map_nil]
        rw [hg _ (by omega), hg _ (by omega), hg _ (by omega), hg _ (by omega)]
      unfold num
      rw [this]
      decide
    intro i
    unfold entry
    rw [hz _ (by omega), hz _ (by omega), hz _ (by omega)]
  have hlen : (fullHead ++ List.replicate 1200 (0 : Byte)).length = 1332 := by
    rw [List.length_append, List.length_replicate, hl]
  generalize fullHead ++ List.replicate 1200 (0 : Byte) = b at hn he hlen
  have hdec : declared pc b = 100 := (hn 128 4 (by omega)).trans hfacts.2.2
  have hdate : DateOk pc b := by
    have := hfacts.2.1
    unfold DateOk at this ⊢
    rwa [hn 24 2 (by omega), hn 26 2 (by omega), hn 28 2 (by omega), hn 30 2 (by omega), hn 32 2 (by omega),
      hn 34 2 (by omega)]
  have hmag : num pc b 36 4 = acsp := (hn 36 4 (by omega)).trans hfacts.1
  have hov : ¬ Overflows pc b := by
    rintro ⟨i, hi, h⟩
    rw [he] at h
    norm_num at h
  refine ⟨b, ?_, ?_, by omega⟩
  · unfold verdict
    rw [if_neg (by omega), if_neg (not_not_intro hmag), if_neg (not_not_intro hdate), if_neg (by omega),
      if_neg (by omega), if_neg (fun h => hov h.2), if_neg (by unfold present; omega)]
  · unfold kept
    rw [hdec, List.filter_eq_self.mpr]
    · simp
    · intro e hm
      rw [List.mem_map] at hm
      obtain ⟨i, -, rfl⟩ := hm
      rw [he]
      simp

/-- **C39** is violated: on a profile with 100 tags `get_tag_signature(100)` panics. -/
theorem C39_refuted : ¬ C39_statement := by
  intro h
  obtain ⟨b, hv, hl, hlen⟩ : ∃ b, verdict pc b = .table (kept pc b) ∧ (kept pc b).length = 100 ∧
      b.length < 9223372036854775808 := full_exists
  have hfile : (oneFile [] b).files [] = some b := oneFile_files _ _
  have ho := openRead_eq pc quiet noon [] ctx0 (oneFile [] b) [] b hlen rfl hfile
  rw [hv] at ho
  obtain ⟨⟨d, f, h1, h2, h3, h4, h5⟩, -⟩ := ho
  have h' := h pc quiet noon [] ctx0 (oneFile [] b) [] b hlen hfile _ h5 100
  unfold Profile.getTagSignature at h'
  have hc : (goodProfile pc b noon d f).tagCount = 100 := hl
  rw [hc, if_neg (by omega), names_get pc b noon d f hv, if_neg (by omega), if_neg (by omega)] at h'
  cases h'

/-! ### C40 -/

/-- The one error signalled about a file, if any. -/
def signalled : Verdict → List Signal
  | .badMagic => [⟨.badSignature, "not an ICC profile, invalid signature".toList⟩]
  | .tooMany n => [⟨.range, s!"Too many tags {n}".toList⟩]
  | _ => []

/-- **C40**: opening signals exactly the error called for by the content (a wrong magic, or more than 100
declared tags), once, whatever handler is installed; a path that cannot be opened signals nothing. -/
theorem C40_signals (t : Target) (env : Handlers) (now : NaiveDateTime) (sched : List OsResp) (ctx : CState)
    (fs : FS) (path : Path) (hlen : ∀ b, fs.files path = some b → b.length < 9223372036854775808) :
    let r := openFromFileThr t env now sched ctx fs path .read
    r.2.1.trace = ctx.trace ++
      match fs.mayRead path, fs.files path with
      | none, some b => signalled (verdict t b)
      | _, _ => [] := by
  intro r
  cases hmay : fs.mayRead path with
  | some e => simp only [r, openFromFileThr, FS.open, hmay, List.append_nil]
  | none =>
    cases hfile : fs.files path with
    | none => simp only [r, openFromFileThr, FS.open, hmay, hfile, List.append_nil]
    | some b =>
      have ho := openRead_eq t env now sched ctx fs path b (hlen b hfile) hmay hfile
      have hs : ∀ code text, match signalError env code text ctx with
          | .done () c' => c'.trace = ctx.trace ++ [⟨code, text⟩]
          | .panic c' => c'.trace = ctx.trace ++ [⟨code, text⟩] := by
        intro code text
        unfold signalError
        cases callHandler env ctx.ctx.errorHandler ctx.ctx code text <;> rfl
      unfold outcome at ho
      cases hv : verdict t b with
      | short => rw [hv] at ho; simp only at ho ⊢; simp only [r, ho, hv, signalled, List.append_nil]
      | badMagic =>
        rw [hv] at ho; simp only at ho ⊢
        have := hs .badSignature "not an ICC profile, invalid signature".toList
        cases hc : signalError env .badSignature "not an ICC profile, invalid signature".toList ctx <;>
          rw [hc] at ho this <;> simp only [r, ho, hv, signalled] <;> exact this
      | badDate => rw [hv] at ho; simp only at ho ⊢; simp only [r, ho, hv, signalled, List.append_nil]
      | tooMany n =>
        rw [hv] at ho; simp only at ho ⊢
        have := hs .range ("Too many tags ".toList ++ decimal n)
        have et : (s!"Too many tags {n}").toList = "Too many tags ".toList ++ decimal n := by
          simp [toString, String.toList_append, decimal, Nat.repr]
        cases hc : signalError env .range ("Too many tags ".toList ++ decimal n) ctx <;>
          rw [hc] at ho this <;> simp only [r, ho, hv, signalled, et] <;> exact this
      | overflow => rw [hv] at ho; simp only at ho ⊢; simp only [r, ho, hv, signalled, List.append_nil]
      | table es =>
        rw [hv] at ho; simp only at ho ⊢
        simp only [r, ho.2, hv, signalled, List.append_nil]

example : signalled (verdict pc (sample 5000 goodDate 300 [] [])) = [⟨.range, "Too many tags 300".toList⟩] := by
  decide +kernel

/-! ### C41 -/

/-- Opening never panics (with a handler that does not). -/
def C41_statement : Prop :=
  ∀ (t : Target) (env : Handlers) (now : NaiveDateTime) (sched : List OsResp) (ctx : CState)
    (fs : FS) (path : Path) (mode : AccessMode),
    (∀ b, fs.files path = some b → b.length < 9223372036854775808) → HandlerReturns env ctx →
    (openFromFileThr t env now sched ctx fs path mode).1 ≠ .panic

/-- A file whose creation month is 0. -/
def badDateFile : List Byte := sample 180 (zeros 12) 0 [] []

/-- A file with a tag whose end does not fit 32 bits. -/
def overflowFile : List Byte := sample 180 goodDate 1 [(0x64657363, 0xFFFFFFFF, 1)] []

theorem badDateFile_verdict : verdict pc badDateFile = .badDate := by decide +kernel

theorem badDateFile_length : badDateFile.length = 132 := by decide +kernel

/-- **C41** is violated: an all-zero date panics, in every build. -/
theorem C41_refuted : ¬ C41_statement := by
  intro h
  obtain ⟨b, hv, hlen⟩ : ∃ b, verdict pc b = .badDate ∧ b.length < 9223372036854775808 :=
    ⟨badDateFile, badDateFile_verdict, by rw [badDateFile_length]; norm_num⟩
  have hfile : (oneFile [] b).files [] = some b := oneFile_files _ _
  have ho := openRead_eq pc quiet noon [] ctx0 (oneFile [] b) [] b hlen rfl hfile
  rw [hv] at ho
  refine h pc quiet noon [] ctx0 (oneFile [] b) [] .read ?_ (fun _ _ => ⟨_, rfl⟩) (by
    rw [show openFromFileThr pc quiet noon [] ctx0 (oneFile [] b) [] .read = _ from ho])
  intro b' hb
  rw [hfile] at hb
  cases hb
  exact hlen

/-- Opening a write-only file: the first read fails. -/
theorem openWrite_eq (t : Target) (env : Handlers) (now : NaiveDateTime) (sched : List OsResp) (ctx : CState)
    (fs : FS) (path : Path) :
    openFromFileThr t env now sched ctx fs path .write =
      match fs.mayCreate path with
      | some e => (.err e, ctx, fs)
      | none => (.err .badFd, ctx, fs.put path []) := by
  cases hm : fs.mayCreate path with
  | some e => simp only [openFromFileThr, FS.create, hm]
  | none =>
    simp only [openFromFileThr, FS.create, hm]
    obtain ⟨sc, hr⟩ := OsFile.readExact_eq (zeros 128)
      { data := [], pos := 0, readable := false, writable := true, sched := sched }
    rw [if_neg (by decide), if_pos rfl] at hr
    have hb : readBuf (OsFile.handler t) 128
        { data := [], pos := 0, readable := false, writable := true, sched := sched } =
        .err .badFd { data := [], pos := 0, readable := false, writable := true, sched := sched } := by
      unfold readBuf
      have : (OsFile.handler t).read = OsFile.readExact := rfl
      rw [this, hr]
    have hio : PM.onIo (readBuf (OsFile.handler t) 128)
        ⟨{ (Profile.new now : Profile) with
            io := some { data := [], pos := 0, readable := false, writable := true, sched := sched }
            isWrite := true }, ctx⟩ =
        .err .badFd ⟨{ (Profile.new now : Profile) with
            io := some { data := [], pos := 0, readable := false, writable := true, sched := sched }
            isWrite := true }, ctx⟩ := by
      unfold PM.onIo
      simp only [hb]
    unfold finishOpen Profile.readHeaderThr
    simp only
    rw [Profile.readHeaderIo, PM.bind_apply, hio]
    rfl

/-- **C41**, the part that holds: opening (in either mode) panics only on a file whose creation date does not
exist, on a directory line whose end does not fit 32 bits in a build with overflow checks, or when the
handler does.  -/
theorem C41_no_panic_partial (t : Target) (env : Handlers) (now : NaiveDateTime) (sched : List OsResp)
    (ctx : CState) (fs : FS) (path : Path) (mode : AccessMode)
    (hlen : ∀ b, fs.files path = some b → b.length < 9223372036854775808) (hret : HandlerReturns env ctx)
    (hdate : ∀ b, fs.files path = some b → DateOk t b)
    (hov : ∀ b, fs.files path = some b → t.checks = true → ¬ Overflows t b) :
    (openFromFileThr t env now sched ctx fs path mode).1 ≠ .panic := by
  cases mode with
  | write =>
    rw [openWrite_eq]
    cases fs.mayCreate path <;> simp
  | read =>
    intro hp
    cases hfile : fs.files path with
    | none =>
      simp only [openFromFileThr, FS.open, hfile] at hp
      cases hm : fs.mayRead path <;> rw [hm] at hp <;> cases hp
    | some b =>
      rcases (C38_tag_count t env now sched ctx fs path b (hlen b hfile) hfile).2 hp with h | h | ⟨c, x, _, h⟩
      · exact h (hdate b hfile)
      · exact hov b hfile h.1 h.2
      · obtain ⟨c', h'⟩ := hret c x
        rw [h] at h'
        cases h'

/-- The other two ways to panic are real: with overflow checks this file panics, without it opens. -/
example : verdict pc overflowFile = .overflow ∧ verdict { pc with checks := false } overflowFile = .table [] := by
  decide +kernel

/-! ### C42 -/

/-- **C42**: opening for reading leaves every file as it was, whatever the outcome. -/
theorem C42_read_only (t : Target) (env : Handlers) (now : NaiveDateTime) (sched : List OsResp) (ctx : CState)
    (fs : FS) (path : Path) (hlen : ∀ b, fs.files path = some b → b.length < 9223372036854775808) (q : Path) :
    (openFromFileThr t env now sched ctx fs path .read).2.2.files q = fs.files q := by
  cases hmay : fs.mayRead path with
  | some e => simp only [openFromFileThr, FS.open, hmay]
  | none =>
    cases hfile : fs.files path with
    | none => simp only [openFromFileThr, FS.open, hmay, hfile]
    | some b =>
      have ho := openRead_eq t env now sched ctx fs path b (hlen b hfile) hmay hfile
      unfold outcome at ho
      cases hv : verdict t b with
      | short => rw [hv] at ho; simp only at ho; rw [ho]
      | badMagic => rw [hv] at ho; simp only at ho; rw [ho]; split <;> rfl
      | badDate => rw [hv] at ho; simp only at ho; rw [ho]
      | tooMany n => rw [hv] at ho; simp only at ho; rw [ho]; split <;> rfl
      | overflow => rw [hv] at ho; simp only at ho; rw [ho]
      | table es => rw [hv] at ho; simp only at ho; rw [ho.2]

/-- In contrast, opening for writing does change the file system. -/
example : (openFromFileThr pc quiet noon [] ctx0 (oneFile [] goodFile) [] .write).2.2.files [] = some [] := by
  rw [openWrite_eq]; rfl

/-! ### C43 -/

/-- Opening a creatable path for writing yields a profile in write mode. -/
def C43_statement : Prop :=
  ∀ (t : Target) (env : Handlers) (now : NaiveDateTime) (sched : List OsResp) (ctx : CState)
    (fs : FS) (path : Path), fs.mayCreate path = none →
    ∃ p, (openFromFileThr t env now sched ctx fs path .write).1 = .ok p ∧ p.isWrite = true

/-- **C43** is violated: the header is read from the freshly created, write-only file, which fails. -/
theorem C43_refuted : ¬ C43_statement := by
  intro h
  obtain ⟨p, hp, -⟩ := h pc quiet noon [] ctx0 (oneFile [] []) [] rfl
  rw [openWrite_eq] at hp
  cases hp

/-- **C43**, what happens instead: opening for writing never succeeds and never panics; a creatable path is
left as an empty file (an existing profile there is lost), every other file is untouched, nothing is
signalled; a path that cannot be created gives the OS's error and changes nothing. -/
theorem C43_open_write_partial (t : Target) (env : Handlers) (now : NaiveDateTime) (sched : List OsResp)
    (ctx : CState) (fs : FS) (path : Path) :
    let r := openFromFileThr t env now sched ctx fs path .write
    (r.1 = .err ((fs.mayCreate path).getD .badFd)) ∧ r.2.1 = ctx ∧
    ∀ q, r.2.2.files q = if fs.mayCreate path = none ∧ q = path then some [] else fs.files q := by
  intro r
  have h : r = _ := openWrite_eq t env now sched ctx fs path
  cases hm : fs.mayCreate path with
  | some e =>
    rw [hm] at h
    simp only at h
    rw [h]
    exact ⟨rfl, rfl, fun q => by simp⟩
  | none =>
    rw [hm] at h
    simp only at h
    rw [h]
    exact ⟨rfl, rfl, fun q => by simp [FS.put]⟩

/-! ### C44 -/

/-- **C44**: two successful read opens of the same content give equal profiles — at any times, on any two
hosts reading the same file byte order, with any schedules, contexts and paths.  (On a 32-bit host: for
files below 4 GiB.) -/
theorem C44_reopen (t t' : Target) (env env' : Handlers) (now now' : NaiveDateTime) (sched sched' : List OsResp)
    (ctx ctx' : CState) (fs fs' : FS) (path path' : Path) (b : List Byte)
    (hend : t.leFeature = t'.leFeature) (hlen : b.length < 9223372036854775808)
    (hus : b.length < t.usizeMod) (hus' : b.length < t'.usizeMod)
    (hfile : fs.files path = some b) (hfile' : fs'.files path' = some b) (p p' : Profile)
    (h : (openFromFileThr t env now sched ctx fs path .read).1 = .ok p)
    (h' : (openFromFileThr t' env' now' sched' ctx' fs' path' .read).1 = .ok p') :
    p.eq p' = true := by
  obtain ⟨d, f, hv, hd, -, -, -, rfl⟩ := openRead_ok hlen hfile h
  obtain ⟨d', f', hv', hd', -, -, -, rfl⟩ := openRead_ok hlen hfile' h'
  have hb : 128 ≤ b.length := by have := (verdict_table hv).1; omega
  have hh := headerOf_host hend b hb
  rw [hh, hd'] at hd
  cases hd
  exact goodProfile_eq hh (kept_host hend b hus hus') _ _ _ _ _

/-- A big-endian 32-bit host in release mode agrees with a little-endian 64-bit one. -/
example : verdict ⟨true, false, false, false⟩ goodFile = verdict pc goodFile := by decide +kernel

/-! ### C45 -/

/-- Same failure, or equal profiles. -/
def SameOutcome (r r' : Opened) : Prop :=
  match r, r' with
  | .ok p, .ok p' => p.eq p' = true
  | .err e, .err e' => e = e'
  | .panic, .panic => True
  | _, _ => False

/-- **C45**: files of equal length that agree up to the end of the directory open alike. -/
theorem C45_prefix (t : Target) (env : Handlers) (now now' : NaiveDateTime) (sched sched' : List OsResp)
    (ctx : CState) (fs fs' : FS) (path : Path) (b b' : List Byte) (hlen : b.length < 9223372036854775808)
    (hmay : fs.mayRead path = none) (hmay' : fs'.mayRead path = none)
    (hfile : fs.files path = some b) (hfile' : fs'.files path = some b') (hl : b.length = b'.length)
    (hpre : b.take (132 + 12 * num t b 128 4) = b'.take (132 + 12 * num t b 128 4)) :
    let r := openFromFileThr t env now sched ctx fs path .read
    let r' := openFromFileThr t env now' sched' ctx fs' path .read
    SameOutcome r.1 r'.1 ∧ r.2.1 = r'.2.1 := by
  intro r r'
  obtain ⟨hv, hk, hh⟩ := verdict_congr t hl hpre
  have ho := openRead_eq t env now sched ctx fs path b hlen hmay hfile
  have ho' := openRead_eq t env now' sched' ctx fs' path b' (by omega) hmay' hfile'
  rw [← hv] at ho'
  unfold outcome at ho ho'
  cases hver : verdict t b with
  | short => rw [hver] at ho ho'; simp only at ho ho'; simp only [r, r', ho, ho', SameOutcome, and_self]
  | badMagic =>
    rw [hver] at ho ho'; simp only at ho ho'
    cases hc : signalError env .badSignature "not an ICC profile, invalid signature".toList ctx <;>
      rw [hc] at ho ho' <;> simp only [r, r', ho, ho', SameOutcome, and_self]
  | badDate => rw [hver] at ho ho'; simp only at ho ho'; simp only [r, r', ho, ho', SameOutcome, and_self]
  | tooMany n =>
    rw [hver] at ho ho'; simp only at ho ho'
    cases hc : signalError env .range ("Too many tags ".toList ++ decimal n) ctx <;>
      rw [hc] at ho ho' <;> simp only [r, r', ho, ho', SameOutcome, and_self]
  | overflow => rw [hver] at ho ho'; simp only at ho ho'; simp only [r, r', ho, ho', SameOutcome, and_self]
  | table es =>
    rw [hver] at ho ho'
    obtain ⟨⟨d, f, h1, -, -, -, h5⟩, h6⟩ := ho
    obtain ⟨⟨d', f', h1', -, -, -, h5'⟩, h6'⟩ := ho'
    have hb := (verdict_table hver).1
    have hhe := hh (by omega)
    rw [hhe, h1'] at h1
    cases h1
    refine ⟨?_, by simp only [r, r', h6, h6']⟩
    simp only [r, r', h5, h5', SameOutcome]
    exact goodProfile_eq hhe hk _ _ _ _ _

/-- The sample file with different tag data. -/
example : let b' := goodFile.take 168 ++ List.replicate 12 7
    goodFile.take (132 + 12 * num pc goodFile 128 4) = b'.take (132 + 12 * num pc goodFile 128 4) ∧
      goodFile ≠ b' ∧ goodFile.length = b'.length := by decide +kernel

/-! ### C51 -/

/-- `acsp` in ASCII. -/
def acspBytes : List Byte := [0x61, 0x63, 0x73, 0x70]

theorem fileValue4_be (t : Target) (h : t.leFeature = false) (bs : List Byte) (hl : bs.length = 4) :
    fileValue t bs = acsp ↔ bs = acspBytes := by
  match bs, hl with
  | [a, b, c, d], _ =>
    unfold fileValue
    rw [h]
    have ha := a.toNat_lt; have hb := b.toNat_lt; have hc := c.toNat_lt; have hd := d.toNat_lt
    simp only [Bool.false_eq_true, if_false, msbFirst, List.foldl_cons, List.foldl_nil, acsp, acspBytes,
      List.cons.injEq, and_true, ← UInt8.toNat_inj]
    constructor
    · intro h
      refine ⟨?_, ?_, ?_, ?_⟩ <;> (show _ = _; simp only [UInt8.reduceToNat]; omega)
    · rintro ⟨h1, h2, h3, h4⟩
      rw [h1, h2, h3, h4]
      rfl

/-- **C51**: built with `use_little_endian`, the library rejects every file that starts with a
standards-conforming header, with `BadSignature`; built without, a file with a whole header is rejected with
`BadSignature` exactly if it does not have `acsp` at offset 36 — on hosts of either byte order. -/
theorem C51_standard_files (t : Target) (env : Handlers) (now : NaiveDateTime) (sched : List OsResp) (ctx : CState)
    (fs : FS) (path : Path) (b : List Byte) (hlen : b.length < 9223372036854775808)
    (hmay : fs.mayRead path = none) (hfile : fs.files path = some b) (hb : 128 ≤ b.length) :
    let r := openFromFileThr t env now sched ctx fs path .read
    let bad := r.2.1.trace = ctx.trace ++ [⟨.badSignature, "not an ICC profile, invalid signature".toList⟩]
    (t.leFeature = true → at_ b 36 4 = acspBytes → bad ∧ ∀ p, r.1 ≠ .ok p) ∧
    (t.leFeature = false → (bad ↔ at_ b 36 4 ≠ acspBytes)) := by
  intro r bad
  have hc := C40_signals t env now sched ctx fs path (fun c hc => by rw [hfile] at hc; cases hc; exact hlen)
  rw [hmay, hfile] at hc
  simp only at hc
  have hbad : bad ↔ verdict t b = .badMagic := by
    simp only [bad, r]
    rw [hc]
    constructor
    · intro h
      have h := List.append_cancel_left h
      cases hv : verdict t b with
      | badMagic => rfl
      | tooMany n => rw [hv] at h; simp [signalled] at h
      | _ => rw [hv] at h; simp [signalled] at h
    · intro h
      rw [h]; rfl
  have hvm : verdict t b = .badMagic ↔ num t b 36 4 ≠ acsp := by
    constructor
    · intro h hm
      unfold verdict at h
      rw [if_neg (by omega), if_neg (not_not_intro hm)] at h
      repeat' (split at h)
      all_goals cases h
    · intro h
      unfold verdict
      rw [if_neg (by omega), if_pos h]
  constructor
  · intro hle hac
    have hnum : num t b 36 4 ≠ acsp := by
      unfold num fileValue
      rw [hac, hle]
      decide
    refine ⟨hbad.mpr (hvm.mpr hnum), ?_⟩
    intro p hp
    obtain ⟨d, f, hv, -⟩ := openRead_ok hlen hfile hp
    exact hnum (verdict_table hv).2.2.2.2.2.1
  · intro hle
    rw [hbad, hvm, not_iff_not]
    unfold num
    exact fileValue4_be t hle _ (by simp [at_])

example : verdict { pc with leFeature := true } goodFile = .badMagic ∧
    verdict { pc with hostBig := true } goodFile ≠ .badMagic := by decide +kernel

end Lcms.Props
