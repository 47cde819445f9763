import Verif.Lemmas.Shared
import Verif.Lemmas.Mem

/-! # Lemmas: reading a header from memory, and from a failing, shared file -/

namespace Lcms

open Lcms.Spec

/-! ### Memory -/

/-- A buffer and a file with the same content at the same position. -/
structure MemFile (b : List Byte) (x : Mem) (y : OsFile) : Prop where
  mem : x.buf = b
  file : y.data = b
  pos : x.pos = y.pos
  bound : y.pos ≤ b.length
  readable : y.readable = true

theorem memFile_alike (t : Target) (h : Handler Mem) (hr : h.read = Mem.readExact) (b : List Byte) :
    Alike h (OsFile.handler t) (MemFile b) (fun _ => False) where
  readBuf := by
    intro n hn x y hR
    obtain ⟨f', d, r, w, hp, hf⟩ := readBuf_file t n hn y hR.readable
    rw [hf]
    unfold readBuf
    rw [hr]
    unfold Mem.readExact
    simp only [zeros_length, List.length_drop]
    rw [hR.mem, hR.file, hR.pos, Nat.min_eq_left hR.bound]
    have hb := hR.bound
    by_cases hc : y.pos + n ≤ b.length
    · rw [if_neg (by omega), if_pos hc]
      rw [hR.file] at hp
      exact ⟨rfl, rfl, d.trans hR.file, (hp hc).symm, by rw [hp hc]; exact hc, r⟩
    · rw [if_pos (by omega), if_neg hc]
      exact Or.inr ⟨_, rfl⟩

theorem isizeMax_lt_63 (t : Target) : t.isizeMax < 9223372036854775808 := by
  unfold Target.isizeMax Target.usizeBits
  split <;> norm_num

theorem memFile_size (t : Target) (h : Handler Mem) (hs : h.seek = Mem.seek) (ht : h.tell = Mem.tell t)
    (b : List Byte) (hb : b.length ≤ t.isizeMax) (x : Mem) (y : OsFile) (hR : MemFile b x y) :
    OutRel (MemFile b) (fun _ => False) (reportedSize h x) (reportedSize (OsFile.handler t) y) := by
  have h63 := isizeMax_lt_63 t
  have hmod := isizeMax_lt t
  have hpos : y.pos % t.usizeMod = y.pos := Nat.mod_eq_of_lt (by have := hR.bound; omega)
  rw [OsFile.reportedSize_eq t y (by rw [hR.file]; omega) (by have := hR.bound; omega)]
  rw [Props.reportedSize_mem t h x hs ht (by rw [hR.mem]; omega)]
  rw [hpos, hR.mem, hR.pos, hpos, hR.file, Nat.mod_eq_of_lt (by omega)]
  exact ⟨rfl, rfl, rfl, rfl, hR.bound, hR.readable⟩

theorem memFile_header (t : Target) (env : Handlers) (h : Handler Mem) (hh : h = Mem.vec t ∨ h = Mem.fixed t)
    (b : List Byte) (hb : b.length ≤ t.isizeMax) :
    PRel (MemFile b) (fun _ => False) (Profile.readHeaderIo t h env)
      (Profile.readHeaderIo t (OsFile.handler t) env) := by
  have h1 : h.read = Mem.readExact := by rcases hh with rfl | rfl <;> rfl
  have h2 : h.seek = Mem.seek := by rcases hh with rfl | rfl <;> rfl
  have h3 : h.tell = Mem.tell t := by rcases hh with rfl | rfl <;> rfl
  have ha := memFile_alike t h h1 b
  refine readHeaderIo_rel t env ha fun header => ?_
  exact (PRel.onIo (memFile_size t h h2 h3 b hb)).bind (Silent.onIo _) fun r => afterSize_rel t env ha header r

/-! ### Faults and truncation -/

/-- Errors that are due to the events in `S`. -/
def DueTo (S : List OsEvent) (e : IoErr) : Prop :=
  (e = .unexpectedEof ∧ OsEvent.truncated ∈ S) ∨ ∃ n, e = .other n ∧ OsEvent.fail n ∈ S

/-- A file with content `b`, possibly truncated in the meantime, and an untroubled one. -/
structure Troubled (S : List OsEvent) (b : List Byte) (x : SharedFile) (y : OsFile) : Prop where
  file : y.data = b
  readable : y.readable = true
  xreadable : x.readable = true
  pos : x.pos = y.pos
  bound : y.pos ≤ b.length
  script : ∀ e ∈ x.script, e ∈ S
  data : x.data = b ∨ (x.data = [] ∧ OsEvent.truncated ∈ S)

theorem Troubled.later {S : List OsEvent} {b : List Byte} {x x' : SharedFile} {y y' : OsFile}
    (h : Troubled S b x y) (hl : SharedFile.Later x x') (hd : y'.data = b) (hr : y'.readable = true)
    (hp : x'.pos = y'.pos) (hb : y'.pos ≤ b.length) : Troubled S b x' y' := by
  refine ⟨hd, hr, hl.readable.trans h.xreadable, hp, hb, fun e he => h.script e (hl.script e he), ?_⟩
  rcases hl.data with e | ⟨e, m⟩
  · rw [e]; exact h.data
  · exact Or.inr ⟨e, h.script _ m⟩

/-- One read. -/
theorem readBuf_shared (t : Target) (n : Nat) (s : SharedFile) (hr : s.readable = true) :
    ∃ s' k, SharedFile.Later s s' ∧ s'.pos = s.pos + k ∧ s.pos + k ≤ max s.pos s.data.length ∧
      ((readBuf (SharedFile.handler t) n s = .ok (slice s.data s.pos n) s' ∧ k = n) ∨
       (readBuf (SharedFile.handler t) n s = .err .unexpectedEof s' ∧ k < n ∧
         (OsEvent.truncated ∈ s.script ∨ s.data.length ≤ s.pos + k)) ∨
       ∃ m, readBuf (SharedFile.handler t) n s = .err (.other m) s' ∧ OsEvent.fail m ∈ s.script) := by
  obtain ⟨s', k, l, p, k1, k2, b, o⟩ := SharedFile.readExact_ends (zeros n) s hr
  rw [zeros_length] at k1 o
  refine ⟨s', k, l, p, k2, ?_⟩
  unfold readBuf
  have e : (SharedFile.handler t).read (zeros n) s = SharedFile.readExact (zeros n) s := rfl
  rw [e]
  cases hx : SharedFile.readExact (zeros n) s with
  | mk r buf =>
    rw [hx] at b o
    simp only at b o
    rcases o with ⟨rfl, hk⟩ | ⟨rfl, hk, ho⟩ | ⟨m, rfl, hk, ho⟩
    · left
      subst hk
      rw [b, List.drop_eq_nil_of_le (by rw [zeros_length]), List.append_nil]
      exact ⟨rfl, rfl⟩
    · exact Or.inr (Or.inl ⟨rfl, hk, ho⟩)
    · exact Or.inr (Or.inr ⟨m, rfl, ho⟩)

theorem troubled_alike (t : Target) (S : List OsEvent) (b : List Byte) :
    Alike (SharedFile.handler t) (OsFile.handler t) (Troubled S b) (DueTo S) where
  readBuf := by
    intro n hn x y hR
    obtain ⟨f', d, r, w, hp, hf⟩ := readBuf_file t n hn y hR.readable
    rw [hR.file] at d hp hf
    rw [hf]
    obtain ⟨s', k, l, p, k2, o⟩ := readBuf_shared t n x hR.xreadable
    rcases o with ⟨o, hk⟩ | ⟨o, hk, ho⟩ | ⟨m, o, ho⟩
    · rw [o]
      subst hk
      have hd : x.data = b := by
        rcases hR.data with e | ⟨e, -⟩
        · exact e
        · rw [e] at k2; simp at k2; omega
      rw [hd] at k2 ⊢
      have hpos := hR.pos
      have hle : y.pos + k ≤ b.length := by have := hR.bound; omega
      rw [if_pos hle, hR.pos]
      exact ⟨rfl, hR.later l d r (by rw [p, hp hle, hpos]) (by rw [hp hle]; exact hle)⟩
    · rw [o]
      rcases ho with ho | ho
      · exact Or.inl (Or.inl ⟨rfl, hR.script _ ho⟩)
      · rcases hR.data with e | ⟨-, e⟩
        · right
          rw [e, hR.pos] at ho
          rw [if_neg (by omega)]
          exact ⟨_, rfl⟩
        · exact Or.inl (Or.inl ⟨rfl, e⟩)
    · rw [o]
      exact Or.inl (Or.inr ⟨m, rfl, hR.script _ ho⟩)

/-- One seek. -/
theorem seek_shared (p : SeekFrom) (s : SharedFile) :
    ∃ s0 : SharedFile, SharedFile.Later s s0 ∧ s0.pos = s.pos ∧ SharedFile.seek p s =
      let q : Int := match p with
        | .start n => n.toInt64.toInt
        | .end_ d => (s0.data.length : Int) + d.toInt
        | .current d => (s.pos : Int) + d.toInt
      if 0 ≤ q ∧ q < 9223372036854775808 then .ok () { s0 with pos := q.toNat } else .err .invalidInput s0 := by
  refine ⟨{ s with
      data := SharedFile.after (SharedFile.settle s.script).1 s.data
      script := (SharedFile.settle s.script).2 }, ⟨rfl, rfl, (SharedFile.settle_mem _).1, ?_⟩, rfl, rfl⟩
  have h := (SharedFile.settle_mem s.script).2
  unfold SharedFile.after
  simp only
  cases hc : (SharedFile.settle s.script).1 with
  | false => exact Or.inl rfl
  | true => exact Or.inr ⟨rfl, h hc⟩

theorem start_toInt (n : Nat) (h : n < 9223372036854775808) : (UInt64.ofNat n).toInt64.toInt = n := by
  rw [UInt64.toInt64, Int64.toInt, BitVec.toInt_eq_toNat_bmod]
  show Int.bmod (UInt64.ofNat n).toNat (2 ^ 64) = _
  rw [UInt64.toNat_ofNat', Nat.mod_eq_of_lt (by omega)]
  rw [Int.bmod_eq_of_le] <;> omega

theorem tell_shared (t : Target) (s : SharedFile) :
    (SharedFile.handler t).tell s = .ok (s.pos % t.usizeMod) s := rfl

theorem handler_seek_shared (t : Target) (p : SeekFrom) (s : SharedFile) :
    (SharedFile.handler t).seek p s = SharedFile.seek p s := rfl

/-- The size is the one before or after truncation. -/
theorem size_shared (t : Target) (s : SharedFile) (hl : s.data.length < 9223372036854775808)
    (hp : s.pos < t.usizeMod) (hp' : s.pos < 9223372036854775808) :
    ∃ s' n, SharedFile.Later s s' ∧ s'.pos = s.pos ∧ reportedSize (SharedFile.handler t) s = .ok n s' ∧
      (n = s.data.length % t.usizeMod ∨ (s'.data = [] ∧ OsEvent.truncated ∈ s.script)) := by
  obtain ⟨s1, l1, p1, h1⟩ := seek_shared (.end_ 0) s
  have hlen1 : s1.data.length < 9223372036854775808 := by
    rcases l1.data with e | ⟨e, -⟩ <;> rw [e] <;> [exact hl; norm_num]
  have hz : (0 : Int64).toInt = 0 := rfl
  simp only [hz, Int.add_zero, Int.toNat_natCast] at h1
  rw [if_pos (by omega)] at h1
  obtain ⟨s2, l2, p2, h2⟩ := seek_shared (.start (UInt64.ofNat s.pos)) { s1 with pos := s1.data.length }
  have hq : (UInt64.ofNat s.pos).toInt64.toInt = s.pos := start_toInt s.pos hp'
  simp only [hq, Int.toNat_natCast] at h2
  rw [if_pos (by omega)] at h2
  have hl1' : SharedFile.Later s { s1 with pos := s1.data.length } := ⟨l1.readable, l1.writable, l1.script, l1.data⟩
  have hl2' : SharedFile.Later s { s2 with pos := s.pos } := hl1'.trans ⟨l2.readable, l2.writable, l2.script, l2.data⟩
  refine ⟨{ s2 with pos := s.pos }, s1.data.length % t.usizeMod, hl2', rfl, ?_, ?_⟩
  · refine reportedSize_ok (SharedFile.handler t) (s1 := s) (c := s.pos) (s2 := { s1 with pos := s1.data.length })
      (s3 := { s1 with pos := s1.data.length }) ?_ ?_ (tell_shared t _) ?_
    · rw [tell_shared, Nat.mod_eq_of_lt hp]
    · rw [handler_seek_shared, h1]
    · rw [handler_seek_shared, h2]
  · rcases l1.data with e | ⟨e, m⟩
    · rw [e]; exact Or.inl rfl
    · right
      refine ⟨?_, m⟩
      rcases l2.data with e2 | ⟨e2, -⟩
      · rw [← e]; exact e2
      · exact e2

/-- Once the file is truncated nothing more can be read from it. -/
theorem afterSize_doomed (t : Target) (env : Handlers) (S : List OsEvent) (b : List Byte) (header : ICCHeader)
    (r1 r2 : Nat) (p : Profile SharedFile) (q : Profile) (x : SharedFile) (y : OsFile) (c : CState)
    (hpq : p.strip = q.strip) (hx : p.io = some x) (hR : Troubled S b x y) (hd : x.data = [])
    (hm : OsEvent.truncated ∈ S) :
    POutRel (Troubled S b) (DueTo S) c (afterSize t (SharedFile.handler t) env header r1 ⟨p, c⟩)
      (afterSize t (OsFile.handler t) env header r2 ⟨q, c⟩) := by
  unfold afterSize
  cases hdate : header.date.toNaive with
  | none => exact ⟨rfl, hpq⟩
  | some d =>
    obtain ⟨s', k, l, pp, k2, o⟩ := readBuf_shared t 4 x hR.xreadable
    rw [hd] at k2
    have hio : ∃ e s'', DueTo S e ∧ readU32 t (SharedFile.handler t) x = .err e s'' := by
      have hu : ∀ e s'', readBuf (SharedFile.handler t) 4 x = .err e s'' →
          readU32 t (SharedFile.handler t) x = .err e s'' := by
        intro e s'' h
        show M.bind (readBuf (SharedFile.handler t) 4) _ x = _
        unfold M.bind
        rw [h]
      rcases o with ⟨o, hk⟩ | ⟨o, hk, ho⟩ | ⟨m, o, ho⟩
      · simp at k2; omega
      · exact ⟨_, _, Or.inl ⟨rfl, hm⟩, hu _ _ o⟩
      · exact ⟨_, _, Or.inr ⟨m, rfl, hR.script _ ho⟩, hu _ _ o⟩
    obtain ⟨e, s'', he, hio⟩ := hio
    have hrun : afterSize t (SharedFile.handler t) env header r1 ⟨p, c⟩ =
        .err e ⟨{ p with io := some s'', created := d, profileId := header.profileId }, c⟩ := by
      unfold afterSize
      rw [hdate]
      rw [PM.bind_ok _ (rfl : PM.orPanic (some d) (⟨p, c⟩ : PStateOf SharedFile) = .ok d ⟨p, c⟩)]
      rw [PM.bind_ok _ (rfl : PM.modify _ (⟨p, c⟩ : PStateOf SharedFile) = .ok () ⟨{ p with created := d }, c⟩)]
      rw [PM.bind_ok _ (rfl : PM.modify _ (⟨{ p with created := d }, c⟩ : PStateOf SharedFile) =
        .ok () ⟨{ p with created := d, profileId := header.profileId }, c⟩)]
      rw [PM.bind_apply]
      unfold PM.onIo
      simp only [hx, hio]
    unfold afterSize at hrun
    rw [hdate] at hrun
    rw [hrun]
    exact Or.inl ⟨he, rfl⟩

theorem size_file (t : Target) (b : List Byte) (hb : b.length < 9223372036854775808) (hw : b.length < t.usizeMod)
    (y : OsFile) (hd : y.data = b) (hp : y.pos ≤ b.length) :
    ∃ y', y'.data = b ∧ y'.readable = y.readable ∧ y'.pos = y.pos ∧
      reportedSize (OsFile.handler t) y = .ok (b.length % t.usizeMod) y' := by
  have hposm : y.pos % t.usizeMod = y.pos := Nat.mod_eq_of_lt (by omega)
  have h := OsFile.reportedSize_eq t y (by rw [hd]; exact hb) (by omega)
  refine ⟨_, ?_, ?_, ?_, by rw [← hd]; exact h⟩
  · exact hd
  · rfl
  · exact hposm

theorem onIo_done {σ α : Type} {m : M σ α} {p : Profile σ} {x x' : σ} {a : α} {c : CState} (hx : p.io = some x)
    (h : m x = .ok a x') : PM.onIo m ⟨p, c⟩ = .ok a ⟨{ p with io := some x' }, c⟩ := by
  unfold PM.onIo; simp only [hx, h]

/-- Asking for the size. -/
theorem troubled_size (t : Target) (S : List OsEvent) (b : List Byte)
    (hb : b.length < 9223372036854775808) (hw : b.length < t.usizeMod) (x : SharedFile) (y : OsFile)
    (hR : Troubled S b x y) :
    ∃ s' n y' m, Troubled S b s' y' ∧ reportedSize (SharedFile.handler t) x = .ok n s' ∧
      reportedSize (OsFile.handler t) y = .ok m y' ∧ (n = m ∨ (s'.data = [] ∧ OsEvent.truncated ∈ S)) := by
  have hpos := hR.pos
  have hbound := hR.bound
  have hxl : x.data.length < 9223372036854775808 := by
    rcases hR.data with e | ⟨e, -⟩
    · rw [e]; exact hb
    · rw [e, List.length_nil]; omega
  obtain ⟨s', n, l, sp, hs, hn⟩ := size_shared t x hxl (by omega) (by omega)
  obtain ⟨y', yd, yr, yp, hs0⟩ := size_file t b hb hw y hR.file hR.bound
  refine ⟨s', n, y', _, hR.later l yd (yr.trans hR.readable) (by rw [sp, hpos, yp]) (by rw [yp]; exact hbound),
    hs, hs0, ?_⟩
  rcases hn with hn | ⟨hn, hm⟩
  · rcases hR.data with e | ⟨e, m⟩
    · left; rw [hn, e]
    · right
      refine ⟨?_, m⟩
      rcases l.data with e2 | ⟨e2, -⟩
      · rw [e2, e]
      · exact e2
  · exact Or.inr ⟨hn, hR.script _ hm⟩

theorem troubled_header (t : Target) (env : Handlers) (S : List OsEvent) (b : List Byte)
    (hb : b.length < 9223372036854775808) (hw : b.length < t.usizeMod) :
    PRel (Troubled S b) (DueTo S) (Profile.readHeaderIo t (SharedFile.handler t) env)
      (Profile.readHeaderIo t (OsFile.handler t) env) := by
  have ha := troubled_alike t S b
  refine readHeaderIo_rel t env ha fun header => ?_
  intro p q x y c hpq hx hy hR
  obtain ⟨s', n, y', m, hR', hs, hs0, hn⟩ := troubled_size t S b hb hw x y hR
  have e1 : PM.onIo (reportedSize (SharedFile.handler t)) ⟨p, c⟩ = .ok n ⟨{ p with io := some s' }, c⟩ :=
    onIo_done hx hs
  have e2 : PM.onIo (reportedSize (OsFile.handler t)) ⟨q, c⟩ = .ok m ⟨{ q with io := some y' }, c⟩ :=
    onIo_done hy hs0
  have g1 := PM.bind_ok (afterSize t (SharedFile.handler t) env header) e1
  have g2 := PM.bind_ok (afterSize t (OsFile.handler t) env header) e2
  rw [g1, g2]
  rcases hn with hn | ⟨h1, h2⟩
  · rw [hn]
    exact afterSize_rel t env ha header m _ _ s' y' c hpq rfl rfl hR'
  · exact afterSize_doomed t env S b header n m _ _ s' y' c hpq rfl hR' h1 h2

end Lcms
