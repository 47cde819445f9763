import Verif.Model.LiveFile
import Verif.Lemmas.SharedOpen

/-! # Lemmas: reading a header from a file that others may truncate meanwhile -/

namespace Lcms

open Lcms.Spec

/-- The file contains `b` up to some moment and nothing from then on. -/
structure Decays (b : List Byte) (w : Nat → List Byte) : Prop where
  one : ∀ k, w k = b ∨ w k = []
  stays : ∀ j k, j ≤ k → w j = [] → w k = []

/-- Somebody has truncated it. -/
def Cut (b : List Byte) (w : Nat → List Byte) : Prop := ∃ k, w k ≠ b

namespace LiveFile

theorem pass_world (s : LiveFile) (k : Nat) : s.pass.world k = s.world (k + 1) := rfl

/-- `s'` is `s`, some system calls later, at another position. -/
def Later (s s' : LiveFile) : Prop := s'.readable = s.readable ∧ ∃ n, ∀ k, s'.world k = s.world (n + k)

theorem Later.refl (s : LiveFile) : Later s s := ⟨rfl, 0, fun k => by rw [Nat.zero_add]⟩

theorem Later.trans {a b c : LiveFile} (h : Later a b) (h' : Later b c) : Later a c := by
  obtain ⟨r, n, hn⟩ := h
  obtain ⟨r', m, hm⟩ := h'
  exact ⟨r'.trans r, n + m, fun k => by rw [hm, hn, Nat.add_assoc]⟩

theorem later_pass (s : LiveFile) (p : Nat) (sc : List OsResp) : Later s { s.pass with pos := p, sched := sc } :=
  ⟨rfl, 1, fun k => by rw [Nat.add_comm]; rfl⟩

theorem Decays.later {b : List Byte} {s s' : LiveFile} (h : Decays b s.world) (hl : Later s s') :
    Decays b s'.world := by
  obtain ⟨-, n, hn⟩ := hl
  refine ⟨fun k => by rw [hn]; exact h.one _, fun j k hjk hj => ?_⟩
  rw [hn] at hj ⊢
  exact h.stays _ _ (by omega) hj

theorem Cut.later {b : List Byte} {s s' : LiveFile} (hl : Later s s') (h : Cut b s'.world) : Cut b s.world := by
  obtain ⟨-, n, hn⟩ := hl
  obtain ⟨k, hk⟩ := h
  exact ⟨n + k, by rw [← hn]; exact hk⟩

/-- How a complete read can end. -/
def ReadEnds (b rest : List Byte) (s : LiveFile) (r : Out LiveFile Unit × List Byte) : Prop :=
  ∃ s' k, Later s s' ∧ s'.pos = s.pos + k ∧ s.pos + k ≤ max s.pos b.length ∧ (s.world 0 ≠ b → k = 0) ∧
    r.2 = slice b s.pos k ++ rest.drop k ∧
    ((r.1 = .ok () s' ∧ k = rest.length) ∨
     (r.1 = .err .unexpectedEof s' ∧ k < rest.length ∧ (Cut b s.world ∨ b.length ≤ s.pos + k)))

theorem readExactLoop_ends (b : List Byte) (fuel : Nat) (rest : List Byte) (s : LiveFile) (hr : s.readable = true)
    (hd : Decays b s.world) (hf : rest.length + s.sched.length < fuel) :
    ReadEnds b rest s (readExactLoop fuel rest s) := by
  induction fuel generalizing rest s with
  | zero => omega
  | succ fuel ih =>
    by_cases hz : rest = []
    · subst hz
      unfold readExactLoop
      rw [if_pos rfl]
      exact ⟨s, 0, Later.refl s, rfl, by omega, fun _ => rfl, by simp [slice], Or.inl ⟨rfl, rfl⟩⟩
    have hrl := List.length_pos_iff.mpr hz
    unfold readExactLoop
    rw [if_neg hz, if_neg (by simp [hr])]
    have key : ∀ m sc, 0 < m → m ≤ rest.length → (sc.length < s.sched.length ∨ (sc = s.sched ∧ m = rest.length)) →
        ReadEnds b rest s (match (Sys.done (((s.world 0).drop s.pos).take m)
            { s.pass with sched := sc, pos := s.pos + (((s.world 0).drop s.pos).take m).length } : Sys) with
          | .interrupted s' => readExactLoop fuel rest s'
          | .done got s' =>
            if got = [] then (.err .unexpectedEof s', rest)
            else
              let r := readExactLoop fuel (rest.drop got.length) s'
              (r.1, got ++ r.2)) := by
      intro m sc hm hml hsc
      simp only
      by_cases hg : ((s.world 0).drop s.pos).take m = []
      · rw [if_pos hg, hg]
        refine ⟨_, 0, later_pass s (s.pos + 0) sc, rfl, by omega, fun _ => rfl, by simp [slice],
          Or.inr ⟨rfl, hrl, ?_⟩⟩
        rcases hd.one 0 with e | e
        · rw [e] at hg
          right
          rcases List.take_eq_nil_iff.mp hg with h | h
          · omega
          · simpa using h
        · by_cases hb : b = []
          · right; rw [hb]; simp
          · exact Or.inl ⟨0, by rw [e]; exact fun h => hb h.symm⟩
      · rw [if_neg hg]
        have e : s.world 0 = b := by
          rcases hd.one 0 with e | e
          · exact e
          · rw [e] at hg; simp at hg
        rw [e] at hg ⊢
        have hgl := List.length_pos_iff.mpr hg
        have hlen : ((b.drop s.pos).take m).length = min m (b.length - s.pos) := by simp
        obtain ⟨got, hgot⟩ : ∃ g, g = ((b.drop s.pos).take m).length := ⟨_, rfl⟩
        have htake : (b.drop s.pos).take m = slice b s.pos got := by
          unfold slice
          by_cases hc : m ≤ b.length - s.pos
          · rw [hgot, hlen, Nat.min_eq_left hc]
          · rw [hgot, hlen, Nat.min_eq_right (by omega), List.take_of_length_le (by simp; omega),
              List.take_of_length_le (by simp)]
        rw [htake, show (slice b s.pos got).length = got by rw [← htake]; exact hgot.symm]
        rw [← hgot] at hgl hlen
        have hl := later_pass s (s.pos + got) sc
        obtain ⟨s', k, l, p, k2, -, bb, o⟩ := ih (rest.drop got) { s.pass with sched := sc, pos := s.pos + got } hr
          (Decays.later hd hl) (by
            simp only [List.length_drop]
            rcases hsc with h | ⟨h, h'⟩
            · omega
            · rw [h]; omega)
        simp only at p k2 bb o
        rw [List.length_drop] at o
        refine ⟨s', got + k, hl.trans l, by omega, by omega, fun h => absurd e h, ?_, ?_⟩
        · simp only
          rw [bb, SharedFile.slice_split, List.append_assoc, List.drop_drop]
        · simp only
          rcases o with ⟨o, ok⟩ | ⟨o, ok, oo⟩
          · exact Or.inl ⟨o, by omega⟩
          · refine Or.inr ⟨o, by omega, ?_⟩
            rcases oo with oo | oo
            · exact Or.inl (Cut.later hl oo)
            · exact Or.inr (by omega)
    unfold sysRead
    cases hs : s.sched with
    | nil =>
      have h := key rest.length [] hrl (le_refl _) (Or.inr ⟨hs.symm, rfl⟩)
      have e : ∀ p, ({ s.pass with pos := p } : LiveFile) = { s.pass with sched := [], pos := p } := by
        intro p; unfold pass; rw [← hs]
      simp only [e]
      exact h
    | cons a sc =>
      cases a with
      | interrupted =>
        simp only
        have hl := later_pass s s.pos sc
        obtain ⟨s', k, l, p, k2, k3, bb, o⟩ := ih rest { s.pass with sched := sc } hr (Decays.later hd hl) (by
          rw [hs] at hf; simp only [List.length_cons] at hf; simp only; omega)
        refine ⟨s', k, hl.trans l, p, k2, fun h => ?_, bb, ?_⟩
        · rcases hd.one 0 with e | e
          · exact absurd e h
          · apply k3
            show s.world 1 ≠ b
            rw [hd.stays 0 1 (by omega) e]
            intro hb
            exact h (e.trans hb)
        · rcases o with o | ⟨o, ok, oo⟩
          · exact Or.inl o
          · exact Or.inr ⟨o, ok, oo.imp_left (Cut.later hl)⟩
      | chunk k =>
        exact key (min rest.length (k + 1)) sc (by omega) (by omega) (Or.inl (by rw [hs]; simp))

theorem readBuf_ends (t : Target) (b : List Byte) (n : Nat) (s : LiveFile) (hr : s.readable = true)
    (hd : Decays b s.world) :
    ∃ s' k, Later s s' ∧ s'.pos = s.pos + k ∧ s.pos + k ≤ max s.pos b.length ∧ (s.world 0 ≠ b → k = 0) ∧
      ((readBuf (handler t) n s = .ok (slice b s.pos n) s' ∧ k = n) ∨
       (readBuf (handler t) n s = .err .unexpectedEof s' ∧ k < n ∧ (Cut b s.world ∨ b.length ≤ s.pos + k))) := by
  have hends : ReadEnds b (zeros n) s (readExact (zeros n) s) := readExactLoop_ends b _ (zeros n) s hr hd (by omega)
  obtain ⟨s', k, l, p, k2, k3, bb, o⟩ := hends
  rw [zeros_length] at o
  refine ⟨s', k, l, p, k2, k3, ?_⟩
  unfold readBuf
  have e : (handler t).read (zeros n) s = readExact (zeros n) s := rfl
  rw [e]
  cases hx : readExact (zeros n) s with
  | mk r buf =>
    rw [hx] at bb o
    simp only at bb o
    rcases o with ⟨rfl, hk⟩ | ⟨rfl, hk, ho⟩
    · left
      subst hk
      rw [bb, List.drop_eq_nil_of_le (by rw [zeros_length]), List.append_nil]
      exact ⟨rfl, rfl⟩
    · exact Or.inr ⟨rfl, hk, ho⟩

theorem handler_seek (t : Target) (p : SeekFrom) (s : LiveFile) : (handler t).seek p s = seek p s := rfl

/-- The size is the one before or after truncation. -/
theorem size_ends (t : Target) (b : List Byte) (hb : b.length < 9223372036854775808) (s : LiveFile)
    (hd : Decays b s.world) (hp : s.pos < t.usizeMod) (hp' : s.pos < 9223372036854775808) :
    ∃ s' n, Later s s' ∧ s'.pos = s.pos ∧ reportedSize (handler t) s = .ok n s' ∧
      (n = b.length % t.usizeMod ∨ (s'.world 0 = [] ∧ Cut b s.world)) := by
  obtain ⟨m, hm⟩ : ∃ m, m = (s.world 1).length := ⟨_, rfl⟩
  have hm' : m < 9223372036854775808 := by
    rcases hd.one 1 with e | e <;> rw [hm, e] <;> [exact hb; norm_num]
  let s1 := s.pass
  let s2 : LiveFile := { s1.pass with pos := m }
  let s3 := s2.pass
  let s4 : LiveFile := { s3.pass with pos := s.pos }
  refine ⟨s4, m % t.usizeMod, ⟨rfl, 4, fun k => ?_⟩, rfl, ?_, ?_⟩
  · show s.world (k + 1 + 1 + 1 + 1) = s.world (4 + k)
    congr 1; omega
  · refine reportedSize_ok (handler t) (s1 := s1) (c := s.pos) (s2 := s2) (s3 := s3) ?_ ?_ rfl ?_
    · show Out.ok (s.pos % t.usizeMod) s.pass = _
      rw [Nat.mod_eq_of_lt hp]
    · rw [handler_seek]
      unfold seek
      have hz : (0 : Int64).toInt = 0 := rfl
      have hw : s1.world 0 = s.world 1 := rfl
      simp only [hz, Int.add_zero, hw, ← hm]
      rw [if_pos (by omega), Int.toNat_natCast]
    · rw [handler_seek]
      unfold seek
      simp only [start_toInt s.pos hp']
      rw [if_pos (by omega), Int.toNat_natCast]
  · rcases hd.one 1 with e | e
    · left; rw [hm, e]
    · by_cases hbe : b = []
      · left; rw [hm, e, hbe]
      · right
        refine ⟨?_, 1, by rw [e]; exact fun h => hbe h.symm⟩
        exact hd.stays 1 4 (by omega) e

end LiveFile

/-- Errors that are due to a truncation. -/
def ByCut (b : List Byte) (W : Nat → List Byte) (e : IoErr) : Prop := e = .unexpectedEof ∧ Cut b W

/-- A file that contained `b` when it was opened, and an undisturbed one. -/
structure Seen (b : List Byte) (W : Nat → List Byte) (x : LiveFile) (y : OsFile) : Prop where
  file : y.data = b
  readable : y.readable = true
  xreadable : x.readable = true
  pos : x.pos = y.pos
  bound : y.pos ≤ b.length
  decays : Decays b x.world
  cut : Cut b x.world → Cut b W

theorem Seen.later {b : List Byte} {W : Nat → List Byte} {x x' : LiveFile} {y y' : OsFile}
    (h : Seen b W x y) (hl : LiveFile.Later x x') (hd : y'.data = b) (hr : y'.readable = true)
    (hp : x'.pos = y'.pos) (hb : y'.pos ≤ b.length) : Seen b W x' y' :=
  ⟨hd, hr, hl.1.trans h.xreadable, hp, hb, LiveFile.Decays.later h.decays hl,
    fun hc => h.cut (LiveFile.Cut.later hl hc)⟩

theorem seen_alike (t : Target) (b : List Byte) (W : Nat → List Byte) :
    Alike (LiveFile.handler t) (OsFile.handler t) (Seen b W) (ByCut b W) where
  readBuf := by
    intro n hn x y hR
    obtain ⟨f', d, r, w, hp, hf⟩ := readBuf_file t n hn y hR.readable
    rw [hR.file] at d hp hf
    rw [hf]
    obtain ⟨s', k, l, p, k2, -, o⟩ := LiveFile.readBuf_ends t b n x hR.xreadable hR.decays
    have hpos := hR.pos
    have hbound := hR.bound
    rcases o with ⟨o, hk⟩ | ⟨o, hk, ho⟩
    · rw [o]
      subst hk
      have hle : y.pos + k ≤ b.length := by omega
      rw [if_pos hle, hR.pos]
      exact ⟨rfl, hR.later l d r (by rw [p, hp hle, hpos]) (by rw [hp hle]; exact hle)⟩
    · rw [o]
      rcases ho with ho | ho
      · exact Or.inl ⟨rfl, hR.cut ho⟩
      · right
        rw [hR.pos] at ho
        rw [if_neg (by omega)]
        exact ⟨_, rfl⟩

/-- Once the file is truncated nothing more can be read from it. -/
theorem afterSize_gone (t : Target) (env : Handlers) (b : List Byte) (W : Nat → List Byte) (header : ICCHeader)
    (r1 r2 : Nat) (p : Profile LiveFile) (q : Profile) (x : LiveFile) (y : OsFile) (c : CState)
    (hpq : p.strip = q.strip) (hx : p.io = some x) (hR : Seen b W x y) (hd : x.world 0 = []) (hm : Cut b W)
    (hb : b ≠ []) :
    POutRel (Seen b W) (ByCut b W) c (afterSize t (LiveFile.handler t) env header r1 ⟨p, c⟩)
      (afterSize t (OsFile.handler t) env header r2 ⟨q, c⟩) := by
  unfold afterSize
  cases hdate : header.date.toNaive with
  | none => exact ⟨rfl, hpq⟩
  | some d =>
    obtain ⟨s', k, l, pp, k2, k3, o⟩ := LiveFile.readBuf_ends t b 4 x hR.xreadable hR.decays
    have hk0 := k3 (by rw [hd]; exact fun h => hb h.symm)
    have hio : readU32 t (LiveFile.handler t) x = .err .unexpectedEof s' := by
      rcases o with ⟨o, hk⟩ | ⟨o, hk, ho⟩
      · omega
      · show M.bind (readBuf (LiveFile.handler t) 4) _ x = _
        unfold M.bind
        rw [o]
    have hrun : afterSize t (LiveFile.handler t) env header r1 ⟨p, c⟩ =
        .err .unexpectedEof ⟨{ p with io := some s', created := d, profileId := header.profileId }, c⟩ := by
      unfold afterSize
      rw [hdate]
      rw [PM.bind_ok _ (rfl : PM.orPanic (some d) (⟨p, c⟩ : PStateOf LiveFile) = .ok d ⟨p, c⟩)]
      rw [PM.bind_ok _ (rfl : PM.modify _ (⟨p, c⟩ : PStateOf LiveFile) = .ok () ⟨{ p with created := d }, c⟩)]
      rw [PM.bind_ok _ (rfl : PM.modify _ (⟨{ p with created := d }, c⟩ : PStateOf LiveFile) =
        .ok () ⟨{ p with created := d, profileId := header.profileId }, c⟩)]
      rw [PM.bind_apply]
      unfold PM.onIo
      simp only [hx, hio]
    unfold afterSize at hrun
    rw [hdate] at hrun
    rw [hrun]
    exact Or.inl ⟨⟨rfl, hm⟩, rfl⟩

theorem seen_header (t : Target) (env : Handlers) (b : List Byte) (W : Nat → List Byte)
    (hb : b.length < 9223372036854775808) (hw : b.length < t.usizeMod) :
    PRel (Seen b W) (ByCut b W) (Profile.readHeaderIo t (LiveFile.handler t) env)
      (Profile.readHeaderIo t (OsFile.handler t) env) := by
  have ha := seen_alike t b W
  refine readHeaderIo_rel t env ha fun header => ?_
  intro p q x y c hpq hx hy hR
  have hpos := hR.pos
  have hbound := hR.bound
  obtain ⟨s', n, l, sp, hs, hn⟩ := LiveFile.size_ends t b hb x hR.decays (by omega) (by omega)
  obtain ⟨y', yd, yr, yp, hs0⟩ := size_file t b hb hw y hR.file hR.bound
  have hR' : Seen b W s' y' :=
    hR.later l yd (yr.trans hR.readable) (by rw [sp, hpos, yp]) (by rw [yp]; exact hbound)
  have e1 : PM.onIo (reportedSize (LiveFile.handler t)) ⟨p, c⟩ = .ok n ⟨{ p with io := some s' }, c⟩ :=
    onIo_done hx hs
  have e2 : PM.onIo (reportedSize (OsFile.handler t)) ⟨q, c⟩ = .ok _ ⟨{ q with io := some y' }, c⟩ :=
    onIo_done hy hs0
  have g1 := PM.bind_ok (afterSize t (LiveFile.handler t) env header) e1
  have g2 := PM.bind_ok (afterSize t (OsFile.handler t) env header) e2
  rw [g1, g2]
  by_cases hbe : n = b.length % t.usizeMod
  · rw [hbe]
    exact afterSize_rel t env ha header _ _ _ s' y' c hpq rfl rfl hR'
  · rcases hn with hn | ⟨h1, h2⟩
    · exact absurd hn hbe
    · refine afterSize_gone t env b W header n _ _ _ s' y' c hpq rfl hR' h1 (hR.cut h2) ?_
      rintro rfl
      obtain ⟨k, hk⟩ := h2
      rcases hR.decays.one k with e | e <;> exact hk e

end Lcms
