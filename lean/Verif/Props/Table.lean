import Verif.Lemmas.Search
import Verif.Props.Open

/-! # Properties C46–C49: profile equality, links and tag lookup -/

namespace Lcms.Props

open Lcms.Spec

/-! ### C46 -/

/-- **C46**: `==` is an equivalence, and holds exactly if the profiles agree in everything but the handler. -/
theorem C46_equality {σ : Type} :
    (∀ p : Profile σ, p.eq p = true) ∧
    (∀ p q : Profile σ, p.eq q = true → q.eq p = true) ∧
    (∀ p q r : Profile σ, p.eq q = true → q.eq r = true → p.eq r = true) ∧
    (∀ p q : Profile σ, p.eq q = true ↔ ∃ io, q = { p with io := io }) := by
  refine ⟨fun p => (Profile.eq_iff p p).mpr rfl, ?_, ?_, ?_⟩
  · intro p q h
    rw [Profile.eq_iff] at h ⊢
    exact h.symm
  · intro p q r h1 h2
    rw [Profile.eq_iff] at h1 h2 ⊢
    exact h1.trans h2
  · intro p q
    rw [Profile.eq_iff]
    constructor
    · intro h
      refine ⟨q.io, ?_⟩
      cases p; cases q
      simp only [Profile.mk.injEq, true_and] at h ⊢
      simp [h]
    · rintro ⟨io, rfl⟩
      rfl

/-- A new profile differs from one created a second later, and from itself with a flag set. -/
example : (Profile.new noon : Profile).eq (Profile.new ⟨⟨2026, 320⟩, ⟨43201, 0⟩⟩) = false ∧
    (Profile.new noon : Profile).eq { (Profile.new noon : Profile) with flags := 1 } = false ∧
    (Profile.new noon : Profile).eq { (Profile.new noon : Profile) with io := some ⟨[1], 0, true, false, []⟩ } = true := by
  decide +kernel

/-! ### C47 -/

/-- Lines `i` and `j` have the same data. -/
def SameData (es : List Entry) (i j : Nat) : Prop :=
  (es[i]?).map Entry.offset = (es[j]?).map Entry.offset ∧ (es[i]?).map Entry.size = (es[j]?).map Entry.size

instance (es : List Entry) (i j : Nat) : Decidable (SameData es i j) := inferInstanceAs (Decidable (_ ∧ _))

/-- A tag with the data of an earlier tag is linked to an earlier tag with that data, others are not linked. -/
def C47_statement : Prop :=
  ∀ (t : Target) (env : Handlers) (now : NaiveDateTime) (sched : List OsResp) (ctx : CState)
    (fs : FS) (path : Path) (b : List Byte) (_ : b.length < 9223372036854775808)
    (_ : fs.files path = some b) (p : Profile)
    (_ : (openFromFileThr t env now sched ctx fs path .read).1 = .ok p) (i : Nat) (_ : i < p.getTagCount),
    if ∃ j < i, SameData (kept t b) i j then
      ∃ j < i, SameData (kept t b) i j ∧ p.tagLinked[i]? = some (p.tagNames[j]?)
    else p.tagLinked[i]? = some none

/-- A file with two tags on the same data. -/
def twinFile : List Byte :=
  sample 176 goodDate 2 [(0x72545243, 156, 20), (0x67545243, 156, 20)] (zeros 20)

theorem twin_kept : verdict pc twinFile = .table [⟨0x72545243, 156, 20⟩, ⟨0x67545243, 156, 20⟩] := by
  decide +kernel

theorem twin_exists : ∃ b, verdict pc b = .table (kept pc b) ∧
    kept pc b = [⟨0x72545243, 156, 20⟩, ⟨0x67545243, 156, 20⟩] ∧ b.length < 9223372036854775808 := by
  have hl : twinFile.length = 176 := by decide +kernel
  have hk := (verdict_table twin_kept).2.2.2.2.1
  exact ⟨twinFile, by rw [← hk]; exact twin_kept, hk.symm, by rw [hl]; norm_num⟩

/-- **C47** is violated: it is the earlier tag that gets the link, to itself. -/
theorem C47_refuted : ¬ C47_statement := by
  intro h
  obtain ⟨b, hv, hk, hlen⟩ := twin_exists
  have hfile : (oneFile [] b).files [] = some b := oneFile_files _ _
  have ho := openRead_eq pc quiet noon [] ctx0 (oneFile [] b) [] b hlen rfl hfile
  rw [hv] at ho
  obtain ⟨⟨d, f, h1, h2, h3, h4, h5⟩, -⟩ := ho
  have h' := h pc quiet noon [] ctx0 (oneFile [] b) [] b hlen hfile _ h5 1
    (by show 1 < (kept pc b).length; rw [hk]; decide)
  rw [linked_get pc b noon d f hv 1 (by rw [hk]; decide)] at h'
  simp only [names_get pc b noon d f hv, hk] at h'
  revert h'
  rw [if_pos ⟨0, by omega, rfl, rfl⟩]
  rintro ⟨j, hj, -, hn⟩
  have : j = 0 := by omega
  subst this
  revert hn
  decide

/-- **C47**, what holds: a tag is linked if and only if a *later* tag has the same data, and then to its own
signature; in particular a tag with unique data is never linked. -/
theorem C47_links_partial (t : Target) (env : Handlers) (now : NaiveDateTime) (sched : List OsResp)
    (ctx : CState) (fs : FS) (path : Path) (b : List Byte) (hlen : b.length < 9223372036854775808)
    (hfile : fs.files path = some b) (p : Profile)
    (h : (openFromFileThr t env now sched ctx fs path .read).1 = .ok p) (i : Nat) (hi : i < p.getTagCount) :
    ((∃ j < p.getTagCount, i < j ∧ SameData (kept t b) i j) → p.tagLinked[i]? = some (p.tagNames[i]?)) ∧
    ((¬ ∃ j < p.getTagCount, i < j ∧ SameData (kept t b) i j) → p.tagLinked[i]? = some none) ∧
    ((∀ j < p.getTagCount, SameData (kept t b) i j → j = i) → p.tagLinked[i]? = some none) := by
  obtain ⟨d, f, hv, -, -, -, -, rfl⟩ := openRead_ok hlen hfile h
  have hi' : i < (kept t b).length := hi
  have hg := linked_get t b now d f hv i hi'
  have hiff : hasLaterTwin (kept t b) i ↔
      ∃ j < (goodProfile t b now d f).getTagCount, i < j ∧ SameData (kept t b) i j := by
    unfold hasLaterTwin SameData
    constructor
    · rintro ⟨j, h1, h2, h3, h4⟩
      exact ⟨j, h1, h2, h3.symm, h4.symm⟩
    · rintro ⟨j, h1, h2, h3, h4⟩
      exact ⟨j, h1, h2, h3.symm, h4.symm⟩
  have hno : (¬ ∃ j < (goodProfile t b now d f).getTagCount, i < j ∧ SameData (kept t b) i j) →
      (goodProfile t b now d f).tagLinked[i]? = some none := by
    intro hc
    rw [hg, if_neg (fun h => hc (hiff.mp h))]
  refine ⟨?_, hno, ?_⟩
  · intro hc
    rw [hg, if_pos (hiff.mpr hc), names_get t b now d f hv, if_pos hi']
  · intro hu
    apply hno
    rintro ⟨j, h1, h2, h3⟩
    have := hu j h1 h3
    omega

/-! ### C48 -/

/-- **C48**: on an opened profile, looking up a signature (directly, or with `follow_links = false`) returns
the least index of a tag with that name, or nothing exactly if there is none; it never panics. -/
theorem C48_search (t : Target) (env : Handlers) (now : NaiveDateTime) (sched : List OsResp)
    (ctx : CState) (fs : FS) (path : Path) (b : List Byte) (hlen : b.length < 9223372036854775808)
    (hfile : fs.files path = some b) (p : Profile)
    (h : (openFromFileThr t env now sched ctx fs path .read).1 = .ok p) (sig : Signature) :
    (match p.searchOneTag sig with
      | .some i => ∃ hi : i < (kept t b).length, (kept t b)[i].name = sig.val.toNat ∧
          ∀ j, ∀ hj : j < i, ((kept t b)[j]'(by omega)).name ≠ sig.val.toNat
      | .none => ∀ e ∈ kept t b, e.name ≠ sig.val.toNat
      | .panic => False) ∧
    ∀ n, p.searchTag false (n + 1) sig = some (p.searchOneTag sig) := by
  obtain ⟨d, f, hv, -, -, -, -, rfl⟩ := openRead_ok hlen hfile h
  have h100 := kept_100 hv
  have hc : (goodProfile t b now d f).tagCount = (kept t b).length := rfl
  have hnl : (goodProfile t b now d f).tagNames.length = 100 := column_length _ _ (by simpa using h100)
  have hs := searchOneFrom_spec (goodProfile t b now d f) sig (kept t b).length 0 (by omega)
  have hn := names_iff (t := t) (b := b) now d f hv sig
  constructor
  · unfold Profile.searchOneTag
    rw [hc]
    cases hr : Profile.searchOneFrom (goodProfile t b now d f) sig 0 (kept t b).length with
    | some i =>
      rw [hr] at hs
      simp only [zero_add] at hs ⊢
      refine ⟨hs.2.1, (hn i hs.2.1).mp hs.2.2.1, fun j hj he => ?_⟩
      exact hs.2.2.2 j (Nat.zero_le _) hj ((hn j (by omega)).mpr he)
    | none =>
      rw [hr] at hs
      simp only [zero_add] at hs ⊢
      intro e he hname
      obtain ⟨i, hi, rfl⟩ := List.mem_iff_getElem.mp he
      exact hs i (Nat.zero_le _) hi ((hn i hi).mpr hname)
    | panic => rw [hr] at hs; exact hs
  · intro n
    rw [Profile.searchTag]
    cases Profile.searchOneTag (goodProfile t b now d f) sig <;> rfl

/-- A profile with a repeated name. -/
def dupProfile : Profile :=
  withTable (Profile.new noon) [⟨0x64657363, 1, 1⟩, ⟨0x77747074, 2, 1⟩, ⟨0x77747074, 3, 1⟩]

example : dupProfile.searchOneTag ⟨0x77747074⟩ = .some 1 ∧ dupProfile.searchOneTag ⟨0x41324230⟩ = .none := by
  decide +kernel

/-! ### C49 -/

/-- The lookup that follows links returns, for every opened profile and signature. -/
def C49_statement : Prop :=
  ∀ (t : Target) (env : Handlers) (now : NaiveDateTime) (sched : List OsResp) (ctx : CState)
    (fs : FS) (path : Path) (b : List Byte) (_ : b.length < 9223372036854775808)
    (_ : fs.files path = some b) (p : Profile)
    (_ : (openFromFileThr t env now sched ctx fs path .read).1 = .ok p) (sig : Signature),
    ∃ n r, p.searchTag true n sig = some r

/-- The least index of a line with that name, if any. -/
def firstNamed (es : List Entry) (sig : Signature) : Option Nat :=
  (List.range es.length).find? fun i => (es[i]?).map Entry.name = some sig.val.toNat

/-- **C49**, exactly when it holds: the lookup that follows links returns if and only if there is no tag with
the name, or the first one shares its data with no later tag; it then returns that first tag, after one
round. -/
theorem C49_follow_partial (t : Target) (env : Handlers) (now : NaiveDateTime) (sched : List OsResp)
    (ctx : CState) (fs : FS) (path : Path) (b : List Byte) (hlen : b.length < 9223372036854775808)
    (hfile : fs.files path = some b) (p : Profile)
    (h : (openFromFileThr t env now sched ctx fs path .read).1 = .ok p) (sig : Signature) :
    match firstNamed (kept t b) sig with
    | none => ∀ n, p.searchTag true (n + 1) sig = some .none
    | some i =>
      if ∃ j < p.getTagCount, i < j ∧ SameData (kept t b) i j then ∀ n, p.searchTag true n sig = none
      else ∀ n, p.searchTag true (n + 1) sig = some (.some i) := by
  have h48 := (C48_search t env now sched ctx fs path b hlen hfile p h sig).1
  have h47 := C47_links_partial t env now sched ctx fs path b hlen hfile p h
  obtain ⟨d, f, hv, -, -, -, -, rfl⟩ := openRead_ok hlen hfile h
  have hc : (goodProfile t b now d f).getTagCount = (kept t b).length := rfl
  cases hr : Profile.searchOneTag (goodProfile t b now d f) sig with
  | panic => rw [hr] at h48; exact h48.elim
  | none =>
    rw [hr] at h48
    simp only at h48
    have hf : firstNamed (kept t b) sig = none := by
      unfold firstNamed
      rw [List.find?_eq_none]
      intro i hi hd
      rw [List.mem_range] at hi
      rw [List.getElem?_eq_getElem hi] at hd
      simp only [Option.map_some, Option.some.injEq, decide_eq_true_eq] at hd
      exact h48 _ (List.getElem_mem hi) hd
    rw [hf]
    intro n
    rw [Profile.searchTag, hr]
  | some i =>
    rw [hr] at h48
    simp only at h48
    obtain ⟨hi, hname, hleast⟩ := h48
    have hf : firstNamed (kept t b) sig = some i := by
      unfold firstNamed
      rw [List.find?_range_eq_some]
      refine ⟨?_, List.mem_range.mpr hi, fun j hj => ?_⟩
      · rw [List.getElem?_eq_getElem hi]
        simp [hname]
      · rw [List.getElem?_eq_getElem (show j < (kept t b).length by omega)]
        simp [hleast j hj]
    rw [hf]
    simp only
    have hn := (names_iff (t := t) (b := b) now d f hv sig i hi).mpr hname
    by_cases htw : ∃ j < (goodProfile t b now d f).getTagCount, i < j ∧ SameData (kept t b) i j
    · rw [if_pos htw]
      have hl := (h47 i hi).1 htw
      rw [hn] at hl
      intro n
      induction n with
      | zero => rfl
      | succ n ih =>
        rw [Profile.searchTag, hr]
        simp only [hl, Bool.true_eq_false, if_false]
        exact ih
    · rw [if_neg htw]
      have hl := (h47 i hi).2.1 htw
      intro n
      rw [Profile.searchTag, hr]
      simp only [hl, Bool.true_eq_false, if_false]

/-- **C49** is violated: looking up the first of two tags with the same data never returns. -/
theorem C49_refuted : ¬ C49_statement := by
  intro h
  obtain ⟨b, hv, hk, hlen⟩ := twin_exists
  have hfile : (oneFile [] b).files [] = some b := oneFile_files _ _
  have ho := openRead_eq pc quiet noon [] ctx0 (oneFile [] b) [] b hlen rfl hfile
  rw [hv] at ho
  obtain ⟨⟨d, f, h1, h2, h3, h4, h5⟩, -⟩ := ho
  obtain ⟨n, r, hr⟩ := h pc quiet noon [] ctx0 (oneFile [] b) [] b hlen hfile _ h5 ⟨0x72545243⟩
  have hp := C49_follow_partial pc quiet noon [] ctx0 (oneFile [] b) [] b hlen hfile _ h5 ⟨0x72545243⟩
  have hf : firstNamed (kept pc b) ⟨0x72545243⟩ = some 0 := by rw [hk]; decide
  rw [hf] at hp
  simp only at hp
  rw [if_pos ⟨1, by show 1 < (kept pc b).length; rw [hk]; decide, by omega, by rw [hk]; exact ⟨rfl, rfl⟩⟩] at hp
  rw [hp] at hr
  cases hr

end Lcms.Props
