import Verif.Props.Table

/-! # Property C101: reading a header into a profile that has one already -/

namespace Lcms.Props

open Lcms.Spec

/-- Reading the header of a profile again, from the start of the file, leaves the profile as it was. -/
def C101_statement : Prop :=
  ∀ (t : Target) (env : Handlers) (now : NaiveDateTime) (sched : List OsResp) (ctx : CState) (fs : FS)
    (path : Path) (b : List Byte) (_ : b.length < 9223372036854775808) (_ : fs.files path = some b) (p : Profile)
    (_ : (openFromFileThr t env now sched ctx fs path .read).1 = .ok p)
    (f : OsFile) (_ : f.data = b) (_ : f.readable = true) (_ : f.pos = 0),
    ∃ st, Profile.readHeaderThr t (OsFile.handler t) env ⟨{ p with io := some f }, ctx⟩ = .ok () st ∧
      st.prof.eq p = true

theorem good_used (t : Target) (b : List Byte) (now d : NaiveDateTime) (f : OsFile) :
    withTable (goodProfile t b now d f) (kept t b) = goodProfile t b now d f := rfl

/-- A second header in a used profile, whatever file it comes from: it replaces every field of the first but
the tag table, to which it appends its own tags; if the tags do not fit the 100 cells together, it panics.
A file that does not open by itself is not read into a used profile either. -/
theorem C101_append_partial (t : Target) (env env' : Handlers) (now : NaiveDateTime) (sched : List OsResp)
    (ctx ctx' : CState) (fs : FS) (path : Path) (b b' : List Byte) (hlen : b.length < 9223372036854775808)
    (hlen' : b'.length < 9223372036854775808) (hfile : fs.files path = some b) (p : Profile)
    (h : (openFromFileThr t env now sched ctx fs path .read).1 = .ok p)
    (f : OsFile) (hd : f.data = b') (hr : f.readable = true) (hpos : f.pos = 0) :
    let r := Profile.readHeaderThr t (OsFile.handler t) env' ⟨{ p with io := some f }, ctx'⟩
    match verdict t b' with
    | .table es =>
      if 100 < (kept t b).length + es.length then ∃ st, r = .panic st ∧ st.ctx = ctx'
      else ∃ q f', r = .ok () ⟨q, ctx'⟩ ∧ Says t b' (kept t b ++ es) q ∧ q.io = some f' ∧ f'.data = b'
    | _ => ∀ st, r ≠ .ok () st := by
  intro r
  obtain ⟨d, f0, hv, -, -, -, -, rfl⟩ := openRead_ok hlen hfile h
  have hr0 : r = Profile.readHeaderIo t (OsFile.handler t) env' ⟨onFile (goodProfile t b now d f0) f, ctx'⟩ := rfl
  obtain ⟨f', q, d', -, -, hh⟩ := readHeaderIo_used t env' b' hlen' (goodProfile t b now d f0) (kept t b)
    (kept_100 hv) (good_used t b now d f0) ctx' f hd hr hpos
  rw [hr0]
  cases hv' : verdict t b' with
  | short =>
    rw [hv'] at hh
    simp only at hh ⊢
    intro st
    rw [hh]
    split <;> exact nofun
  | badMagic =>
    rw [hv'] at hh
    simp only at hh ⊢
    intro st
    rw [hh]
    split <;> exact nofun
  | badDate => rw [hv'] at hh; simp only at hh ⊢; intro st; rw [hh]; exact nofun
  | tooMany n =>
    rw [hv'] at hh
    simp only at hh ⊢
    intro st
    rw [hh]
    split <;> exact nofun
  | overflow => rw [hv'] at hh; simp only at hh ⊢; intro st; rw [hh]; exact nofun
  | table es =>
    rw [hv'] at hh
    simp only at hh ⊢
    obtain ⟨d2, hd2, hh⟩ := hh
    rw [hh]
    have hg := verdict_table hv'
    split
    · exact ⟨_, rfl, rfl⟩
    · refine ⟨_, f', rfl, ?_, rfl, d'⟩
      refine header_says t b' (by have := hg.1; omega) now d2 f' (kept t b ++ es) ?_ hg.2.1 hd2
      intro e he
      rw [List.mem_append] at he
      rcases he with he | he
      · exact (kept_lt t b e he).1
      · rw [hg.2.2.2.2.1] at he
        exact (kept_lt t b' e he).1

/-- **C101**, exactly when it holds: reading the same header again succeeds if and only if the file has at
most 50 tags, and leaves the profile as it was if and only if the file has no tags at all.  Otherwise the
profile lists every tag twice. -/
theorem C101_again_partial (t : Target) (env : Handlers) (now : NaiveDateTime) (sched : List OsResp)
    (ctx : CState) (fs : FS) (path : Path) (b : List Byte) (hlen : b.length < 9223372036854775808)
    (hfile : fs.files path = some b) (p : Profile)
    (h : (openFromFileThr t env now sched ctx fs path .read).1 = .ok p)
    (f : OsFile) (hd : f.data = b) (hr : f.readable = true) (hpos : f.pos = 0) :
    let r := Profile.readHeaderThr t (OsFile.handler t) env ⟨{ p with io := some f }, ctx⟩
    ((∃ st, r = .ok () st) ↔ p.getTagCount ≤ 50) ∧
    (∀ st, r = .ok () st → st.prof.getTagCount = 2 * p.getTagCount) ∧
    ((∃ st, r = .ok () st ∧ st.prof.eq p = true) ↔ p.getTagCount = 0) := by
  intro r
  have ha := C101_append_partial t env env now sched ctx ctx fs path b b hlen hlen hfile p h f hd hr hpos
  obtain ⟨d, f0, hv, hdt, -, -, -, hp⟩ := openRead_ok hlen hfile h
  have hcount : p.getTagCount = (kept t b).length := by rw [hp]; rfl
  have hcons : r = Profile.readHeaderIo t (OsFile.handler t) env ⟨onFile p f, ctx⟩ := rfl
  rw [hv] at ha
  simp only at ha
  rw [hcount]
  by_cases hfull : 100 < (kept t b).length + (kept t b).length
  · rw [if_pos hfull] at ha
    obtain ⟨st, hst, -⟩ := ha
    have hno : ∀ st', r ≠ .ok () st' := fun st' h' => nomatch hst.symm.trans h'
    exact ⟨⟨fun ⟨st', h'⟩ => absurd h' (hno st'), fun _ => by omega⟩, fun st' h' => absurd h' (hno st'),
      ⟨fun ⟨st', h', _⟩ => absurd h' (hno st'), fun _ => by omega⟩⟩
  · rw [if_neg hfull] at ha
    obtain ⟨q, f', hq, hs, -, -⟩ := ha
    have hqc : q.getTagCount = 2 * (kept t b).length := by
      show q.tagCount = _
      rw [hs.tagCount, List.length_append]
      omega
    refine ⟨⟨fun _ => by omega, fun _ => ⟨_, hq⟩⟩, ?_, ?_, ?_⟩
    · intro st h'
      have := hq.symm.trans h'
      cases this
      exact hqc
    · rintro ⟨st, h', he⟩
      have := hq.symm.trans h'
      cases this
      obtain ⟨io, hio⟩ := ((C46_equality (σ := OsFile)).2.2.2 q p).mp he
      have : p.getTagCount = q.getTagCount := by rw [hio]; rfl
      omega
    · intro hzero
      refine ⟨_, hq, ?_⟩
      have hnil : kept t b = [] := List.eq_nil_of_length_eq_zero hzero
      obtain ⟨f2, q2, d2, -, -, hh⟩ := readHeaderIo_used t env b hlen (goodProfile t b now d f0) (kept t b)
        (kept_100 hv) (good_used t b now d f0) ctx f hd hr hpos
      rw [hv] at hh
      simp only at hh
      obtain ⟨dd, hdd, hh⟩ := hh
      rw [if_neg hfull, ← hp, ← hcons] at hh
      replace hh := hq.symm.trans hh
      rw [hdt] at hdd
      cases hdd
      injection hh with _ hh
      injection hh with hh
      rw [C46_equality.2.2.2, hh, hp, hnil]
      refine ⟨some f0, ?_⟩
      show goodProfile t b now d f0 = _
      unfold goodProfile
      rw [hnil]
      rfl

/-- After the second reading, the lookup that follows links never returns for any tag of the file. -/
theorem C101_lookup_partial (t : Target) (env : Handlers) (now : NaiveDateTime) (sched : List OsResp)
    (ctx : CState) (fs : FS) (path : Path) (b : List Byte) (hlen : b.length < 9223372036854775808)
    (hfile : fs.files path = some b) (p : Profile)
    (h : (openFromFileThr t env now sched ctx fs path .read).1 = .ok p)
    (f : OsFile) (hd : f.data = b) (hr : f.readable = true) (hpos : f.pos = 0) (st : PStateOf OsFile)
    (hst : Profile.readHeaderThr t (OsFile.handler t) env ⟨{ p with io := some f }, ctx⟩ = .ok () st)
    (sig : Signature) :
    ((∃ e ∈ kept t b, e.name = sig.val.toNat) → ∀ n, st.prof.searchTag true n sig = none) ∧
    ((¬ ∃ e ∈ kept t b, e.name = sig.val.toNat) → ∀ n, st.prof.searchTag true (n + 1) sig = some .none) := by
  have ha := C101_append_partial t env env now sched ctx ctx fs path b b hlen hlen hfile p h f hd hr hpos
  obtain ⟨d, f0, hv, -, -, -, -, hp⟩ := openRead_ok hlen hfile h
  rw [hv] at ha
  simp only at ha
  by_cases hfull : 100 < (kept t b).length + (kept t b).length
  · rw [if_pos hfull] at ha
    obtain ⟨st', hst', -⟩ := ha
    exact nomatch hst'.symm.trans hst
  rw [if_neg hfull] at ha
  obtain ⟨q, f', hq, hs, -, -⟩ := ha
  have := hq.symm.trans hst
  cases this
  clear hq hst
  simp only
  generalize hes : kept t b = es at *
  have hlen2 : (es ++ es).length = es.length + es.length := List.length_append
  have hnames : q.tagNames.length = 100 := by
    have := congrArg List.length hs.tagNames
    rw [List.length_map, column_length _ _ (by rw [List.length_map]; omega)] at this
    exact this
  -- the name in cell `i`
  have hname : ∀ i, ∀ hi : i < es.length + es.length, q.tagNames[i]? = some sig ↔
      ((es ++ es)[i]'(by omega)).name = sig.val.toNat := by
    intro i hi
    have hc := congrArg (fun l => l[i]?) hs.tagNames
    simp only [List.getElem?_map] at hc
    rw [column_get _ _ (by rw [List.length_map]; omega), if_pos (by rw [List.length_map]; omega),
      List.getElem?_map, List.getElem?_eq_getElem (by omega), List.getElem?_eq_getElem (by omega)] at hc
    rw [List.getElem?_eq_getElem (by omega)]
    simp only [Option.map_some, Option.some.injEq] at hc ⊢
    rw [← hc]
    constructor
    · intro h; rw [h]
    · intro h
      cases hx : q.tagNames[i] with
      | mk v =>
        rw [hx] at h
        cases sig with
        | mk w => exact congrArg _ (UInt32.toNat_inj.mp h)
  have hsp := searchOneFrom_spec q sig (es.length + es.length) 0 (by omega)
  have hone : q.searchOneTag sig = q.searchOneFrom sig 0 (es.length + es.length) := by
    unfold Profile.searchOneTag
    rw [hs.tagCount, hlen2]
  rw [← hone] at hsp
  constructor
  · rintro ⟨e, he, hn⟩
    obtain ⟨i, hi, rfl⟩ := List.mem_iff_getElem.mp he
    have hi' : q.tagNames[i]? = some sig :=
      (hname i (by omega)).mpr (by rw [List.getElem_append_left hi]; exact hn)
    have hfound : ∃ j, q.searchOneTag sig = .some j ∧ j < es.length ∧ q.tagNames[j]? = some sig := by
      cases hres : q.searchOneTag sig with
      | panic => rw [hres] at hsp; exact hsp.elim
      | none =>
        rw [hres] at hsp
        simp only at hsp
        exact absurd hi' (hsp i (Nat.zero_le _) (by omega))
      | some j =>
        rw [hres] at hsp
        simp only at hsp
        refine ⟨j, rfl, ?_, hsp.2.2.1⟩
        by_contra hge
        exact hsp.2.2.2 i (Nat.zero_le _) (by omega) hi'
    obtain ⟨j, hj, hjl, hjn⟩ := hfound
    have hlink : q.tagLinked[j]? = some (some sig) := by
      have hc := congrArg (fun l => l[j]?) hs.tagLinked
      simp only [List.getElem?_map] at hc
      rw [column_get _ _ (by rw [List.length_map, List.length_range]; omega),
        if_pos (by rw [List.length_map, List.length_range]; omega), List.getElem?_map,
        List.getElem?_range (by omega), Option.map_some] at hc
      have htw : hasLaterTwin (es ++ es) j := by
        refine ⟨es.length + j, by omega, by omega, ?_, ?_⟩ <;>
          rw [List.getElem?_append_right (by omega), List.getElem?_append_left hjl, Nat.add_sub_cancel_left]
      rw [if_pos htw] at hc
      have hnj := (hname j (by omega)).mp hjn
      rw [List.getElem?_eq_getElem (l := es ++ es) (by omega), Option.map_some, hnj] at hc
      cases hx : q.tagLinked[j]? with
      | none => rw [hx] at hc; cases hc
      | some o =>
        rw [hx] at hc
        cases o with
        | none => cases hc
        | some s =>
          simp only [Option.map_some, Option.some.injEq] at hc
          cases s with
          | mk v =>
            cases sig with
            | mk w => exact congrArg (fun v => some (some (Signature.mk v))) (UInt32.toNat_inj.mp hc)
    intro n
    induction n with
    | zero => rfl
    | succ n ih =>
      rw [Profile.searchTag, hj]
      simp only [hlink, Bool.true_eq_false, if_false]
      exact ih
  · intro hno n
    have hres : q.searchOneTag sig = .none := by
      cases hres : q.searchOneTag sig with
      | panic => rw [hres] at hsp; exact hsp.elim
      | none => rfl
      | some j =>
        rw [hres] at hsp
        simp only [Nat.zero_add] at hsp
        exfalso
        apply hno
        refine ⟨_, ?_, (hname j hsp.2.1).mp hsp.2.2.1⟩
        have := List.getElem_mem (l := es ++ es) (n := j) (by omega)
        rw [List.mem_append, or_self] at this
        exact this
    rw [Profile.searchTag, hres]

/-- **C101** is violated by any file with a tag. -/
theorem C101_refuted : ¬ C101_statement := by
  intro h
  obtain ⟨b, hv, hk, hlen⟩ := twin_exists
  have hfile : (oneFile [] b).files [] = some b := oneFile_files _ _
  have ho := openRead_eq pc quiet noon [] ctx0 (oneFile [] b) [] b hlen rfl hfile
  rw [hv] at ho
  obtain ⟨⟨d, f, h1, h2, h3, h4, h5⟩, -⟩ := ho
  have hst := h pc quiet noon [] ctx0 (oneFile [] b) [] b hlen hfile _ h5 ⟨b, 0, true, false, []⟩ rfl rfl rfl
  have := (C101_again_partial pc quiet noon [] ctx0 (oneFile [] b) [] b hlen hfile _ h5 ⟨b, 0, true, false, []⟩
    rfl rfl rfl).2.2.mp hst
  have hc : (goodProfile pc b noon d f).getTagCount = (kept pc b).length := rfl
  rw [hc, hk] at this
  cases this

/-- Two tags become four, and looking up the first of them hangs. -/
example : ∃ (p : Profile) (st : PStateOf OsFile) (f : OsFile),
    (openFromFileThr pc quiet noon [] ctx0 (oneFile [] twinFile) [] .read).1 = .ok p ∧
      Profile.readHeaderThr pc (OsFile.handler pc) quiet ⟨{ p with io := some f }, ctx0⟩ = .ok () st ∧
      p.getTagCount = 2 ∧ st.prof.getTagCount = 4 ∧
      ∀ n, st.prof.searchTag true n ⟨0x67545243⟩ = none := by
  have hl : twinFile.length = 176 := by decide +kernel
  have hk := (verdict_table twin_kept).2.2.2.2.1
  have hv : verdict pc twinFile = .table (kept pc twinFile) := by rw [← hk]; exact twin_kept
  generalize twinFile = b at *
  have hlen : b.length < 9223372036854775808 := by omega
  have hfile : (oneFile [] b).files [] = some b := oneFile_files _ _
  have ho := openRead_eq pc quiet noon [] ctx0 (oneFile [] b) [] b hlen rfl hfile
  rw [hv] at ho
  obtain ⟨⟨d, f, h1, h2, h3, h4, h5⟩, -⟩ := ho
  have hc : (goodProfile pc b noon d f).getTagCount = 2 := by
    show (kept pc b).length = 2
    rw [← hk]; rfl
  have hag := C101_again_partial pc quiet noon [] ctx0 (oneFile [] b) [] b hlen hfile _ h5 ⟨b, 0, true, false, []⟩
    rfl rfl rfl
  obtain ⟨st, hst⟩ := hag.1.mpr (by rw [hc]; decide)
  have hlook := C101_lookup_partial pc quiet noon [] ctx0 (oneFile [] b) [] b hlen hfile _ h5
    ⟨b, 0, true, false, []⟩ rfl rfl rfl st hst ⟨0x67545243⟩
  exact ⟨_, st, _, h5, hst, hc, by rw [hag.2.1 st hst, hc],
    hlook.1 ⟨⟨0x67545243, 156, 20⟩, by rw [← hk]; decide, rfl⟩⟩

end Lcms.Props
