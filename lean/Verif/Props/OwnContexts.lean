import Verif.Lemmas.LiveFile
import Verif.Lemmas.AnyHandler
import Verif.Spec.Visits
import Verif.Props.Open

/-! # Property C110: threads opening profiles at the same time, each with its own context -/

namespace Lcms.Props

open Lcms.Spec

theorem foldl_put (vs : List Visit) (fs : FS) (p : Path) :
    ((vs.foldl (fun fs v => fs.put v.path []) fs).files p =
      if ∃ v ∈ vs, v.path = p then some [] else fs.files p) ∧
    (vs.foldl (fun fs v => fs.put v.path []) fs).mayRead = fs.mayRead ∧
    (vs.foldl (fun fs v => fs.put v.path []) fs).mayCreate = fs.mayCreate := by
  induction vs generalizing fs with
  | nil => simp
  | cons v vs ih =>
    rw [List.foldl_cons]
    obtain ⟨h1, h2, h3⟩ := ih (fs.put v.path [])
    refine ⟨?_, h2, h3⟩
    rw [h1]
    by_cases h : ∃ w ∈ vs, w.path = p
    · rw [if_pos h, if_pos (by obtain ⟨w, hw, e⟩ := h; exact ⟨w, List.mem_cons_of_mem _ hw, e⟩)]
    · rw [if_neg h]
      by_cases hv : v.path = p
      · rw [if_pos ⟨v, List.mem_cons_self .., hv⟩]
        unfold FS.put
        simp only
        rw [if_pos hv.symm]
      · rw [if_neg]
        · unfold FS.put
          simp only
          rw [if_neg (fun e => hv e.symm)]
        · rintro ⟨w, hw, e⟩
          rcases List.mem_cons.mp hw with rfl | hw
          · exact hv e
          · exact h ⟨w, hw, e⟩

open Classical in
/-- **C110**, the files: whatever calls are made and however they overlap, before any tick a file is empty if one of
them has created it by then, and untouched otherwise; permissions do not change. -/
theorem C110_files (fs : FS) (vs : List Visit) (n : Nat) (p : Path) :
    (filesAt fs vs n).files p = (if ∃ v ∈ vs, Empties fs v p ∧ v.tick 0 < n then some [] else fs.files p) ∧
    (filesAt fs vs n).mayRead = fs.mayRead ∧ (filesAt fs vs n).mayCreate = fs.mayCreate := by
  induction n with
  | zero =>
    refine ⟨?_, rfl, rfl⟩
    rw [if_neg (by rintro ⟨_, _, _, h⟩; omega)]
    rfl
  | succ n ih =>
    obtain ⟨h1, h2, h3⟩ := ih
    obtain ⟨g1, g2, g3⟩ := foldl_put (vs.filter fun v => v.tick 0 = n && v.creates fs) (filesAt fs vs n) p
    refine ⟨?_, g2.trans h2, g3.trans h3⟩
    refine Eq.trans (by simpa only [filesAt] using g1) ?_
    have hmem : ∀ v, v ∈ vs.filter (fun v => v.tick 0 = n && v.creates fs) ∧ v.path = p ↔
        v ∈ vs ∧ Empties fs v p ∧ v.tick 0 = n := by
      intro v
      simp only [List.mem_filter, Visit.creates, Bool.and_eq_true, decide_eq_true_eq, Option.isNone_iff_eq_none,
        Empties]
      constructor
      · rintro ⟨⟨a, b, c, d⟩, rfl⟩; exact ⟨a, ⟨c, rfl, d⟩, b⟩
      · rintro ⟨a, ⟨c, rfl, d⟩, b⟩; exact ⟨⟨a, b, c, d⟩, rfl⟩
    by_cases hn : ∃ v ∈ vs, Empties fs v p ∧ v.tick 0 = n
    · obtain ⟨v, hv, he, ht⟩ := hn
      rw [if_pos ⟨v, ((hmem v).mpr ⟨hv, he, ht⟩).1, ((hmem v).mpr ⟨hv, he, ht⟩).2⟩,
        if_pos ⟨v, hv, he, by omega⟩]
    · rw [if_neg (by
        rintro ⟨v, hv, e⟩
        exact hn ⟨v, (hmem v).mp ⟨hv, e⟩⟩), h1]
      by_cases ho : ∃ v ∈ vs, Empties fs v p ∧ v.tick 0 < n
      · obtain ⟨v, hv, he, ht⟩ := ho
        rw [if_pos ⟨v, hv, he, ht⟩, if_pos ⟨v, hv, he, by omega⟩]
      · rw [if_neg ho, if_neg]
        rintro ⟨v, hv, he, ht⟩
        by_cases htn : v.tick 0 = n
        · exact hn ⟨v, hv, he, htn⟩
        · exact ho ⟨v, hv, he, by omega⟩

/-- Opening for writing: the header cannot be read. -/
theorem finish_unreadable (t : Target) (env : Handlers) (p : Profile LiveFile) (w : Nat → List Byte) (n : Nat)
    (sc : List OsResp) (ctx : CState) (hp : p.io = some ⟨w, n, false, sc⟩) :
    LiveOpened.finish t env p ctx = (.err .badFd, ctx) := by
  have hr : readBuf (LiveFile.handler t) 128 ⟨w, n, false, sc⟩ = .err .badFd (LiveFile.pass ⟨w, n, false, sc⟩) := by
    unfold readBuf
    have : (LiveFile.handler t).read = LiveFile.readExact := rfl
    rw [this]
    unfold LiveFile.readExact LiveFile.readExactLoop
    rw [if_neg (by decide), if_pos rfl]
  have hio : PM.onIo (readBuf (LiveFile.handler t) 128) ⟨p, ctx⟩ =
      .err .badFd ⟨{ p with io := some (LiveFile.pass ⟨w, n, false, sc⟩) }, ctx⟩ := by
    unfold PM.onIo
    simp only [hp, hr]
  unfold LiveOpened.finish Profile.readHeaderThr
  simp only [hp]
  rw [Profile.readHeaderIo, PM.bind_apply, hio]

theorem sameOpened_of_reading {t : Target} {env : Handlers} {p : Profile LiveFile} {q : Profile} {ctx : CState}
    {fs : FS} {path : Path}
    (h : SameReading (Profile.readHeaderThr t (LiveFile.handler t) env ⟨p, ctx⟩)
      (Profile.readHeaderThr t (OsFile.handler t) env ⟨q, ctx⟩)) :
    SameOpened (LiveOpened.finish t env p ctx).1 (finishOpen t env q ctx fs path).1 ∧
      (LiveOpened.finish t env p ctx).2 = (finishOpen t env q ctx fs path).2.1 := by
  unfold LiveOpened.finish finishOpen
  revert h
  cases Profile.readHeaderThr t (LiveFile.handler t) env ⟨p, ctx⟩ <;>
    cases Profile.readHeaderThr t (OsFile.handler t) env ⟨q, ctx⟩ <;> intro h <;>
    first
      | exact h.elim
      | (simp only [SameReading] at h; exact ⟨h.1, h.2⟩)
      | (simp only [SameReading] at h; exact ⟨h.1, h.2.2⟩)
      | (simp only [SameReading] at h; exact ⟨trivial, h.2⟩)

/-- **C110**, one call: among any other calls, with any overlap, a call of `open_from_file_thr` has the result, and
does to its context, what it would have and do alone on the files as they are when it opens its own; or it reads, and
between its opening of the file and a later system call another call truncates this very file: then it may also return
`UnexpectedEof`, with nothing signalled. -/
theorem C110_call (t : Target) (env : Handlers) (fs : FS) (hs : SmallFiles t fs) (vs : List Visit) (v : Visit)
    (hv : Monotone v.tick) (ctx : CState) :
    let r := v.run t env fs vs ctx
    let a := openFromFileThr t env v.now v.sched ctx (filesAt fs vs (v.tick 0)) v.path v.mode
    (SameOpened r.1 a.1 ∧ r.2 = a.2.1) ∨
    (v.mode = .read ∧ r = (.err .unexpectedEof, ctx) ∧
      ∃ c ∈ vs, Empties fs c v.path ∧ ∃ k, v.tick 0 ≤ c.tick 0 ∧ c.tick 0 < v.tick (k + 1)) := by
  classical
  intro r a
  obtain ⟨f1, f2, f3⟩ := C110_files fs vs (v.tick 0) v.path
  cases hm : v.mode with
  | write =>
    left
    have ha : a = openFromFileThr t env v.now v.sched ctx (filesAt fs vs (v.tick 0)) v.path .write := by rw [← hm]
    rw [ha, openWrite_eq]
    cases hc : (filesAt fs vs (v.tick 0)).mayCreate v.path with
    | some e =>
      have hr : r = (.err e, ctx) := by
        simp only [r, Visit.run, hm, FS.create, hc]
      rw [hr]
      exact ⟨rfl, rfl⟩
    | none =>
      have hr : r = (.err .badFd, ctx) := by
        simp only [r, Visit.run, hm, FS.create, hc]
        exact finish_unreadable t env _ _ _ _ ctx rfl
      rw [hr]
      exact ⟨rfl, rfl⟩
  | read =>
    cases hr : (filesAt fs vs (v.tick 0)).mayRead v.path with
    | some e =>
      left
      have h1 : r = (.err e, ctx) := by simp only [r, Visit.run, hm, FS.open, hr]
      have h2 : a = (.err e, ctx, filesAt fs vs (v.tick 0)) := by
        simp only [a, openFromFileThr, hm, FS.open, hr]
      rw [h1, h2]
      exact ⟨rfl, rfl⟩
    | none =>
      cases hb : (filesAt fs vs (v.tick 0)).files v.path with
      | none =>
        left
        have h1 : r = (.err .notFound, ctx) := by simp only [r, Visit.run, hm, FS.open, hr, hb]
        have h2 : a = (.err .notFound, ctx, filesAt fs vs (v.tick 0)) := by
          simp only [a, openFromFileThr, hm, FS.open, hr, hb]
        rw [h1, h2]
        exact ⟨rfl, rfl⟩
      | some b =>
        obtain ⟨W, hW⟩ : ∃ W : Nat → List Byte,
            W = fun k => ((filesAt fs vs (v.tick (k + 1))).files v.path).getD [] := ⟨_, rfl⟩
        have h1 : r = LiveOpened.finish t env
            { (Profile.new v.now : Profile LiveFile) with io := some ⟨W, 0, true, v.sched⟩ } ctx := by
          simp only [r, Visit.run, hm, FS.open, hr, hb, hW]
        have h2 : a = finishOpen t env
            { (Profile.new v.now : Profile) with io := some ⟨b, 0, true, false, v.sched⟩ } ctx
              (filesAt fs vs (v.tick 0)) v.path := by
          simp only [a, openFromFileThr, hm, FS.open, hr, hb]
        -- the contents met during the call
        have hw : ∀ k, (W k = b ∧ ¬ ∃ c ∈ vs, Empties fs c v.path ∧ v.tick 0 ≤ c.tick 0 ∧ c.tick 0 < v.tick (k + 1)) ∨
            (W k = [] ∧ ∃ c ∈ vs, Empties fs c v.path ∧ v.tick 0 ≤ c.tick 0 ∧ c.tick 0 < v.tick (k + 1)) := by
          intro k
          have hk : v.tick 0 ≤ v.tick (k + 1) := hv (Nat.zero_le _)
          obtain ⟨g1, -, -⟩ := C110_files fs vs (v.tick (k + 1)) v.path
          by_cases hcut : ∃ c ∈ vs, Empties fs c v.path ∧ v.tick 0 ≤ c.tick 0 ∧ c.tick 0 < v.tick (k + 1)
          · right
            refine ⟨?_, hcut⟩
            obtain ⟨c, hc, he, -, h⟩ := hcut
            rw [hW]
            simp only
            rw [g1, if_pos ⟨c, hc, he, h⟩]
            rfl
          · left
            refine ⟨?_, hcut⟩
            rw [hW]
            simp only
            rw [hb] at f1
            have : (∃ c ∈ vs, Empties fs c v.path ∧ c.tick 0 < v.tick (k + 1)) ↔
                ∃ c ∈ vs, Empties fs c v.path ∧ c.tick 0 < v.tick 0 := by
              constructor
              · rintro ⟨c, hc, he, h⟩
                refine ⟨c, hc, he, ?_⟩
                by_contra hlt
                exact hcut ⟨c, hc, he, by omega, h⟩
              · rintro ⟨c, hc, he, h⟩
                exact ⟨c, hc, he, by omega⟩
            rw [g1]
            simp only [this]
            rw [← f1]
            rfl
        have hlen : b.length < 9223372036854775808 ∧ b.length < t.usizeMod := by
          rw [hb] at f1
          split at f1
          · cases f1
            refine ⟨by norm_num, ?_⟩
            unfold Target.usizeMod
            positivity
          · exact hs _ _ f1.symm
        have hdec : Decays b W := by
          refine ⟨fun k => (hw k).imp And.left And.left, fun j k hjk hj => ?_⟩
          rcases hw k with ⟨e, hk⟩ | ⟨e, -⟩
          · rcases hw j with ⟨e', -⟩ | ⟨-, c, hc, he, h, h'⟩
            · rw [e, ← e', hj]
            · exact absurd ⟨c, hc, he, h, lt_of_lt_of_le h' (hv (by omega))⟩ hk
          · exact e
        have hrel := seen_header t env b W hlen.1 hlen.2
          { (Profile.new v.now : Profile LiveFile) with io := some ⟨W, 0, true, v.sched⟩ }
          { (Profile.new v.now : Profile) with io := some ⟨b, 0, true, false, v.sched⟩ }
          ⟨W, 0, true, v.sched⟩ ⟨b, 0, true, false, v.sched⟩ ctx rfl rfl rfl
          ⟨rfl, rfl, rfl, rfl, Nat.zero_le _, hdec, id⟩
        rw [h1, h2]
        rcases disturbed_of_rel hrel with h | ⟨e, st, h, hctx, he, k, hk⟩
        · left
          exact sameOpened_of_reading h
        · right
          refine ⟨rfl, ?_, ?_⟩
          · have h' : Profile.readHeaderThr t (LiveFile.handler t) env
                ⟨{ (Profile.new v.now : Profile LiveFile) with io := some ⟨W, 0, true, v.sched⟩ }, ctx⟩ = .err e st := h
            unfold LiveOpened.finish
            rw [h']
            simp only
            rw [he, hctx]
          · rcases hw k with ⟨e, -⟩ | ⟨-, c, hc, hce, h, h'⟩
            · exact absurd e hk
            · exact ⟨c, hc, hce, k, h, h'⟩

/-- Results and contexts depend on nothing but the file that is opened. -/
theorem open_congr (t : Target) (env : Handlers) (now : NaiveDateTime) (sched : List OsResp) (ctx : CState)
    (fs fs' : FS) (path : Path) (mode : AccessMode) (h1 : fs.files path = fs'.files path)
    (h2 : fs.mayRead = fs'.mayRead) (h3 : fs.mayCreate = fs'.mayCreate) :
    (openFromFileThr t env now sched ctx fs path mode).1 = (openFromFileThr t env now sched ctx fs' path mode).1 ∧
    (openFromFileThr t env now sched ctx fs path mode).2.1 = (openFromFileThr t env now sched ctx fs' path mode).2.1 := by
  have hfin : ∀ p, (finishOpen t env p ctx fs path).1 = (finishOpen t env p ctx fs' path).1 ∧
      (finishOpen t env p ctx fs path).2.1 = (finishOpen t env p ctx fs' path).2.1 := by
    intro p
    unfold finishOpen
    cases Profile.readHeaderThr t (OsFile.handler t) env ⟨p, ctx⟩ <;> exact ⟨rfl, rfl⟩
  cases mode with
  | read =>
    have e : fs.open path sched = fs'.open path sched := by unfold FS.open; rw [h1, h2]
    unfold openFromFileThr
    simp only [e]
    cases fs'.open path sched with
    | error e => exact ⟨rfl, rfl⟩
    | ok f => exact hfin _
  | write =>
    have e : fs.create path sched = fs'.create path sched := by unfold FS.create; rw [h3]
    unfold openFromFileThr
    simp only [e]
    cases fs'.create path sched with
    | error e => exact ⟨rfl, rfl⟩
    | ok f => exact hfin _

open Classical in
/-- What a call leaves on disk. -/
theorem open_files (t : Target) (env : Handlers) (v : Visit) (ctx : CState) (fs : FS) (hs : SmallFiles t fs) :
    let r := openFromFileThr t env v.now v.sched ctx fs v.path v.mode
    (∀ p, r.2.2.files p = if Empties fs v p then some [] else fs.files p) ∧ r.2.2.mayRead = fs.mayRead ∧
      r.2.2.mayCreate = fs.mayCreate := by
  intro r
  cases hm : v.mode with
  | write =>
    have hr : r = openFromFileThr t env v.now v.sched ctx fs v.path .write := by rw [← hm]
    rw [hr, openWrite_eq]
    cases hc : fs.mayCreate v.path with
    | some e =>
      refine ⟨fun p => ?_, rfl, rfl⟩
      rw [if_neg]
      rintro ⟨-, rfl, h⟩
      rw [hc] at h
      cases h
    | none =>
      refine ⟨fun p => ?_, rfl, rfl⟩
      by_cases hp : p = v.path
      · subst hp
        rw [if_pos ⟨hm, rfl, hc⟩]
        simp [FS.put]
      · rw [if_neg (fun h => hp h.2.1.symm)]
        simp [FS.put, hp]
  | read =>
    have hno : ∀ p, ¬ Empties fs v p := fun p h => by have := h.1; rw [hm] at this; cases this
    have hfs : r.2.2 = fs := by
      rw [show r = openFromFileThr t env v.now v.sched ctx fs v.path v.mode from rfl, hm]
      cases hr : fs.mayRead v.path with
      | some e => simp only [openFromFileThr, FS.open, hr]
      | none =>
        cases hb : fs.files v.path with
        | none => simp only [openFromFileThr, FS.open, hr, hb]
        | some b =>
          have h := openRead_eq t env v.now v.sched ctx fs v.path b (hs _ _ hb).1 hr hb
          revert h
          unfold outcome
          cases verdict t b with
          | short => intro h; rw [h]
          | badDate => intro h; rw [h]
          | overflow => intro h; rw [h]
          | table es => intro h; rw [h.2]
          | badMagic =>
            intro h; rw [h]
            cases signalError env .badSignature "not an ICC profile, invalid signature".toList ctx <;> rfl
          | tooMany n =>
            intro h; rw [h]
            cases signalError env .range ("Too many tags ".toList ++ decimal n) ctx <;> rfl
    rw [hfs]
    refine ⟨fun p => by rw [if_neg (hno p)], rfl, rfl⟩

open Classical in
theorem threads_aux (t : Target) (env : Handlers) (fs : FS) (hs : SmallFiles t fs) (vs mine : List Visit)
    (hsub : ∀ v ∈ mine, v ∈ vs) (hmono : ∀ v ∈ mine, Monotone v.tick)
    (hord : mine.Pairwise fun v w => ∀ k, v.tick k < w.tick 0)
    (hother : ∀ c ∈ vs, c ∉ mine → ∀ w ∈ mine, ¬ Empties fs c w.path)
    (before rest : List Visit) (hsplit : before ++ rest = mine) (ctx : CState) (fs' : FS)
    (hfiles : ∀ p, fs'.files p = if ∃ v ∈ before, Empties fs v p then some [] else fs.files p)
    (hread : fs'.mayRead = fs.mayRead) (hcreate : fs'.mayCreate = fs.mayCreate) :
    List.Forall₂ SameOpened (runThread t env fs vs rest ctx).1 (alone t env rest ctx fs').1 ∧
    (runThread t env fs vs rest ctx).2 = (alone t env rest ctx fs').2.1 ∧
    ∀ p, (alone t env rest ctx fs').2.2.files p = if ∃ v ∈ mine, Empties fs v p then some [] else fs.files p := by
  induction rest generalizing before ctx fs' with
  | nil =>
    rw [List.append_nil] at hsplit
    subst hsplit
    exact ⟨.nil, rfl, hfiles⟩
  | cons v rest ih =>
    have hv : v ∈ mine := by rw [← hsplit]; simp
    -- who can empty the file of `v`
    have hwho : ∀ c ∈ vs, Empties fs c v.path → c ∈ mine := by
      intro c hc he
      by_contra hn
      exact hother c hc hn v hv he
    have hord' := hord
    rw [← hsplit, List.pairwise_append] at hord'
    obtain ⟨-, o2, o3⟩ := hord'
    rw [List.pairwise_cons] at o2
    have hfirst : ∀ c ∈ mine, c ∈ before ∨ c = v ∨ c ∈ rest := by
      intro c hc
      rw [← hsplit] at hc
      simpa using hc
    have hfile : (filesAt fs vs (v.tick 0)).files v.path = fs'.files v.path := by
      rw [(C110_files fs vs (v.tick 0) v.path).1, hfiles]
      have : (∃ c ∈ vs, Empties fs c v.path ∧ c.tick 0 < v.tick 0) ↔ ∃ c ∈ before, Empties fs c v.path := by
        constructor
        · rintro ⟨c, hc, he, h⟩
          rcases hfirst c (hwho c hc he) with hb | rfl | hr
          · exact ⟨c, hb, he⟩
          · omega
          · have := o2.1 c hr 0
            omega
        · rintro ⟨c, hc, he⟩
          refine ⟨c, hsub c (by rw [← hsplit]; simp [hc]), he, ?_⟩
          exact o3 c hc v (by simp) 0
      simp only [this]
    have hcong := open_congr t env v.now v.sched ctx (filesAt fs vs (v.tick 0)) fs' v.path v.mode hfile
      ((C110_files fs vs (v.tick 0) v.path).2.1.trans hread.symm)
      ((C110_files fs vs (v.tick 0) v.path).2.2.trans hcreate.symm)
    have hcall := C110_call t env fs hs vs v (hmono v hv) ctx
    simp only at hcall
    rw [hcong.1, hcong.2] at hcall
    rcases hcall with ⟨h1, h2⟩ | ⟨hm, -, c, hc, he, k, hk, hk'⟩
    · have hsmall : SmallFiles t fs' := by
        intro p b hb
        rw [hfiles] at hb
        split at hb
        · cases hb
          refine ⟨by norm_num, ?_⟩
          unfold Target.usizeMod
          positivity
        · exact hs p b hb
      obtain ⟨g1, g2, g3⟩ := open_files t env v ctx fs' hsmall
      have hemp : ∀ p, Empties fs' v p ↔ Empties fs v p := by
        intro p; unfold Empties; rw [hcreate]
      obtain ⟨i1, i2, i3⟩ := ih (before ++ [v]) (by rw [← hsplit]; simp)
        (openFromFileThr t env v.now v.sched ctx fs' v.path v.mode).2.1
        (openFromFileThr t env v.now v.sched ctx fs' v.path v.mode).2.2 (by
          intro p
          rw [g1]
          simp only [hemp]
          by_cases hp : Empties fs v p
          · rw [if_pos hp, if_pos ⟨v, by simp, hp⟩]
          · rw [if_neg hp, hfiles]
            have : (∃ c ∈ before, Empties fs c p) ↔ ∃ c ∈ before ++ [v], Empties fs c p := by
              constructor
              · rintro ⟨c, hc, he⟩; exact ⟨c, by simp [hc], he⟩
              · rintro ⟨c, hc, he⟩
                rcases List.mem_append.mp hc with hc | hc
                · exact ⟨c, hc, he⟩
                · rw [List.mem_singleton.mp hc] at he
                  exact absurd he hp
            simp only [this]) (g2.trans hread) (g3.trans hcreate)
      refine ⟨?_, ?_, i3⟩
      · unfold runThread alone
        simp only
        rw [h2]
        exact .cons h1 i1
      · unfold runThread alone
        simp only
        rw [h2]
        exact i2
    · exfalso
      rcases hfirst c (hwho c hc he) with hb | rfl | hr
      · have := o3 c hb v (by simp) 0
        omega
      · have := he.1
        rw [hm] at this
        cases this
      · have := o2.1 c hr (k + 1)
        omega

/-- **C110**, threads: if no other call creates a file that a thread uses, then, however its calls overlap with all
others, the thread gets the results of its calls made alone, its context ends up the same, and after its last call the
files it uses are what its calls alone leave behind. -/
theorem C110_threads (t : Target) (env : Handlers) (fs : FS) (hs : SmallFiles t fs) (vs mine : List Visit)
    (hsub : ∀ v ∈ mine, v ∈ vs) (hmono : ∀ v ∈ mine, Monotone v.tick)
    (hord : mine.Pairwise fun v w => ∀ k, v.tick k < w.tick 0)
    (hother : ∀ c ∈ vs, c ∉ mine → ∀ w ∈ mine, ¬ Empties fs c w.path) (ctx : CState) :
    let r := runThread t env fs vs mine ctx
    let a := alone t env mine ctx fs
    List.Forall₂ SameOpened r.1 a.1 ∧ r.2 = a.2.1 ∧
    ∀ n, (∀ v ∈ mine, v.tick 0 < n) → ∀ w ∈ mine, (filesAt fs vs n).files w.path = a.2.2.files w.path := by
  classical
  intro r a
  obtain ⟨h1, h2, h3⟩ := threads_aux t env fs hs vs mine hsub hmono hord hother [] mine rfl ctx fs
    (fun p => by rw [if_neg (by simp)]) rfl rfl
  refine ⟨h1, h2, fun n hn w hw => ?_⟩
  rw [(C110_files fs vs n w.path).1, h3]
  have : (∃ c ∈ vs, Empties fs c w.path ∧ c.tick 0 < n) ↔ ∃ c ∈ mine, Empties fs c w.path := by
    constructor
    · rintro ⟨c, hc, he, -⟩
      refine ⟨c, ?_, he⟩
      by_contra hm
      exact hother c hc hm w hw he
    · rintro ⟨c, hc, he⟩
      exact ⟨c, hsub c hc, he, hn c hc⟩
  simp only [this]

/-- A call whose system calls are made at the given ticks. -/
def visit (path : Path) (mode : AccessMode) (ticks : List Nat) : Visit :=
  ⟨noon, [], path, mode, fun k => ticks.getD k (ticks.getLastD 0)⟩

/-- The sizes of the tags, or the error. -/
def seenBy (r : LiveOpened × CState) : Except (Option IoErr) (List Nat) :=
  match r.1 with
  | .ok p => .ok (p.tagSizes.take p.tagCount)
  | .err e => .error (some e)
  | .panic => .error none

/-- A reader at the ticks 0, 2, 4, … and somebody creating the same file at tick `n`. -/
def duel (n : Nat) : Except (Option IoErr) (List Nat) :=
  let reader := visit ['x'] .read [0, 2, 4, 6, 8, 10, 12, 14, 16]
  seenBy (reader.run pc quiet (oneFile ['x'] goodFile) [reader, visit ['x'] .write [n]] ctx0)

/-- Truncated after the header has been read, after the size has been asked for, and after the last system call. -/
example : duel 3 = .error (some .unexpectedEof) ∧ duel 9 = .error (some .unexpectedEof) ∧ duel 20 = .ok [4, 8] := by
  decide +kernel

/-- A thread that reads the file, empties it and reads it again, while another thread creates other files. -/
example : let first := visit ['x'] .read [0, 2, 4, 6, 8, 10, 12, 14, 16]
    let mine := [first, visit ['x'] .write [30, 31], visit ['x'] .read [40, 41]]
    let r := runThread pc quiet (oneFile ['x'] goodFile)
      (mine ++ [visit ['y'] .write [3, 4], visit ['z'] .write [35, 36]]) mine ctx0
    r.1.map (fun o => seenBy (o, ctx0)) = [.ok [4, 8], .error (some .badFd), .error (some .unexpectedEof)] := by
  decide +kernel

end Lcms.Props
