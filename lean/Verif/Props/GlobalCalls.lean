import Verif.Props.Process

/-! # Property C107: the calls that use the global context, in any order -/

namespace Lcms.Props

open Lcms.Spec

/-- A call that locks the global context: opening a file, or reading a header into a profile on any handler. -/
inductive GlobalCall where
  | open (c : OpenCall)
  | read {σ : Type} (h : Handler σ) (p : Profile σ)

/-- The process state after the call (a panic being caught). -/
def GlobalCall.after (t : Target) (env : Handlers) (g : Global) : GlobalCall → Global
  | .open c => (c.run t env g).2.1
  | .read h p => (readHeader t h env g p).2.2

/-- The call panics. -/
def GlobalCall.Panics (t : Target) (env : Handlers) (g : Global) : GlobalCall → Prop
  | .open c => (c.run t env g).1 = .panic
  | .read h p => (readHeader t h env g p).1 = none

/-- The process state after a series of calls in a fresh process. -/
def afterCalls (t : Target) (env : Handlers) (calls : List GlobalCall) : Global :=
  calls.foldl (fun g c => c.after t env g) Global.fresh

theorem readHeader_fresh {σ : Type} (t : Target) (h : Handler σ) (env : Handlers) (p : Profile σ) (tr : List Signal) :
    let r := readHeader t h env ⟨⟨Context.new none, tr⟩, false⟩ p
    r.1 = (readHeader t h env Global.fresh p).1 ∧ r.2.1 = (readHeader t h env Global.fresh p).2.1 ∧
    (r.2.2.poisoned = true ↔ (readHeader t h env Global.fresh p).1 = none) ∧ r.2.2.ctx.ctx = Context.new none := by
  intro r
  obtain ⟨h1, h2⟩ := readHeaderThr_logged t h env
  have h2 := h2 p (Context.new none)
  rw [replay_default env _ rfl] at h2
  simp only [r]
  unfold readHeader Global.fresh
  simp only [Bool.false_eq_true, if_false]
  rw [h1 p (Context.new none) tr]
  cases hq : Profile.readHeaderThr t h env ⟨p, ⟨Context.new none, []⟩⟩ <;> rw [hq] at h2 <;>
    simp only [POutOf.after, POutOf.state, CState.after] at h2 ⊢ <;> simp [h2]

theorem afterCalls_inv (t : Target) (env : Handlers) (calls : List GlobalCall) :
    (afterCalls t env calls).ctx.ctx = Context.new none ∧
    ((afterCalls t env calls).poisoned = true ↔ ∃ c ∈ calls, c.Panics t env Global.fresh) := by
  induction calls using List.reverseRecOn with
  | nil => exact ⟨rfl, by simp [afterCalls, Global.fresh]⟩
  | append_singleton calls c ih =>
    have hp : afterCalls t env (calls ++ [c]) = c.after t env (afterCalls t env calls) := by
      simp [afterCalls, List.foldl_append]
    rw [hp]
    obtain ⟨i1, i2⟩ := ih
    generalize afterCalls t env calls = g at i1 i2
    obtain ⟨⟨gc, gt⟩, gp⟩ := g
    simp only at i1 i2
    subst i1
    cases gp with
    | true =>
      have hr : c.after t env ⟨⟨Context.new none, gt⟩, true⟩ = ⟨⟨Context.new none, gt⟩, true⟩ := by
        cases c <;> rfl
      rw [hr]
      refine ⟨rfl, ⟨fun _ => ?_, fun _ => rfl⟩⟩
      obtain ⟨c', h1, h2⟩ := i2.mp rfl
      exact ⟨c', List.mem_append_left _ h1, h2⟩
    | false =>
      have hstep : (c.after t env ⟨⟨Context.new none, gt⟩, false⟩).ctx.ctx = Context.new none ∧
          ((c.after t env ⟨⟨Context.new none, gt⟩, false⟩).poisoned = true ↔ c.Panics t env Global.fresh) := by
        cases c with
        | «open» c =>
          obtain ⟨-, -, h3, h4⟩ := run_fresh t env c gt
          refine ⟨h4, ?_⟩
          show (c.run t env _).2.1.poisoned = true ↔ _
          rw [h3, decide_eq_true_eq]
          rfl
        | read h p =>
          obtain ⟨-, -, h3, h4⟩ := readHeader_fresh t h env p gt
          exact ⟨h4, h3⟩
      refine ⟨hstep.1, hstep.2.trans ⟨fun h => ⟨c, by simp, h⟩, ?_⟩⟩
      rintro ⟨c', hm, h⟩
      rw [List.mem_append, List.mem_singleton] at hm
      rcases hm with hm | rfl
      · exact absurd (i2.mpr ⟨c', hm, h⟩) (by simp)
      · exact h

open Classical in
/-- **C107**, histories: after any series of `open_from_file` and `read_header` calls on any files and handlers,
`read_header` panics without touching its profile if one of the earlier calls, made in a fresh process, would
have panicked; otherwise its result and the profile it leaves are those of `read_header_thr` with a new
context. -/
theorem C107_read_header {σ : Type} (t : Target) (env : Handlers) (calls : List GlobalCall) (h : Handler σ)
    (p : Profile σ) :
    let r := readHeader t h env (afterCalls t env calls) p
    if ∃ c ∈ calls, c.Panics t env Global.fresh then r = (none, p, afterCalls t env calls)
    else
      match Profile.readHeaderThr t h env ⟨p, ⟨Context.new none, []⟩⟩ with
      | .ok () s => r.1 = some (.ok ()) ∧ r.2.1 = s.prof
      | .err e s => r.1 = some (.error e) ∧ r.2.1 = s.prof
      | .panic s => r.1 = none ∧ r.2.1 = s.prof := by
  intro r
  obtain ⟨i1, i2⟩ := afterCalls_inv t env calls
  simp only [r]
  generalize afterCalls t env calls = g at i1 i2
  obtain ⟨⟨gc, gt⟩, gp⟩ := g
  simp only at i1 i2
  subst i1
  cases gp with
  | true => rw [if_pos (i2.mp rfl)]; rfl
  | false =>
    rw [if_neg (fun h => by simpa using i2.mpr h)]
    obtain ⟨h1, h2, -, -⟩ := readHeader_fresh t h env p gt
    rw [h1, h2]
    unfold readHeader Global.fresh
    simp only [Bool.false_eq_true, if_false]
    cases Profile.readHeaderThr t h env ⟨p, ⟨Context.new none, []⟩⟩ <;> exact ⟨rfl, rfl⟩

open Classical in
/-- **C107**, histories, for `open_from_file`: reading headers of other profiles in between matters only if it
panics. -/
theorem C107_open (t : Target) (env : Handlers) (calls : List GlobalCall) (c : OpenCall) :
    let r := c.run t env (afterCalls t env calls)
    if ∃ c' ∈ calls, c'.Panics t env Global.fresh then r = (.panic, afterCalls t env calls, c.fs)
    else r.1 = (c.run t env Global.fresh).1 ∧ r.2.2 = (c.run t env Global.fresh).2.2 := by
  intro r
  obtain ⟨i1, i2⟩ := afterCalls_inv t env calls
  simp only [r]
  generalize afterCalls t env calls = g at i1 i2
  obtain ⟨⟨gc, gt⟩, gp⟩ := g
  simp only at i1 i2
  subst i1
  cases gp with
  | true => rw [if_pos (i2.mp rfl)]; rfl
  | false =>
    rw [if_neg (fun h => by simpa using i2.mpr h)]
    exact ⟨(run_fresh t env c gt).1, (run_fresh t env c gt).2.1⟩

/-- **C107**, splitting: `open_from_file` is taking a handle, and `read_header` on a new profile with this
handle. -/
theorem C107_split (t : Target) (env : Handlers) (now : NaiveDateTime) (sched : List OsResp) (g : Global) (fs : FS)
    (path : Path) (mode : AccessMode) (f : OsFile)
    (hf : (match mode with | .read => fs.open path sched | .write => fs.create path sched) = .ok f)
    (hg : g.poisoned = false) :
    let p : Profile OsFile := { (Profile.new now : Profile OsFile) with io := some f, isWrite := mode == .write }
    let r := openFromFile t env now sched g fs path mode
    r.2.1 = (readHeader t (OsFile.handler t) env g p).2.2 ∧
    match readHeader t (OsFile.handler t) env g p with
    | (some (.ok ()), q, _) => r.1 = .ok q
    | (some (.error e), _, _) => r.1 = .err e
    | (none, _, _) => r.1 = .panic := by
  intro p r
  have key : openFromFileThr t env now sched g.ctx fs path mode = finishOpen t env p g.ctx fs path := by
    unfold openFromFileThr
    cases mode <;> simp only at hf ⊢ <;> rw [hf] <;> rfl
  simp only [r]
  unfold openFromFile readHeader
  rw [key, hg]
  simp only [Bool.false_eq_true, if_false]
  unfold finishOpen
  cases Profile.readHeaderThr t (OsFile.handler t) env ⟨p, g.ctx⟩ <;> exact ⟨rfl, rfl⟩

theorem split_panic (t : Target) (env : Handlers) (now : NaiveDateTime) (sched : List OsResp) (g : Global) (fs : FS)
    (path : Path) (mode : AccessMode) (f : OsFile)
    (hf : (match mode with | .read => fs.open path sched | .write => fs.create path sched) = .ok f)
    (hg : g.poisoned = false) (h : (openFromFile t env now sched g fs path mode).1 = .panic) :
    (readHeader t (OsFile.handler t) env g
      { (Profile.new now : Profile OsFile) with io := some f, isWrite := mode == .write }).1 = none := by
  have hs := (C107_split t env now sched g fs path mode f hf hg).2
  rw [h] at hs
  simp only at hs
  generalize readHeader t (OsFile.handler t) env g
    { (Profile.new now : Profile OsFile) with io := some f, isWrite := mode == .write } = r at hs
  obtain ⟨r, q, g'⟩ := r
  rcases r with _ | _ | _
  · rfl
  · cases hs
  · cases hs

/-- The theorems are about something: a header read between two calls that panics makes the second one panic,
one that only fails does not. -/
example : ∃ bad : Profile OsFile, ∃ c : OpenCall,
    (c.run pc quiet (afterCalls pc quiet [.read (OsFile.handler pc) bad])).1 = .panic ∧
    (c.run pc quiet (afterCalls pc quiet [.read (OsFile.handler pc) (Profile.new noon)])).1 = .err .notFound := by
  obtain ⟨b, hb⟩ := badDate_panics quiet
  refine ⟨{ (Profile.new noon : Profile OsFile) with io := some ⟨b, 0, true, false, []⟩ }, ⟨noon, [], emptyFS, [], .read⟩, ?_, ?_⟩
  · have h := C107_open pc quiet
      [.read (OsFile.handler pc) { (Profile.new noon : Profile OsFile) with io := some ⟨b, 0, true, false, []⟩ }]
      ⟨noon, [], emptyFS, [], .read⟩
    rw [if_pos] at h
    · rw [h]
    · refine ⟨_, List.mem_singleton.mpr rfl, ?_⟩
      exact split_panic pc quiet noon [] Global.fresh (oneFile [] b) [] .read ⟨b, 0, true, false, []⟩
        (by simp [FS.open, oneFile]) rfl hb
  · have h := C107_open pc quiet [.read (OsFile.handler pc) (Profile.new noon)] ⟨noon, [], emptyFS, [], .read⟩
    rw [if_neg] at h
    · rw [h.1]; rfl
    · rintro ⟨c', hm, h⟩
      rw [List.mem_singleton] at hm
      subst hm
      cases h

end Lcms.Props
