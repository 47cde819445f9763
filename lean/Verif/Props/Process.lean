import Mathlib.Data.List.Induction
import Verif.Lemmas.Process
import Verif.Props.Open

/-! # Properties C50 and C54: histories of calls on contexts and in a process -/

namespace Lcms.Props

open Lcms.Spec

/-! ### C50 -/

/-- One call of `open_from_file`: the file system may have been changed in any way before it. -/
structure OpenCall where
  now : NaiveDateTime
  sched : List OsResp
  fs : FS
  path : Path
  mode : AccessMode

/-- The call in a process state. -/
def OpenCall.run (t : Target) (env : Handlers) (g : Global) (c : OpenCall) : Opened × Global × FS :=
  openFromFile t env c.now c.sched g c.fs c.path c.mode

/-- The process state after a series of calls in a fresh process (each panic being caught). -/
def processAfter (t : Target) (env : Handlers) (calls : List OpenCall) : Global :=
  calls.foldl (fun g c => (c.run t env g).2.1) Global.fresh

/-- Earlier calls do not matter: neither for the result nor for the file system. -/
def C50_statement : Prop :=
  ∀ (t : Target) (env : Handlers) (calls : List OpenCall) (c : OpenCall),
    (c.run t env (processAfter t env calls)).1 = (c.run t env Global.fresh).1 ∧
    (c.run t env (processAfter t env calls)).2.2 = (c.run t env Global.fresh).2.2

theorem run_fresh (t : Target) (env : Handlers) (c : OpenCall) (tr : List Signal) :
    let r := c.run t env ⟨⟨Context.new none, tr⟩, false⟩
    r.1 = (c.run t env Global.fresh).1 ∧ r.2.2 = (c.run t env Global.fresh).2.2 ∧
    r.2.1.poisoned = decide ((c.run t env Global.fresh).1 = .panic) ∧ r.2.1.ctx.ctx = Context.new none := by
  intro r
  obtain ⟨h1, h2⟩ := open_logged t env c.now c.sched (Context.new none) tr c.fs c.path c.mode
  simp only [r]
  unfold OpenCall.run openFromFile Global.fresh
  simp only [Bool.false_eq_true, if_false]
  rw [h1]
  rw [replay_default env _ rfl] at h2
  generalize openFromFileThr t env c.now c.sched ⟨Context.new none, []⟩ c.fs c.path c.mode = q at h2
  obtain ⟨q1, q2, q3⟩ := q
  simp only at h2
  cases q1 <;> simp [CState.after, h2]

/-- **C50**, exactly: if an earlier call, made in a fresh process, would have panicked, the call panics
(the mutex is poisoned); otherwise it does what it does in a fresh process. -/
theorem C50_history_partial (t : Target) (env : Handlers) (calls : List OpenCall) (c : OpenCall) :
    if ∃ c' ∈ calls, (c'.run t env Global.fresh).1 = .panic then
      (c.run t env (processAfter t env calls)).1 = .panic ∧ (c.run t env (processAfter t env calls)).2.2 = c.fs
    else
      (c.run t env (processAfter t env calls)).1 = (c.run t env Global.fresh).1 ∧
      (c.run t env (processAfter t env calls)).2.2 = (c.run t env Global.fresh).2.2 := by
  have inv : (processAfter t env calls).ctx.ctx = Context.new none ∧
      ((processAfter t env calls).poisoned = true ↔ ∃ c' ∈ calls, (c'.run t env Global.fresh).1 = .panic) := by
    clear c
    induction calls using List.reverseRecOn with
    | nil => exact ⟨rfl, by simp [processAfter, Global.fresh]⟩
    | append_singleton calls c ih =>
      have hp : processAfter t env (calls ++ [c]) = (c.run t env (processAfter t env calls)).2.1 := by
        simp [processAfter, List.foldl_append]
      rw [hp]
      obtain ⟨i1, i2⟩ := ih
      generalize processAfter t env calls = g at i1 i2
      obtain ⟨⟨gc, gt⟩, gp⟩ := g
      simp only at i1 i2
      subst i1
      cases gp with
      | true =>
        have hr : c.run t env ⟨⟨Context.new none, gt⟩, true⟩ = (.panic, ⟨⟨Context.new none, gt⟩, true⟩, c.fs) := by
          unfold OpenCall.run openFromFile; rfl
        rw [hr]
        refine ⟨rfl, ⟨fun _ => ?_, fun _ => rfl⟩⟩
        obtain ⟨c', h1, h2⟩ := i2.mp rfl
        exact ⟨c', List.mem_append_left _ h1, h2⟩
      | false =>
        obtain ⟨-, -, h3, h4⟩ := run_fresh t env c gt
        refine ⟨h4, ?_⟩
        rw [h3, decide_eq_true_eq]
        constructor
        · intro h; exact ⟨c, by simp, h⟩
        · rintro ⟨c', hm, h⟩
          rw [List.mem_append, List.mem_singleton] at hm
          rcases hm with hm | rfl
          · exact absurd (i2.mpr ⟨c', hm, h⟩) (by simp)
          · exact h
  obtain ⟨i1, i2⟩ := inv
  generalize processAfter t env calls = g at i1 i2
  obtain ⟨⟨gc, gt⟩, gp⟩ := g
  simp only at i1 i2
  subst i1
  cases gp with
  | true =>
    rw [if_pos (i2.mp rfl)]
    exact ⟨rfl, rfl⟩
  | false =>
    rw [if_neg (fun h => by simpa using i2.mpr h)]
    exact ⟨(run_fresh t env c gt).1, (run_fresh t env c gt).2.1⟩

/-- A file system without files. -/
def emptyFS : FS := ⟨fun _ => none, fun _ => none, fun _ => none⟩

theorem badDate_panics (env : Handlers) : ∃ b, ((⟨noon, [], oneFile [] b, [], .read⟩ : OpenCall).run pc env Global.fresh).1 =
    .panic := by
  obtain ⟨b, hv, hlen⟩ : ∃ b, verdict pc b = .badDate ∧ b.length < 9223372036854775808 :=
    ⟨badDateFile, badDateFile_verdict, by rw [badDateFile_length]; norm_num⟩
  refine ⟨b, ?_⟩
  have ho := openRead_eq pc env noon [] ⟨Context.new none, []⟩ (oneFile [] b) [] b hlen rfl (oneFile_files _ _)
  rw [hv] at ho
  unfold OpenCall.run openFromFile Global.fresh
  simp only [Bool.false_eq_true, if_false]
  rw [show openFromFileThr pc env noon [] ⟨Context.new none, []⟩ (oneFile [] b) [] .read = _ from ho]

/-- **C50** is violated: after one file with a non-existent date every later call panics, here one that in a
fresh process reports a missing file. -/
theorem C50_refuted : ¬ C50_statement := by
  intro h
  obtain ⟨bad, hb⟩ : ∃ bad : OpenCall, (bad.run pc quiet Global.fresh).1 = .panic :=
    ⟨_, (badDate_panics quiet).choose_spec⟩
  obtain ⟨c, hc⟩ : ∃ c : OpenCall, (c.run pc quiet Global.fresh).1 = .err .notFound :=
    ⟨⟨noon, [], emptyFS, [], .read⟩, rfl⟩
  have hp := C50_history_partial pc quiet [bad] c
  rw [if_pos ⟨_, List.mem_singleton.mpr rfl, hb⟩] at hp
  have h1 := (h pc quiet [bad] c).1
  rw [hp.1, hc] at h1
  cases h1

/-! ### C54 -/

/-- A public call that takes a context. -/
inductive CtxCall where
  | initPlugin (p : Plugin)
  | open (now : NaiveDateTime) (sched : List OsResp) (fs : FS) (path : Path) (mode : AccessMode)

/-- The context after a call (each panic being caught). -/
def CtxCall.run (t : Target) (env : Handlers) (plain : Char → Bool) (s : CState) : CtxCall → CState
  | .initPlugin p =>
    match Lcms.initPlugin env plain p s with
    | .done _ s' => s'
    | .panic s' => s'
  | .open now sched fs path mode => (openFromFileThr t env now sched s fs path mode).2.1

/-- **C54**: whatever is called with a context, all that happens to it is the calls of its error handler, in
the order signalled; with the default handler the context does not change; so `get_user_data` on a context
made by `Context::new(data)` returns `data` after every history. -/
theorem C54_context_history (t : Target) (env : Handlers) (plain : Char → Bool) (calls : List CtxCall) :
    (∀ s : CState, ∃ new, (calls.foldl (CtxCall.run t env plain) s).trace = s.trace ++ new ∧
      (calls.foldl (CtxCall.run t env plain) s).ctx = replay env s.ctx new) ∧
    (∀ s : CState, s.ctx.errorHandler = ⟨0⟩ → (calls.foldl (CtxCall.run t env plain) s).ctx = s.ctx) ∧
    (∀ data tr, (calls.foldl (CtxCall.run t env plain) ⟨Context.new data, tr⟩).ctx.getUserData = data) := by
  have h1 : ∀ s : CState, ∃ new, (calls.foldl (CtxCall.run t env plain) s).trace = s.trace ++ new ∧
      (calls.foldl (CtxCall.run t env plain) s).ctx = replay env s.ctx new := by
    induction calls with
    | nil => intro s; exact ⟨[], by simp, rfl⟩
    | cons c calls ih =>
      intro s
      have hs : ∃ new, (c.run t env plain s).trace = s.trace ++ new ∧
          (c.run t env plain s).ctx = replay env s.ctx new := by
        cases c with
        | initPlugin p =>
          have h := initPlugin_logged env plain p s
          unfold CtxCall.run
          simp only
          cases hr : Lcms.initPlugin env plain p s <;> rw [hr] at h <;> exact h
        | «open» now sched fs path mode =>
          obtain ⟨h1, h2⟩ := open_logged t env now sched s.ctx s.trace fs path mode
          have e : (⟨s.ctx, s.trace⟩ : CState) = s := rfl
          rw [e] at h1
          unfold CtxCall.run
          simp only [h1]
          exact ⟨_, rfl, h2⟩
      obtain ⟨n1, a1, b1⟩ := hs
      obtain ⟨n2, a2, b2⟩ := ih (c.run t env plain s)
      refine ⟨n1 ++ n2, ?_, ?_⟩
      · rw [List.foldl_cons, a2, a1, List.append_assoc]
      · rw [List.foldl_cons, b2, b1, replay_append]
  have h2 : ∀ s : CState, s.ctx.errorHandler = ⟨0⟩ →
      (calls.foldl (CtxCall.run t env plain) s).ctx = s.ctx := by
    intro s hs
    obtain ⟨new, -, h⟩ := h1 s
    rw [h, replay_default env _ hs]
  refine ⟨h1, h2, ?_⟩
  intro data tr
  rw [h2 _ rfl]
  rfl

/-- A history in which a handler that counts calls in the user data is told twice. -/
example :
    let count : Handlers := fun _ c _ _ => .returns { c with userData := c.userData.map (1 :: ·) }
    let bad : Plugin := .chain ⟨⟨0⟩, 0, ⟨0⟩, .interpolation 0⟩ (.last ⟨⟨0⟩, 0, ⟨0⟩, .interpolation 0⟩)
    let s : CState := ⟨{ Context.new (some []) with errorHandler := ⟨7⟩ }, []⟩
    ([CtxCall.initPlugin bad, .initPlugin bad].foldl (CtxCall.run pc count (fun _ => true)) s).ctx.getUserData =
      some [1, 1] := by
  decide +kernel

/-- What a handler changed before it panicked stays changed. -/
example :
    let rude : Handlers := fun _ c _ _ => .panics { c with userData := some [9] }
    let bad : Plugin := .chain ⟨⟨0⟩, 0, ⟨0⟩, .interpolation 0⟩ (.last ⟨⟨0⟩, 0, ⟨0⟩, .interpolation 0⟩)
    let s : CState := ⟨{ Context.new (some []) with errorHandler := ⟨7⟩ }, []⟩
    ([CtxCall.initPlugin bad].foldl (CtxCall.run pc rude (fun _ => true)) s).ctx.getUserData = some [9] := by
  decide +kernel

/-! ### C82 -/

/-- **C82**: what a new context contains, and still contains after every history of calls: the caller's data,
sixteen alarm codes of which those of the first three channels are 0x7F00 and the others 0, adaption state 1, the
default interpolators and no plugins at all; and no error has any effect. -/
theorem C82_new_context (t : Target) (env : Handlers) (plain : Char → Bool) (calls : List CtxCall)
    (data : Option (List Byte)) (tr : List Signal) :
    let c := (calls.foldl (CtxCall.run t env plain) ⟨Context.new data, tr⟩).ctx
    c.getUserData = data ∧
    c.alarmCodes.length = 16 ∧
    (∀ i, i < 16 → c.alarmCodes[i]? = some (if i < 3 then 0x7F00 else 0)) ∧
    F64.val c.adaptionState = some 1 ∧
    c.interpolationPlugin = 0 ∧
    (∀ l ∈ [c.curvesPlugin, c.formattersPlugin, c.tagTypesPlugin, c.tagsPlugin, c.intentsPlugin, c.mpeTypesPlugin,
      c.optimizationPlugin, c.transformPlugin], l = []) ∧
    ∀ code text, callHandler env c.errorHandler c code text = .returns c := by
  intro c
  have hc : c = Context.new data := (C54_context_history t env plain calls).2.1 _ rfl
  rw [hc]
  have ha : (Context.new data).alarmCodes = (Context.new none).alarmCodes := rfl
  have hs : (Context.new data).adaptionState = (Context.new none).adaptionState := rfl
  refine ⟨rfl, rfl, ?_, ?_, rfl, by simp [Context.new], fun _ _ => rfl⟩
  · rw [ha]
    decide
  · rw [hs]
    decide +kernel

/-- The alarm colour of a context that has seen a failing `init_plugin`. -/
example :
    let bad : Plugin := .chain ⟨⟨0⟩, 0, ⟨0⟩, .interpolation 0⟩ (.last ⟨⟨0⟩, 0, ⟨0⟩, .interpolation 0⟩)
    let s := [CtxCall.initPlugin bad].foldl (CtxCall.run pc (fun _ c _ _ => .panics { c with alarmCodes := [] }) (fun _ => true)) ⟨Context.new none, []⟩
    s.trace.length = 1 ∧ s.ctx.alarmCodes.take 4 = [0x7F00, 0x7F00, 0x7F00, 0] := by
  decide +kernel

end Lcms.Props
