import Verif.Lemmas.Open
import Verif.Spec.Replay

/-! # Lemmas: how methods act on the context -/

namespace Lcms

open Lcms.Spec

/-- Earlier signals in front. -/
def CState.after (tr : List Signal) (s : CState) : CState := ⟨s.ctx, tr ++ s.trace⟩

/-- Earlier signals in front, in an outcome. -/
def POutOf.after {σ α : Type} (tr : List Signal) : POutOf σ α → POutOf σ α
  | .ok a s => .ok a ⟨s.prof, s.ctx.after tr⟩
  | .err e s => .err e ⟨s.prof, s.ctx.after tr⟩
  | .panic s => .panic ⟨s.prof, s.ctx.after tr⟩

/-- The state left by an outcome. -/
def POutOf.state {σ α : Type} : POutOf σ α → PStateOf σ
  | .ok _ s => s
  | .err _ s => s
  | .panic s => s

/-- The method neither looks at earlier signals nor changes the context other than through the handler. -/
def Logged (env : Handlers) {σ α : Type} (m : PMof σ α) : Prop :=
  (∀ p c tr, m ⟨p, ⟨c, tr⟩⟩ = (m ⟨p, ⟨c, []⟩⟩).after tr) ∧
  ∀ p c, (m ⟨p, ⟨c, []⟩⟩).state.ctx.ctx = replay env c (m ⟨p, ⟨c, []⟩⟩).state.ctx.trace

theorem CState.after_after (a b : List Signal) (s : CState) : (s.after b).after a = s.after (a ++ b) := by
  unfold CState.after; simp

theorem CState.after_nil_trace (tr : List Signal) (c : Context) : CState.after tr ⟨c, []⟩ = ⟨c, tr⟩ := by
  unfold CState.after; simp

theorem replay_append (env : Handlers) (c : Context) (a b : List Signal) :
    replay env c (a ++ b) = replay env (replay env c a) b := List.foldl_append

theorem Logged.bind {env : Handlers} {σ α β : Type} {m : PMof σ α} {f : α → PMof σ β} (hm : Logged env m)
    (hf : ∀ a, Logged env (f a)) : Logged env (m >>= f) := by
  constructor
  · intro p c tr
    rw [PM.bind_apply, PM.bind_apply, hm.1]
    cases hr : m ⟨p, ⟨c, []⟩⟩ with
    | err e s => rfl
    | panic s => rfl
    | ok a s =>
      obtain ⟨p', ⟨c', tr'⟩⟩ := s
      simp only [POutOf.after, CState.after]
      rw [(hf a).1 p' c' (tr ++ tr'), (hf a).1 p' c' tr']
      cases f a ⟨p', ⟨c', []⟩⟩ <;> simp [POutOf.after, CState.after]
  · intro p c
    have h2 := hm.2 p c
    rw [PM.bind_apply]
    cases hr : m ⟨p, ⟨c, []⟩⟩ with
    | err e s => rw [hr] at h2; exact h2
    | panic s => rw [hr] at h2; exact h2
    | ok a s =>
      rw [hr] at h2
      obtain ⟨p', ⟨c', tr'⟩⟩ := s
      simp only [POutOf.state] at h2
      simp only
      have h3 := (hf a).2 p' c'
      rw [(hf a).1 p' c' tr']
      cases hq : f a ⟨p', ⟨c', []⟩⟩ <;> rw [hq] at h3 <;>
        simp only [POutOf.state, POutOf.after, CState.after] at h3 ⊢ <;> rw [replay_append, ← h2, h3]

/-- Methods that leave the context alone and do not look at it. -/
theorem Logged.of_const {env : Handlers} {σ α : Type} {m : PMof σ α}
    (h : ∀ p, (∃ a p', ∀ c, m ⟨p, c⟩ = .ok a ⟨p', c⟩) ∨ (∃ e p', ∀ c, m ⟨p, c⟩ = .err e ⟨p', c⟩) ∨
      ∃ p', ∀ c, m ⟨p, c⟩ = .panic ⟨p', c⟩) : Logged env m := by
  constructor
  · intro p c tr
    rcases h p with ⟨a, p', h⟩ | ⟨a, p', h⟩ | ⟨p', h⟩ <;>
      simp only [h, POutOf.after, CState.after_nil_trace]
  · intro p c
    rcases h p with ⟨a, p', h⟩ | ⟨a, p', h⟩ | ⟨p', h⟩ <;> simp only [h, POutOf.state] <;> rfl

theorem Logged.pure {env : Handlers} {σ α : Type} (a : α) : Logged env (pure a : PMof σ α) :=
  .of_const fun p => Or.inl ⟨a, p, fun _ => rfl⟩

theorem Logged.fail {env : Handlers} {σ α : Type} (e : IoErr) : Logged env (PM.fail e : PMof σ α) :=
  .of_const fun p => Or.inr (Or.inl ⟨e, p, fun _ => rfl⟩)

theorem Logged.modify {env : Handlers} {σ : Type} (f : Profile σ → Profile σ) : Logged env (PM.modify f) :=
  .of_const fun p => Or.inl ⟨(), f p, fun _ => rfl⟩

theorem Logged.self {env : Handlers} {σ : Type} : Logged env (PM.self (σ := σ)) :=
  .of_const fun p => Or.inl ⟨p, p, fun _ => rfl⟩

theorem Logged.orPanic {env : Handlers} {σ α : Type} (o : Option α) : Logged env (PM.orPanic (σ := σ) o) := by
  cases o with
  | some a => exact Logged.pure a
  | none => exact .of_const fun p => Or.inr (Or.inr ⟨p, fun _ => rfl⟩)

theorem Logged.onIo {env : Handlers} {σ α : Type} (m : M σ α) : Logged env (PM.onIo m) := by
  apply Logged.of_const
  intro p
  cases hp : p.io with
  | none => exact Or.inr (Or.inr ⟨p, fun c => by simp only [PM.onIo, hp]⟩)
  | some f =>
    cases hm : m f with
    | ok a f' => exact Or.inl ⟨a, { p with io := some f' }, fun c => by simp only [PM.onIo, hp, hm]⟩
    | err e f' => exact Or.inr (Or.inl ⟨e, { p with io := some f' }, fun c => by simp only [PM.onIo, hp, hm]⟩)
    | panic => exact Or.inr (Or.inr ⟨p, fun c => by simp only [PM.onIo, hp, hm]⟩)

theorem told_eq (env : Handlers) (c : Context) (code : ErrorCode) (text : Str) :
    told env c ⟨code, text⟩ =
      match callHandler env c.errorHandler c code text with
      | .returns c' => c'
      | .panics c' => c' := by
  unfold told callHandler defaultHandler
  by_cases h : c.errorHandler = ⟨0⟩
  · rw [if_pos h, if_pos h]
  · rw [if_neg h, if_neg h]; rfl

theorem Logged.signal {env : Handlers} {σ : Type} (code : ErrorCode) (text : Str) :
    Logged env (PM.signal (σ := σ) env code text) := by
  constructor
  · intro p c tr
    unfold PM.signal signalError
    cases callHandler env c.errorHandler c code text <;> simp [POutOf.after, CState.after]
  · intro p c
    have h := told_eq env c code text
    unfold PM.signal signalError
    cases hc : callHandler env c.errorHandler c code text <;> rw [hc] at h <;>
      simp only [POutOf.state, List.nil_append, replay, List.foldl_cons, List.foldl_nil, h]

theorem tagLoop_logged {env : Handlers} {σ : Type} (t : Target) (h : Handler σ) (size n : Nat) :
    Logged env (Profile.tagLoop t h size n) := by
  induction n with
  | zero => exact Logged.pure ()
  | succ n ih =>
    unfold Profile.tagLoop
    refine (Logged.onIo _).bind fun buf => ?_
    refine (Logged.orPanic _).bind fun skip => ?_
    split
    · exact ih
    · refine Logged.self.bind fun p => ?_
      refine (Logged.orPanic _).bind fun p' => ?_
      exact (Logged.modify _).bind fun _ => ih

theorem readHeaderIo_logged {σ : Type} (t : Target) (h : Handler σ) (env : Handlers) :
    Logged env (Profile.readHeaderIo t h env) := by
  unfold Profile.readHeaderIo
  refine (Logged.onIo _).bind fun buf => ?_
  dsimp only
  split
  · exact (Logged.signal _ _).bind fun _ => Logged.fail _
  · refine (Logged.modify _).bind fun _ => ?_
    refine (Logged.onIo _).bind fun _ => ?_
    refine (Logged.orPanic _).bind fun _ => ?_
    refine (Logged.modify _).bind fun _ => ?_
    refine (Logged.modify _).bind fun _ => ?_
    refine (Logged.onIo _).bind fun n => ?_
    split
    · exact (Logged.signal _ _).bind fun _ => Logged.fail _
    · exact tagLoop_logged t h _ _

theorem readHeaderThr_logged {σ : Type} (t : Target) (hd : Handler σ) (env : Handlers) :
    Logged env (Profile.readHeaderThr t hd env) := by
  have h := readHeaderIo_logged t hd env
  constructor
  · intro p c tr
    unfold Profile.readHeaderThr
    cases hp : p.io with
    | none => simp [POutOf.after, CState.after]
    | some f => exact h.1 p c tr
  · intro p c
    unfold Profile.readHeaderThr
    cases hp : p.io with
    | none => rfl
    | some f => exact h.2 p c

/-- Opening neither looks at earlier signals nor changes the context other than through the handler. -/
theorem open_logged (t : Target) (env : Handlers) (now : NaiveDateTime) (sched : List OsResp)
    (c : Context) (tr : List Signal) (fs : FS) (path : Path) (mode : AccessMode) :
    let r := openFromFileThr t env now sched ⟨c, []⟩ fs path mode
    openFromFileThr t env now sched ⟨c, tr⟩ fs path mode = (r.1, r.2.1.after tr, r.2.2) ∧
    r.2.1.ctx = replay env c r.2.1.trace := by
  intro r
  have hf : ∀ prof : Profile,
      let q := finishOpen t env prof ⟨c, []⟩ fs path
      finishOpen t env prof ⟨c, tr⟩ fs path = (q.1, q.2.1.after tr, q.2.2) ∧
      q.2.1.ctx = replay env c q.2.1.trace := by
    intro prof
    have h := readHeaderThr_logged t (OsFile.handler t) env
    have h1 := h.1 prof c tr
    have h2 := h.2 prof c
    unfold finishOpen
    rw [h1]
    cases hr : Profile.readHeaderThr t (OsFile.handler t) env ⟨prof, ⟨c, []⟩⟩ <;> rw [hr] at h2 <;>
      simp only [POutOf.after, POutOf.state] at h2 ⊢ <;> exact ⟨trivial, h2⟩
  have hbase : ∀ e : Opened, ((e, (⟨c, tr⟩ : CState), fs) = (e, CState.after tr ⟨c, []⟩, fs)) ∧
      c = replay env c [] := fun e => ⟨by rw [CState.after_nil_trace], rfl⟩
  simp only [r]
  unfold openFromFileThr
  cases mode with
  | read =>
    cases ho : fs.open path sched with
    | error e => exact hbase _
    | ok f => exact hf _
  | write =>
    cases ho : fs.create path sched with
    | error e => exact hbase _
    | ok f => exact hf _

theorem signalError_logged (env : Handlers) (code : ErrorCode) (text : Str) (s : CState) :
    (match signalError env code text s with
      | .done _ s' => s'.trace = s.trace ++ [⟨code, text⟩] ∧ s'.ctx = replay env s.ctx [⟨code, text⟩]
      | .panic s' => s'.trace = s.trace ++ [⟨code, text⟩] ∧ s'.ctx = replay env s.ctx [⟨code, text⟩]) := by
  have h := told_eq env s.ctx code text
  unfold signalError
  cases hc : callHandler env s.ctx.errorHandler s.ctx code text <;> rw [hc] at h <;>
    simp only [replay, List.foldl_cons, List.foldl_nil, h, true_and]

/-- The state a call on a context leaves. -/
def Ran.state {α : Type} : Ran α → CState
  | .done _ s => s
  | .panic s => s

theorem failWith_logged (env : Handlers) (code : ErrorCode) (text : Str) (s : CState) :
    (failWith env code text s).state.trace = s.trace ++ [⟨code, text⟩] ∧
      (failWith env code text s).state.ctx = replay env s.ctx [⟨code, text⟩] := by
  have h := signalError_logged env code text s
  unfold failWith
  cases hc : signalError env code text s <;> rw [hc] at h <;> exact h

theorem initPlugin_logged (env : Handlers) (plain : Char → Bool) (p : Plugin) (s : CState) :
    ∃ new, (initPlugin env plain p s).state.trace = s.trace ++ new ∧
      (initPlugin env plain p s).state.ctx = replay env s.ctx new := by
  induction p with
  | last p => exact ⟨[], by simp [initPlugin, Ran.state], rfl⟩
  | chain p next ih =>
    rw [initPlugin]
    let P : Ran (Except Str Unit) → Prop := fun r =>
      ∃ new, r.state.trace = s.trace ++ new ∧ r.state.ctx = replay env s.ctx new
    have hf : ∀ code text, P (failWith env code text s) := fun code text => ⟨_, failWith_logged env code text s⟩
    have hi : ∀ {c : Prop} [Decidable c] {a b : Ran (Except Str Unit)}, P a → P b → P (if c then a else b) := by
      intro c _ a b ha hb
      split
      · exact ha
      · exact hb
    exact hi (hf _ _) (hi (hf _ _) (hi ih (hi ih (hi ih (hi ih (hi ih (hi ih (hi ih (hi ih (hi ih (hf _ _)))))))))))

/-- With the default handler nothing happens to the context. -/
theorem replay_default (env : Handlers) (c : Context) (h : c.errorHandler = defaultHandler)
    (new : List Signal) : replay env c new = c := by
  induction new with
  | nil => rfl
  | cons m new ih =>
    have : told env c m = c := if_pos h
    show replay env (told env c m) new = c
    rw [this, ih]

end Lcms
