import Verif.Spec.File

/-!
# Specification vocabulary: client programs

A client that decides on each call by what the calls before it have shown.
-/

namespace Lcms.Spec

/-- A program working on one handler. -/
inductive Client (α : Type) where
  | done (a : α)
  | fail (e : IoErr)
  | panic
  | call (op : Op) (k : Obs → Client α)

/-- Run a program with a step function.  A panic of a call ends the program. -/
def Client.run {σ α : Type} (step : Op → σ → Obs × Option σ) : Client α → σ → Out σ α
  | .done a, s => .ok a s
  | .fail e, s => .err e s
  | .panic, _ => .panic
  | .call op k, s =>
    match step op s with
    | (_, none) => .panic
    | (o, some s') => (k o).run step s'

/-- Every call the program makes returns and satisfies `P before call observation after`. -/
def Client.Along {σ α : Type} (step : Op → σ → Obs × Option σ) (P : σ → Op → Obs → σ → Prop) :
    Client α → σ → Prop
  | .call op k, s => ∃ o s', step op s = (o, some s') ∧ P s op o s' ∧ (k o).Along step P s'
  | _, _ => True

/-- An outcome, of whose state only `f` is looked at. -/
def seen {σ τ α : Type} (f : σ → τ) : Out σ α → Out τ α
  | .ok a s => .ok a (f s)
  | .err e s => .err e (f s)
  | .panic => .panic

/-- A function of the library is a program: whatever the handler, all it does is make calls. -/
def IsClient {α : Type} (F : (σ : Type) → Handler σ → σ → Out σ α) : Prop :=
  ∃ c : Client α, ∀ (σ : Type) (h : Handler σ) (s : σ), F σ h s = c.run (hstep h) s

/-- A `&mut` buffer handed to a function of the library: its contents afterwards as part of the result. -/
def withBuffer {σ β : Type} : Out σ Unit × β → Out σ (Option IoErr × β)
  | (.ok _ s, b) => .ok (none, b) s
  | (.err e s, b) => .ok (some e, b) s
  | (.panic, _) => .panic

end Lcms.Spec
