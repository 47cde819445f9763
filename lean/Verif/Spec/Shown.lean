import Verif.Model.Debug

/-! # Specification vocabulary: what a `Debug` text should show -/

namespace Lcms.Spec

/-- The text begins with the name of a type, followed by its contents. -/
def Named (name : String) (text : List Char) : Prop := ∃ rest, text = name.toList ++ ' ' :: rest

/-- Reading a number in decimal notation. -/
def number (s : List Char) : Nat := s.foldl (fun n c => 10 * n + (c.toNat - '0'.toNat)) 0

/-- Items between brackets, separated by a comma and a blank. -/
def bracketed (xs : List (List Char)) : List Char := "[".toList ++ List.intercalate ", ".toList xs ++ "]".toList

/-- The program is loaded elsewhere: every function has moved. -/
def moveFn (f : Nat → Nat) (p : FnPtr) : FnPtr := ⟨f p.addr⟩

/-- A type handler moved. -/
def moveType (f : Nat → Nat) (h : TypeHandler) : TypeHandler :=
  ⟨h.signature, h.iccVersion, moveFn f h.read, moveFn f h.write⟩

/-- The same context in a process in which every function lies elsewhere. -/
def moved (f : Nat → Nat) (c : FullContext) : FullContext where
  userData := c.userData
  errorHandler := moveFn f c.errorHandler
  alarmCodes := c.alarmCodes
  adaptionState := c.adaptionState
  interpolators := moveFn f c.interpolators
  parametricCurves := c.parametricCurves.map fun x => ⟨x.curves, moveFn f x.evaluator⟩
  factoryList := c.factoryList.map (moveFn f)
  tagTypes := c.tagTypes.map (moveType f)
  tags := c.tags.map fun x =>
    ⟨x.signature, x.descriptor.elementCount, x.descriptor.supportedTypes, moveFn f x.descriptor.decideType⟩
  intents := c.intents.map fun x => ⟨x.intent, x.description, moveFn f x.link⟩
  mpeTypes := c.mpeTypes.map (moveType f)
  optimizationCollection := c.optimizationCollection.map fun x => ⟨moveFn f x.optimizePtr⟩
  transformCollection := c.transformCollection.map fun
    | .legacy p => .legacy (moveFn f p)
    | .modern p => .modern (moveFn f p)

/-- Which of the two kinds of transform factories. -/
def isLegacy : TransformFactories → Bool
  | .legacy _ => true
  | .modern _ => false

/-- Two contexts agree on everything but the adaption state and the functions, and on the formatter factories. -/
def AgreeButFunctions (c d : FullContext) : Prop :=
  c.userData = d.userData ∧ c.alarmCodes = d.alarmCodes ∧
  c.parametricCurves.map (fun x => x.curves) = d.parametricCurves.map (fun x => x.curves) ∧
  c.factoryList = d.factoryList ∧
  c.tagTypes.map (fun x => (x.signature, x.iccVersion)) = d.tagTypes.map (fun x => (x.signature, x.iccVersion)) ∧
  c.tags.map (fun x => (x.signature, x.descriptor.elementCount, x.descriptor.supportedTypes)) =
    d.tags.map (fun x => (x.signature, x.descriptor.elementCount, x.descriptor.supportedTypes)) ∧
  c.intents.map (fun x => (x.intent, x.description)) = d.intents.map (fun x => (x.intent, x.description)) ∧
  c.mpeTypes.map (fun x => (x.signature, x.iccVersion)) = d.mpeTypes.map (fun x => (x.signature, x.iccVersion)) ∧
  c.optimizationCollection.length = d.optimizationCollection.length ∧
  c.transformCollection.map isLegacy = d.transformCollection.map isLegacy

end Lcms.Spec
