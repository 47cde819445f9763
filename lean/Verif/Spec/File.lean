import Verif.Spec.Stream

/-!
# Specification vocabulary: a regular file with complete transfers, and predicates along a history

`PFile.step` is what a client would observe if every system call transferred everything it can at once.
-/

namespace Lcms.Spec

/-- An open file without any transfer schedule. -/
structure PFile where
  data : List UInt8
  pos : Nat
  readable : Bool
  writable : Bool
deriving DecidableEq, Repr

/-- One call with a single complete transfer. -/
def PFile.step (t : Target) : Op → PFile → Obs × Option PFile
  | .read buf, f =>
    if buf = [] then (.bytes [], some f)
    else if f.readable = false then (.readErr .badFd buf, some f)
    else
      -- everything available, up to the size of the caller's buffer
      let got := (f.data.drop f.pos).take buf.length
      let f' := { f with pos := f.pos + got.length }
      if got.length = buf.length then (.bytes got, some f')
      else (.readErr .unexpectedEof (got ++ buf.drop got.length), some f')
  | .write b, f =>
    if b = [] then (.unit, some f)
    else if f.writable = false then (.err .badFd, some f)
    else (.unit, some { f with
      data := (List.range (max f.data.length (f.pos + b.length))).map fun i =>
        if f.pos ≤ i ∧ i < f.pos + b.length then b.getD (i - f.pos) 0 else f.data.getD i 0
      pos := f.pos + b.length })
  | .seek p, f =>
    let q := seekTarget f.data.length f.pos p
    if 0 ≤ q ∧ q < 9223372036854775808 then (.unit, some { f with pos := q.toNat })
    else (.err .invalidInput, some f)
  | .tell, f => (.num (f.pos % t.usizeMod), some f)
  | .size, f => (.num (f.data.length % t.usizeMod), some { f with pos := f.pos % t.usizeMod })

/-- Every call of the history returns (no panic) and satisfies `P before call observation after`. -/
def Along {σ : Type} (step : Op → σ → Obs × Option σ) (P : σ → Op → Obs → σ → Prop) :
    List Op → σ → Prop
  | [], _ => True
  | op :: ops, s => ∃ o s', step op s = (o, some s') ∧ P s op o s' ∧ Along step P ops s'

end Lcms.Spec
