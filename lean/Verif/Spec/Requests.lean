import Verif.Spec.Source

/-!
# Specification vocabulary: what a handler is asked to do
-/

namespace Lcms.Spec

/-- One call of a handler method. -/
inductive Req where
  /-- `read` into a buffer of `n` bytes -/
  | read (n : Nat)
  | seek (p : SeekFrom)
  | tell
  | write (b : List UInt8)
deriving DecidableEq, Repr

/-- Keep a note with the state of an outcome. -/
def keep {σ α : Type} (l : List Req) : Out σ α → Out (σ × List Req) α
  | .ok a s => .ok a (s, l)
  | .err e s => .err e (s, l)
  | .panic => .panic

/-- A handler that behaves like `h` and keeps a log of the calls that returned. -/
def logged {σ : Type} (h : Handler σ) : Handler (σ × List Req) where
  read := fun buf s => (keep (s.2 ++ [.read buf.length]) (h.read buf s.1).1, (h.read buf s.1).2)
  seek := fun p s => keep (s.2 ++ [.seek p]) (h.seek p s.1)
  tell := fun s => keep (s.2 ++ [.tell]) (h.tell s.1)
  write := fun b s => keep (s.2 ++ [.write b]) (h.write b s.1)
  read_length := fun buf s => h.read_length buf s.1

/-- The bytes a request may transfer into the program. -/
def Req.bytesIn : Req → Nat
  | .read n => n
  | _ => 0

/-- The calls needed to read a header and `n` directory lines, when the handler says that the header ends at
`here`. -/
def headerRequests (here n : Nat) : List Req :=
  [.read 128, .tell, .seek (.end_ 0), .tell, .seek (.start (UInt64.ofNat here)), .read 4] ++ List.replicate n (.read 12)

/-- `s'` is where the handler stands after the header has been read and the size found out. -/
def AfterSize {σ : Type} (h : Handler σ) (s : σ) (here : Nat) (s' : σ) : Prop :=
  ∃ hd s1 s2 u s3 size s4 u', ask h 128 s = .ok hd s1 ∧ h.tell s1 = .ok here s2 ∧ h.seek (.end_ 0) s2 = .ok u s3 ∧
    h.tell s3 = .ok size s4 ∧ h.seek (.start (UInt64.ofNat here)) s4 = .ok u' s'

/-- `cnt` are the four bytes the handler gives where the number of tags stands. -/
def CountAsked {σ : Type} (h : Handler σ) (s : σ) (here : Nat) (cnt : List UInt8) : Prop :=
  ∃ s' s'', AfterSize h s here s' ∧ ask h 4 s' = .ok cnt s''

end Lcms.Spec
