import Verif.Spec.Record

/-!
# Specification vocabulary: a client that writes typed values and blocks of bytes
-/

namespace Lcms.Spec

/-- Something to be written: a value with the accessor of its type, or bytes as they are. -/
inductive Piece where
  | val (v : Val)
  | raw (b : List UInt8)

/-- The client's call. -/
def Piece.put {σ : Type} (t : Target) (h : Handler σ) : Piece → M σ Unit
  | .val v => v.put t h
  | .raw b => h.write b

/-- Write the pieces one after the other, stopping at the first error. -/
def save {σ : Type} (t : Target) (h : Handler σ) : List Piece → M σ Unit
  | [] => pure ()
  | p :: ps => p.put t h >>= fun _ => save t h ps

/-- `bs` are the file bytes of the piece. -/
def Piece.Means (t : Target) : Piece → List UInt8 → Prop
  | .val v, bs => Encodes t v bs
  | .raw b, bs => bs = b

end Lcms.Spec
