import Verif.Model.Context

/-! # Specification vocabulary: replaying the error handler -/

namespace Lcms.Spec

/-- What one call of the installed handler makes of a context (`env` is the code behind handler pointers;
handler 0, the default one, does nothing; what a handler has changed before it panics stays changed). -/
def told (env : Handlers) (c : Context) (m : Signal) : Context :=
  if c.errorHandler = ⟨0⟩ then c
  else
    match env c.errorHandler c m.code m.text with
    | .returns c' => c'
    | .panics c' => c'

/-- What a series of handler calls makes of a context. -/
def replay (env : Handlers) : Context → List Signal → Context := List.foldl (told env)

end Lcms.Spec
