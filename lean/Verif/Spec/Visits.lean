import Verif.Model.LiveFile
import Verif.Spec.Profile

/-!
# Specification vocabulary: overlapping calls compared with calls made alone
-/

namespace Lcms.Spec

/-- The same result, up to the handle in the profile. -/
def SameOpened : LiveOpened → Opened → Prop
  | .ok p, .ok q => p.strip = q.strip
  | .err e, .err e' => e = e'
  | .panic, .panic => True
  | _, _ => False

/-- The calls of one thread, made one after the other with nobody else around: the results, the context and the
files afterwards. -/
def alone (t : Target) (env : Handlers) : List Visit → CState → FS → List Opened × CState × FS
  | [], ctx, fs => ([], ctx, fs)
  | v :: vs, ctx, fs =>
    let r := openFromFileThr t env v.now v.sched ctx fs v.path v.mode
    let rest := alone t env vs r.2.1 r.2.2
    (r.1 :: rest.1, rest.2)

/-- The call truncates (or creates) the file `p`, on a file system where that is possible. -/
def Empties (fs : FS) (v : Visit) (p : Path) : Prop := v.mode = .write ∧ v.path = p ∧ fs.mayCreate p = none

/-- The files are small enough for `off_t` and for the `usize` of the target. -/
def SmallFiles (t : Target) (fs : FS) : Prop :=
  ∀ p b, fs.files p = some b → b.length < 9223372036854775808 ∧ b.length < t.usizeMod

end Lcms.Spec
