import Verif.Props.Open

/-! # Property C42 continued: what the handler of an opened profile is -/

namespace Lcms.Props

/-- **C42**: the handler shown by a profile opened for reading is there, has the content of the file, can be read and
cannot be written: no later call through it changes the file either. -/
theorem C42_handle (t : Target) (env : Handlers) (now : NaiveDateTime) (sched : List OsResp) (ctx : CState) (fs : FS)
    (path : Path) (b : List Byte) (hlen : b.length < 9223372036854775808) (hfile : fs.files path = some b) (p : Profile)
    (hp : (openFromFileThr t env now sched ctx fs path .read).1 = .ok p) :
    ∃ f, p.getIoHandler = some f ∧ f.data = b ∧ f.readable = true ∧ f.writable = false ∧
      ∀ bytes, bytes ≠ [] → (OsFile.handler t).write bytes f = .err .badFd f := by
  obtain ⟨d, f, -, -, h1, h2, h3, rfl⟩ := openRead_ok hlen hfile hp
  refine ⟨f, rfl, h1, h2, h3, fun bytes hne => ?_⟩
  show OsFile.writeAll bytes f = _
  unfold OsFile.writeAll
  rw [OsFile.writeAllLoop, if_neg hne, if_pos h3]

/-- The good file opens, and its handler holds the whole file and stands behind the three lines of the directory. -/
example : (match (openFromFileThr pc quiet noon [] ctx0 (oneFile [] goodFile) [] .read).1 with
    | .ok p => p.getIoHandler.map fun f => (f.data == goodFile, f.data.length, f.pos)
    | _ => none) = some (true, 180, 168) := by decide +kernel

end Lcms.Props
