import Verif.Model.FileFile
import Verif.Model.FileMem
import Verif.Model.FileNull

/-!
# `close` of the three handlers

`close(self)` consumes the handler.  What is left behind is the file with its medium, or the buffer of the
caller.
-/

namespace Lcms

/-- How the OS answers one `fdatasync(2)`; when the schedule is used up it succeeds (below
src/io/file_file.rs:16). -/
inductive SyncResp where
  /-- `EINTR` -/
  | interrupted
  | failed (e : IoErr)
deriving DecidableEq, Repr

/-- `File::sync_data` (std): `fdatasync`, again after `EINTR` (below src/io/file_file.rs:16). -/
def syncData : List SyncResp → Option IoErr
  | [] => none
  | .interrupted :: rest => syncData rest
  | .failed e :: _ => some e

/-- A file and its medium: `file` is what every process sees, `medium` what a power failure would leave
(the `File` of src/io/file_file.rs:5-28). -/
structure Stored where
  file : OsFile
  medium : List Byte
deriving DecidableEq

namespace Stored

/-- The OS writes back cached data when it likes; in between the medium may hold any mixture `m` of old and new
data.  A file whose medium is up to date has nothing to write back (below src/io/file_file.rs:5-28). -/
def writeBack (s : Stored) (m : List Byte) : Stored :=
  if s.medium = s.file.data then s else { s with medium := m }

/-- `close` of a `File`: `self.sync_data()?; drop(self); Ok(())`, src/io/file_file.rs:15-19.  On an error the
handler is dropped all the same; closing the descriptor changes neither file nor medium. -/
def close (sched : List SyncResp) (s : Stored) : Option IoErr × Stored :=
  match syncData sched with
  | some e => (some e, s)
  | none => (none, { s with medium := s.file.data })

end Stored

/-- `close` of a `FileMem`, src/io/file_mem.rs:86-88; the buffer, if it was lent, is the caller's again. -/
def Mem.close (m : Mem) : Option IoErr × List Byte := (none, m.buf)

/-- `close` of a `FileNull`, src/io/file_null.rs:78-80 -/
def Null.close (_ : Null) : Option IoErr := none

end Lcms
