import Verif.Model.Debug
import Verif.Model.Profile

/-!
# src/testing.rs: where the tests keep their files

`CARGO_MANIFEST_DIR`, `temp_dir()` and `chrono::Utc::now()` are arguments.  Paths are those of a Unix system.
-/

namespace Lcms

/-- `PathBuf::push`: an absolute path replaces, a relative one is joined with a separator if there is none
yet (src/testing.rs:7-8, 28). -/
def Path.push (d file : Path) : Path :=
  if file.head? = some '/' then file
  else if d = [] ∨ d.getLast? = some '/' then d ++ file
  else d ++ '/' :: file

/-- src/testing.rs:5-11 -/
def getTestResourcePath (manifestDir file : Path) : Path :=
  Path.push (Path.push manifestDir "resources/test".toList) file

/-- `timestamp_subsec_millis` (chrono 0.4.19): 1000 and more inside a leap second (src/testing.rs:25). -/
def NaiveTime.millis (t : NaiveTime) : Nat := t.frac / 1000000

/-- The `format!` of src/testing.rs:16-26 -/
def tempFileName (testName : Str) (now : NaiveDateTime) : Str :=
  "lcms2.rs_".toList ++ testName ++ "_".toList ++ decimalInt now.date.year ++ "-".toList ++ decimal now.date.month ++
    "-".toList ++ decimal now.date.day ++ "-".toList ++ decimal now.time.hour ++ "-".toList ++
    decimal now.time.minute ++ "-".toList ++ decimal now.time.second ++ "-".toList ++ decimal now.time.millis ++
    ".dat".toList

/-- src/testing.rs:13-31 -/
def getTempFilePath (tempDir : Path) (testName : Str) (now : NaiveDateTime) : Path :=
  Path.push tempDir (tempFileName testName now)

end Lcms
