import Verif.Model.Profile
import Verif.Spec.Calendar
import Verif.Spec.Icc

/-!
# Specification vocabulary: what a profile file says (ICC.1:2010, sections 7.2 and 7.3)

A declarative reading of the bytes of a file; no reference to the reading functions of the model.
-/

/-- Everything of a profile but its handler. -/
def Lcms.Profile.strip {σ : Type} (p : Profile σ) : Profile Unit := { p with io := none }

namespace Lcms.Spec

/-- One line of the tag directory. -/
structure Entry where
  name : Nat
  offset : Nat
  size : Nat
deriving DecidableEq, Repr

/-- Line `i` of the tag directory, which starts at byte 132. -/
def entry (t : Target) (b : List UInt8) (i : Nat) : Entry :=
  ⟨num t b (132 + 12 * i) 4, num t b (136 + 12 * i) 4, num t b (140 + 12 * i) 4⟩

/-- The tag count field. -/
def declared (t : Target) (b : List UInt8) : Nat := num t b 128 4

/-- Number of directory lines wholly present in the file. -/
def present (b : List UInt8) : Nat := (b.length - 132) / 12

/-- Tags must end at or before this offset: the header's size field or the file length (which the program
holds in a `usize`), whichever is smaller. -/
def limit (t : Target) (b : List UInt8) : Nat := min (num t b 0 4) (b.length % t.usizeMod)

/-- The creation date and time fields. -/
def DateOk (t : Target) (b : List UInt8) : Prop :=
  ValidDate (num t b 24 2) (num t b 26 2) (num t b 28 2) ∧
  ValidTime (num t b 30 2) (num t b 32 2) (num t b 34 2)

instance (t : Target) (b : List UInt8) : Decidable (DateOk t b) := inferInstanceAs (Decidable (_ ∧ _))

/-- Among the lines the program gets to see there is one whose end does not fit 32 bits. -/
def Overflows (t : Target) (b : List UInt8) : Prop :=
  ∃ i < min (declared t b) (present b), 2 ^ 32 ≤ (entry t b i).offset + (entry t b i).size

instance (t : Target) (b : List UInt8) : Decidable (Overflows t b) :=
  inferInstanceAs (Decidable (∃ i < min (declared t b) (present b), _))

/-- What the content of a file amounts to. -/
inductive Verdict where
  /-- the file ends too early -/
  | short
  /-- no `acsp` at offset 36 -/
  | badMagic
  /-- the creation date does not exist -/
  | badDate
  /-- more than 100 tags declared -/
  | tooMany (n : Nat)
  /-- the end of a directory line does not fit 32 bits, in a build with overflow checks -/
  | overflow
  /-- fine, with these tags -/
  | table (es : List Entry)
deriving DecidableEq, Repr

/-- The lines whose data lies within the limit, in directory order. -/
def kept (t : Target) (b : List UInt8) : List Entry :=
  ((List.range (declared t b)).map (entry t b)).filter fun e => e.offset + e.size ≤ limit t b

/-- The characters `acsp` as a number. -/
def acsp : Nat := 0x61637370

/-- The reading of a file, in the order in which the program checks. -/
def verdict (t : Target) (b : List UInt8) : Verdict :=
  if b.length < 128 then .short
  else if num t b 36 4 ≠ acsp then .badMagic
  else if ¬ DateOk t b then .badDate
  else if b.length < 132 then .short
  else if 100 < declared t b then .tooMany (declared t b)
  else if t.checks ∧ Overflows t b then .overflow
  else if present b < declared t b then .short
  else .table (kept t b)

/-- A table column of 100 cells: the first ones are given, the rest hold `d`. -/
def column {α : Type} (xs : List α) (d : α) : List α := xs ++ List.replicate (100 - xs.length) d

/-- Line `i` of the tag table has a later line with the same data. -/
def hasLaterTwin (es : List Entry) (i : Nat) : Prop :=
  ∃ k < es.length, i < k ∧ (es[k]?).map Entry.offset = (es[i]?).map Entry.offset ∧
    (es[k]?).map Entry.size = (es[i]?).map Entry.size

instance (es : List Entry) (i : Nat) : Decidable (hasLaterTwin es i) :=
  inferInstanceAs (Decidable (∃ k < es.length, _))

/-- The fields of `p` are those in the header bytes `b`, with the tag table `es`. -/
structure Says {σ : Type} (t : Target) (b : List UInt8) (es : List Entry) (p : Profile σ) : Prop where
  version : p.version.toNat = num t b 8 4
  deviceClass : p.deviceClass.val.toNat = num t b 12 4
  colorSpace : p.colorSpace.val.toNat = num t b 16 4
  pcs : p.pcs.val.toNat = num t b 20 4
  year : p.created.date.year = num t b 24 2
  month : p.created.date.month = num t b 26 2
  day : p.created.date.day = num t b 28 2
  hour : p.created.time.hour = num t b 30 2
  minute : p.created.time.minute = num t b 32 2
  second : p.created.time.second = num t b 34 2
  frac : p.created.time.frac = 0
  flags : p.flags.toNat = num t b 44 4
  manufacturer : p.manufacturer.toNat = num t b 48 4
  model : p.model.toNat = num t b 52 4
  attributes : p.attributes.toNat = num t b 56 8
  renderingIntent : p.renderingIntent.toNat = num t b 64 4
  creator : p.creator.toNat = num t b 80 4
  profileId : p.profileId.id8.toList = at_ b 84 16
  tagCount : p.tagCount = es.length
  tagNames : p.tagNames.map (fun s => s.val.toNat) = column (es.map Entry.name) 0x20202020
  tagOffsets : p.tagOffsets = column (es.map Entry.offset) 0
  tagSizes : p.tagSizes = column (es.map Entry.size) 0
  tagLinked : p.tagLinked.map (Option.map fun s => s.val.toNat) =
    column ((List.range es.length).map fun i => if hasLaterTwin es i then (es[i]?).map Entry.name else none) none
  tagSaveAsRaw : p.tagSaveAsRaw = List.replicate 100 false
  readMode : p.isWrite = false

/-- `p` is the profile the file `b` describes, with the tag table `es`. -/
structure Describes (t : Target) (b : List UInt8) (es : List Entry) (p : Profile) : Prop extends
    Says t b es p where
  content : ∃ f, p.io = some f ∧ f.data = b ∧ f.readable = true ∧ f.writable = false

end Lcms.Spec
