import Verif.Model.IO
import Verif.Model.Profile
import Verif.Spec.Calendar

/-!
# Specification vocabulary: a client that writes a profile file

The library cannot write profiles itself yet; `saveProfile` is the obvious client made of the library's own
encoders.
-/

namespace Lcms.Spec

/-- Encode and write each directory line. -/
def saveEntries {σ : Type} (t : Target) (h : Handler σ) : List TagEntry → M σ Unit
  | [] => pure ()
  | e :: es => do
    h.write (TagEntry.toBytes t e)
    saveEntries t h es

/-- Header, tag count, directory, tag data. -/
def saveProfile {σ : Type} (t : Target) (h : Handler σ) (hd : ICCHeader) (es : List TagEntry) (data : List Byte) :
    M σ Unit := do
  h.write (ICCHeader.toBytes t 8 hd)
  writeU32 t h (UInt32.ofNat es.length)
  saveEntries t h es
  h.write data

/-- The date in a header exists. -/
def ICCHeader.Dated (hd : ICCHeader) : Prop :=
  ValidDate hd.date.year.toNat hd.date.month.toNat hd.date.day.toNat ∧
  ValidTime hd.date.hours.toNat hd.date.minutes.toNat hd.date.seconds.toNat

/-- `p` has the fields of the header `hd` that a profile keeps. -/
structure Keeps {σ : Type} (hd : ICCHeader) (p : Profile σ) : Prop where
  version : p.version = hd.version
  deviceClass : p.deviceClass = hd.deviceClass
  colorSpace : p.colorSpace = hd.colorSpace
  pcs : p.pcs = hd.pcs
  year : p.created.date.year = hd.date.year.toNat
  month : p.created.date.month = hd.date.month.toNat
  day : p.created.date.day = hd.date.day.toNat
  hour : p.created.time.hour = hd.date.hours.toNat
  minute : p.created.time.minute = hd.date.minutes.toNat
  second : p.created.time.second = hd.date.seconds.toNat
  frac : p.created.time.frac = 0
  flags : p.flags = hd.flags
  manufacturer : p.manufacturer = hd.manufacturer.val
  model : p.model = hd.model
  attributes : p.attributes = hd.attributes
  renderingIntent : p.renderingIntent = hd.renderingIntent
  creator : p.creator = hd.creator.val
  profileId : p.profileId = hd.profileId

/-- The tags a profile lists, in order. -/
def tags {σ : Type} (p : Profile σ) : List (Option Signature × Option Nat × Option Nat) :=
  (List.range p.tagCount).map fun i => (p.tagNames[i]?, p.tagOffsets[i]?, p.tagSizes[i]?)

/-- A directory line, as listed. -/
def asListed (e : TagEntry) : Option Signature × Option Nat × Option Nat :=
  (some e.sig, some e.offset.toNat, some e.size.toNat)

end Lcms.Spec
