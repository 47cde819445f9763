import Verif.Model.Context
import Verif.Model.DateTime
import Verif.Model.FileFile
import Verif.Model.Header

/-!
# src/types/profile.rs

A profile's `Box<dyn IOHandler>` is a state of an arbitrary handler.  The only handler a profile can be given
by the public API is a `std::fs::File`, so `Profile` without an argument is a profile on an `OsFile`.
The fixed-size arrays are lists; an index outside the list is a panic.
-/

namespace Lcms

/-- `MAX_TABLE_TAG`, src/types.rs:40 -/
def MAX_TABLE_TAG : Nat := 100

/-- `signatures::MAGIC_NUMBER`, src/types/signatures.rs:6 -/
def MAGIC_NUMBER : Signature := sig4 'a' 'c' 's' 'p'

/-- src/types/profile.rs:19-41 -/
structure Profile (σ : Type := OsFile) where
  io : Option σ
  created : NaiveDateTime
  version : UInt32
  deviceClass : Signature
  colorSpace : Signature
  pcs : Signature
  renderingIntent : UInt32
  flags : UInt32
  manufacturer : UInt32
  model : UInt32
  attributes : UInt64
  creator : UInt32
  profileId : ProfileID
  tagCount : Nat
  tagNames : List Signature
  tagLinked : List (Option Signature)
  tagSizes : List Nat
  tagOffsets : List Nat
  tagSaveAsRaw : List Bool
  isWrite : Bool
deriving DecidableEq

/-- What a fallible method on a profile with a context leaves behind (src/types/profile.rs:117). -/
structure PStateOf (σ : Type) where
  prof : Profile σ
  ctx : CState
deriving DecidableEq

/-- Outcome of such a method: a panic keeps the state reached (handles are closed, the ghost trace and the
file content stay) (src/types/profile.rs:117). -/
inductive POutOf (σ α : Type) where
  | ok (a : α) (s : PStateOf σ)
  | err (e : IoErr) (s : PStateOf σ)
  | panic (s : PStateOf σ)
deriving DecidableEq

/-- Methods with `&mut self` and `context: &mut Context` returning `io::Result`, for a profile whose handler
has states `σ` (src/types/profile.rs:117). -/
def PMof (σ α : Type) := PStateOf σ → POutOf σ α

/-- The same for profiles on files (src/types/profile.rs:117). -/
abbrev PM (α : Type) := PMof OsFile α

/-- src/types/profile.rs:117, on files -/
abbrev PState := PStateOf OsFile

/-- src/types/profile.rs:117, on files -/
abbrev POut (α : Type) := POutOf OsFile α

/-- Sequencing with `?` (src/types/profile.rs:125, 155, 169, 177) -/
def PM.bind {σ α β : Type} (m : PMof σ α) (f : α → PMof σ β) : PMof σ β := fun s =>
  match m s with
  | .ok a s' => f a s'
  | .err e s' => .err e s'
  | .panic s' => .panic s'

instance {σ : Type} : Monad (PMof σ) where
  pure a := fun s => .ok a s
  bind := PM.bind

namespace PM

/-- `return Err(e)` (src/types/profile.rs:118, 121, 135, 172) -/
def fail {σ α : Type} (e : IoErr) : PMof σ α := fun s => .err e s

/-- `panic!()` (src/types/profile.rs:117-203) -/
def panic {σ α : Type} : PMof σ α := fun s => .panic s

/-- Assignments to fields of `self` (src/types/profile.rs:138-166). -/
def modify {σ : Type} (f : Profile σ → Profile σ) : PMof σ Unit := fun s => .ok () { s with prof := f s.prof }

/-- `self` (src/types/profile.rs:117) -/
def self {σ : Type} : PMof σ (Profile σ) := fun s => .ok s.prof s

/-- A call of the handler `io` (borrowed from `self.io`, which is `Some`)
(src/types/profile.rs:119-125, 155, 169, 177). -/
def onIo {σ α : Type} (m : M σ α) : PMof σ α := fun s =>
  match s.prof.io with
  | none => .panic s
  | some f =>
    match m f with
    | .ok a f' => .ok a { s with prof := { s.prof with io := some f' } }
    | .err e f' => .err e { s with prof := { s.prof with io := some f' } }
    | .panic => .panic s

/-- `context.signal_error(..)` (src/types/profile.rs:131-134, 171) -/
def signal {σ : Type} (env : Handlers) (code : ErrorCode) (text : Str) : PMof σ Unit := fun s =>
  match signalError env code text s.ctx with
  | .done () c => .ok () { s with ctx := c }
  | .panic c => .panic { s with ctx := c }

/-- An `Option` whose `none` is a panic (src/types/profile.rs:163, 182-197). -/
def orPanic {σ α : Type} : Option α → PMof σ α
  | some a => pure a
  | none => panic

end PM

namespace Profile

/-- src/types/profile.rs:44-46 -/
def getIoHandler {σ : Type} (p : Profile σ) : Option σ := p.io

/-- src/types/profile.rs:47-49 -/
def getTagCount {σ : Type} (p : Profile σ) : Nat := p.tagCount

/-- src/types/profile.rs:50-56.  `none` is an index panic. -/
def getTagSignature {σ : Type} (p : Profile σ) (n : Nat) : Option Signature :=
  if n > p.tagCount then some Signature.default else p.tagNames[n]?

/-- src/types/profile.rs:58-82; `now` is `Utc::now().naive_utc()` -/
def new {σ : Type} (now : NaiveDateTime) : Profile σ where
  io := none
  created := now
  version := 0x02100000
  deviceClass := Signature.default
  colorSpace := Signature.default
  pcs := Signature.default
  renderingIntent := 0
  flags := 0
  manufacturer := 0
  model := 0
  attributes := 0
  creator := 0
  profileId := ProfileID.zero
  tagCount := 0
  tagNames := List.replicate MAX_TABLE_TAG Signature.default
  tagLinked := List.replicate MAX_TABLE_TAG none
  tagSizes := List.replicate MAX_TABLE_TAG 0
  tagOffsets := List.replicate MAX_TABLE_TAG 0
  tagSaveAsRaw := List.replicate MAX_TABLE_TAG false
  isWrite := false

/-- The assignments of src/types/profile.rs:138-149 -/
def setHeader {σ : Type} (h : ICCHeader) (p : Profile σ) : Profile σ :=
  { p with
    deviceClass := h.deviceClass
    colorSpace := h.colorSpace
    pcs := h.pcs
    renderingIntent := h.renderingIntent
    flags := h.flags
    manufacturer := h.manufacturer.toU32
    model := h.model
    creator := h.creator.toU32
    attributes := h.attributes
    version := h.version }

/-- `a[i] = v` on a fixed-size array; `none` is the index panic (src/types/profile.rs:186-188, 195). -/
def store {α : Type} (a : List α) (i : Nat) (v : α) : Option (List α) :=
  if i < a.length then some (a.set i v) else none

/-- The loop body of src/types/profile.rs:191-197 for one `j`. -/
def linkStep {σ : Type} (tag : TagEntry) (p : Profile σ) (j : Nat) : Option (Profile σ) := do
  let o ← p.tagOffsets[j]?
  if o = tag.offset.toNat then
    let z ← p.tagSizes[j]?
    if z = tag.size.toNat then
      let name ← p.tagNames[j]?
      let linked ← store p.tagLinked j (some name)
      some { p with tagLinked := linked }
    else some p
  else some p

/-- src/types/profile.rs:191-197 -/
def linkLoop {σ : Type} (tag : TagEntry) : List Nat → Profile σ → Option (Profile σ)
  | [], p => some p
  | j :: js, p => do
    let p ← linkStep tag p j
    linkLoop tag js p

/-- src/types/profile.rs:186-199: storing one directory entry. -/
def addTag {σ : Type} (tag : TagEntry) (p : Profile σ) : Option (Profile σ) := do
  let names ← store p.tagNames p.tagCount tag.sig
  let offsets ← store p.tagOffsets p.tagCount tag.offset.toNat
  let sizes ← store p.tagSizes p.tagCount tag.size.toNat
  let p := { p with tagNames := names, tagOffsets := offsets, tagSizes := sizes }
  let p ← linkLoop tag (List.range p.tagCount) p
  some { p with tagCount := p.tagCount + 1 }

/-- The range check of src/types/profile.rs:182-184 (`true`: skip the entry); `none` is the overflow panic.
`||` evaluates the second sum only if the first comparison is false. -/
def outOfRange (t : Target) (headerSize : Nat) (tag : TagEntry) : Option Bool := do
  let s ← t.addU32 tag.offset tag.size
  if s > UInt32.ofNat headerSize then some true
  else
    let s' ← t.addU32 tag.offset tag.size
    some (decide (s' < tag.offset))

/-- src/types/profile.rs:175-200, for the `n` remaining iterations -/
def tagLoop {σ : Type} (t : Target) (h : Handler σ) (headerSize : Nat) : Nat → PMof σ Unit
  | 0 => pure ()
  | n + 1 => do
    let buf ← PM.onIo (readBuf h 12)
    let tag := TagEntry.fromBytes t buf
    let skip ← PM.orPanic (outOfRange t headerSize tag)
    if skip then tagLoop t h headerSize n
    else
      let p ← PM.self
      let p' ← PM.orPanic (addTag tag p)
      PM.modify (fun _ => p')
      tagLoop t h headerSize n

/-- src/types/profile.rs:117-203, with `io` already known to be `Some` -/
def readHeaderIo {σ : Type} (t : Target) (h : Handler σ) (env : Handlers) : PMof σ Unit := do
  let buf ← PM.onIo (readBuf h 128)
  let header := ICCHeader.fromBytes t 8 buf
  if header.magic ≠ MAGIC_NUMBER then
    PM.signal env .badSignature "not an ICC profile, invalid signature".toList
    PM.fail .invalidData
  else
    PM.modify (setHeader header)
    let reported ← PM.onIo (reportedSize h)
    let headerSize := if header.size.toNat ≥ reported then reported else header.size.toNat
    let created ← PM.orPanic header.date.toNaive
    PM.modify (fun p => { p with created := created })
    PM.modify (fun p => { p with profileId := header.profileId })
    let n ← PM.onIo (readU32 t h)
    if n.toNat > MAX_TABLE_TAG then
      PM.signal env .range ("Too many tags ".toList ++ decimal n.toNat)
      PM.fail .invalidData
    else
      tagLoop t h headerSize n.toNat

/-- src/types/profile.rs:117-203 -/
def readHeaderThr {σ : Type} (t : Target) (h : Handler σ) (env : Handlers) : PMof σ Unit := fun s =>
  match s.prof.io with
  | none => .err .invalidData s
  | some _ => readHeaderIo t h env s

/-- Result of `search_one_tag`/`search_tag` (src/types/profile.rs:205-231). -/
inductive Found where
  | some (i : Nat)
  | none
  | panic
deriving DecidableEq, Repr

/-- src/types/profile.rs:205-212, from index `i` with `k` iterations left -/
def searchOneFrom {σ : Type} (p : Profile σ) (sig : Signature) (i : Nat) : Nat → Found
  | 0 => .none
  | k + 1 =>
    match p.tagNames[i]? with
    | Option.none => .panic
    | Option.some s => if sig = s then .some i else searchOneFrom p sig (i + 1) k

/-- src/types/profile.rs:205-212 -/
def searchOneTag {σ : Type} (p : Profile σ) (sig : Signature) : Found := searchOneFrom p sig 0 p.tagCount

/-- src/types/profile.rs:213-231, at most `fuel` rounds of the loop; `Option.none` means that the loop is
still running after that many rounds. -/
def searchTag {σ : Type} (p : Profile σ) (followLinks : Bool) : Nat → Signature → Option Found
  | 0, _ => Option.none
  | fuel + 1, sig =>
    match p.searchOneTag sig with
    | .panic => Option.some .panic
    | .none => Option.some .none
    | .some n =>
      if followLinks = false then Option.some (.some n)
      else
        match p.tagLinked[n]? with
        | Option.none => Option.some .panic
        | Option.some (Option.some value) => searchTag p followLinks fuel value
        | Option.some Option.none => Option.some (.some n)

/-- src/types/profile.rs:234-256 -/
def eq {σ : Type} (self other : Profile σ) : Bool :=
  self.created == other.created
    && self.version == other.version
    && self.deviceClass == other.deviceClass
    && self.colorSpace == other.colorSpace
    && self.pcs == other.pcs
    && self.renderingIntent == other.renderingIntent
    && self.flags == other.flags
    && self.manufacturer == other.manufacturer
    && self.model == other.model
    && self.attributes == other.attributes
    && self.creator == other.creator
    && self.profileId.eq other.profileId
    && self.tagCount == other.tagCount
    && self.tagNames == other.tagNames
    && self.tagLinked == other.tagLinked
    && self.tagSizes == other.tagSizes
    && self.tagOffsets == other.tagOffsets
    && self.tagSaveAsRaw == other.tagSaveAsRaw
    && self.isWrite == other.isWrite

end Profile

/-! ### Files and processes -/

/-- A path, as text (src/types/profile.rs:92). -/
abbrev Path := List Char

/-- Regular files by path.  `mayRead p`/`mayCreate p` give the OS's reason to refuse `open(2)` there
(permissions, missing directory, …), if it has one (below src/types/profile.rs:101-103). -/
structure FS where
  files : Path → Option (List Byte)
  mayRead : Path → Option IoErr
  mayCreate : Path → Option IoErr

/-- Replace the content of one file (below src/types/profile.rs:101-103). -/
def FS.put (fs : FS) (p : Path) (b : List Byte) : FS :=
  { fs with files := fun q => if q = p then some b else fs.files q }

/-- `std::fs::File::open`: read-only, offset 0 (src/types/profile.rs:101). -/
def FS.open (fs : FS) (p : Path) (sched : List OsResp) : Except IoErr OsFile :=
  match fs.mayRead p with
  | some e => .error e
  | none =>
    match fs.files p with
    | none => .error .notFound
    | some b => .ok { data := b, pos := 0, readable := true, writable := false, sched := sched }

/-- `std::fs::File::create`: write-only, created or truncated (src/types/profile.rs:103). -/
def FS.create (fs : FS) (p : Path) (sched : List OsResp) : Except IoErr OsFile :=
  match fs.mayCreate p with
  | some e => .error e
  | none => .ok { data := [], pos := 0, readable := false, writable := true, sched := sched }

/-- src/io.rs:72-77 -/
inductive AccessMode where
  | read
  | write
deriving DecidableEq, Repr

/-- What the caller of an `open_from_file*` function gets (src/types/profile.rs:94). -/
inductive Opened where
  | ok (p : Profile)
  | err (e : IoErr)
  | panic
deriving DecidableEq

/-- The file content seen through the handle of a profile (for src/types/profile.rs:90-110). -/
def Profile.contentOr (p : Profile) (old : List Byte) : List Byte :=
  match p.io with
  | some f => f.data
  | none => old

/-- `read_header_thr(context)?; Ok(profile)` and what is left on disk under the path
(src/types/profile.rs:107-109). -/
def finishOpen (t : Target) (env : Handlers) (prof : Profile) (ctx : CState) (fs : FS) (path : Path) :
    Opened × CState × FS :=
  match Profile.readHeaderThr t (OsFile.handler t) env ⟨prof, ctx⟩ with
  | .ok () s => (.ok s.prof, s.ctx, fs.put path (s.prof.contentOr []))
  | .err e s => (.err e, s.ctx, fs.put path (s.prof.contentOr []))
  | .panic s => (.panic, s.ctx, fs.put path (s.prof.contentOr []))

/-- src/types/profile.rs:90-110 -/
def openFromFileThr (t : Target) (env : Handlers) (now : NaiveDateTime) (sched : List OsResp)
    (ctx : CState) (fs : FS) (path : Path) (mode : AccessMode) : Opened × CState × FS :=
  let prof : Profile := Profile.new now
  match mode with
  | .read =>
    match fs.open path sched with
    | .error e => (.err e, ctx, fs)
    | .ok f => finishOpen t env { prof with io := some f } ctx fs path
  | .write =>
    match fs.create path sched with
    | .error e => (.err e, ctx, fs)
    | .ok f => finishOpen t env { prof with io := some f, isWrite := true } ctx fs path

/-- The process-wide state: `GLOBAL_CONTEXT: Lazy<Mutex<Context>>` (src/state/context.rs:40). -/
structure Global where
  ctx : CState
  poisoned : Bool

/-- A fresh process (src/state/context.rs:40). -/
def Global.fresh : Global := ⟨⟨Context.new none, []⟩, false⟩

/-- src/types/profile.rs:83-89: `lock().unwrap()` panics on a poisoned mutex; a panic while the guard is
alive poisons it. -/
def openFromFile (t : Target) (env : Handlers) (now : NaiveDateTime) (sched : List OsResp)
    (g : Global) (fs : FS) (path : Path) (mode : AccessMode) : Opened × Global × FS :=
  if g.poisoned then (.panic, g, fs)
  else
    match openFromFileThr t env now sched g.ctx fs path mode with
    | (.panic, c, fs') => (.panic, ⟨c, true⟩, fs')
    | (r, c, fs') => (r, ⟨c, false⟩, fs')

/-- src/types/profile.rs:112-116 (private, and nothing calls it): `read_header_thr` with the global context.  The
first component is `none` for a panic; the profile, which the caller still has, is left as far as it got. -/
def readHeader {σ : Type} (t : Target) (h : Handler σ) (env : Handlers) (g : Global) (p : Profile σ) :
    Option (Except IoErr Unit) × Profile σ × Global :=
  if g.poisoned then (none, p, g)
  else
    match Profile.readHeaderThr t h env ⟨p, g.ctx⟩ with
    | .ok () s => (some (.ok ()), s.prof, ⟨s.ctx, false⟩)
    | .err e s => (some (.error e), s.prof, ⟨s.ctx, false⟩)
    | .panic s => (none, s.prof, ⟨s.ctx, true⟩)

end Lcms
