import Verif.Model.Profile
import Verif.Model.Curves
import Verif.Model.FileMem
import Verif.Model.FileNull

/-!
# `Debug` output

The builders of `std::fmt` (`debug_struct`, `debug_tuple`, `debug_list`, mid-2022) in both layouts, `{:?}` and
`{:#?}`, and the `Debug` implementations of the crate, derived and hand-written.  A value is printed by giving the
texts of its parts to a builder.

Parameters are what lies outside the crate: `plain`, `std`'s table of printable characters; `flt`, the text of a
float; `date`, chrono's text of a `NaiveDateTime`; `io`, the text of a handler.
-/

namespace Lcms

/-! ### The builders of `std::fmt` -/

/-- `PadAdapter`: four blanks before every line.  The flag says whether a line is about to start
(below the `fmt` methods and derives of the crate, e.g. src/plugins/tag.rs:21-29). -/
def padLines : Bool → Str → Str
  | _, [] => []
  | true, c :: s => ' ' :: ' ' :: ' ' :: ' ' :: c :: padLines (c == '\n') s
  | false, c :: s => c :: padLines (c == '\n') s

/-- Texts separated by `", "` (e.g. src/plugins/tag.rs:8). -/
def commaSep : List Str → Str
  | [] => []
  | [x] => x
  | x :: xs => x ++ ", ".toList ++ commaSep xs

/-- `f.debug_struct(name).field(n, v)….finish()` (src/plugins/tag.rs:23-27 and others) -/
def structText (pretty : Bool) (name : Str) (fields : List (Str × Str)) : Str :=
  if fields.isEmpty then name
  else if pretty then
    name ++ " {\n".toList ++
      fields.flatMap (fun f => padLines true (f.1 ++ ": ".toList ++ f.2 ++ ",\n".toList)) ++ "}".toList
  else
    name ++ " { ".toList ++ commaSep (fields.map fun f => f.1 ++ ": ".toList ++ f.2) ++ " }".toList

/-- `f.debug_tuple(name).field(v)….finish()`, for a name that is not empty (src/plugins/transform.rs:56-63). -/
def tupleText (pretty : Bool) (name : Str) (fields : List Str) : Str :=
  if fields.isEmpty then name
  else if pretty then
    name ++ "(\n".toList ++ fields.flatMap (fun v => padLines true (v ++ ",\n".toList)) ++ ")".toList
  else name ++ "(".toList ++ commaSep fields ++ ")".toList

/-- `f.debug_list().entries(…).finish()`, the `Debug` of slices, arrays, `Vec`s and boxed slices
(e.g. src/plugins/para_curve.rs:21). -/
def listText (pretty : Bool) (items : List Str) : Str :=
  if items.isEmpty then "[]".toList
  else if pretty then
    "[\n".toList ++ items.flatMap (fun v => padLines true (v ++ ",\n".toList)) ++ "]".toList
  else "[".toList ++ commaSep items ++ "]".toList

/-- `Option` (derived) (e.g. src/types/profile.rs:20). -/
def optionText (pretty : Bool) : Option Str → Str
  | none => "None".toList
  | some x => tupleText pretty "Some".toList [x]

/-- Signed integers (e.g. src/plugins/para_curve.rs:26). -/
def decimalInt (n : Int) : Str := if n < 0 then '-' :: decimal n.natAbs else decimal n.natAbs

/-- `bool` (e.g. src/types/profile.rs:38-39) -/
def boolText (b : Bool) : Str := if b then "true".toList else "false".toList

/-- A function pointer, or any other pointer: `0x` and hexadecimal digits, in `{:#?}` padded with zeros to the
width of the target (src/state/chunks/formatters.rs:3). -/
def ptrText (t : Target) (pretty : Bool) (addr : Nat) : Str :=
  let digits := hexLower 16 addr
  "0x".toList ++ (if pretty then List.replicate (t.usizeBits / 4 - digits.length) '0' else []) ++ digits

/-! ### Plain data -/

/-- derive, src/types/date_time_number.rs:4 -/
def DateTimeNumber.debug (pretty : Bool) (d : DateTimeNumber) : Str :=
  structText pretty "DateTimeNumber".toList
    [("year".toList, decimal d.year.toNat), ("month".toList, decimal d.month.toNat),
     ("day".toList, decimal d.day.toNat), ("hours".toList, decimal d.hours.toNat),
     ("minutes".toList, decimal d.minutes.toNat), ("seconds".toList, decimal d.seconds.toNat)]

/-- derive, src/types/encoded_xyz_number.rs:4 -/
def EncodedXYZNumber.debug (pretty : Bool) (v : EncodedXYZNumber) : Str :=
  structText pretty "EncodedXYZNumber".toList
    [("x".toList, decimalInt v.x.toInt), ("y".toList, decimalInt v.y.toInt), ("z".toList, decimalInt v.z.toInt)]

/-- derive, src/types/tag_entry.rs:6 -/
def TagEntry.debug (plain : Char → Bool) (pretty : Bool) (e : TagEntry) : Str :=
  structText pretty "TagEntry".toList
    [("sig".toList, e.sig.debug plain pretty), ("offset".toList, decimal e.offset.toNat),
     ("size".toList, decimal e.size.toNat)]

/-- derive, src/types/icc_header.rs:8 -/
def ICCHeader.debug (plain : Char → Bool) (pretty : Bool) (h : ICCHeader) : Str :=
  structText pretty "ICCHeader".toList
    [("size".toList, decimal h.size.toNat), ("cmm_id".toList, h.cmmId.debug plain pretty),
     ("version".toList, decimal h.version.toNat), ("device_class".toList, h.deviceClass.debug plain pretty),
     ("color_space".toList, h.colorSpace.debug plain pretty), ("pcs".toList, h.pcs.debug plain pretty),
     ("date".toList, h.date.debug pretty), ("magic".toList, h.magic.debug plain pretty),
     ("platform".toList, h.platform.debug plain pretty), ("flags".toList, decimal h.flags.toNat),
     ("manufacturer".toList, h.manufacturer.debug plain pretty), ("model".toList, decimal h.model.toNat),
     ("attributes".toList, decimal h.attributes.toNat),
     ("rendering_intent".toList, decimal h.renderingIntent.toNat),
     ("illuminant".toList, h.illuminant.debug pretty), ("creator".toList, h.creator.debug plain pretty),
     ("profile_id".toList, h.profileId.debug plain pretty),
     ("reserved".toList, listText pretty (h.reserved.toList.map fun b => decimal b.toNat))]

/-- derive, src/types/cie_xyz.rs:2 -/
def ciexyzDebug (flt : F64 → Str) (pretty : Bool) (x y z : F64) : Str :=
  structText pretty "CIEXYZ".toList [("X".toList, flt x), ("Y".toList, flt y), ("Z".toList, flt z)]

/-- derive, src/io/file_null.rs:29 -/
def Null.debug (pretty : Bool) (s : Null) : Str :=
  structText pretty "FileNull".toList
    [("pointer".toList, decimal s.pointer), ("used_space".toList, decimal s.usedSpace)]

/-- derive, src/io/file_mem.rs:38, and of `std::io::Cursor` (fields `inner`, `pos`). -/
def Mem.debug (pretty : Bool) (s : Mem) : Str :=
  structText pretty "FileMem".toList
    [("cursor".toList, structText pretty "Cursor".toList
      [("inner".toList, listText pretty (s.buf.map fun b => decimal b.toNat)), ("pos".toList, decimal s.pos)])]

/-- derive, src/state/chunks/error_handler.rs:37 -/
def ErrorCode.debug : ErrorCode → Str
  | undefined => "Undefined".toList
  | file => "File".toList
  | range => "Range".toList
  | internal => "Internal".toList
  | null => "Null".toList
  | read => "Read".toList
  | seek => "Seek".toList
  | write => "Write".toList
  | unknownExtension => "UnknownExtension".toList
  | colorSpaceCheck => "ColorSpaceCheck".toList
  | alreadyDefined => "AlreadyDefined".toList
  | badSignature => "BadSignature".toList
  | corruptionDetected => "CorruptionDetected".toList
  | notSuitable => "NotSuitable".toList

/-- derive, src/types/profile.rs:19 -/
def Profile.debug {σ : Type} (io : Bool → σ → Str) (date : NaiveDateTime → Str) (plain : Char → Bool) (pretty : Bool)
    (p : Profile σ) : Str :=
  structText pretty "Profile".toList
    [("io".toList, optionText pretty (p.io.map (io pretty))), ("created".toList, date p.created),
     ("version".toList, decimal p.version.toNat), ("device_class".toList, p.deviceClass.debug plain pretty),
     ("color_space".toList, p.colorSpace.debug plain pretty), ("pcs".toList, p.pcs.debug plain pretty),
     ("rendering_intent".toList, decimal p.renderingIntent.toNat), ("flags".toList, decimal p.flags.toNat),
     ("manufacturer".toList, decimal p.manufacturer.toNat), ("model".toList, decimal p.model.toNat),
     ("attributes".toList, decimal p.attributes.toNat), ("creator".toList, decimal p.creator.toNat),
     ("profile_id".toList, p.profileId.debug plain pretty), ("tag_count".toList, decimal p.tagCount),
     ("tag_names".toList, listText pretty (p.tagNames.map fun s => s.debug plain pretty)),
     ("tag_linked".toList, listText pretty (p.tagLinked.map fun s =>
       optionText pretty (s.map fun s => s.debug plain pretty))),
     ("tag_sizes".toList, listText pretty (p.tagSizes.map decimal)),
     ("tag_offsets".toList, listText pretty (p.tagOffsets.map decimal)),
     ("tag_save_as_raw".toList, listText pretty (p.tagSaveAsRaw.map boolText)),
     ("is_write".toList, boolText p.isWrite)]

/-! ### Plugins and the context, with what `Model/Context` leaves opaque -/

/-- A function pointer: the address of its code (src/state/chunks/error_handler.rs:5). -/
structure FnPtr where
  addr : Nat
deriving DecidableEq, Repr

/-- derive, src/plugins/para_curve.rs:26 -/
def Curves.Curve.debug (pretty : Bool) (c : Curves.Curve) : Str :=
  structText pretty "Curve".toList
    [("function_curve_id".toList, decimalInt c.functionCurveId.toInt),
     ("parameter_count".toList, decimal c.parameterCount.toNat)]

/-- src/plugins/para_curve.rs:12-16 -/
structure ParametricCurves where
  curves : List Curves.Curve
  evaluator : FnPtr
deriving DecidableEq

/-- src/plugins/para_curve.rs:18-25 -/
def ParametricCurves.debug (plain : Char → Bool) (pretty : Bool) (c : ParametricCurves) : Str :=
  structText pretty "ParametricCurves".toList
    [("curves".toList, listText pretty (c.curves.map fun x => x.debug pretty)),
     ("evaluator".toList, debugStr plain "[Function Ptr]".toList)]

/-- src/plugins/tag_type.rs:23-29 -/
structure TypeHandler where
  signature : Signature
  iccVersion : UInt32
  read : FnPtr
  write : FnPtr
deriving DecidableEq

/-- src/plugins/tag_type.rs:31-40 -/
def TypeHandler.debug (plain : Char → Bool) (pretty : Bool) (h : TypeHandler) : Str :=
  structText pretty "TypeHandler".toList
    [("signature".toList, h.signature.debug plain pretty), ("icc_version".toList, decimal h.iccVersion.toNat),
     ("read".toList, debugStr plain "[Function Ptr]".toList),
     ("write".toList, debugStr plain "[Function Ptr]".toList)]

/-- src/plugins/tag.rs:14-19 -/
structure TagDescriptor where
  elementCount : Nat
  supportedTypes : List Signature
  decideType : FnPtr
deriving DecidableEq

/-- src/plugins/tag.rs:21-29 -/
def TagDescriptor.debug (plain : Char → Bool) (pretty : Bool) (d : TagDescriptor) : Str :=
  structText pretty "TagDescriptor".toList
    [("element_count".toList, decimal d.elementCount),
     ("supported_types".toList, listText pretty (d.supportedTypes.map fun s => s.debug plain pretty)),
     ("decide_type".toList, debugStr plain "[Function Ptr]".toList)]

/-- src/plugins/tag.rs:8-12 -/
structure TagListItem where
  signature : Signature
  descriptor : TagDescriptor
deriving DecidableEq

/-- derive, src/plugins/tag.rs:8 -/
def TagListItem.debug (plain : Char → Bool) (pretty : Bool) (i : TagListItem) : Str :=
  structText pretty "TagListItem".toList
    [("signature".toList, i.signature.debug plain pretty), ("descriptor".toList, i.descriptor.debug plain pretty)]

/-- src/plugins/intent.rs:18-23 -/
structure IntentsListItem where
  intent : Signature
  description : Str
  link : FnPtr
deriving DecidableEq

/-- src/plugins/intent.rs:24-32 -/
def IntentsListItem.debug (plain : Char → Bool) (pretty : Bool) (i : IntentsListItem) : Str :=
  structText pretty "IntentListItem".toList
    [("intent".toList, i.intent.debug plain pretty), ("description".toList, debugStr plain i.description),
     ("link".toList, debugStr plain "[Function Ptr]".toList)]

/-- src/plugins/optimization.rs:9-12 -/
structure OptimizationCollectionItem where
  optimizePtr : FnPtr
deriving DecidableEq

/-- src/plugins/optimization.rs:14-20 -/
def OptimizationCollectionItem.debug (plain : Char → Bool) (pretty : Bool) (_ : OptimizationCollectionItem) : Str :=
  structText pretty "OptimizationCollectionItem".toList
    [("optimize_ptr".toList, debugStr plain "[Function Ptr]".toList)]

/-- src/plugins/transform.rs:50-54 -/
inductive TransformFactories where
  | legacy (f : FnPtr)
  | modern (f : FnPtr)
deriving DecidableEq

/-- src/plugins/transform.rs:56-63 -/
def TransformFactories.debug (plain : Char → Bool) (pretty : Bool) : TransformFactories → Str
  | .legacy _ => tupleText pretty "Legacy".toList [debugStr plain "[Function Ptr]".toList]
  | .modern _ => tupleText pretty "Modern".toList [debugStr plain "[Function Ptr]".toList]

/-- src/state/chunks/error_handler.rs:26-32; the text does not depend on the chunk. -/
def logErrorChunkDebug (plain : Char → Bool) (pretty : Bool) (_ : FnPtr) : Str :=
  structText pretty "LogErrorChunk".toList [("handler".toList, debugStr plain "[Function Pointer]".toList)]

/-- src/state/chunks/interpolation.rs:24-30 -/
def interpolationChunkDebug (plain : Char → Bool) (pretty : Bool) (_ : FnPtr) : Str :=
  structText pretty "LogErrorChunk".toList [("handler".toList, debugStr plain "[Function Pointer]".toList)]

/-- src/state/context.rs:23-38 with the chunks of src/state/chunks.  `Lcms.Context` is this with the lists opaque. -/
structure FullContext where
  userData : Option (List Byte)
  errorHandler : FnPtr
  alarmCodes : Vector UInt16 16
  adaptionState : F64
  interpolators : FnPtr
  parametricCurves : List ParametricCurves
  factoryList : List FnPtr
  tagTypes : List TypeHandler
  tags : List TagListItem
  intents : List IntentsListItem
  mpeTypes : List TypeHandler
  optimizationCollection : List OptimizationCollectionItem
  transformCollection : List TransformFactories

/-- A chunk with one field, derived (src/state/chunks/intents.rs:3 and others). -/
def chunkText (pretty : Bool) (name field : String) (v : Str) : Str :=
  structText pretty name.toList [(field.toList, v)]

/-- derive, src/state/context.rs:23, and of the chunks: alarm_codes.rs:3, adaption_state.rs:1,
parametric_curves.rs:3, formatters.rs:3, tag_type.rs:3, tag.rs:3, intents.rs:3, optimizations.rs:3,
transform.rs:3.  A `Vec` of function pointers is printed with their addresses. -/
def FullContext.debug (t : Target) (flt : F64 → Str) (plain : Char → Bool) (pretty : Bool) (c : FullContext) : Str :=
  structText pretty "Context".toList
    [("user_data".toList, optionText pretty (c.userData.map fun b => listText pretty (b.map fun x => decimal x.toNat))),
     ("error_handler".toList, logErrorChunkDebug plain pretty c.errorHandler),
     ("alarm_codes".toList, chunkText pretty "AlarmCodesChunk" "alarm_codes"
       (listText pretty (c.alarmCodes.toList.map fun x => decimal x.toNat))),
     ("adaption_state".toList, chunkText pretty "AdaptionStateChunk" "adaption_state" (flt c.adaptionState)),
     ("interpolation_plugin".toList, interpolationChunkDebug plain pretty c.interpolators),
     ("curves_plugin".toList, chunkText pretty "CurvesPluginChunk" "parametric_curves"
       (listText pretty (c.parametricCurves.map fun x => x.debug plain pretty))),
     ("formatters_plugin".toList, chunkText pretty "FormattersPluginChunk" "factory_list"
       (listText pretty (c.factoryList.map fun f => ptrText t pretty f.addr))),
     ("tag_types_plugin".toList, chunkText pretty "TagTypePluginChunk" "tag_types"
       (listText pretty (c.tagTypes.map fun x => x.debug plain pretty))),
     ("tags_plugin".toList, chunkText pretty "TagPluginChunk" "tags"
       (listText pretty (c.tags.map fun x => x.debug plain pretty))),
     ("intents_plugin".toList, chunkText pretty "IntentsPluginChunk" "intents"
       (listText pretty (c.intents.map fun x => x.debug plain pretty))),
     ("mpe_types_plugin".toList, chunkText pretty "TagTypePluginChunk" "tag_types"
       (listText pretty (c.mpeTypes.map fun x => x.debug plain pretty))),
     ("optimization_plugin".toList, chunkText pretty "OptimizationPluginChunk" "optimization_collection"
       (listText pretty (c.optimizationCollection.map fun x => x.debug plain pretty))),
     ("transform_plugin".toList, chunkText pretty "TransformPluginChunk" "transform_collection"
       (listText pretty (c.transformCollection.map fun x => x.debug plain pretty)))]

end Lcms
