import Verif.Model.Float64
import Verif.Model.Signature

/-!
# src/state/context.rs, src/state/chunks/*.rs, src/plugins/plugin.rs

Function pointers are identified by a number; what the code behind an installed error handler does to the
context is an arbitrary function (`Handlers`), which may also panic, after any changes.  The contents of the plugin
lists are opaque.  Boxes are values.
-/

namespace Lcms

/-- src/state/chunks/error_handler.rs:37-55, variants in declaration order. -/
inductive ErrorCode where
  | undefined | file | range | internal | null | read | seek | write | unknownExtension
  | colorSpaceCheck | alreadyDefined | badSignature | corruptionDetected | notSuitable
deriving DecidableEq, Repr

namespace ErrorCode

/-- The explicit discriminants (`code as u32`), src/state/chunks/error_handler.rs:41-54. -/
def toU32 : ErrorCode → UInt32
  | undefined => 0
  | file => 1
  | range => 2
  | internal => 3
  | null => 4
  | read => 5
  | seek => 6
  | write => 7
  | unknownExtension => 8
  | colorSpaceCheck => 9
  | alreadyDefined => 10
  | badSignature => 11
  | corruptionDetected => 12
  | notSuitable => 13

/-- `#[derive(PartialOrd, Ord)]` compares discriminants (src/state/chunks/error_handler.rs:37). -/
def cmp (a b : ErrorCode) : Ordering := compare a.toU32 b.toU32

end ErrorCode

/-- A Rust `String` (src/state/context.rs:21). -/
abbrev Str := List Char

/-- A `fn(&mut Context, ErrorCode, String)` value (src/state/chunks/error_handler.rs:5). -/
structure HandlerPtr where
  id : Nat
deriving DecidableEq, Repr

/-- `default_log_error_handler_function` (src/state/chunks/error_handler.rs:34-35) -/
def defaultHandler : HandlerPtr := ⟨0⟩

/-- src/state/context.rs:23-38.  The nine plugin chunks other than the error handler, alarm codes and
adaption state are lists of opaque items. -/
structure Context where
  userData : Option (List Byte)
  errorHandler : HandlerPtr
  alarmCodes : List UInt16
  adaptionState : F64
  interpolationPlugin : Nat
  curvesPlugin : List Nat
  formattersPlugin : List Nat
  tagTypesPlugin : List Nat
  tagsPlugin : List Nat
  intentsPlugin : List Nat
  mpeTypesPlugin : List Nat
  optimizationPlugin : List Nat
  transformPlugin : List Nat
deriving DecidableEq

/-- src/state/context.rs:43-61, with the `Default` of every chunk:
error_handler.rs:18-24, alarm_codes.rs:14-22, adaption_state.rs:12-18, and empty lists.  (The default
interpolator factory is number 0.) -/
def Context.new (data : Option (List Byte)) : Context where
  userData := data
  errorHandler := defaultHandler
  alarmCodes := [0x7F00, 0x7F00, 0x7F00, 0, 0, 0, 0, 0, 0, 0, 0, 0, 0, 0, 0, 0]
  adaptionState := F64.ofRat 1
  interpolationPlugin := 0
  curvesPlugin := []
  formattersPlugin := []
  tagTypesPlugin := []
  tagsPlugin := []
  intentsPlugin := []
  mpeTypesPlugin := []
  optimizationPlugin := []
  transformPlugin := []

/-- src/state/context.rs:114-116 -/
def Context.getUserData (c : Context) : Option (List Byte) := c.userData

/-- How a call of a handler ends, and what it has made of the `&mut Context` by then
(src/state/chunks/error_handler.rs:5). -/
inductive Called where
  | returns (c : Context)
  | panics (c : Context)
deriving DecidableEq

/-- What the functions behind handler pointers do (src/state/chunks/error_handler.rs:5). -/
abbrev Handlers := HandlerPtr → Context → ErrorCode → Str → Called

/-- Call a handler; the default one does nothing (src/state/chunks/error_handler.rs:34-35). -/
def callHandler (env : Handlers) (h : HandlerPtr) (c : Context) (code : ErrorCode) (text : Str) :
    Called :=
  if h = defaultHandler then .returns c else env h c code text

/-- One recorded handler call (ghost state of src/state/context.rs:118-121). -/
structure Signal where
  code : ErrorCode
  text : Str
deriving DecidableEq, Repr

/-- A context together with the (ghost) list of errors signalled to it so far, oldest first
(ghost state of src/state/context.rs:118-121). -/
structure CState where
  ctx : Context
  trace : List Signal
deriving DecidableEq

/-- Result of a call that can only succeed or panic; the ghost trace survives a panic
(calls of src/state/context.rs:63-121). -/
inductive Ran (α : Type) where
  | done (a : α) (s : CState)
  | panic (s : CState)
deriving DecidableEq

/-- src/state/context.rs:118-121 -/
def signalError (env : Handlers) (code : ErrorCode) (text : Str) (s : CState) : Ran Unit :=
  let trace := s.trace ++ [⟨code, text⟩]
  match callHandler env s.ctx.errorHandler s.ctx code text with
  | .panics c => .panic ⟨c, trace⟩
  | .returns c => .done () ⟨c, trace⟩

/-- `{}` of an unsigned integer (used in src/state/context.rs:82-85, src/types/profile.rs:171). -/
def decimal (n : Nat) : Str := Nat.toDigits 10 n

/-! ### Plugins -/

/-- src/plugins/plugin.rs:20-54.  Function pointers and handlers are opaque numbers. -/
inductive PluginType where
  | interpolation (factory : Nat)
  | parametricCurve (numFunctions : UInt32) (types : Vector UInt32 20) (counts : Vector UInt32 20)
      (evaluator : Nat)
  | formatter (factory : Nat)
  | tagType (handler : Nat)
  | tag (signature : Signature) (descriptor : Nat)
  | renderingIntent (intent : Signature) (link : Nat) (description : Str)
  | multiProcessElement (handler : Nat)
  | optimization (optimizer : Nat)
  | transform (factory : Nat)
deriving DecidableEq

namespace PluginType
/-- src/plugins/plugin.rs:61-63 -/
def isInterpolation : PluginType → Bool
  | interpolation .. => true
  | _ => false
/-- src/plugins/plugin.rs:69-71 -/
def isParametricCurves : PluginType → Bool
  | parametricCurve .. => true
  | _ => false
/-- src/plugins/plugin.rs:77-79 -/
def isFormatter : PluginType → Bool
  | formatter .. => true
  | _ => false
/-- src/plugins/plugin.rs:85-87 -/
def isTagType : PluginType → Bool
  | tagType .. => true
  | _ => false
/-- src/plugins/plugin.rs:93-95 -/
def isTag : PluginType → Bool
  | tag .. => true
  | _ => false
/-- src/plugins/plugin.rs:101-103 -/
def isRenderingIntent : PluginType → Bool
  | renderingIntent .. => true
  | _ => false
/-- src/plugins/plugin.rs:109-111 -/
def isMultiProcessElement : PluginType → Bool
  | multiProcessElement .. => true
  | _ => false
/-- src/plugins/plugin.rs:117-119 -/
def isOptimization : PluginType → Bool
  | optimization .. => true
  | _ => false
/-- src/plugins/plugin.rs:125-127 -/
def isTransform : PluginType → Bool
  | transform .. => true
  | _ => false
end PluginType

/-- The fields of src/plugins/plugin.rs:10-16 other than `next`. -/
structure PluginInfo where
  magic : Signature
  expectedVersion : UInt32
  type : Signature
  data : PluginType
deriving DecidableEq

/-- src/plugins/plugin.rs:10-16: a plugin whose `next` is `None` (`last`) or `Some` (`chain`). -/
inductive Plugin where
  | last (p : PluginInfo)
  | chain (p : PluginInfo) (next : Plugin)
deriving DecidableEq

/-- `Signature::new(b"....")` (src/types/signature.rs:7-9) -/
def sig4 (a b c d : Char) : Signature :=
  Signature.new #v[UInt8.ofNat a.toNat, UInt8.ofNat b.toNat, UInt8.ofNat c.toNat, UInt8.ofNat d.toNat]

namespace PluginSig
/-- src/types/signatures/plugin_type.rs:3 -/
def MAGIC : Signature := sig4 'a' 'c' 'p' 'p'
/-- src/types/signatures/plugin_type.rs:5 -/
def INTERPOLATION : Signature := sig4 'i' 'n' 'p' 'H'
/-- src/types/signatures/plugin_type.rs:10 -/
def PARAMETRIC_CURVE : Signature := sig4 'p' 'a' 'r' 'H'
/-- src/types/signatures/plugin_type.rs:8 -/
def FORMATTERS : Signature := sig4 'f' 'r' 'm' 'H'
/-- src/types/signatures/plugin_type.rs:6 -/
def TAG_TYPE : Signature := sig4 't' 'y' 'p' 'H'
/-- src/types/signatures/plugin_type.rs:7 -/
def TAG : Signature := sig4 't' 'a' 'g' 'H'
/-- src/types/signatures/plugin_type.rs:9 -/
def RENDERING_INTENT : Signature := sig4 'i' 'n' 't' 'H'
/-- src/types/signatures/plugin_type.rs:11 -/
def MULTI_PROCESS_ELEMENT : Signature := sig4 'm' 'p' 'e' 'H'
/-- src/types/signatures/plugin_type.rs:12 -/
def OPTIMIZATION : Signature := sig4 'o' 'p' 't' 'H'
/-- src/types/signatures/plugin_type.rs:4 -/
def TRANSFORM : Signature := sig4 'x' 'f' 'm' 'H'
end PluginSig

/-- src/lib.rs:51 (`LCMS_VERSION`) -/
def LCMS_VERSION : UInt32 := 2131

/-- The local closure `signal_error` of src/state/context.rs:64-67: report, then return the text. -/
def failWith (env : Handlers) (code : ErrorCode) (text : Str) (s : CState) : Ran (Except Str Unit) :=
  match signalError env code text s with
  | .panic s' => .panic s'
  | .done () s' => .done (.error text) s'

/-- src/state/context.rs:63-112.  `plain` is `std`'s table of printable characters (used by `{:?}`). -/
def initPlugin (env : Handlers) (plain : Char → Bool) : Plugin → CState → Ran (Except Str Unit)
  | .last _, s => .done (.ok ()) s
  | .chain p next, s =>
    if p.magic ≠ PluginSig.MAGIC then
      failWith env .unknownExtension "Unrecognized plugin".toList s
    else if p.expectedVersion > LCMS_VERSION then
      failWith env .unknownExtension
        ("plugin needs Little CMS ".toList ++ decimal p.expectedVersion.toNat ++
          ", current version is ".toList ++ decimal LCMS_VERSION.toNat) s
    else if p.type = PluginSig.INTERPOLATION then initPlugin env plain next s
    else if p.type = PluginSig.TAG_TYPE then initPlugin env plain next s
    else if p.type = PluginSig.TAG then initPlugin env plain next s
    else if p.type = PluginSig.FORMATTERS then initPlugin env plain next s
    else if p.type = PluginSig.RENDERING_INTENT then initPlugin env plain next s
    else if p.type = PluginSig.PARAMETRIC_CURVE then initPlugin env plain next s
    else if p.type = PluginSig.MULTI_PROCESS_ELEMENT then initPlugin env plain next s
    else if p.type = PluginSig.OPTIMIZATION then initPlugin env plain next s
    else if p.type = PluginSig.TRANSFORM then initPlugin env plain next s
    else
      failWith env .unknownExtension
        ("Unrecognized plugin type '".toList ++ p.type.debug plain false ++ "'".toList) s

end Lcms
