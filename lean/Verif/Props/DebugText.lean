import Verif.Lemmas.Debug
import Verif.Spec.Shown

/-! # Property C93, continued: every value stands behind the name of its field -/

namespace Lcms.Props

open Lcms.Spec

/-- The rest of a struct after a value. -/
def afterValue : List (Str × Str) → Str
  | [] => " }".toList
  | (n, v) :: fs => (", ".toList ++ n ++ ": ".toList) ++ (v ++ afterValue fs)

theorem struct_compact (name n v : Str) (fs : List (Str × Str)) :
    structText false name ((n, v) :: fs) = (name ++ " { ".toList ++ n ++ ": ".toList) ++ (v ++ afterValue fs) := by
  have h : ∀ (fs : List (Str × Str)) (n v : Str),
      commaSep ((((n, v) :: fs)).map fun f => f.1 ++ ": ".toList ++ f.2) ++ " }".toList =
        n ++ ": ".toList ++ (v ++ afterValue fs) := by
    intro fs
    induction fs with
    | nil => intro n v; simp only [List.map, commaSep, afterValue, List.append_assoc]
    | cons f fs ih =>
      intro n v
      have := ih f.1 f.2
      simp only [List.map_cons, commaSep, afterValue, List.append_assoc] at this ⊢
      rw [this]
  simp only [structText, List.isEmpty_cons, Bool.false_eq_true, if_false]
  rw [List.append_assoc, h]
  simp only [List.append_assoc]

theorem peel {l l' r r' : Str} (v : Str) (h : l = l') (hr : r = r') : l ++ (v ++ r) = l' ++ (v ++ r') := by
  rw [h, hr]

/-- **C93** (numbers, booleans, lists) A number is printed in decimal digits without leading zeros, read in the usual
way they give the number; a negative one has a minus sign in front; `true` is `true`; the items of a list stand between
brackets, separated by a comma and a blank. -/
theorem C93_atoms :
    (∀ n, number (decimal n) = n ∧ (∀ c ∈ decimal n, c.isDigit = true) ∧ ((decimal n).head? = some '0' → n = 0)) ∧
    (∀ n : Int, decimalInt n = if n < 0 then "-".toList ++ decimal (-n).toNat else decimal n.toNat) ∧
    boolText true = "true".toList ∧ boolText false = "false".toList ∧
    (∀ xs : List Str, listText false xs = bracketed xs) ∧
    optionText false none = "None".toList ∧
    (∀ x : Str, optionText false (some x) = "Some(".toList ++ x ++ ")".toList) := by
  refine ⟨fun n => ⟨?_, decimal_digits n, ?_⟩, fun n => ?_, rfl, rfl, fun xs => ?_, rfl, fun _ => rfl⟩
  · exact Nat.ofDigitChars_ten_toDigits
  · unfold decimal
    induction n using Nat.base_induction 10 (by decide) with
    | single m hm =>
      rw [Nat.toDigits_of_lt_base hm]
      revert m
      decide
    | digit m k hk hm ih =>
      rw [← Nat.toDigits_append_toDigits (by decide) hm hk]
      intro h
      have hne : Nat.toDigits 10 m ≠ [] := Nat.toDigits_ne_nil
      rw [List.head?_append_of_ne_nil _ hne] at h
      have := ih h
      omega
  · unfold decimalInt
    split
    · rw [show n.natAbs = (-n).toNat by omega]
      rfl
    · rw [show n.natAbs = n.toNat by omega]
  · unfold listText bracketed
    cases xs with
    | nil => rfl
    | cons x xs =>
      simp only [List.isEmpty_cons, Bool.false_eq_true, if_false]
      congr 2
      induction xs generalizing x with
      | nil => rw [commaSep, List.intercalate_singleton]
      | cons y ys ih => rw [commaSep, List.intercalate_cons_cons, ih y]; exact List.cons_ne_nil _ _

/-- **C93** (directory entries) -/
theorem C93_tag_entry_text (plain : Char → Bool) (e : TagEntry) :
    e.debug plain false = "TagEntry { sig: ".toList ++ e.sig.debug plain false ++ ", offset: ".toList ++
      decimal e.offset.toNat ++ ", size: ".toList ++ decimal e.size.toNat ++ " }".toList := by
  rw [TagEntry.debug, struct_compact]
  conv_rhs => simp only [List.append_assoc]
  simp only [afterValue]
  repeat refine peel _ rfl ?_
  rfl

/-- **C93** (dates, XYZ numbers) -/
theorem C93_small_text :
    (∀ d : DateTimeNumber, d.debug false =
      "DateTimeNumber { year: ".toList ++ decimal d.year.toNat ++ ", month: ".toList ++ decimal d.month.toNat ++
        ", day: ".toList ++ decimal d.day.toNat ++ ", hours: ".toList ++ decimal d.hours.toNat ++
        ", minutes: ".toList ++ decimal d.minutes.toNat ++ ", seconds: ".toList ++ decimal d.seconds.toNat ++
        " }".toList) ∧
    (∀ v : EncodedXYZNumber, v.debug false =
      "EncodedXYZNumber { x: ".toList ++ decimalInt v.x.toInt ++ ", y: ".toList ++ decimalInt v.y.toInt ++
        ", z: ".toList ++ decimalInt v.z.toInt ++ " }".toList) := by
  refine ⟨fun d => ?_, fun v => ?_⟩
  · rw [DateTimeNumber.debug, struct_compact]
    conv_rhs => simp only [List.append_assoc]
    simp only [afterValue]
    repeat refine peel _ rfl ?_
    rfl
  · rw [EncodedXYZNumber.debug, struct_compact]
    conv_rhs => simp only [List.append_assoc]
    simp only [afterValue]
    repeat refine peel _ rfl ?_
    rfl

/-- **C93** (tristimulus values) -/
theorem C93_ciexyz_text (flt : F64 → Str) (x y z : F64) :
    ciexyzDebug flt false x y z =
      "CIEXYZ { X: ".toList ++ flt x ++ ", Y: ".toList ++ flt y ++ ", Z: ".toList ++ flt z ++ " }".toList := by
  rw [ciexyzDebug, struct_compact]
  conv_rhs => simp only [List.append_assoc]
  simp only [afterValue]
  repeat refine peel _ rfl ?_
  rfl

/-- **C93** (headers) -/
theorem C93_header_text (plain : Char → Bool) (h : ICCHeader) :
    h.debug plain false =
      "ICCHeader { size: ".toList ++ decimal h.size.toNat ++
      ", cmm_id: ".toList ++ h.cmmId.debug plain false ++
      ", version: ".toList ++ decimal h.version.toNat ++
      ", device_class: ".toList ++ h.deviceClass.debug plain false ++
      ", color_space: ".toList ++ h.colorSpace.debug plain false ++
      ", pcs: ".toList ++ h.pcs.debug plain false ++
      ", date: ".toList ++ h.date.debug false ++
      ", magic: ".toList ++ h.magic.debug plain false ++
      ", platform: ".toList ++ h.platform.debug plain false ++
      ", flags: ".toList ++ decimal h.flags.toNat ++
      ", manufacturer: ".toList ++ h.manufacturer.debug plain false ++
      ", model: ".toList ++ decimal h.model.toNat ++
      ", attributes: ".toList ++ decimal h.attributes.toNat ++
      ", rendering_intent: ".toList ++ decimal h.renderingIntent.toNat ++
      ", illuminant: ".toList ++ h.illuminant.debug false ++
      ", creator: ".toList ++ h.creator.debug plain false ++
      ", profile_id: ".toList ++ h.profileId.debug plain false ++
      ", reserved: ".toList ++ bracketed (h.reserved.toList.map fun b => decimal b.toNat) ++ " }".toList := by
  rw [← C93_atoms.2.2.2.2.1]
  rw [ICCHeader.debug, struct_compact]
  conv_rhs => simp only [List.append_assoc]
  simp only [afterValue]
  repeat refine peel _ rfl ?_
  rfl

/-- **C93** (handlers) -/
theorem C93_handlers_text :
    (∀ s : Null, s.debug false =
      "FileNull { pointer: ".toList ++ decimal s.pointer ++ ", used_space: ".toList ++ decimal s.usedSpace ++
        " }".toList) ∧
    (∀ s : Mem, s.debug false =
      "FileMem { cursor: Cursor { inner: ".toList ++ bracketed (s.buf.map fun b => decimal b.toNat) ++
        ", pos: ".toList ++ decimal s.pos ++ " } }".toList) := by
  refine ⟨fun s => ?_, fun s => ?_⟩
  · rw [Null.debug, struct_compact]
    conv_rhs => simp only [List.append_assoc]
    simp only [afterValue]
    repeat refine peel _ rfl ?_
    rfl
  · rw [← C93_atoms.2.2.2.2.1]
    rw [Mem.debug, struct_compact, struct_compact]
    have a : "FileMem".toList ++ " { ".toList ++ "cursor".toList ++ ": ".toList = "FileMem { cursor: ".toList := rfl
    have b : "Cursor".toList ++ " { ".toList ++ "inner".toList ++ ": ".toList = "Cursor { inner: ".toList := rfl
    have c : ", ".toList ++ "pos".toList ++ ": ".toList = ", pos: ".toList := rfl
    have d : "FileMem { cursor: Cursor { inner: ".toList = "FileMem { cursor: ".toList ++ "Cursor { inner: ".toList := rfl
    have e : " } }".toList = " }".toList ++ " }".toList := rfl
    simp only [afterValue]
    rw [a, b, c, d, e]
    simp only [List.append_assoc]

/-- **C93** (profiles) -/
theorem C93_profile_text {σ : Type} (io : Bool → σ → Str) (date : NaiveDateTime → Str) (plain : Char → Bool)
    (p : Profile σ) :
    p.debug io date plain false =
      "Profile { io: ".toList ++ (match p.io with
        | none => "None".toList
        | some s => "Some(".toList ++ io false s ++ ")".toList) ++
      ", created: ".toList ++ date p.created ++
      ", version: ".toList ++ decimal p.version.toNat ++
      ", device_class: ".toList ++ p.deviceClass.debug plain false ++
      ", color_space: ".toList ++ p.colorSpace.debug plain false ++
      ", pcs: ".toList ++ p.pcs.debug plain false ++
      ", rendering_intent: ".toList ++ decimal p.renderingIntent.toNat ++
      ", flags: ".toList ++ decimal p.flags.toNat ++
      ", manufacturer: ".toList ++ decimal p.manufacturer.toNat ++
      ", model: ".toList ++ decimal p.model.toNat ++
      ", attributes: ".toList ++ decimal p.attributes.toNat ++
      ", creator: ".toList ++ decimal p.creator.toNat ++
      ", profile_id: ".toList ++ p.profileId.debug plain false ++
      ", tag_count: ".toList ++ decimal p.tagCount ++
      ", tag_names: ".toList ++ bracketed (p.tagNames.map fun s => s.debug plain false) ++
      ", tag_linked: ".toList ++ bracketed (p.tagLinked.map fun
        | none => "None".toList
        | some s => "Some(".toList ++ s.debug plain false ++ ")".toList) ++
      ", tag_sizes: ".toList ++ bracketed (p.tagSizes.map decimal) ++
      ", tag_offsets: ".toList ++ bracketed (p.tagOffsets.map decimal) ++
      ", tag_save_as_raw: ".toList ++ bracketed (p.tagSaveAsRaw.map fun b =>
        if b then "true".toList else "false".toList) ++
      ", is_write: ".toList ++ (if p.isWrite then "true".toList else "false".toList) ++ " }".toList := by
  have e : (fun x : Option Signature => optionText false (x.map fun s => s.debug plain false)) = fun
        | none => "None".toList
        | some s => "Some(".toList ++ s.debug plain false ++ ")".toList := by
    funext x; cases x <;> rfl
  have e' : optionText false (p.io.map (io false)) = match p.io with
        | none => "None".toList
        | some s => "Some(".toList ++ io false s ++ ")".toList := by
    cases p.io <;> rfl
  rw [← e, ← e']
  simp only [← C93_atoms.2.2.2.2.1]
  rw [Profile.debug, struct_compact]
  conv_rhs => simp only [List.append_assoc]
  simp only [afterValue]
  repeat refine peel _ rfl ?_
  rfl

/-- The names of the error codes, in the order of their numbers. -/
def errorNames : List String :=
  ["Undefined", "File", "Range", "Internal", "Null", "Read", "Seek", "Write", "UnknownExtension", "ColorSpaceCheck",
   "AlreadyDefined", "BadSignature", "CorruptionDetected", "NotSuitable"]

/-- **C93** (error codes) -/
theorem C93_error_codes (c : ErrorCode) : errorNames[c.toU32.toNat]?.map String.toList = some c.debug := by
  cases c <;> rfl

/-- The text of a struct in the long layout: every line of every field stands four blanks further in, behind every
field a comma. -/
def longStruct (name : Str) (fields : List (Str × Str)) : Str :=
  name ++ " {\n".toList ++
    (fields.flatMap fun f => ((f.1 ++ ": ".toList ++ f.2 ++ ",".toList).splitOn '\n').flatMap fun l =>
      "    ".toList ++ l ++ "\n".toList) ++ "}".toList

theorem padLines_lines (s : Str) :
    padLines true (s ++ ['\n']) = (s.splitOn '\n').flatMap fun l => "    ".toList ++ l ++ ['\n'] := by
  have key : ∀ s : Str, padLines false (s ++ ['\n']) = ((s.splitOn '\n').headD []) ++ ['\n'] ++
      ((s.splitOn '\n').tail.flatMap fun l => "    ".toList ++ l ++ ['\n']) ∧
      padLines true (s ++ ['\n']) = (s.splitOn '\n').flatMap fun l => "    ".toList ++ l ++ ['\n'] := by
    intro s
    induction s with
    | nil => exact ⟨rfl, rfl⟩
    | cons c s ih =>
      by_cases hc : c = '\n'
      · subst hc
        rw [List.splitOn_cons_eq_if_modifyHead, if_pos (beq_self_eq_true _)]
        refine ⟨?_, ?_⟩
        · simp only [List.cons_append, padLines, beq_self_eq_true, ih.2, List.headD_cons, List.tail_cons,
            List.nil_append]
        · simp only [List.cons_append, padLines, beq_self_eq_true, ih.2, List.flatMap_cons]
          rfl
      · have hb : (c == '\n') = false := by simpa using hc
        rw [List.splitOn_cons_eq_if_modifyHead, if_neg (by rw [hb]; decide)]
        obtain ⟨l, ls, e⟩ : ∃ l ls, s.splitOn '\n' = l :: ls := List.exists_cons_of_ne_nil (List.splitOn_ne_nil _ _)
        rw [e] at ih ⊢
        refine ⟨?_, ?_⟩ <;>
        · simp only [List.cons_append, padLines, hb, ih.1]
          simp
  exact (key s).2

/-- **C93** (long layout) -/
theorem C93_long_layout (name : Str) (f : Str × Str) (fs : List (Str × Str)) :
    structText true name (f :: fs) = longStruct name (f :: fs) ∧
    listText true (f.2 :: fs.map Prod.snd) =
      "[\n".toList ++ ((f.2 :: fs.map Prod.snd).flatMap fun v => ((v ++ ",".toList).splitOn '\n').flatMap fun l =>
        "    ".toList ++ l ++ "\n".toList) ++ "]".toList ∧
    optionText true (some f.2) =
      "Some(\n".toList ++ ((f.2 ++ ",".toList).splitOn '\n').flatMap (fun l =>
        "    ".toList ++ l ++ "\n".toList) ++ ")".toList := by
  have nl : ",\n".toList = ",".toList ++ ['\n'] := rfl
  have nl' : "\n".toList = ['\n'] := rfl
  refine ⟨?_, ?_, ?_⟩
  · simp only [structText, longStruct, List.isEmpty_cons, Bool.false_eq_true, if_false, if_true, nl, nl',
      ← List.append_assoc _ _ ['\n'], padLines_lines]
  · simp only [listText, List.isEmpty_cons, Bool.false_eq_true, if_false, if_true, nl, nl',
      ← List.append_assoc _ _ ['\n'], padLines_lines]
  · simp only [optionText, tupleText, List.isEmpty_cons, Bool.false_eq_true, if_false, if_true, nl, nl',
      ← List.append_assoc _ _ ['\n'], padLines_lines, List.flatMap_cons, List.flatMap_nil, List.append_nil]
    rfl

/-- A field hidden behind a text. -/
theorem hidden (plain : Char → Bool) (h : ∀ c : Char, 32 ≤ c.toNat → c.toNat < 127 → plain c = true) :
    debugStr plain "[Function Ptr]".toList = "\"[Function Ptr]\"".toList ∧
    debugStr plain "[Function Pointer]".toList = "\"[Function Pointer]\"".toList := by
  have e : ∀ s : Str, (∀ c ∈ s, (32 ≤ c.toNat ∧ c.toNat < 127) ∧ c ≠ '"' ∧ c ≠ '\\') →
      s.flatMap (escapeChar plain) = s := by
    intro s hs
    induction s with
    | nil => rfl
    | cons c s ih =>
      obtain ⟨⟨h1, h2⟩, h3, h4⟩ := hs c List.mem_cons_self
      rw [List.flatMap_cons, ih fun d hd => hs d (List.mem_cons_of_mem _ hd)]
      have : escapeChar plain c = [c] := by
        have n : ∀ d : Char, d.toNat < 32 → c ≠ d := by rintro d hd rfl; omega
        simp only [escapeChar, if_neg (n '\x00' (by decide)), if_neg (n '\t' (by decide)), if_neg (n '\r' (by decide)),
          if_neg (n '\n' (by decide)), if_neg h3, if_neg h4, h c h1 h2, if_true]
      rw [this]; rfl
  constructor
  · rw [debugStr, e _ (by decide)]; rfl
  · rw [debugStr, e _ (by decide)]; rfl

/-- **C93** (plugins) Function pointers are not shown, but said to be there. -/
theorem C93_plugin_texts (plain : Char → Bool) (h : ∀ c : Char, 32 ≤ c.toNat → c.toNat < 127 → plain c = true) :
    (∀ c : Curves.Curve, c.debug false = "Curve { function_curve_id: ".toList ++ decimalInt c.functionCurveId.toInt ++
      ", parameter_count: ".toList ++ decimal c.parameterCount.toNat ++ " }".toList) ∧
    (∀ c : ParametricCurves, c.debug plain false = "ParametricCurves { curves: ".toList ++
      bracketed (c.curves.map fun x => x.debug false) ++ ", evaluator: \"[Function Ptr]\" }".toList) ∧
    (∀ c : TypeHandler, c.debug plain false = "TypeHandler { signature: ".toList ++ c.signature.debug plain false ++
      ", icc_version: ".toList ++ decimal c.iccVersion.toNat ++
      ", read: \"[Function Ptr]\", write: \"[Function Ptr]\" }".toList) ∧
    (∀ c : TagDescriptor, c.debug plain false = "TagDescriptor { element_count: ".toList ++ decimal c.elementCount ++
      ", supported_types: ".toList ++ bracketed (c.supportedTypes.map fun s => s.debug plain false) ++
      ", decide_type: \"[Function Ptr]\" }".toList) ∧
    (∀ c : TagListItem, c.debug plain false = "TagListItem { signature: ".toList ++ c.signature.debug plain false ++
      ", descriptor: ".toList ++ c.descriptor.debug plain false ++ " }".toList) ∧
    (∀ c : IntentsListItem, c.debug plain false = "IntentListItem { intent: ".toList ++ c.intent.debug plain false ++
      ", description: ".toList ++ debugStr plain c.description ++ ", link: \"[Function Ptr]\" }".toList) ∧
    (∀ c : OptimizationCollectionItem, c.debug plain false =
      "OptimizationCollectionItem { optimize_ptr: \"[Function Ptr]\" }".toList) ∧
    (∀ f, (TransformFactories.legacy f).debug plain false = "Legacy(\"[Function Ptr]\")".toList) ∧
    (∀ f, (TransformFactories.modern f).debug plain false = "Modern(\"[Function Ptr]\")".toList) ∧
    (∀ f, logErrorChunkDebug plain false f = "LogErrorChunk { handler: \"[Function Pointer]\" }".toList) := by
  obtain ⟨h1, h2⟩ := hidden plain h
  refine ⟨fun c => ?_, fun c => ?_, fun c => ?_, fun c => ?_, fun c => ?_, fun c => ?_, fun c => ?_, fun f => ?_,
    fun f => ?_, fun f => ?_⟩
  all_goals
    simp only [Curves.Curve.debug, ParametricCurves.debug, TypeHandler.debug, TagDescriptor.debug, TagListItem.debug,
      IntentsListItem.debug, OptimizationCollectionItem.debug, TransformFactories.debug, logErrorChunkDebug,
      h1, h2, ← C93_atoms.2.2.2.2.1, structText, tupleText, commaSep, List.isEmpty_cons, Bool.false_eq_true, if_false,
      List.map_cons, List.map_nil, List.append_assoc]
    rfl

set_option maxRecDepth 4000 in
/-- **C93** (contexts) -/
theorem C93_context_text (t : Target) (flt : F64 → Str) (plain : Char → Bool) (c : FullContext)
    (h : ∀ c : Char, 32 ≤ c.toNat → c.toNat < 127 → plain c = true) :
    c.debug t flt plain false =
      "Context { user_data: ".toList ++ (match c.userData with
        | none => "None".toList
        | some b => "Some(".toList ++ bracketed (b.map fun x => decimal x.toNat) ++ ")".toList) ++
      ", error_handler: LogErrorChunk { handler: \"[Function Pointer]\" }".toList ++
      ", alarm_codes: AlarmCodesChunk { alarm_codes: ".toList ++
        bracketed (c.alarmCodes.toList.map fun x => decimal x.toNat) ++
      " }, adaption_state: AdaptionStateChunk { adaption_state: ".toList ++ flt c.adaptionState ++
      " }, interpolation_plugin: LogErrorChunk { handler: \"[Function Pointer]\" }".toList ++
      ", curves_plugin: CurvesPluginChunk { parametric_curves: ".toList ++
        bracketed (c.parametricCurves.map fun x => x.debug plain false) ++
      " }, formatters_plugin: FormattersPluginChunk { factory_list: ".toList ++
        bracketed (c.factoryList.map fun f => "0x".toList ++ hexLower 16 f.addr) ++
      " }, tag_types_plugin: TagTypePluginChunk { tag_types: ".toList ++
        bracketed (c.tagTypes.map fun x => x.debug plain false) ++
      " }, tags_plugin: TagPluginChunk { tags: ".toList ++ bracketed (c.tags.map fun x => x.debug plain false) ++
      " }, intents_plugin: IntentsPluginChunk { intents: ".toList ++
        bracketed (c.intents.map fun x => x.debug plain false) ++
      " }, mpe_types_plugin: TagTypePluginChunk { tag_types: ".toList ++
        bracketed (c.mpeTypes.map fun x => x.debug plain false) ++
      " }, optimization_plugin: OptimizationPluginChunk { optimization_collection: ".toList ++
        bracketed (c.optimizationCollection.map fun x => x.debug plain false) ++
      " }, transform_plugin: TransformPluginChunk { transform_collection: ".toList ++
        bracketed (c.transformCollection.map fun x => x.debug plain false) ++ " } }".toList := by
  obtain ⟨-, h2⟩ := hidden plain h
  have e : optionText false (c.userData.map fun b => listText false (b.map fun x => decimal x.toNat)) =
      match c.userData with
        | none => "None".toList
        | some b => "Some(".toList ++ listText false (b.map fun x => decimal x.toNat) ++ ")".toList := by
    cases c.userData <;> rfl
  simp only [← C93_atoms.2.2.2.2.1]
  rw [← e]
  simp only [FullContext.debug, chunkText, ptrText, logErrorChunkDebug, interpolationChunkDebug,
      h2, structText, commaSep, List.isEmpty_cons, Bool.false_eq_true, if_false,
      List.map_cons, List.map_nil, List.append_assoc, List.nil_append]
  rfl

/-- A date and a chunk of memory. -/
example :
    (DateTimeNumber.mk 2007 7 25 0 5 37).debug false =
      "DateTimeNumber { year: 2007, month: 7, day: 25, hours: 0, minutes: 5, seconds: 37 }".toList ∧
    (Null.mk 12 40).debug false = "FileNull { pointer: 12, used_space: 40 }".toList ∧
    number "60796".toList = 60796 := by decide +kernel

/-- A type handler, and a directory entry in the long layout. -/
example :
    (TypeHandler.mk (Signature.ofU32 0x58595A20) 4 ⟨1⟩ ⟨2⟩).debug (fun _ => true) false =
      "TypeHandler { signature: Signature { value: \"XYZ \" }, icc_version: 4, read: \"[Function Ptr]\", \
        write: \"[Function Ptr]\" }".toList ∧
    (TagListItem.mk (Signature.ofU32 0x77747074) ⟨1, [Signature.ofU32 0x58595A20], ⟨3⟩⟩).debug (fun _ => true) true =
      "TagListItem {\n    signature: Signature {\n        value: \"wtpt\",\n    },\n    descriptor: TagDescriptor {\n\
       \x20       element_count: 1,\n        supported_types: [\n            Signature {\n\
       \x20               value: \"XYZ \",\n            },\n        ],\n\
       \x20       decide_type: \"[Function Ptr]\",\n    },\n}".toList ∧
    ErrorCode.badSignature.debug = "BadSignature".toList := by decide +kernel

end Lcms.Props
