import Verif.Lemmas.Debug
import Verif.Spec.Shown
import Verif.Spec.Target
import Verif.Props.Signature

/-! # Properties C93–C95: `Debug` output -/

namespace Lcms.Props

open Lcms.Spec

/-- A way of printing from which the value can be read back, also in the middle of a longer text.  `Sep` is in
`Lemmas/Debug`: it can be seen where the text ends, if a comma, blank, line break or closing bracket follows. -/
structure Readable {α : Type} (f : α → Str) : Prop where
  sep : ∀ a b, Sep (f a) (f b)
  inj : ∀ a b, f a = f b → a = b

theorem decimal_readable : Readable decimal := ⟨decimal_sep, fun _ _ => decimal_inj⟩

theorem u8_readable : Readable fun x : UInt8 => decimal x.toNat :=
  ⟨fun _ _ => decimal_sep _ _, fun _ _ h => UInt8.toNat_inj.mp (decimal_inj h)⟩
theorem u16_readable : Readable fun x : UInt16 => decimal x.toNat :=
  ⟨fun _ _ => decimal_sep _ _, fun _ _ h => UInt16.toNat_inj.mp (decimal_inj h)⟩
theorem u32_readable : Readable fun x : UInt32 => decimal x.toNat :=
  ⟨fun _ _ => decimal_sep _ _, fun _ _ h => UInt32.toNat_inj.mp (decimal_inj h)⟩
theorem u64_readable : Readable fun x : UInt64 => decimal x.toNat :=
  ⟨fun _ _ => decimal_sep _ _, fun _ _ h => UInt64.toNat_inj.mp (decimal_inj h)⟩
theorem i32_readable : Readable fun x : Int32 => decimalInt x.toInt :=
  ⟨fun _ _ => decimalInt_sep _ _, fun _ _ h => Int32.toInt_inj.mp (decimalInt_inj h)⟩
theorem bool_readable : Readable boolText := ⟨bool_sep, fun _ _ => boolText_inj⟩

theorem sig_readable (plain : Char → Bool) (pretty : Bool) : Readable fun s : Signature => s.debug plain pretty where
  sep a b := by
    unfold Signature.debug
    rw [valueStruct_eq, valueStruct_eq]
    exact struct_sep pretty _ (.cons ⟨rfl, sep_debugStr plain _ _⟩ .nil) (List.cons_ne_nil _ _)
  inj := C27_signature_debug_injective plain pretty

theorem sig_item (plain : Char → Bool) (pretty : Bool) (s : Signature) : Item (s.debug plain pretty) := by
  unfold Signature.debug debugValueStruct
  cases pretty <;> exact ⟨'S', _, rfl, by decide⟩

theorem id_readable (plain : Char → Bool) (pretty : Bool) : Readable fun s : ProfileID => s.debug plain pretty where
  sep a b := by
    unfold ProfileID.debug
    rw [valueStruct_eq, valueStruct_eq]
    exact struct_sep pretty _ (.cons ⟨rfl, sep_debugStr plain _ _⟩ .nil) (List.cons_ne_nil _ _)
  inj a b h := (C27_profile_id_debug_injective plain pretty a b h).1

theorem str_readable (plain : Char → Bool) : Readable (debugStr plain) where
  sep := sep_debugStr plain
  inj a b h := (debugStr_inj plain a b [] [] (by simpa using h)).1

theorem map_inj {α : Type} {f : α → Str} (h : ∀ a b, f a = f b → a = b) {xs ys : List α}
    (he : xs.map f = ys.map f) : xs = ys := by
  induction xs generalizing ys with
  | nil => cases ys with
    | nil => rfl
    | cons y ys => simp at he
  | cons x xs ih => cases ys with
    | nil => simp at he
    | cons y ys =>
      simp only [List.map_cons, List.cons.injEq] at he
      rw [h x y he.1, ih he.2]

theorem list_readable {α : Type} {f : α → Str} (pretty : Bool) (h : Readable f) (hi : ∀ a, Item (f a)) :
    Readable fun xs : List α => listText pretty (xs.map f) := by
  have hs : ∀ xs ys : List α, ∀ x ∈ xs.map f, ∀ y ∈ ys.map f, Sep x y := by
    intro xs ys x hx y hy
    obtain ⟨a, _, rfl⟩ := List.mem_map.mp hx
    obtain ⟨b, _, rfl⟩ := List.mem_map.mp hy
    exact h.sep a b
  have hi' : ∀ xs : List α, ∀ x ∈ xs.map f, Item x := by
    intro xs x hx
    obtain ⟨a, _, rfl⟩ := List.mem_map.mp hx
    exact hi a
  refine ⟨fun xs ys => list_sep pretty (hs xs ys) (hi' xs) (hi' ys), fun xs ys he => ?_⟩
  exact map_inj h.inj (list_read pretty (hs xs ys) (hi' xs) (hi' ys) (r := []) (s := []) (by simpa using he)).1

theorem option_readable {α : Type} {f : α → Str} (pretty : Bool) (h : Readable f) :
    Readable fun x : Option α => optionText pretty (x.map f) := by
  have hs : ∀ x y : Option α, ∀ a ∈ x.map f, ∀ b ∈ y.map f, Sep a b := by
    intro x y a ha b hb
    obtain ⟨a', _, rfl⟩ := Option.map_eq_some_iff.mp ha
    obtain ⟨b', _, rfl⟩ := Option.map_eq_some_iff.mp hb
    exact h.sep a' b'
  refine ⟨fun x y => option_sep pretty (hs x y), fun x y he => ?_⟩
  have := (option_read pretty (hs x y) (r := []) (s := []) (by simpa using he)).1
  cases x <;> cases y <;> simp_all
  exact h.inj _ _ this

theorem option_item {x : Option Str} (pretty : Bool) : Item (optionText pretty x) := by
  unfold optionText tupleText
  cases x with
  | none => exact ⟨'N', _, rfl, by decide⟩
  | some v => cases pretty <;> exact ⟨'S', _, rfl, by decide⟩

theorem struct_item (pretty : Bool) (name : Str) (fs : List (Str × Str)) (h : Item name) :
    Item (structText pretty name fs) := by
  obtain ⟨c, s, rfl, hc⟩ := h
  unfold structText
  split_ifs <;> exact ⟨c, _, rfl, hc⟩

theorem struct_eq {pretty : Bool} {name : Str} {xs ys : List (Str × Str)} (h : List.Forall₂ FieldSep xs ys)
    (hne : xs ≠ []) (he : structText pretty name xs = structText pretty name ys) : xs = ys :=
  (struct_read pretty name h hne (r := []) (s := []) (by simpa using he)).1

/-! ### C93 -/

/-- Show field by field that two structs are separable. -/
macro "fields" : tactic => `(tactic|
  repeat' first
    | exact List.Forall₂.nil
    | refine List.Forall₂.cons ⟨rfl, ?_⟩ ?_)

theorem date_readable (pretty : Bool) : Readable (DateTimeNumber.debug pretty) := by
  have key : ∀ a b : DateTimeNumber, List.Forall₂ FieldSep
      [("year".toList, decimal a.year.toNat), ("month".toList, decimal a.month.toNat),
       ("day".toList, decimal a.day.toNat), ("hours".toList, decimal a.hours.toNat),
       ("minutes".toList, decimal a.minutes.toNat), ("seconds".toList, decimal a.seconds.toNat)]
      [("year".toList, decimal b.year.toNat), ("month".toList, decimal b.month.toNat),
       ("day".toList, decimal b.day.toNat), ("hours".toList, decimal b.hours.toNat),
       ("minutes".toList, decimal b.minutes.toNat), ("seconds".toList, decimal b.seconds.toNat)] := by
    intro a b
    fields <;> exact decimal_sep _ _
  refine ⟨fun a b => struct_sep pretty _ (key a b) (List.cons_ne_nil _ _), fun a b h => ?_⟩
  have h := struct_eq (key a b) (List.cons_ne_nil _ _) h
  simp only [List.cons.injEq, Prod.mk.injEq, true_and, and_true] at h
  obtain ⟨h1, h2, h3, h4, h5, h6⟩ := h
  cases a; cases b
  rw [DateTimeNumber.mk.injEq]
  exact ⟨u16_readable.inj _ _ h1, u16_readable.inj _ _ h2, u16_readable.inj _ _ h3, u16_readable.inj _ _ h4,
    u16_readable.inj _ _ h5, u16_readable.inj _ _ h6⟩

theorem xyz_readable (pretty : Bool) : Readable (EncodedXYZNumber.debug pretty) := by
  have key : ∀ a b : EncodedXYZNumber, List.Forall₂ FieldSep
      [("x".toList, decimalInt a.x.toInt), ("y".toList, decimalInt a.y.toInt), ("z".toList, decimalInt a.z.toInt)]
      [("x".toList, decimalInt b.x.toInt), ("y".toList, decimalInt b.y.toInt), ("z".toList, decimalInt b.z.toInt)] := by
    intro a b
    fields <;> exact decimalInt_sep _ _
  refine ⟨fun a b => struct_sep pretty _ (key a b) (List.cons_ne_nil _ _), fun a b h => ?_⟩
  have h := struct_eq (key a b) (List.cons_ne_nil _ _) h
  simp only [List.cons.injEq, Prod.mk.injEq, true_and, and_true] at h
  obtain ⟨h1, h2, h3⟩ := h
  cases a; cases b
  rw [EncodedXYZNumber.mk.injEq]
  exact ⟨i32_readable.inj _ _ h1, i32_readable.inj _ _ h2, i32_readable.inj _ _ h3⟩

/-- **C93** (directory entries) The text shows the entry. -/
theorem C93_tag_entry (plain : Char → Bool) (pretty : Bool) (a b : TagEntry)
    (h : a.debug plain pretty = b.debug plain pretty) : a = b := by
  have sg := sig_readable plain pretty
  have h := struct_eq (by fields; exacts [sg.sep _ _, decimal_sep _ _, decimal_sep _ _]) (List.cons_ne_nil _ _) h
  simp only [List.cons.injEq, Prod.mk.injEq, true_and, and_true] at h
  obtain ⟨h1, h2, h3⟩ := h
  cases a; cases b
  rw [TagEntry.mk.injEq]
  exact ⟨sg.inj _ _ h1, u32_readable.inj _ _ h2, u32_readable.inj _ _ h3⟩

/-- **C93** (headers) In both layouts, the `Debug` text of a header shows the header: all eighteen fields can be
read back from it, whatever bytes the signatures contain. -/
theorem C93_header (plain : Char → Bool) (pretty : Bool) (a b : ICCHeader)
    (h : a.debug plain pretty = b.debug plain pretty) : a = b := by
  have sg := sig_readable plain pretty
  have bytes := list_readable pretty u8_readable (fun _ => decimal_item _)
  have h := struct_eq (by
    fields
    exacts [decimal_sep _ _, sg.sep _ _, decimal_sep _ _, sg.sep _ _, sg.sep _ _, sg.sep _ _,
      (date_readable pretty).sep _ _, sg.sep _ _, sg.sep _ _, decimal_sep _ _, sg.sep _ _, decimal_sep _ _,
      decimal_sep _ _, decimal_sep _ _, (xyz_readable pretty).sep _ _, sg.sep _ _,
      (id_readable plain pretty).sep _ _, bytes.sep _ _]) (List.cons_ne_nil _ _) h
  simp only [List.cons.injEq, Prod.mk.injEq, true_and, and_true] at h
  obtain ⟨h1, h2, h3, h4, h5, h6, h7, h8, h9, h10, h11, h12, h13, h14, h15, h16, h17, h18⟩ := h
  cases a; cases b
  rw [ICCHeader.mk.injEq]
  exact ⟨u32_readable.inj _ _ h1, sg.inj _ _ h2, u32_readable.inj _ _ h3, sg.inj _ _ h4, sg.inj _ _ h5,
    sg.inj _ _ h6, (date_readable pretty).inj _ _ h7, sg.inj _ _ h8, sg.inj _ _ h9, u32_readable.inj _ _ h10,
    sg.inj _ _ h11, u32_readable.inj _ _ h12, u64_readable.inj _ _ h13, u32_readable.inj _ _ h14,
    (xyz_readable pretty).inj _ _ h15, sg.inj _ _ h16, (id_readable plain pretty).inj _ _ h17,
    Vector.toList_inj.mp (bytes.inj _ _ h18)⟩

/-- **C93** (dates, XYZ numbers, error codes). -/
theorem C93_small (pretty : Bool) :
    (∀ a b : DateTimeNumber, a.debug pretty = b.debug pretty → a = b) ∧
    (∀ a b : EncodedXYZNumber, a.debug pretty = b.debug pretty → a = b) ∧
    (∀ a b : ErrorCode, a.debug = b.debug → a = b) := by
  refine ⟨(date_readable pretty).inj, (xyz_readable pretty).inj, ?_⟩
  intro a b h
  cases a <;> cases b <;> first | rfl | exact absurd h (by decide)

/-- **C93** (handlers) The texts of `FileNull` and `FileMem` show position and size, position and contents. -/
theorem C93_handlers (pretty : Bool) :
    (∀ a b : Null, a.debug pretty = b.debug pretty → a = b) ∧
    (∀ a b : Mem, a.debug pretty = b.debug pretty → a = b) := by
  refine ⟨fun a b h => ?_, fun a b h => ?_⟩
  · have h := struct_eq (by fields <;> exact decimal_sep _ _) (List.cons_ne_nil _ _) h
    simp only [List.cons.injEq, Prod.mk.injEq, true_and, and_true] at h
    cases a; cases b
    rw [Null.mk.injEq]
    exact ⟨decimal_inj h.1, decimal_inj h.2⟩
  · have bytes := list_readable pretty u8_readable (fun _ => decimal_item _)
    have inner : List.Forall₂ FieldSep
        [("inner".toList, listText pretty (a.buf.map fun b => decimal b.toNat)), ("pos".toList, decimal a.pos)]
        [("inner".toList, listText pretty (b.buf.map fun b => decimal b.toNat)), ("pos".toList, decimal b.pos)] := by
      fields
      exacts [bytes.sep _ _, decimal_sep _ _]
    have h := struct_eq (by fields; exact struct_sep pretty _ inner (List.cons_ne_nil _ _)) (List.cons_ne_nil _ _) h
    simp only [List.cons.injEq, Prod.mk.injEq, true_and, and_true] at h
    have h := struct_eq inner (List.cons_ne_nil _ _) h
    simp only [List.cons.injEq, Prod.mk.injEq, true_and, and_true] at h
    cases a; cases b
    rw [Mem.mk.injEq]
    exact ⟨bytes.inj _ _ h.1, decimal_inj h.2⟩

/-- **C93** (profiles) The text shows every field of a profile, also those its equality ignores; of the handler it
shows what the handler's text shows.  Assumed: texts of handlers and dates end visibly, and dates are shown. -/
theorem C93_profile {σ : Type} (io : Bool → σ → Str) (date : NaiveDateTime → Str) (plain : Char → Bool) (pretty : Bool)
    (hio : ∀ a b, Sep (io pretty a) (io pretty b)) (hdate : Readable date) (p q : Profile σ)
    (h : p.debug io date plain pretty = q.debug io date plain pretty) :
    p.io.map (io pretty) = q.io.map (io pretty) ∧ p = { q with io := p.io } := by
  have sg := sig_readable plain pretty
  have sigs := list_readable pretty sg (sig_item plain pretty)
  have links := list_readable pretty (option_readable pretty sg) (fun _ => option_item pretty)
  have nums := list_readable pretty decimal_readable decimal_item
  have bools := list_readable pretty bool_readable bool_item
  have hs : ∀ a ∈ p.io.map (io pretty), ∀ b ∈ q.io.map (io pretty), Sep a b := by
    intro a ha b hb
    obtain ⟨a', _, rfl⟩ := Option.map_eq_some_iff.mp ha
    obtain ⟨b', _, rfl⟩ := Option.map_eq_some_iff.mp hb
    exact hio a' b'
  have h := struct_eq (by
    fields
    exacts [option_sep pretty hs, hdate.sep _ _, decimal_sep _ _, sg.sep _ _, sg.sep _ _, sg.sep _ _,
      decimal_sep _ _, decimal_sep _ _, decimal_sep _ _, decimal_sep _ _, decimal_sep _ _, decimal_sep _ _,
      (id_readable plain pretty).sep _ _, decimal_sep _ _, sigs.sep _ _, links.sep _ _, nums.sep _ _, nums.sep _ _,
      bools.sep _ _, bool_sep _ _]) (List.cons_ne_nil _ _) h
  simp only [List.cons.injEq, Prod.mk.injEq, true_and, and_true] at h
  obtain ⟨h1, h2, h3, h4, h5, h6, h7, h8, h9, h10, h11, h12, h13, h14, h15, h16, h17, h18, h19, h20⟩ := h
  refine ⟨(option_read pretty hs (r := []) (s := []) (by simpa using h1)).1, ?_⟩
  cases p; cases q
  rw [Profile.mk.injEq]
  exact ⟨rfl, hdate.inj _ _ h2, u32_readable.inj _ _ h3, sg.inj _ _ h4, sg.inj _ _ h5, sg.inj _ _ h6,
    u32_readable.inj _ _ h7, u32_readable.inj _ _ h8, u32_readable.inj _ _ h9, u32_readable.inj _ _ h10,
    u64_readable.inj _ _ h11, u32_readable.inj _ _ h12, (id_readable plain pretty).inj _ _ h13, decimal_inj h14,
    sigs.inj _ _ h15, links.inj _ _ h16, nums.inj _ _ h17, nums.inj _ _ h18, bools.inj _ _ h19, boolText_inj h20⟩

/-- Both layouts of a directory entry, a handler and an XYZ number. -/
example :
    (TagEntry.mk (Signature.ofU32 0x77747074) 240 20).debug (fun _ => true) false =
      "TagEntry { sig: Signature { value: \"wtpt\" }, offset: 240, size: 20 }".toList ∧
    (TagEntry.mk (Signature.ofU32 0x77747074) 240 20).debug (fun _ => true) true =
      "TagEntry {\n    sig: Signature {\n        value: \"wtpt\",\n    },\n    offset: 240,\n    size: 20,\n}".toList ∧
    (Mem.mk [1, 255] 0).debug false = "FileMem { cursor: Cursor { inner: [1, 255], pos: 0 } }".toList ∧
    (EncodedXYZNumber.mk 63190 65536 (-5)).debug false = "EncodedXYZNumber { x: 63190, y: 65536, z: -5 }".toList := by
  decide +kernel

/-! ### C94 -/

/-- **C94** as one would expect it of hand-written `Debug` implementations: the text begins with the name of the
type. -/
def C94_statement : Prop :=
  ∀ (plain : Char → Bool) (pretty : Bool),
    (∀ p, Named "LogErrorChunk" (logErrorChunkDebug plain pretty p)) ∧
    (∀ p, Named "InterpolationPluginChunk" (interpolationChunkDebug plain pretty p)) ∧
    (∀ x : IntentsListItem, Named "IntentsListItem" (x.debug plain pretty)) ∧
    (∀ x : ParametricCurves, Named "ParametricCurves" (x.debug plain pretty)) ∧
    (∀ x : TypeHandler, Named "TypeHandler" (x.debug plain pretty)) ∧
    (∀ x : TagDescriptor, Named "TagDescriptor" (x.debug plain pretty)) ∧
    (∀ x : OptimizationCollectionItem, Named "OptimizationCollectionItem" (x.debug plain pretty)) ∧
    (∀ x : Signature, Named "Signature" (x.debug plain pretty)) ∧
    (∀ x : ProfileID, Named "ProfileID" (x.debug plain pretty))

theorem struct_named (pretty : Bool) (name : String) (f : Str × Str) (fs : List (Str × Str)) :
    Named name (structText pretty name.toList (f :: fs)) := by
  unfold structText
  cases pretty <;> simp only [List.isEmpty_cons, Bool.false_eq_true, if_false, if_true, List.append_assoc]
  · exact ⟨_, rfl⟩
  · exact ⟨_, rfl⟩

/-- **C94 is false**: the interpolation chunk calls itself `LogErrorChunk`; the same text as the error handler
chunk's, down to the field name. -/
theorem C94_refuted : ¬ C94_statement := by
  intro h
  obtain ⟨rest, h⟩ := (h (fun _ => true) false).2.1 ⟨0⟩
  have := congrArg List.head? h
  revert this
  have e : (interpolationChunkDebug (fun _ => true) false ⟨0⟩).head? = some 'L' := by decide +kernel
  rw [e]
  simp

/-- What is true of **C94**: every other type names itself; the interpolation chunk prints what an error handler
chunk prints, and `IntentsListItem` calls itself `IntentListItem`. -/
theorem C94_names_partial (plain : Char → Bool) (pretty : Bool) :
    (∀ p, Named "LogErrorChunk" (logErrorChunkDebug plain pretty p)) ∧
    (∀ p q, interpolationChunkDebug plain pretty p = logErrorChunkDebug plain pretty q) ∧
    (∀ x : IntentsListItem, Named "IntentListItem" (x.debug plain pretty) ∧
      ¬ Named "IntentsListItem" (x.debug plain pretty)) ∧
    (∀ x : ParametricCurves, Named "ParametricCurves" (x.debug plain pretty)) ∧
    (∀ x : TypeHandler, Named "TypeHandler" (x.debug plain pretty)) ∧
    (∀ x : TagDescriptor, Named "TagDescriptor" (x.debug plain pretty)) ∧
    (∀ x : OptimizationCollectionItem, Named "OptimizationCollectionItem" (x.debug plain pretty)) ∧
    (∀ x : Signature, Named "Signature" (x.debug plain pretty)) ∧
    (∀ x : ProfileID, Named "ProfileID" (x.debug plain pretty)) := by
  refine ⟨fun _ => struct_named .., fun _ _ => rfl, fun x => ?_, fun _ => struct_named .., fun _ => struct_named ..,
    fun _ => struct_named .., fun _ => struct_named .., fun x => ?_, fun x => ?_⟩
  · have h : Named "IntentListItem" (x.debug plain pretty) := struct_named ..
    refine ⟨h, ?_⟩
    rintro ⟨r, hr⟩
    obtain ⟨r', hr'⟩ := h
    rw [hr'] at hr
    have := congrArg (fun l => l[6]?) hr
    simp at this
  · unfold Signature.debug
    rw [valueStruct_eq]
    exact struct_named ..
  · unfold ProfileID.debug
    rw [valueStruct_eq]
    exact struct_named ..

/-- The whole text. -/
example : interpolationChunkDebug (fun _ => true) false ⟨0x5555⟩ =
    "LogErrorChunk { handler: \"[Function Pointer]\" }".toList := by decide +kernel

/-! ### C95 -/

theorem ptr_tokens (t : Target) (pretty : Bool) (a : Nat) : ∀ c ∈ ptrText t pretty a, ¬ StopChar c := by
  have hd : ∀ k, k < 16 → ¬ StopChar (hexDigit k) := by unfold StopChar; decide
  have hh : ∀ f n, ∀ c ∈ hexLower f n, ¬ StopChar c := by
    intro f
    induction f with
    | zero => intro n c hc; simp [hexLower] at hc
    | succ f ih =>
      intro n c hc
      unfold hexLower at hc
      split at hc
      · rename_i hlt
        rw [List.mem_singleton.mp hc]; exact hd n hlt
      · rcases List.mem_append.mp hc with hc | hc
        · exact ih _ c hc
        · rw [List.mem_singleton.mp hc]; exact hd _ (Nat.mod_lt _ (by decide))
  have h0 : ∀ c, c = '0' → ¬ StopChar c := by rintro c rfl; exact hd 0 (by decide)
  intro c hc
  simp only [ptrText, List.mem_append] at hc
  rcases hc with (hc | hc) | hc
  · have : c = '0' ∨ c = 'x' := by simpa using hc
    rcases this with rfl | rfl
    · exact h0 _ rfl
    · unfold StopChar; decide
  · split at hc
    · exact h0 c (List.eq_of_mem_replicate hc)
    · cases hc
  · exact hh _ _ c hc

theorem ptr_item (t : Target) (pretty : Bool) (a : Nat) : Item (ptrText t pretty a) :=
  ⟨'0', _, rfl, by decide⟩

/-- The value of a hexadecimal digit. -/
def hexValue (c : Char) : Nat := if c.toNat < 97 then c.toNat - 48 else c.toNat - 87

/-- The value of hexadecimal digits. -/
def hexNumber (s : Str) : Nat := s.foldl (fun n c => n * 16 + hexValue c) 0

theorem hexNumber_hexLower (f n : Nat) (h : n < 16 ^ f) : hexNumber (hexLower f n) = n := by
  have hd : ∀ k, k < 16 → hexValue (hexDigit k) = k := by decide
  induction f generalizing n with
  | zero => simp at h; subst h; rfl
  | succ f ih =>
    unfold hexLower
    split
    · rename_i hlt
      simp [hexNumber, hd n hlt]
    · have e := ih (n / 16) (by rw [Nat.pow_succ] at h; omega)
      simp only [hexNumber] at e ⊢
      rw [List.foldl_append, e]
      simp only [List.foldl_cons, List.foldl_nil]
      rw [hd _ (Nat.mod_lt _ (by decide))]
      omega

theorem ptr_inj (t : Target) (pretty : Bool) {a b : Nat} (ha : a < 2 ^ 64) (hb : b < 2 ^ 64)
    (h : ptrText t pretty a = ptrText t pretty b) : a = b := by
  have key : ∀ n, n < 2 ^ 64 → hexNumber ((ptrText t pretty n).drop 2) = n := by
    intro n hn
    have e : (ptrText t pretty n).drop 2 =
        (if pretty then List.replicate (t.usizeBits / 4 - (hexLower 16 n).length) '0' else []) ++ hexLower 16 n := rfl
    rw [e]
    have z : ∀ k, hexNumber (List.replicate k '0') = 0 := by
      intro k
      induction k with
      | zero => rfl
      | succ k ih =>
        rw [List.replicate_succ]
        exact ih
    have e2 : ∀ k, hexNumber (List.replicate k '0' ++ hexLower 16 n) = n := by
      intro k
      have := hexNumber_hexLower 16 n (by norm_num; omega)
      unfold hexNumber at this ⊢
      rw [List.foldl_append]
      have z := z k
      unfold hexNumber at z
      rw [z, this]
    split
    · exact e2 _
    · exact e2 0
  rw [← key a ha, h, key b hb]

/-- **C95** as one would want it of a program whose hand-written `Debug` implementations hide function pointers:
the text of a context does not depend on where the program is loaded. -/
def C95_statement : Prop :=
  ∀ (t : Target) (flt : F64 → Str) (plain : Char → Bool) (pretty : Bool) (f : Nat → Nat) (c : FullContext),
    (moved f c).debug t flt plain pretty = c.debug t flt plain pretty

theorem struct_readable {α : Type} (pretty : Bool) (name : Str) (fs : α → List (Str × Str))
    (hsep : ∀ a b, List.Forall₂ FieldSep (fs a) (fs b)) (hne : ∀ a, fs a ≠ []) (hinj : ∀ a b, fs a = fs b → a = b) :
    Readable fun a => structText pretty name (fs a) :=
  ⟨fun a b => struct_sep pretty name (hsep a b) (hne a), fun a b h => hinj a b (struct_eq (hsep a b) (hne a) h)⟩

theorem curve_readable (pretty : Bool) : Readable (Curves.Curve.debug pretty) := by
  refine struct_readable pretty "Curve".toList (fun a : Curves.Curve => _) (fun a b => ?_)
    (fun _ => List.cons_ne_nil _ _) (fun a b h => ?_)
  · fields
    exacts [decimalInt_sep _ _, decimal_sep _ _]
  · simp only [List.cons.injEq, Prod.mk.injEq, true_and, and_true] at h
    cases a; cases b
    rw [Curves.Curve.mk.injEq]
    exact ⟨i32_readable.inj _ _ h.1, u32_readable.inj _ _ h.2⟩

/-! The items of the plugin lists, as far as they are shown. -/

theorem curves_readable (plain : Char → Bool) (pretty : Bool) :
    Readable fun x : List Curves.Curve => ParametricCurves.debug plain pretty ⟨x, ⟨0⟩⟩ := by
  have curves := list_readable pretty (curve_readable pretty)
    (fun _ => struct_item pretty _ _ ⟨'C', _, rfl, by decide⟩)
  refine struct_readable pretty "ParametricCurves".toList (fun a : List Curves.Curve => _) (fun a b => ?_)
    (fun _ => List.cons_ne_nil _ _) (fun a b h => ?_)
  · fields
    exacts [curves.sep _ _, sep_debugStr _ _ _]
  · simp only [List.cons.injEq, Prod.mk.injEq, true_and, and_true] at h
    exact curves.inj _ _ h

theorem type_readable (plain : Char → Bool) (pretty : Bool) :
    Readable fun x : Signature × UInt32 => TypeHandler.debug plain pretty ⟨x.1, x.2, ⟨0⟩, ⟨0⟩⟩ := by
  have sg := sig_readable plain pretty
  refine struct_readable pretty "TypeHandler".toList (fun a : Signature × UInt32 => _) (fun a b => ?_)
    (fun _ => List.cons_ne_nil _ _) (fun a b h => ?_)
  · fields
    exacts [sg.sep _ _, decimal_sep _ _, sep_debugStr _ _ _, sep_debugStr _ _ _]
  · simp only [List.cons.injEq, Prod.mk.injEq, true_and, and_true] at h
    exact Prod.ext (sg.inj _ _ h.1) (u32_readable.inj _ _ h.2)

theorem descriptor_readable (plain : Char → Bool) (pretty : Bool) :
    Readable fun x : Nat × List Signature => TagDescriptor.debug plain pretty ⟨x.1, x.2, ⟨0⟩⟩ := by
  have sigs := list_readable pretty (sig_readable plain pretty) (sig_item plain pretty)
  refine struct_readable pretty "TagDescriptor".toList (fun a : Nat × List Signature => _) (fun a b => ?_)
    (fun _ => List.cons_ne_nil _ _) (fun a b h => ?_)
  · fields
    exacts [decimal_sep _ _, sigs.sep _ _, sep_debugStr _ _ _]
  · simp only [List.cons.injEq, Prod.mk.injEq, true_and, and_true] at h
    exact Prod.ext (decimal_inj h.1) (sigs.inj _ _ h.2)

theorem tag_readable (plain : Char → Bool) (pretty : Bool) :
    Readable fun x : Signature × Nat × List Signature =>
      TagListItem.debug plain pretty ⟨x.1, x.2.1, x.2.2, ⟨0⟩⟩ := by
  have sg := sig_readable plain pretty
  have ds := descriptor_readable plain pretty
  refine struct_readable pretty "TagListItem".toList (fun a : Signature × Nat × List Signature => _) (fun a b => ?_)
    (fun _ => List.cons_ne_nil _ _) (fun a b h => ?_)
  · fields
    exacts [sg.sep _ _, ds.sep a.2 b.2]
  · simp only [List.cons.injEq, Prod.mk.injEq, true_and, and_true] at h
    exact Prod.ext (sg.inj _ _ h.1) (ds.inj a.2 b.2 h.2)

theorem intent_readable (plain : Char → Bool) (pretty : Bool) :
    Readable fun x : Signature × Str => IntentsListItem.debug plain pretty ⟨x.1, x.2, ⟨0⟩⟩ := by
  have sg := sig_readable plain pretty
  refine struct_readable pretty "IntentListItem".toList (fun a : Signature × Str => _) (fun a b => ?_)
    (fun _ => List.cons_ne_nil _ _) (fun a b h => ?_)
  · fields
    exacts [sg.sep _ _, sep_debugStr _ _ _, sep_debugStr _ _ _]
  · simp only [List.cons.injEq, Prod.mk.injEq, true_and, and_true] at h
    exact Prod.ext (sg.inj _ _ h.1) ((str_readable plain).inj _ _ h.2)

theorem optimization_readable (plain : Char → Bool) (pretty : Bool) :
    Readable fun _ : Unit => OptimizationCollectionItem.debug plain pretty ⟨⟨0⟩⟩ :=
  ⟨fun _ _ _ _ _ _ h => ⟨rfl, List.append_cancel_left h⟩, fun _ _ _ => rfl⟩

/-- A factory of either kind. -/
def factory (legacy : Bool) : TransformFactories := if legacy then .legacy ⟨0⟩ else .modern ⟨0⟩

theorem factory_head (plain : Char → Bool) (pretty : Bool) (x : Bool) :
    ∃ s, (factory x).debug plain pretty = (if x then 'L' else 'M') :: s := by
  cases x <;> cases pretty <;> exact ⟨_, rfl⟩

theorem factory_readable (plain : Char → Bool) (pretty : Bool) :
    Readable fun x : Bool => (factory x).debug plain pretty := by
  have key : ∀ a b r s, (factory a).debug plain pretty ++ r = (factory b).debug plain pretty ++ s → a = b := by
    intro a b r s h
    obtain ⟨s1, h1⟩ := factory_head plain pretty a
    obtain ⟨s2, h2⟩ := factory_head plain pretty b
    rw [h1, h2] at h
    have := (List.cons.inj h).1
    revert this
    cases a <;> cases b <;> simp
  refine ⟨fun a b r s _ _ h => ?_, fun a b h => key a b [] [] (by simpa using h)⟩
  have e := key a b r s h
  subst e
  exact ⟨rfl, List.append_cancel_left h⟩

theorem chunk_readable {α : Type} {f : α → Str} (pretty : Bool) (name field : String) (h : Readable f) :
    Readable fun x => chunkText pretty name field (f x) := by
  refine struct_readable pretty name.toList (fun a : α => _) (fun a b => ?_)
    (fun _ => List.cons_ne_nil _ _) (fun a b h' => ?_)
  · fields
    exact h.sep _ _
  · simp only [List.cons.injEq, Prod.mk.injEq, true_and, and_true] at h'
    exact h.inj _ _ h'

/-- The text of a context is made of these texts. -/
theorem context_fields (t : Target) (flt : F64 → Str) (plain : Char → Bool) (pretty : Bool) (c : FullContext) :
    c.debug t flt plain pretty = structText pretty "Context".toList
    [("user_data".toList, optionText pretty (c.userData.map fun b => listText pretty (b.map fun x => decimal x.toNat))),
     ("error_handler".toList, logErrorChunkDebug plain pretty ⟨0⟩),
     ("alarm_codes".toList, chunkText pretty "AlarmCodesChunk" "alarm_codes"
       (listText pretty (c.alarmCodes.toList.map fun x => decimal x.toNat))),
     ("adaption_state".toList, chunkText pretty "AdaptionStateChunk" "adaption_state" (flt c.adaptionState)),
     ("interpolation_plugin".toList, interpolationChunkDebug plain pretty ⟨0⟩),
     ("curves_plugin".toList, chunkText pretty "CurvesPluginChunk" "parametric_curves"
       (listText pretty ((c.parametricCurves.map fun x => x.curves).map fun x =>
         ParametricCurves.debug plain pretty ⟨x, ⟨0⟩⟩))),
     ("formatters_plugin".toList, chunkText pretty "FormattersPluginChunk" "factory_list"
       (listText pretty (c.factoryList.map fun f => ptrText t pretty f.addr))),
     ("tag_types_plugin".toList, chunkText pretty "TagTypePluginChunk" "tag_types"
       (listText pretty ((c.tagTypes.map fun x => (x.signature, x.iccVersion)).map fun x =>
         TypeHandler.debug plain pretty ⟨x.1, x.2, ⟨0⟩, ⟨0⟩⟩))),
     ("tags_plugin".toList, chunkText pretty "TagPluginChunk" "tags"
       (listText pretty ((c.tags.map fun x =>
         (x.signature, x.descriptor.elementCount, x.descriptor.supportedTypes)).map fun x =>
         TagListItem.debug plain pretty ⟨x.1, x.2.1, x.2.2, ⟨0⟩⟩))),
     ("intents_plugin".toList, chunkText pretty "IntentsPluginChunk" "intents"
       (listText pretty ((c.intents.map fun x => (x.intent, x.description)).map fun x =>
         IntentsListItem.debug plain pretty ⟨x.1, x.2, ⟨0⟩⟩))),
     ("mpe_types_plugin".toList, chunkText pretty "TagTypePluginChunk" "tag_types"
       (listText pretty ((c.mpeTypes.map fun x => (x.signature, x.iccVersion)).map fun x =>
         TypeHandler.debug plain pretty ⟨x.1, x.2, ⟨0⟩, ⟨0⟩⟩))),
     ("optimization_plugin".toList, chunkText pretty "OptimizationPluginChunk" "optimization_collection"
       (listText pretty ((c.optimizationCollection.map fun _ => ()).map fun _ =>
         OptimizationCollectionItem.debug plain pretty ⟨⟨0⟩⟩))),
     ("transform_plugin".toList, chunkText pretty "TransformPluginChunk" "transform_collection"
       (listText pretty ((c.transformCollection.map isLegacy).map fun x => (factory x).debug plain pretty)))] := by
  have e : (c.transformCollection.map isLegacy).map (fun x => (factory x).debug plain pretty) =
      c.transformCollection.map fun x => x.debug plain pretty := by
    rw [List.map_map]
    apply List.map_congr_left
    intro x _
    cases x <;> rfl
  rw [e]
  simp only [List.map_map, Function.comp_def]
  rfl

/-- Lists of function pointers whose addresses are below `2^64` are shown. -/
theorem ptrs_inj (t : Target) (pretty : Bool) {xs ys : List FnPtr} (hx : ∀ p ∈ xs, p.addr < 2 ^ 64)
    (hy : ∀ p ∈ ys, p.addr < 2 ^ 64)
    (h : xs.map (fun f => ptrText t pretty f.addr) = ys.map (fun f => ptrText t pretty f.addr)) : xs = ys := by
  induction xs generalizing ys with
  | nil => cases ys with
    | nil => rfl
    | cons y ys => simp at h
  | cons x xs ih => cases ys with
    | nil => simp at h
    | cons y ys =>
      simp only [List.map_cons, List.cons.injEq] at h
      have e := ptr_inj t pretty (hx x List.mem_cons_self) (hy y List.mem_cons_self) h.1
      obtain ⟨x⟩ := x
      obtain ⟨y⟩ := y
      simp only at e
      subst e
      rw [ih (fun p hp => hx p (List.mem_cons_of_mem _ hp)) (fun p hp => hy p (List.mem_cons_of_mem _ hp)) h.2]

theorem unit_map_inj {α β : Type} {xs : List α} {ys : List β} (h : xs.map (fun _ => ()) = ys.map (fun _ => ())) :
    xs.length = ys.length := by
  have := congrArg List.length h
  simpa using this

theorem unit_map_eq {α β : Type} {xs : List α} {ys : List β} (h : xs.length = ys.length) :
    xs.map (fun _ => ()) = ys.map (fun _ => ()) := by
  simp [List.map_const', h]

/-- What is true of **C95**: the text shows everything but functions, and the addresses of the formatter factories.
Assumed: texts of floats end visibly; addresses have at most 64 bits. -/
theorem C95_context_partial (t : Target) (flt : F64 → Str) (hflt : ∀ a b, Sep (flt a) (flt b)) (plain : Char → Bool) (pretty : Bool)
    (c d : FullContext) (hc : ∀ p ∈ c.factoryList, p.addr < 2 ^ 64) (hd : ∀ p ∈ d.factoryList, p.addr < 2 ^ 64) :
    c.debug t flt plain pretty = d.debug t flt plain pretty ↔
      flt c.adaptionState = flt d.adaptionState ∧ AgreeButFunctions c d := by
  rw [context_fields, context_fields]
  constructor
  · intro h
    have bytes := list_readable pretty u8_readable (fun _ => decimal_item _)
    have codes := chunk_readable pretty "AlarmCodesChunk" "alarm_codes"
      (list_readable pretty u16_readable (fun _ => decimal_item _))
    have state : List.Forall₂ FieldSep [("adaption_state".toList, flt c.adaptionState)]
        [("adaption_state".toList, flt d.adaptionState)] := by
      fields
      exact hflt _ _
    have curves := chunk_readable pretty "CurvesPluginChunk" "parametric_curves" (list_readable pretty
      (curves_readable plain pretty) (fun _ => struct_item pretty _ _ ⟨'P', _, rfl, by decide⟩))
    have types := chunk_readable pretty "TagTypePluginChunk" "tag_types" (list_readable pretty
      (type_readable plain pretty) (fun _ => struct_item pretty _ _ ⟨'T', _, rfl, by decide⟩))
    have tags := chunk_readable pretty "TagPluginChunk" "tags" (list_readable pretty
      (tag_readable plain pretty) (fun _ => struct_item pretty _ _ ⟨'T', _, rfl, by decide⟩))
    have intents := chunk_readable pretty "IntentsPluginChunk" "intents" (list_readable pretty
      (intent_readable plain pretty) (fun _ => struct_item pretty _ _ ⟨'I', _, rfl, by decide⟩))
    have opts := chunk_readable pretty "OptimizationPluginChunk" "optimization_collection" (list_readable pretty
      (optimization_readable plain pretty) (fun _ => struct_item pretty _ _ ⟨'O', _, rfl, by decide⟩))
    have trans := chunk_readable pretty "TransformPluginChunk" "transform_collection" (list_readable pretty
      (factory_readable plain pretty) (fun x => by
        obtain ⟨s, h⟩ := factory_head plain pretty x
        exact ⟨_, s, h, by cases x <;> decide⟩))
    have psep : ∀ x ∈ c.factoryList.map (fun f => ptrText t pretty f.addr),
        ∀ y ∈ d.factoryList.map (fun f => ptrText t pretty f.addr), Sep x y := by
      intro x hx y hy
      obtain ⟨a, _, rfl⟩ := List.mem_map.mp hx
      obtain ⟨b, _, rfl⟩ := List.mem_map.mp hy
      exact sep_tokens (ptr_tokens t pretty _) (ptr_tokens t pretty _)
    have pit : ∀ l : List FnPtr, ∀ x ∈ l.map (fun f => ptrText t pretty f.addr), Item x := by
      intro l x hx
      obtain ⟨a, _, rfl⟩ := List.mem_map.mp hx
      exact ptr_item t pretty _
    have pf : List.Forall₂ FieldSep
        [("factory_list".toList, listText pretty (c.factoryList.map fun f => ptrText t pretty f.addr))]
        [("factory_list".toList, listText pretty (d.factoryList.map fun f => ptrText t pretty f.addr))] := by
      fields
      exact list_sep pretty psep (pit _) (pit _)
    have same : ∀ x : Str, Sep x x := fun x r s _ _ h => ⟨rfl, List.append_cancel_left h⟩
    have h := struct_eq (by
      fields
      exacts [(option_readable pretty bytes).sep _ _, same _, codes.sep _ _, struct_sep pretty _ state (List.cons_ne_nil _ _), same _, curves.sep _ _,
        struct_sep pretty _ pf (List.cons_ne_nil _ _), types.sep _ _, tags.sep _ _, intents.sep _ _, types.sep _ _,
        opts.sep _ _, trans.sep _ _]) (List.cons_ne_nil _ _) h
    simp only [List.cons.injEq, Prod.mk.injEq, true_and, and_true] at h
    obtain ⟨h1, h2, h3, h4, h5, h6, h7, h8, h9, h10, h11⟩ := h
    have h5 := struct_eq pf (List.cons_ne_nil _ _) h5
    simp only [List.cons.injEq, Prod.mk.injEq, true_and, and_true] at h5
    have h5 := (list_read pretty psep (pit _) (pit _) (r := []) (s := []) (by simpa using h5)).1
    have h3 := struct_eq state (List.cons_ne_nil _ _) h3
    simp only [List.cons.injEq, Prod.mk.injEq, true_and, and_true] at h3
    exact ⟨h3, (option_readable pretty bytes).inj _ _ h1, Vector.toList_inj.mp (codes.inj _ _ h2),
      curves.inj _ _ h4, ptrs_inj t pretty hc hd h5, types.inj _ _ h6, tags.inj _ _ h7, intents.inj _ _ h8,
      types.inj _ _ h9, unit_map_inj (opts.inj _ _ h10), trans.inj _ _ h11⟩
  · rintro ⟨h3, h1, h2, h4, h5, h6, h7, h8, h9, h10, h11⟩
    rw [h1, h2, h3, h4, h5, h6, h7, h8, h9, unit_map_eq h10, h11]

/-- **C95** (as far as it goes): loaded elsewhere, a context prints the same text exactly if its formatter
factories have not moved. -/
theorem C95_moved_partial (t : Target) (flt : F64 → Str) (hflt : ∀ a b, Sep (flt a) (flt b)) (plain : Char → Bool) (pretty : Bool)
    (f : Nat → Nat) (c : FullContext) (hc : ∀ p ∈ c.factoryList, p.addr < 2 ^ 64 ∧ f p.addr < 2 ^ 64) :
    (moved f c).debug t flt plain pretty = c.debug t flt plain pretty ↔
      ∀ p ∈ c.factoryList, f p.addr = p.addr := by
  rw [C95_context_partial t flt hflt plain pretty _ _ (by
    intro p hp
    obtain ⟨q, hq, rfl⟩ := List.mem_map.mp hp
    exact (hc q hq).2) (fun p hp => (hc p hp).1)]
  constructor
  · intro h p hp
    have h5 := h.2.2.2.2.1
    have h6 : c.factoryList.map (moveFn f) = c.factoryList.map id := by simpa [moved] using h5
    have := (List.map_inj_left.mp h6) p hp
    exact congrArg FnPtr.addr this
  · intro h
    have e : c.factoryList.map (moveFn f) = c.factoryList := by
      have : c.factoryList.map (moveFn f) = c.factoryList.map id :=
        List.map_congr_left fun p hp => by
          show FnPtr.mk (f p.addr) = p
          rw [h p hp]
      simpa using this
    refine ⟨rfl, rfl, rfl, ?_, e, ?_, ?_, ?_, ?_, ?_, ?_⟩
    · simp [moved, Function.comp_def]
    · simp [moved, moveType, Function.comp_def]
    · simp [moved, Function.comp_def]
    · simp [moved, Function.comp_def]
    · simp [moved, moveType, Function.comp_def]
    · simp [moved]
    · simp only [moved, List.map_map]
      apply List.map_congr_left
      intro x _
      cases x <;> rfl

/-- A context with nothing in it but one formatter factory. -/
def formatterContext (addr : Nat) : FullContext where
  userData := none
  errorHandler := ⟨0⟩
  alarmCodes := Vector.replicate 16 0
  adaptionState := F64.ofRat 1
  interpolators := ⟨0⟩
  parametricCurves := []
  factoryList := [⟨addr⟩]
  tagTypes := []
  tags := []
  intents := []
  mpeTypes := []
  optimizationCollection := []
  transformCollection := []

/-- **C95 is false**: with one formatter plugin, whose chunk has a derived `Debug`, the address is printed. -/
theorem C95_refuted : ¬ C95_statement := by
  intro h
  have h := h pc (fun _ => []) (fun _ => true) false (· + 1) (formatterContext 4096)
  revert h
  decide +kernel

/-- The printed chunk. -/
example : chunkText false "FormattersPluginChunk" "factory_list"
    (listText false ((formatterContext 4096).factoryList.map fun f => ptrText pc false f.addr)) =
      "FormattersPluginChunk { factory_list: [0x1000] }".toList ∧
    ptrText pc true 4096 = "0x0000000000001000".toList := by decide +kernel

/-- A way of printing floats: its parts. -/
def partsText : F64 → Str
  | .nan => "NaN".toList
  | .inf s => if s then "-inf".toList else "inf".toList
  | .fin s m k => (if s then '-' else '+') :: (decimal m.val ++ 'e' :: decimal k.val)

/-- The assumption about floats can be met. -/
theorem partsText_sep (a b : F64) : Sep (partsText a) (partsText b) := by
  have tok : ∀ x, ∀ c ∈ partsText x, ¬ StopChar c := by
    have lit : ∀ s : String, (∀ c ∈ s.toList, c ≠ ',' ∧ c ≠ ' ' ∧ c ≠ '\n' ∧ c ≠ '}' ∧ c ≠ ')' ∧ c ≠ ']') →
        ∀ c ∈ s.toList, ¬ StopChar c := by
      rintro s h c hc (e | e | e | e | e | e) <;> obtain ⟨h1, h2, h3, h4, h5, h6⟩ := h c hc
      exacts [h1 e, h2 e, h3 e, h4 e, h5 e, h6 e]
    intro x
    cases x with
    | nan => exact lit "NaN" (by decide)
    | inf s => cases s with
      | true => exact lit "-inf" (by decide)
      | false => exact lit "inf" (by decide)
    | fin s m k =>
      intro c hc
      rcases List.mem_cons.mp hc with rfl | hc
      · cases s <;> (unfold StopChar; decide)
      · rcases List.mem_append.mp hc with hc | hc
        · exact digit_not_stop (decimal_digits _ c hc)
        · rcases List.mem_cons.mp hc with rfl | hc
          · unfold StopChar; decide
          · exact digit_not_stop (decimal_digits _ c hc)
  exact sep_tokens (tok a) (tok b)

end Lcms.Props
