import Verif.Spec.Profile
import Verif.Lemmas.File
import Verif.Lemmas.Header
import Verif.Lemmas.DateTime
import Verif.Props.DateTime

namespace Lcms
open Spec

/-! ### The tag table -/

/-- A name field as a signature. -/
def sigOf (n : Nat) : Signature := ⟨UInt32.ofNat n⟩

/-- A directory line as the program holds it. -/
def tagOf (e : Entry) : TagEntry := ⟨sigOf e.name, UInt32.ofNat e.offset, UInt32.ofNat e.size⟩

def linkCol (es : List Entry) : List (Option Signature) :=
  (List.range es.length).map fun i => if hasLaterTwin es i then (es[i]?).map (fun e => sigOf e.name) else none

/-- A profile with the tag table `es`. -/
def withTable {σ : Type} (p : Profile σ) (es : List Entry) : Profile σ :=
  { p with
    tagCount := es.length
    tagNames := column (es.map fun e => sigOf e.name) Signature.default
    tagOffsets := column (es.map Entry.offset) 0
    tagSizes := column (es.map Entry.size) 0
    tagLinked := column (linkCol es) none }

theorem column_length {α : Type} (xs : List α) (d : α) (h : xs.length ≤ 100) : (column xs d).length = 100 := by
  simp [column]; omega

theorem column_get {α : Type} (xs : List α) (d : α) (h : xs.length ≤ 100) (i : Nat) :
    (column xs d)[i]? = if i < xs.length then xs[i]? else if i < 100 then some d else none := by
  unfold column
  rw [List.getElem?_append]
  by_cases hi : i < xs.length
  · rw [if_pos hi, if_pos hi]
  · rw [if_neg hi, if_neg hi, List.getElem?_replicate]
    by_cases h2 : i < 100
    · rw [if_pos h2, if_pos (by omega)]
    · rw [if_neg h2, if_neg (by omega)]

theorem column_set {α : Type} (xs : List α) (d v : α) (h : xs.length < 100) :
    (column xs d).set xs.length v = column (xs ++ [v]) d := by
  apply List.ext_getElem?
  intro i
  rw [List.getElem?_set, column_get xs d (by omega), column_get (xs ++ [v]) d (by simp; omega),
    column_length xs d (by omega)]
  simp only [List.length_append, List.length_cons, List.length_nil, List.getElem?_append]
  by_cases h1 : xs.length = i
  · subst h1
    simp [h]
  · rw [if_neg h1]
    by_cases h2 : i < xs.length
    · simp [h2, show i < xs.length + 1 by omega]
    · simp [h2, show ¬ i < xs.length + 1 by omega]

theorem store_column {α : Type} (xs : List α) (d v : α) (h : xs.length < 100) :
    Profile.store (column xs d) xs.length v = some (column (xs ++ [v]) d) := by
  unfold Profile.store
  rw [if_pos (by rw [column_length xs d (by omega)]; exact h), column_set xs d v h]

theorem linkLoop_append {σ : Type} (tag : TagEntry) (as bs : List Nat) (p : Profile σ) :
    Profile.linkLoop tag (as ++ bs) p = (Profile.linkLoop tag as p).bind (Profile.linkLoop tag bs) := by
  induction as generalizing p with
  | nil => rfl
  | cons a as ih =>
    simp only [List.cons_append, Profile.linkLoop]
    show (Profile.linkStep tag p a).bind _ = ((Profile.linkStep tag p a).bind _).bind _
    cases Profile.linkStep tag p a with
    | none => rfl
    | some q => exact ih q

/-- Closed form of the link column after the link loop. -/
def linkedAfter {σ : Type} (tag : TagEntry) (p : Profile σ) (m : Nat) : List (Option Signature) :=
  (List.range p.tagLinked.length).map fun j =>
    if j < m ∧ p.tagOffsets[j]? = some tag.offset.toNat ∧ p.tagSizes[j]? = some tag.size.toNat
    then p.tagNames[j]? else (p.tagLinked[j]?).join

theorem linkedAfter_zero {σ : Type} (tag : TagEntry) (p : Profile σ) : linkedAfter tag p 0 = p.tagLinked := by
  apply List.ext_getElem
  · simp [linkedAfter]
  · intro i h1 h2
    simp [linkedAfter, h2]

theorem linkLoop_eq {σ : Type} (tag : TagEntry) (p : Profile σ) (m : Nat) (h1 : m ≤ p.tagOffsets.length)
    (h2 : m ≤ p.tagSizes.length) (h3 : m ≤ p.tagNames.length) (h4 : m ≤ p.tagLinked.length) :
    Profile.linkLoop tag (List.range m) p = some { p with tagLinked := linkedAfter tag p m } := by
  induction m with
  | zero => simp [Profile.linkLoop, linkedAfter_zero]
  | succ m ih =>
    rw [List.range_succ, linkLoop_append, ih (by omega) (by omega) (by omega) (by omega), Option.bind_some]
    have hlen : (linkedAfter tag p m).length = p.tagLinked.length := by simp [linkedAfter]
    obtain ⟨o, ho⟩ : ∃ o, p.tagOffsets[m]? = some o := ⟨_, List.getElem?_eq_getElem (by omega)⟩
    obtain ⟨z, hz⟩ : ∃ z, p.tagSizes[m]? = some z := ⟨_, List.getElem?_eq_getElem (by omega)⟩
    obtain ⟨n, hn⟩ : ∃ n, p.tagNames[m]? = some n := ⟨_, List.getElem?_eq_getElem (by omega)⟩
    have same : ¬ (o = tag.offset.toNat ∧ z = tag.size.toNat) →
        linkedAfter tag p (m + 1) = linkedAfter tag p m := by
      intro hne
      unfold linkedAfter
      apply List.map_congr_left
      intro j hj
      by_cases hjm : j = m
      · subst hjm
        rw [if_neg, if_neg]
        · rintro ⟨h, _⟩; omega
        · rintro ⟨_, a, b⟩
          rw [ho] at a; rw [hz] at b
          exact hne ⟨by simpa using a, by simpa using b⟩
      · have : (j < m + 1) = (j < m) := by apply propext; omega
        simp only [this]
    simp only [Profile.linkLoop, Profile.linkStep, ho, hz, hn, bind, Option.bind_some]
    by_cases c1 : o = tag.offset.toNat
    · by_cases c2 : z = tag.size.toNat
      · rw [if_pos c1, if_pos c2]
        simp only [Profile.store]
        rw [if_pos (by rw [hlen]; omega)]
        simp only [Option.bind_some]
        congr 2
        apply List.ext_getElem?
        intro i
        rw [List.getElem?_set, hlen]
        by_cases hi : m = i
        · subst hi
          rw [if_pos rfl, if_pos (by omega)]
          simp [linkedAfter, ho, hz, hn, c1, c2, show m < p.tagLinked.length by omega]
        · rw [if_neg hi]
          unfold linkedAfter
          simp only [List.getElem?_map]
          by_cases hil : i < p.tagLinked.length
          · have : (i < m + 1) = (i < m) := by apply propext; omega
            rw [List.getElem?_range hil]
            simp only [Option.map_some, this]
          · rw [List.getElem?_eq_none (by simpa using hil)]; rfl
      · rw [if_pos c1, if_neg c2]
        simp only [Option.bind_some]
        rw [same (fun h => c2 h.2)]
    · rw [if_neg c1]
      simp only [Option.bind_some]
      rw [same (fun h => c1 h.1)]

theorem linkCol_length (es : List Entry) : (linkCol es).length = es.length := by simp [linkCol]

theorem twin_snoc (es : List Entry) (e : Entry) (i : Nat) (hi : i < es.length) :
    hasLaterTwin (es ++ [e]) i ↔
      hasLaterTwin es i ∨ (es[i]?).map Entry.offset = some e.offset ∧ (es[i]?).map Entry.size = some e.size := by
  unfold hasLaterTwin
  constructor
  · rintro ⟨k, hk, hik, h1, h2⟩
    rw [List.length_append, List.length_cons, List.length_nil] at hk
    rw [List.getElem?_append_left hi] at h1 h2
    by_cases hke : k = es.length
    · subst hke
      right
      rw [List.getElem?_append_right (by omega)] at h1 h2
      simp only [Nat.sub_self, List.getElem?_cons_zero, Option.map_some] at h1 h2
      exact ⟨h1.symm, h2.symm⟩
    · left
      rw [List.getElem?_append_left (by omega)] at h1 h2
      exact ⟨k, by omega, hik, h1, h2⟩
  · rintro (⟨k, hk, hik, h1, h2⟩ | ⟨h1, h2⟩)
    · refine ⟨k, by simp; omega, hik, ?_, ?_⟩
      · rw [List.getElem?_append_left hi, List.getElem?_append_left hk]; exact h1
      · rw [List.getElem?_append_left hi, List.getElem?_append_left hk]; exact h2
    · refine ⟨es.length, by simp, hi, ?_, ?_⟩
      · rw [List.getElem?_append_left hi, List.getElem?_append_right (by omega), h1]; simp
      · rw [List.getElem?_append_left hi, List.getElem?_append_right (by omega), h2]; simp

theorem twin_last (es : List Entry) (i : Nat) (hi : es.length ≤ i + 1) : ¬ hasLaterTwin es i := by
  rintro ⟨k, hk, hik, _⟩; omega

/-- Storing one directory line extends the table. -/
theorem addTag_eq {σ : Type} (p : Profile σ) (es : List Entry) (e : Entry) (h : es.length < 100)
    (ho : e.offset < 2 ^ 32) (hz : e.size < 2 ^ 32) :
    Profile.addTag (tagOf e) (withTable p es) = some (withTable p (es ++ [e])) := by
  have s1 := store_column (es.map fun e => sigOf e.name) Signature.default (tagOf e).sig (by simpa)
  have s2 := store_column (es.map Entry.offset) 0 (tagOf e).offset.toNat (by simpa)
  have s3 := store_column (es.map Entry.size) 0 (tagOf e).size.toNat (by simpa)
  have e2 : (tagOf e).offset.toNat = e.offset := UInt32.toNat_ofNat_of_lt' ho
  have e3 : (tagOf e).size.toNat = e.size := UInt32.toNat_ofNat_of_lt' hz
  rw [List.length_map] at s1 s2 s3
  simp only [Profile.addTag, withTable, bind, s1, s2, s3, Option.bind_some]
  rw [linkLoop_eq]
  · simp only [Option.bind_some]
    congr 1
    rw [e2, e3]
    simp only [List.length_append, List.length_cons, List.length_nil, List.map_append, List.map_cons,
      List.map_nil]
    congr 1
    apply List.ext_getElem?
    intro i
    unfold linkedAfter
    simp only [e2, e3]
    rw [column_length _ _ (by rw [linkCol_length]; omega)]
    simp only [List.getElem?_map]
    rw [column_get (linkCol (es ++ [e])) none (by rw [linkCol_length]; simp; omega)]
    by_cases h100 : i < 100
    · rw [List.getElem?_range h100, Option.map_some,
        column_get (linkCol es) none (by rw [linkCol_length]; omega),
        column_get (es.map Entry.offset ++ [e.offset]) 0 (by simp; omega),
        column_get (es.map Entry.size ++ [e.size]) 0 (by simp; omega),
        column_get ((es.map fun e => sigOf e.name) ++ [(tagOf e).sig]) _ (by simp; omega)]
      simp only [linkCol_length, List.length_append, List.length_map, List.length_cons, List.length_nil]
      by_cases hi : i < es.length
      · have hi1 : i < es.length + 1 := by omega
        have hi0 : i < es.length + (0 + 1) := by omega
        simp only [hi, hi1, if_true, true_and, List.getElem?_append_left, List.length_map, List.getElem?_map]
        unfold linkCol
        simp only [List.getElem?_map, List.getElem?_range hi, Option.map_some,
          List.length_append, List.length_cons, List.length_nil, List.getElem?_range hi0, twin_snoc es e i hi,
          List.getElem?_append_left hi, Option.join_some, Option.some.injEq]
        by_cases hd : (es[i]?).map Entry.offset = some e.offset ∧ (es[i]?).map Entry.size = some e.size
        · simp only [hd, and_self, if_true, or_true]
        · simp only [hd, if_false, or_false]
      · by_cases hi1 : i = es.length
        · subst hi1
          simp only [lt_irrefl, false_and, if_false, Nat.lt_add_one, if_true, h100, Option.join_some]
          unfold linkCol
          simp only [List.length_append, List.length_cons, List.length_nil, List.getElem?_map,
            List.getElem?_range (show es.length < es.length + (0 + 1) by omega), Option.map_some]
          rw [if_neg (twin_last _ _ (by simp))]
        · have hi2 : ¬ i < es.length + 1 := by omega
          simp only [hi, hi2, if_false, false_and, h100, if_true, Option.join_some]
    · have : ¬ i < es.length + 1 := by omega
      rw [List.getElem?_eq_none (by simpa using h100)]
      simp [linkCol_length, this, h100]
  · rw [column_length]; omega
    simp; omega
  · rw [column_length]; omega
    simp; omega
  · rw [column_length]; omega
    simp; omega
  · rw [column_length]; omega
    rw [linkCol_length]; omega

/-! ### Running the reading methods -/

theorem at_slice (b : List Byte) (p n o k : Nat) (h : o + k ≤ n) : at_ (slice b p n) o k = at_ b (p + o) k := by
  unfold at_
  apply List.map_congr_left
  intro i hi
  rw [List.mem_range] at hi
  simp only [slice, List.getD_eq_getElem?_getD]
  rw [List.getElem?_take_of_lt (by omega), List.getElem?_drop]
  congr 2
  omega

theorem num_slice (t : Target) (b : List Byte) (p n o k : Nat) (h : o + k ≤ n) :
    num t (slice b p n) o k = num t b (p + o) k := by
  unfold num
  rw [at_slice b p n o k h]

theorem tagFromBytes_slice (t : Target) (b : List Byte) (i : Nat) (h : 132 + 12 * i + 12 ≤ b.length) :
    TagEntry.fromBytes t (slice b (132 + 12 * i) 12) = tagOf (entry t b i) := by
  rw [tagFromBytes_eq t _ (slice_length h), num_slice t b _ _ _ _ (by omega), num_slice t b _ _ _ _ (by omega),
    num_slice t b _ _ _ _ (by omega)]
  unfold tagOf entry sigOf
  simp only [Nat.add_zero]
  rw [show 132 + 12 * i + 4 = 136 + 12 * i by omega, show 132 + 12 * i + 8 = 140 + 12 * i by omega]

theorem entry_lt (t : Target) (b : List Byte) (i : Nat) :
    (entry t b i).name < 2 ^ 32 ∧ (entry t b i).offset < 2 ^ 32 ∧ (entry t b i).size < 2 ^ 32 := by
  refine ⟨?_, ?_, ?_⟩ <;> exact num_lt t b _ 4

theorem PM.bind_apply {σ α β : Type} (m : PMof σ α) (f : α → PMof σ β) (s : PStateOf σ) :
    (m >>= f) s = match m s with
      | .ok a s' => f a s'
      | .err e s' => .err e s'
      | .panic s' => .panic s' := rfl

theorem PM.pure_apply {σ α : Type} (a : α) (s : PStateOf σ) : (pure a : PMof σ α) s = .ok a s := rfl

/-- A profile on the handle `f`. -/
def onFile (p : Profile) (f : OsFile) : Profile := { p with io := some f }

theorem PM.onIo_ok {α : Type} {m : M OsFile α} {p : Profile} {f f' : OsFile} {c : CState} {a : α}
    (h : m f = .ok a f') : PM.onIo m ⟨onFile p f, c⟩ = .ok a ⟨onFile p f', c⟩ := by
  unfold PM.onIo
  simp only [onFile, h]

/-- A complete read of `n` bytes. -/
theorem readBuf_file (t : Target) (n : Nat) (hn : 0 < n) (f : OsFile) (hr : f.readable = true) :
    ∃ f', f'.data = f.data ∧ f'.readable = true ∧ f'.writable = f.writable ∧
      (f.pos + n ≤ f.data.length → f'.pos = f.pos + n) ∧
      readBuf (OsFile.handler t) n f =
        if f.pos + n ≤ f.data.length then .ok (slice f.data f.pos n) f' else .err .unexpectedEof f' := by
  obtain ⟨sc, h⟩ := OsFile.readExact_eq (zeros n) f
  have hz : zeros n ≠ [] := by unfold zeros; simp; omega
  rw [if_neg hz, if_neg (by simp [hr])] at h
  unfold OsFile.readDone at h
  have hl : (zeros n).length = n := by simp [zeros]
  rw [hl] at h
  refine ⟨{ f with pos := f.pos + ((f.data.drop f.pos).take n).length, sched := sc }, rfl, hr, rfl, ?_, ?_⟩
  · intro hle
    simp only [List.length_take, List.length_drop]; omega
  · unfold readBuf
    have hh : (OsFile.handler t).read (zeros n) f = OsFile.readExact (zeros n) f := rfl
    rw [hh, h]
    by_cases hle : f.pos + n ≤ f.data.length
    · rw [if_pos hle]
      simp only
      rw [if_pos (by simp only [List.length_take, List.length_drop]; omega)]
      rfl
    · rw [if_neg hle]
      simp only
      rw [if_neg (by simp only [List.length_take, List.length_drop]; omega)]

/-- Reading from the handle of a profile. -/
theorem onIo_readBuf (t : Target) (n : Nat) (hn : 0 < n) (p : Profile) (f : OsFile) (c : CState)
    (hr : f.readable = true) :
    ∃ f', f'.data = f.data ∧ f'.readable = true ∧ f'.writable = f.writable ∧
      (f.pos + n ≤ f.data.length → f'.pos = f.pos + n) ∧
      PM.onIo (readBuf (OsFile.handler t) n) ⟨onFile p f, c⟩ =
        if f.pos + n ≤ f.data.length then .ok (slice f.data f.pos n) ⟨onFile p f', c⟩
        else .err .unexpectedEof ⟨onFile p f', c⟩ := by
  obtain ⟨f', d, r, w, hp, h⟩ := readBuf_file t n hn f hr
  refine ⟨f', d, r, w, hp, ?_⟩
  unfold PM.onIo
  simp only [onFile, h]
  split_ifs <;> rfl

/-- Reading a number from the handle of a profile. -/
theorem onIo_readU32 (t : Target) (p : Profile) (f : OsFile) (c : CState) (hr : f.readable = true) :
    ∃ f', f'.data = f.data ∧ f'.readable = true ∧ f'.writable = f.writable ∧
      (f.pos + 4 ≤ f.data.length → f'.pos = f.pos + 4) ∧
      PM.onIo (readU32 t (OsFile.handler t)) ⟨onFile p f, c⟩ =
        if f.pos + 4 ≤ f.data.length then .ok (UInt32.ofNat (num t f.data f.pos 4)) ⟨onFile p f', c⟩
        else .err .unexpectedEof ⟨onFile p f', c⟩ := by
  obtain ⟨f', d, r, w, hp, h⟩ := readBuf_file t 4 (by omega) f hr
  refine ⟨f', d, r, w, hp, ?_⟩
  unfold PM.onIo
  simp only [onFile, readU32_eq, h]
  by_cases hle : f.pos + 4 ≤ f.data.length
  · rw [if_pos hle, if_pos hle, slice_eq_at hle]; rfl
  · rw [if_neg hle, if_neg hle]; rfl

/-- The range check in unbounded arithmetic. -/
theorem outOfRange_eq (t : Target) (hs : Nat) (hhs : hs < 2 ^ 32) (e : Entry) (ho : e.offset < 2 ^ 32)
    (hz : e.size < 2 ^ 32) :
    Profile.outOfRange t hs (tagOf e) =
      if t.checks = true ∧ 2 ^ 32 ≤ e.offset + e.size then none
      else some (decide (hs < e.offset + e.size)) := by
  have e2 : (tagOf e).offset.toNat = e.offset := UInt32.toNat_ofNat_of_lt' ho
  have e3 : (tagOf e).size.toNat = e.size := UInt32.toNat_ofNat_of_lt' hz
  have e4 : (UInt32.ofNat hs).toNat = hs := UInt32.toNat_ofNat_of_lt' hhs
  unfold Profile.outOfRange Target.addU32
  rw [e2, e3]
  have es : ((tagOf e).offset + (tagOf e).size).toNat = (e.offset + e.size) % 2 ^ 32 := by
    rw [UInt32.toNat_add, e2, e3]
  by_cases hov : 2 ^ 32 ≤ e.offset + e.size
  · rw [if_neg (by omega)]
    cases hc : t.checks with
    | true => simp; omega
    | false =>
      simp only [Bool.false_eq_true, if_false, false_and, bind, Option.bind_some, gt_iff_lt,
        UInt32.lt_iff_toNat_lt, es, e2, e4]
      have : decide (hs < e.offset + e.size) = true := by simp; omega
      rw [this]
      by_cases h1 : hs < (e.offset + e.size) % 2 ^ 32
      · rw [if_pos h1]
      · rw [if_neg h1]
        simp; omega
  · rw [if_pos (by omega), if_neg (fun h => hov h.2)]
    simp only [bind, Option.bind_some, gt_iff_lt, UInt32.lt_iff_toNat_lt, es, e2, e4]
    have hm : (e.offset + e.size) % 2 ^ 32 = e.offset + e.size := Nat.mod_eq_of_lt (by omega)
    rw [hm]
    by_cases h1 : hs < e.offset + e.size
    · rw [if_pos h1]; simp [h1]
    · rw [if_neg h1]
      simp [h1]

theorem addTag_full {σ : Type} (p : Profile σ) (es : List Entry) (tag : TagEntry) (h : es.length = 100) :
    Profile.addTag tag (withTable p es) = none := by
  have hs : Profile.store (column (es.map fun e => sigOf e.name) Signature.default) es.length tag.sig = none := by
    unfold Profile.store
    rw [if_neg]
    rw [column_length _ _ (by simp; omega)]
    omega
  simp only [Profile.addTag, withTable, bind, hs, Option.bind_none]

/-- Closed form of the directory loop from line `i`, on a table that may already hold tags. -/
theorem tagLoop_eq (t : Target) (b : List Byte) (hs : Nat) (hhs : hs < 2 ^ 32) (n : Nat) :
    ∀ (i : Nat) (es : List Entry) (p : Profile) (c : CState) (f : OsFile), f.data = b → f.readable = true →
      f.pos = 132 + 12 * i → 132 + 12 * i ≤ b.length → es.length ≤ 100 →
      let k := min n ((b.length - (132 + 12 * i)) / 12)
      let raw := (List.range' i k).map (entry t b)
      let ov := (t.checks = true ∧ ∃ e ∈ raw, 2 ^ 32 ≤ e.offset + e.size) ∨
        100 < es.length + (raw.filter fun e => e.offset + e.size ≤ hs).length
      ∃ f', f'.data = b ∧ f'.readable = true ∧ f'.writable = f.writable ∧
        (ov → ∃ q, Profile.tagLoop t (OsFile.handler t) hs n ⟨onFile (withTable p es) f, c⟩ = .panic ⟨onFile q f', c⟩) ∧
        (¬ ov → k < n → ∃ q, Profile.tagLoop t (OsFile.handler t) hs n ⟨onFile (withTable p es) f, c⟩ =
          .err .unexpectedEof ⟨onFile q f', c⟩) ∧
        (¬ ov → k = n → Profile.tagLoop t (OsFile.handler t) hs n ⟨onFile (withTable p es) f, c⟩ =
          .ok () ⟨onFile (withTable p (es ++ raw.filter fun e => e.offset + e.size ≤ hs)) f', c⟩) := by
  induction n with
  | zero =>
    intro i es p c f hb hr hp hl hn k raw ov
    refine ⟨f, hb, hr, rfl, ?_, ?_, ?_⟩
    · rintro (⟨_, e, he, _⟩ | h)
      · simp [raw, k] at he
      · simp [raw, k] at h; omega
    · intro _ hk; omega
    · intro _ _
      simp [raw, k, Profile.tagLoop, PM.pure_apply]
  | succ n ih =>
    intro i es p c f hb hr hp hl hn k raw ov
    obtain ⟨f1, d1, r1, w1, p1, h1⟩ := onIo_readBuf t 12 (by omega) (withTable p es) f c hr
    rw [hb, hp] at h1 p1
    by_cases hle : 132 + 12 * i + 12 ≤ b.length
    · rw [if_pos hle] at h1
      have p1' := p1 hle
      obtain ⟨hn1, ho, hz⟩ := entry_lt t b i
      have hk : k = min n ((b.length - (132 + 12 * (i + 1))) / 12) + 1 := by simp only [k]; omega
      have hraw : raw = entry t b i ::
          (List.range' (i + 1) (min n ((b.length - (132 + 12 * (i + 1))) / 12))).map (entry t b) := by
        simp only [raw, hk, List.range'_succ, List.map_cons]
      have step : Profile.tagLoop t (OsFile.handler t) hs (n + 1) ⟨onFile (withTable p es) f, c⟩ =
          match Profile.outOfRange t hs (tagOf (entry t b i)) with
          | none => .panic ⟨onFile (withTable p es) f1, c⟩
          | some true => Profile.tagLoop t (OsFile.handler t) hs n ⟨onFile (withTable p es) f1, c⟩
          | some false =>
            if es.length = 100 then .panic ⟨onFile (withTable p es) f1, c⟩
            else Profile.tagLoop t (OsFile.handler t) hs n ⟨onFile (withTable p (es ++ [entry t b i])) f1, c⟩ := by
        rw [Profile.tagLoop]
        rw [PM.bind_apply, h1]
        simp only
        rw [tagFromBytes_slice t b i hle, PM.bind_apply]
        cases hout : Profile.outOfRange t hs (tagOf (entry t b i)) with
        | none => rfl
        | some sk =>
          cases sk with
          | true => rfl
          | false =>
            by_cases h100 : es.length = 100
            · have ha : Profile.addTag (tagOf (entry t b i)) (onFile (withTable p es) f1) = none :=
                addTag_full { p with io := some f1 } es (tagOf (entry t b i)) h100
              simp only [PM.orPanic, PM.pure_apply, Bool.false_eq_true, if_false, PM.bind_apply, PM.self, ha,
                if_pos h100]
              rfl
            · have ha : Profile.addTag (tagOf (entry t b i)) (onFile (withTable p es) f1) =
                  some (onFile (withTable p (es ++ [entry t b i])) f1) :=
                addTag_eq { p with io := some f1 } es (entry t b i) (by omega) ho hz
              simp only [PM.orPanic, PM.pure_apply, Bool.false_eq_true, if_false, PM.bind_apply, PM.self, ha,
                PM.modify, if_neg h100]
      rw [outOfRange_eq t hs hhs _ ho hz] at step
      by_cases hov : t.checks = true ∧ 2 ^ 32 ≤ (entry t b i).offset + (entry t b i).size
      · rw [if_pos hov] at step
        have hovs : ov := .inl ⟨hov.1, entry t b i, by rw [hraw]; simp, hov.2⟩
        refine ⟨f1, by rw [d1, hb], r1, w1, fun _ => ⟨_, step⟩, fun h => absurd hovs h, fun h => absurd hovs h⟩
      · rw [if_neg hov] at step
        have hiff : (t.checks = true ∧ ∃ e ∈ raw, 2 ^ 32 ≤ e.offset + e.size) ↔
            (t.checks = true ∧ ∃ e ∈ (List.range' (i + 1)
            (min n ((b.length - (132 + 12 * (i + 1))) / 12))).map (entry t b), 2 ^ 32 ≤ e.offset + e.size) := by
          constructor
          · rintro ⟨hc, e, he, h2⟩
            rw [hraw, List.mem_cons] at he
            rcases he with rfl | he
            · exact absurd ⟨hc, h2⟩ hov
            · exact ⟨hc, e, he, h2⟩
          · rintro ⟨hc, e, he, h2⟩
            exact ⟨hc, e, by rw [hraw]; exact List.mem_cons_of_mem _ he, h2⟩
        generalize hrest : (List.range' (i + 1) (min n ((b.length - (132 + 12 * (i + 1))) / 12))).map (entry t b) = rest at hraw hiff
        by_cases hsk : hs < (entry t b i).offset + (entry t b i).size
        · have hd : decide (hs < (entry t b i).offset + (entry t b i).size) = true := by simpa using hsk
          rw [hd] at step
          simp only at step
          obtain ⟨f', d', r', w', a1, a2, a3⟩ := ih (i + 1) es p c f1 (by rw [d1, hb]) r1 (by omega) (by omega)
            (by omega)
          simp only [hrest] at a1 a2 a3
          have hfil : (raw.filter fun e => e.offset + e.size ≤ hs) =
              rest.filter fun e => e.offset + e.size ≤ hs := by
            rw [hraw, List.filter_cons_of_neg (by simpa using hsk)]
          have hall : ov ↔ (t.checks = true ∧ ∃ e ∈ rest, 2 ^ 32 ≤ e.offset + e.size) ∨
              100 < es.length + (rest.filter fun e => e.offset + e.size ≤ hs).length := or_congr hiff (by rw [hfil])
          rw [step]
          refine ⟨f', d', r', by rw [w', w1], fun h => a1 (hall.mp h), fun h hk' => a2 (mt hall.mpr h) (by omega),
            fun h hk' => ?_⟩
          rw [a3 (mt hall.mpr h) (by omega), hfil]
        · have hd : decide (hs < (entry t b i).offset + (entry t b i).size) = false := by simpa using hsk
          rw [hd] at step
          simp only at step
          have hfil : (raw.filter fun e => e.offset + e.size ≤ hs) =
              entry t b i :: rest.filter fun e => e.offset + e.size ≤ hs := by
            rw [hraw, List.filter_cons_of_pos (by simpa using hsk)]
          by_cases h100 : es.length = 100
          · rw [if_pos h100] at step
            have hovs : ov := .inr (by rw [hfil, List.length_cons]; omega)
            exact ⟨f1, by rw [d1, hb], r1, w1, fun _ => ⟨_, step⟩, fun h => absurd hovs h, fun h => absurd hovs h⟩
          rw [if_neg h100] at step
          obtain ⟨f', d', r', w', a1, a2, a3⟩ := ih (i + 1) (es ++ [entry t b i]) p c f1 (by rw [d1, hb]) r1
            (by omega) (by omega) (by simp; omega)
          simp only [hrest] at a1 a2 a3
          have hall : ov ↔ (t.checks = true ∧ ∃ e ∈ rest, 2 ^ 32 ≤ e.offset + e.size) ∨
              100 < (es ++ [entry t b i]).length + (rest.filter fun e => e.offset + e.size ≤ hs).length :=
            or_congr hiff (by
              rw [hfil, List.length_cons, List.length_append, List.length_singleton, Nat.add_assoc, Nat.add_comm 1])
          rw [step]
          refine ⟨f', d', r', by rw [w', w1], fun h => a1 (hall.mp h), fun h hk' => a2 (mt hall.mpr h) (by omega),
            fun h hk' => ?_⟩
          rw [a3 (mt hall.mpr h) (by omega), hfil]
          simp
    · rw [if_neg hle] at h1
      have hk : k = 0 := by simp only [k]; omega
      have step : Profile.tagLoop t (OsFile.handler t) hs (n + 1) ⟨onFile (withTable p es) f, c⟩ =
          .err .unexpectedEof ⟨onFile (withTable p es) f1, c⟩ := by
        rw [Profile.tagLoop]
        rw [PM.bind_apply, h1]
      refine ⟨f1, by rw [d1, hb], r1, w1, ?_, fun _ _ => ⟨_, step⟩, fun _ h => by omega⟩
      rintro (⟨_, e, he, _⟩ | h)
      · simp [raw, hk] at he
      · simp [raw, hk] at h; omega

/-! ### The whole of `read_header_thr` -/

/-- The header the program decodes. -/
def headerOf (t : Target) (b : List Byte) : ICCHeader := ICCHeader.fromBytes t 8 (slice b 0 128)

theorem headerOf_eq (t : Target) (b : List Byte) (hb : 128 ≤ b.length) :
    headerOf t b =
    { size := UInt32.ofNat (num t b 0 4)
      cmmId := ⟨UInt32.ofNat (num t b 4 4)⟩
      version := UInt32.ofNat (num t b 8 4)
      deviceClass := ⟨UInt32.ofNat (num t b 12 4)⟩
      colorSpace := ⟨UInt32.ofNat (num t b 16 4)⟩
      pcs := ⟨UInt32.ofNat (num t b 20 4)⟩
      date :=
        { year := UInt16.ofNat (num t b 24 2), month := UInt16.ofNat (num t b 26 2)
          day := UInt16.ofNat (num t b 28 2), hours := UInt16.ofNat (num t b 30 2)
          minutes := UInt16.ofNat (num t b 32 2), seconds := UInt16.ofNat (num t b 34 2) }
      magic := ⟨UInt32.ofNat (num t b 36 4)⟩
      platform := ⟨UInt32.ofNat (num t b 40 4)⟩
      flags := UInt32.ofNat (num t b 44 4)
      manufacturer := ⟨UInt32.ofNat (num t b 48 4)⟩
      model := UInt32.ofNat (num t b 52 4)
      attributes := UInt64.ofNat (num t b 56 8)
      renderingIntent := UInt32.ofNat (num t b 64 4)
      illuminant :=
        { x := (UInt32.ofNat (num t b 68 4)).toInt32, y := (UInt32.ofNat (num t b 72 4)).toInt32
          z := (UInt32.ofNat (num t b 76 4)).toInt32 }
      creator := ⟨UInt32.ofNat (num t b 80 4)⟩
      profileId := ⟨memBytes b 84 16⟩
      reserved := memBytes b 100 28 } := by
  unfold headerOf
  rw [fromBytes_eq t 8 (Or.inr rfl) _ (slice_length (by omega))]
  have hn : ∀ o k, o + k ≤ 128 → num t (slice b 0 128) o k = num t b o k := by
    intro o k h
    rw [num_slice t b 0 128 o k h, Nat.zero_add]
  have hm : ∀ o k, o + k ≤ 128 → memBytes (slice b 0 128) o k = memBytes b o k := by
    intro o k h
    apply Vector.toList_inj.mp
    rw [memBytes_toList, memBytes_toList, at_slice b 0 128 o k h, Nat.zero_add]
  rw [hn 0 4 (by omega), hn 4 4 (by omega), hn 8 4 (by omega), hn 12 4 (by omega), hn 16 4 (by omega),
    hn 20 4 (by omega), hn 24 2 (by omega), hn 26 2 (by omega), hn 28 2 (by omega), hn 30 2 (by omega),
    hn 32 2 (by omega), hn 34 2 (by omega), hn 36 4 (by omega), hn 40 4 (by omega), hn 44 4 (by omega),
    hn 48 4 (by omega), hn 52 4 (by omega), hn 56 8 (by omega), hn 64 4 (by omega), hn 68 4 (by omega),
    hn 72 4 (by omega), hn 76 4 (by omega), hn 80 4 (by omega), hm 84 16 (by omega), hm 100 28 (by omega)]

theorem num2_toNat (t : Target) (b : List Byte) (o : Nat) : (UInt16.ofNat (num t b o 2)).toNat = num t b o 2 :=
  UInt16.toNat_ofNat_of_lt' (num_lt t b o 2)

theorem num4_toNat (t : Target) (b : List Byte) (o : Nat) : (UInt32.ofNat (num t b o 4)).toNat = num t b o 4 :=
  UInt32.toNat_ofNat_of_lt' (num_lt t b o 4)

theorem num8_toNat (t : Target) (b : List Byte) (o : Nat) : (UInt64.ofNat (num t b o 8)).toNat = num t b o 8 :=
  UInt64.toNat_ofNat_of_lt' (num_lt t b o 8)

/-- The date conversion succeeds exactly on existing dates, and is faithful then. -/
theorem headerOf_date (t : Target) (b : List Byte) (hb : 128 ≤ b.length) :
    (DateOk t b → ∃ n, (headerOf t b).date.toNaive = some n ∧ n.date.year = num t b 24 2 ∧
      n.date.month = num t b 26 2 ∧ n.date.day = num t b 28 2 ∧ n.time.hour = num t b 30 2 ∧
      n.time.minute = num t b 32 2 ∧ n.time.second = num t b 34 2 ∧ n.time.frac = 0) ∧
    (¬ DateOk t b → (headerOf t b).date.toNaive = none) := by
  have h := Props.C32_date_conversion (headerOf t b).date
  rw [headerOf_eq t b hb] at h ⊢
  simp only [num2_toNat] at h
  refine ⟨fun hd => ?_, fun hd => h.2 hd⟩
  obtain ⟨n, h1, h2, h3, h4, h5, h6, h7, h8, -⟩ := h.1 hd
  exact ⟨n, h1, by exact_mod_cast h2, h3, h4, h5, h6, h7, h8⟩

theorem headerOf_magic (t : Target) (b : List Byte) (hb : 128 ≤ b.length) :
    (headerOf t b).magic ≠ MAGIC_NUMBER ↔ num t b 36 4 ≠ acsp := by
  rw [headerOf_eq t b hb]
  have hm : MAGIC_NUMBER = ⟨0x61637370⟩ := by decide
  rw [hm, not_iff_not]
  simp only [Signature.mk.injEq]
  rw [← UInt32.toNat_inj, num4_toNat]
  exact Iff.rfl

/-- The profile fields after a successful read, with the table still empty. -/
def filled {σ : Type} (t : Target) (b : List Byte) (d : NaiveDateTime) (p : Profile σ) : Profile σ :=
  { Profile.setHeader (headerOf t b) p with created := d, profileId := (headerOf t b).profileId }

theorem new_table {σ : Type} (now : NaiveDateTime) : withTable (Profile.new now : Profile σ) [] = Profile.new now := rfl

/-- What is signalled about a bad file, if anything. -/
def complaintOf : Verdict → Option Signal
  | .badMagic => some ⟨.badSignature, "not an ICC profile, invalid signature".toList⟩
  | .tooMany n => some ⟨.range, "Too many tags ".toList ++ decimal n⟩
  | _ => none

/-- Signal, then return `InvalidData`. -/
theorem signal_fail (env : Handlers) (code : ErrorCode) (text : Str) (p : Profile) (c : CState) :
    (PM.signal env code text >>= fun _ => (PM.fail .invalidData : PM Unit)) ⟨p, c⟩ =
      match signalError env code text c with
      | .done () c' => .err .invalidData ⟨p, c'⟩
      | .panic c' => .panic ⟨p, c'⟩ := by
  rw [PM.bind_apply]
  unfold PM.signal
  cases signalError env code text c <;> rfl

theorem PM.bind_ok {σ α β : Type} {m : PMof σ α} (f : α → PMof σ β) {s s' : PStateOf σ} {a : α} (h : m s = .ok a s') :
    (m >>= f) s = f a s' := by rw [PM.bind_apply, h]

/-- The part of `read_header_thr` after the directory limit is known. -/
def afterLimit (t : Target) (env : Handlers) (h : ICCHeader) (headerSize : Nat) : PM Unit :=
  PM.orPanic h.date.toNaive >>= fun created =>
  PM.modify (fun p => { p with created := created }) >>= fun _ =>
  PM.modify (fun p => { p with profileId := h.profileId }) >>= fun _ =>
  PM.onIo (readU32 t (OsFile.handler t)) >>= fun n =>
  if n.toNat > MAX_TABLE_TAG then
    PM.signal env .range ("Too many tags ".toList ++ decimal n.toNat) >>= fun _ => PM.fail .invalidData
  else Profile.tagLoop t (OsFile.handler t) headerSize n.toNat

theorem reportedSize_at128 (t : Target) (b : List Byte) (hlen : b.length < 9223372036854775808) (f : OsFile)
    (hd : f.data = b) (hr : f.readable = true) (hpos : f.pos = 128) :
    ∃ f2 : OsFile, f2.data = b ∧ f2.readable = true ∧ f2.writable = f.writable ∧ f2.pos = 128 ∧
      reportedSize (OsFile.handler t) f = .ok (b.length % t.usizeMod) f2 := by
  have h128 : f.pos % t.usizeMod = 128 := by
    rw [hpos]
    apply Nat.mod_eq_of_lt
    unfold Target.usizeMod Target.usizeBits
    split <;> norm_num
  have hrs := OsFile.reportedSize_eq t f (by rw [hd]; exact hlen) (by rw [h128]; norm_num)
  rw [h128, hd] at hrs
  exact ⟨{ f with data := b, pos := 128 }, rfl, hr, rfl, rfl, hrs⟩

/-- The directory lines the program gets to see and keeps. -/
def keptSeen (t : Target) (b : List Byte) : List Entry :=
  ((List.range (min (declared t b) (present b))).map (entry t b)).filter fun e => e.offset + e.size ≤ limit t b

/-- The outcome of reading the header of a file with content `b` at offset 0 into a profile that holds the
tags `old`. -/
theorem readHeaderIo_used (t : Target) (env : Handlers) (b : List Byte) (hlen : b.length < 9223372036854775808)
    (p : Profile) (old : List Entry) (hold : old.length ≤ 100) (hp : withTable p old = p) (c : CState) (f : OsFile)
    (hd : f.data = b) (hr : f.readable = true) (hpos : f.pos = 0) :
    ∃ f' q, f'.data = b ∧ f'.readable = true ∧ f'.writable = f.writable ∧
      match verdict t b with
      | .short => Profile.readHeaderIo t (OsFile.handler t) env ⟨onFile p f, c⟩ =
          if 100 < old.length + (keptSeen t b).length ∧ declared t b ≤ 100 ∧ DateOk t b ∧ num t b 36 4 = acsp then
            .panic ⟨onFile q f', c⟩
          else .err .unexpectedEof ⟨onFile q f', c⟩
      | .badMagic => Profile.readHeaderIo t (OsFile.handler t) env ⟨onFile p f, c⟩ =
          match signalError env .badSignature "not an ICC profile, invalid signature".toList c with
          | .done () c' => .err .invalidData ⟨onFile q f', c'⟩
          | .panic c' => .panic ⟨onFile q f', c'⟩
      | .badDate => Profile.readHeaderIo t (OsFile.handler t) env ⟨onFile p f, c⟩ = .panic ⟨onFile q f', c⟩
      | .tooMany n => Profile.readHeaderIo t (OsFile.handler t) env ⟨onFile p f, c⟩ =
          match signalError env .range ("Too many tags ".toList ++ decimal n) c with
          | .done () c' => .err .invalidData ⟨onFile q f', c'⟩
          | .panic c' => .panic ⟨onFile q f', c'⟩
      | .overflow => Profile.readHeaderIo t (OsFile.handler t) env ⟨onFile p f, c⟩ = .panic ⟨onFile q f', c⟩
      | .table es => ∃ d, (headerOf t b).date.toNaive = some d ∧
          Profile.readHeaderIo t (OsFile.handler t) env ⟨onFile p f, c⟩ =
            if 100 < old.length + es.length then .panic ⟨onFile q f', c⟩
            else .ok () ⟨onFile (withTable (filled t b d p) (old ++ es)) f', c⟩ := by
  have hseen : b.length < 132 → keptSeen t b = [] := by
    intro h
    have : present b = 0 := by unfold present; omega
    simp [keptSeen, this]
  obtain ⟨f1, d1, r1, w1, p1, h1⟩ := onIo_readBuf t 128 (by omega) p f c hr
  rw [hd, hpos] at h1 p1
  unfold verdict
  by_cases hb : b.length < 128
  · rw [if_neg (by omega)] at h1
    refine ⟨f1, p, by rw [d1, hd], r1, w1, ?_⟩
    rw [if_pos hb]
    simp only
    rw [if_neg (by rw [hseen (by omega)]; simp; omega), Profile.readHeaderIo, PM.bind_apply, h1]
  rw [if_neg hb]
  rw [if_pos (by omega)] at h1
  have p1' := p1 (by omega)
  have hb' : 128 ≤ b.length := by omega
  have run1 : Profile.readHeaderIo t (OsFile.handler t) env ⟨onFile p f, c⟩ =
      (if (headerOf t b).magic ≠ MAGIC_NUMBER then
        PM.signal env .badSignature "not an ICC profile, invalid signature".toList >>= fun _ =>
          (PM.fail .invalidData : PM Unit)
      else
        PM.modify (Profile.setHeader (headerOf t b)) >>= fun _ =>
        PM.onIo (reportedSize (OsFile.handler t)) >>= fun reported =>
        afterLimit t env (headerOf t b) (if (headerOf t b).size.toNat ≥ reported then reported
            else (headerOf t b).size.toNat)) ⟨onFile p f1, c⟩ := by
    rw [Profile.readHeaderIo, PM.bind_apply, h1]
    rfl
  by_cases hmag : num t b 36 4 ≠ acsp
  · refine ⟨f1, p, by rw [d1, hd], r1, w1, ?_⟩
    rw [if_pos hmag]
    simp only
    rw [run1, if_pos ((headerOf_magic t b hb').mpr hmag), signal_fail]
  rw [if_neg hmag]
  rw [if_neg (mt (headerOf_magic t b hb').mp hmag)] at run1
  -- reported size
  obtain ⟨f2, d2, r2, w2, p2, hrs⟩ := reportedSize_at128 t b hlen f1 (by rw [d1, hd]) r1 (by rw [p1'])
  have hsize : (headerOf t b).size.toNat = num t b 0 4 := by rw [headerOf_eq t b hb']; exact num4_toNat t b 0
  have hlim : (if (headerOf t b).size.toNat ≥ b.length % t.usizeMod then b.length % t.usizeMod
      else (headerOf t b).size.toNat) = limit t b := by
    rw [hsize]; unfold limit; split <;> omega
  have hio : PM.onIo (reportedSize (OsFile.handler t)) ⟨Profile.setHeader (headerOf t b) (onFile p f1), c⟩ =
      .ok (b.length % t.usizeMod) ⟨onFile (Profile.setHeader (headerOf t b) p) f2, c⟩ := by
    have e : Profile.setHeader (headerOf t b) (onFile p f1) = onFile (Profile.setHeader (headerOf t b) p) f1 := rfl
    rw [e]
    exact PM.onIo_ok hrs
  have run2 : Profile.readHeaderIo t (OsFile.handler t) env ⟨onFile p f, c⟩ =
      afterLimit t env (headerOf t b) (limit t b) ⟨onFile (Profile.setHeader (headerOf t b) p) f2, c⟩ := by
    rw [← hlim]
    exact run1.trans ((PM.bind_ok _ rfl).trans (PM.bind_ok _ hio))
  -- date
  by_cases hdate : DateOk t b
  swap
  · refine ⟨f2, Profile.setHeader (headerOf t b) p, d2, r2, by rw [w2, w1], ?_⟩
    rw [if_pos hdate]
    simp only
    rw [run2, afterLimit, (headerOf_date t b hb').2 hdate, PM.bind_apply]
    rfl
  rw [if_neg (not_not_intro hdate)]
  obtain ⟨dt, hdt, -⟩ := (headerOf_date t b hb').1 hdate
  have run3 : Profile.readHeaderIo t (OsFile.handler t) env ⟨onFile p f, c⟩ =
      (PM.onIo (readU32 t (OsFile.handler t)) >>= fun n =>
        if n.toNat > MAX_TABLE_TAG then
          PM.signal env .range ("Too many tags ".toList ++ decimal n.toNat) >>= fun _ =>
            (PM.fail .invalidData : PM Unit)
        else Profile.tagLoop t (OsFile.handler t) (limit t b) n.toNat)
      ⟨onFile (filled t b dt p) f2, c⟩ := by
    rw [run2, afterLimit, hdt, PM.bind_apply]
    rfl
  -- tag count
  obtain ⟨f3, d3, r3, w3, p3, hu32⟩ := onIo_readU32 t (filled t b dt p) f2 c r2
  rw [d2] at d3
  rw [d2, p2] at hu32 p3
  by_cases h132 : b.length < 132
  · refine ⟨f3, filled t b dt p, d3, r3, by rw [w3, w2, w1], ?_⟩
    rw [if_pos h132]
    simp only
    rw [run3, PM.bind_apply, hu32, if_neg (by omega), if_neg (by rw [hseen h132]; simp; omega)]
  rw [if_neg h132]
  rw [if_pos (by omega), show num t b 128 4 = declared t b from rfl] at hu32
  have hdec : (UInt32.ofNat (declared t b)).toNat = declared t b := num4_toNat t b 128
  have run4 : Profile.readHeaderIo t (OsFile.handler t) env ⟨onFile p f, c⟩ =
      (if declared t b > 100 then
          PM.signal env .range ("Too many tags ".toList ++ decimal (declared t b)) >>= fun _ =>
            (PM.fail .invalidData : PM Unit)
        else Profile.tagLoop t (OsFile.handler t) (limit t b) (declared t b)) ⟨onFile (filled t b dt p) f3, c⟩ := by
    rw [run3, PM.bind_apply, hu32]
    simp only [hdec]
    rfl
  by_cases hmany : 100 < declared t b
  · refine ⟨f3, filled t b dt p, d3, r3, by rw [w3, w2, w1], ?_⟩
    rw [if_pos hmany]
    simp only
    rw [run4, if_pos hmany, signal_fail]
  rw [if_neg hmany]
  rw [if_neg hmany] at run4
  have p3' : f3.pos = 132 := p3 (by omega)
  have ht : filled t b dt p = withTable (filled t b dt p) old := by
    conv_lhs => rw [← hp]
    rfl
  have hlim32 : limit t b < 2 ^ 32 := lt_of_le_of_lt (Nat.min_le_left _ _) (num_lt t b 0 4)
  obtain ⟨f', d', r', w', a1, a2, a3⟩ := tagLoop_eq t b (limit t b) hlim32 (declared t b) 0 old
    (filled t b dt p) c f3 d3 r3 p3' (by omega) hold
  rw [← ht, ← run4] at a1 a2 a3
  have hov : (t.checks = true ∧ ∃ e ∈ (List.range' 0 (min (declared t b) ((b.length - (132 + 12 * 0)) / 12))).map
      (entry t b), 2 ^ 32 ≤ e.offset + e.size) ↔ (t.checks = true ∧ Overflows t b) := by
    unfold Overflows present
    simp only [List.mem_map, List.mem_range'_1, Nat.mul_zero, Nat.add_zero, Nat.zero_add, Nat.zero_le, true_and]
    constructor
    · rintro ⟨hc, e, ⟨i, hi, rfl⟩, h⟩
      exact ⟨hc, i, hi, h⟩
    · rintro ⟨hc, i, hi, h⟩
      exact ⟨hc, _, ⟨i, hi, rfl⟩, h⟩
  have hpres : (b.length - (132 + 12 * 0)) / 12 = present b := rfl
  have hks : (((List.range' 0 (min (declared t b) ((b.length - (132 + 12 * 0)) / 12))).map
      (entry t b)).filter fun e => e.offset + e.size ≤ limit t b) = keptSeen t b := by
    rw [hpres, ← List.range_eq_range']
    rfl
  simp only [hov, hks] at a1 a2 a3
  rw [hpres] at a2 a3
  have w'' : f'.writable = f.writable := by rw [w', w3, w2, w1]
  by_cases ho : t.checks = true ∧ Overflows t b
  · obtain ⟨q, hq⟩ := a1 (.inl ho)
    refine ⟨f', q, d', r', w'', ?_⟩
    rw [if_pos ho]
    exact hq
  rw [if_neg ho]
  by_cases hpr : present b < declared t b
  · rw [if_pos hpr]
    by_cases hfull : 100 < old.length + (keptSeen t b).length
    · obtain ⟨q, hq⟩ := a1 (.inr hfull)
      refine ⟨f', q, d', r', w'', ?_⟩
      simp only
      rw [if_pos ⟨hfull, Nat.le_of_not_lt hmany, hdate, not_not.mp hmag⟩]
      exact hq
    · obtain ⟨q, hq⟩ := a2 (fun h => h.elim ho hfull) (by omega)
      refine ⟨f', q, d', r', w'', ?_⟩
      simp only
      rw [if_neg (fun h => hfull h.1)]
      exact hq
  · rw [if_neg hpr]
    have hk : keptSeen t b = kept t b := by
      have : min (declared t b) (present b) = declared t b := by omega
      simp only [keptSeen, kept, this]
    rw [hk] at a1 a2 a3
    by_cases hfull : 100 < old.length + (kept t b).length
    · obtain ⟨q, hq⟩ := a1 (.inr hfull)
      refine ⟨f', q, d', r', w'', dt, hdt, ?_⟩
      rw [if_pos hfull]
      exact hq
    · refine ⟨f', p, d', r', w'', dt, hdt, ?_⟩
      rw [if_neg hfull]
      exact a3 (fun h => h.elim ho hfull) (by omega)

/-- The outcome of reading the header of a file with content `b` at offset 0. -/
theorem readHeaderIo_eq (t : Target) (env : Handlers) (b : List Byte) (hlen : b.length < 9223372036854775808)
    (p : Profile) (hp : withTable p [] = p) (c : CState) (f : OsFile) (hd : f.data = b) (hr : f.readable = true)
    (hpos : f.pos = 0) :
    ∃ f' q, f'.data = b ∧ f'.readable = true ∧ f'.writable = f.writable ∧
      match verdict t b with
      | .short => Profile.readHeaderIo t (OsFile.handler t) env ⟨onFile p f, c⟩ = .err .unexpectedEof ⟨onFile q f', c⟩
      | .badMagic => Profile.readHeaderIo t (OsFile.handler t) env ⟨onFile p f, c⟩ =
          match signalError env .badSignature "not an ICC profile, invalid signature".toList c with
          | .done () c' => .err .invalidData ⟨onFile q f', c'⟩
          | .panic c' => .panic ⟨onFile q f', c'⟩
      | .badDate => Profile.readHeaderIo t (OsFile.handler t) env ⟨onFile p f, c⟩ = .panic ⟨onFile q f', c⟩
      | .tooMany n => Profile.readHeaderIo t (OsFile.handler t) env ⟨onFile p f, c⟩ =
          match signalError env .range ("Too many tags ".toList ++ decimal n) c with
          | .done () c' => .err .invalidData ⟨onFile q f', c'⟩
          | .panic c' => .panic ⟨onFile q f', c'⟩
      | .overflow => Profile.readHeaderIo t (OsFile.handler t) env ⟨onFile p f, c⟩ = .panic ⟨onFile q f', c⟩
      | .table es => ∃ d, (headerOf t b).date.toNaive = some d ∧
          Profile.readHeaderIo t (OsFile.handler t) env ⟨onFile p f, c⟩ =
            .ok () ⟨onFile (withTable (filled t b d p) es) f', c⟩ := by
  obtain ⟨f', q, h1, h2, h3, h⟩ := readHeaderIo_used t env b hlen p [] (by simp) hp c f hd hr hpos
  refine ⟨f', q, h1, h2, h3, ?_⟩
  have hle : ∀ {k : Nat} (g : Nat → Entry) (P : Entry → Bool), k ≤ 100 →
      ¬ 100 < ([] : List Entry).length + (((List.range k).map g).filter P).length := by
    intro k g P hk hc
    have := List.length_filter_le P ((List.range k).map g)
    simp at this hc
    omega
  cases hv : verdict t b with
  | short =>
    rw [hv] at h
    simp only at h ⊢
    rw [if_neg (fun hc => hle _ _ (by omega) hc.1)] at h
    exact h
  | badMagic => rw [hv] at h; exact h
  | badDate => rw [hv] at h; exact h
  | tooMany n => rw [hv] at h; exact h
  | overflow => rw [hv] at h; exact h
  | table es =>
    rw [hv] at h
    simp only at h ⊢
    obtain ⟨d, hd, h⟩ := h
    have hes : es = kept t b ∧ declared t b ≤ 100 := by
      unfold verdict at hv
      split at hv <;> try cases hv
      split at hv <;> try cases hv
      split at hv <;> try cases hv
      split at hv <;> try cases hv
      split at hv <;> try cases hv
      split at hv <;> try cases hv
      split at hv <;> try cases hv
      exact ⟨rfl, by omega⟩
    rw [if_neg (by rw [hes.1]; exact hle _ _ hes.2)] at h
    exact ⟨d, hd, h⟩

end Lcms
