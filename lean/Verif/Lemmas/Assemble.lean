import Verif.Lemmas.Open
import Verif.Lemmas.Store
import Verif.Spec.Assemble

/-! # Lemmas: writing a profile file and opening it -/

namespace Lcms

open Lcms.Spec

/-- What `saveProfile` writes. -/
def layout (t : Target) (hd : ICCHeader) (es : List TagEntry) (data : List Byte) : List Byte :=
  ICCHeader.toBytes t 8 hd ++ (fileBytes t 4 (UInt32.ofNat es.length).toNat ++
    ((es.map (TagEntry.toBytes t)).flatten ++ data))

theorem saveEntries_chunks {σ : Type} (t : Target) (h : Handler σ) (es : List TagEntry) :
    saveEntries t h es = writeChunks h (es.map (TagEntry.toBytes t)) := by
  induction es with
  | nil => rfl
  | cons e es ih => rw [saveEntries, ih]; rfl

theorem saveProfile_chunks {σ : Type} (t : Target) (h : Handler σ) (hd : ICCHeader) (es : List TagEntry)
    (data : List Byte) :
    saveProfile t h hd es data = writeChunks h
      (ICCHeader.toBytes t 8 hd :: fileBytes t 4 (UInt32.ofNat es.length).toNat ::
        (es.map (TagEntry.toBytes t) ++ [data])) := by
  unfold saveProfile
  rw [writeU32_eq, saveEntries_chunks]
  have one : writeChunks h [data] = h.write data := M.bind_pure _
  rw [writeChunks, writeChunks, writeChunks_append, one]

theorem chunks_layout (t : Target) (hd : ICCHeader) (es : List TagEntry) (data : List Byte) :
    (ICCHeader.toBytes t 8 hd :: fileBytes t 4 (UInt32.ofNat es.length).toNat ::
      (es.map (TagEntry.toBytes t) ++ [data])).flatten = layout t hd es data := by
  simp [layout]

/-- A created file accepts any chunks. -/
theorem OsFile.writeChunks_eq (t : Target) (bs : List (List Byte)) (s : OsFile) (hw : s.writable = true)
    (hp : s.pos = s.data.length) :
    ∃ sc, Lcms.writeChunks (OsFile.handler t) bs s =
      .ok () { s with data := s.data ++ bs.flatten, pos := s.pos + bs.flatten.length, sched := sc } := by
  induction bs generalizing s with
  | nil => exact ⟨s.sched, by simp [Lcms.writeChunks]; rfl⟩
  | cons b bs ih =>
    obtain ⟨sc, h⟩ := OsFile.writeAll_eq b s
    have hwr : (OsFile.handler t).write b s = OsFile.writeAll b s := rfl
    simp only [Lcms.writeChunks, M.bind_apply, hwr]
    by_cases hb : b = []
    · subst hb
      rw [h, if_pos rfl]
      simpa using ih s hw hp
    · rw [h, if_neg hb, if_neg (by simp [hw])]
      obtain ⟨sc', h'⟩ := ih
        { s with data := patch s.data s.pos b, pos := s.pos + b.length, sched := sc } hw
        (by simp only [patch_length]; omega)
      refine ⟨sc', ?_⟩
      simp only at h' ⊢
      rw [h']
      simp [patch, hp, zeros, Nat.add_assoc]

section
variable (t : Target) (hd : ICCHeader) (es : List TagEntry) (data : List Byte)

theorem entries_length : ((es.map (TagEntry.toBytes t)).flatten).length = 12 * es.length := by
  induction es with
  | nil => rfl
  | cons e es ih =>
    rw [List.map_cons, List.flatten_cons, List.length_append, tagToBytes_length, ih, List.length_cons]; omega

theorem layout_length : (layout t hd es data).length = 132 + 12 * es.length + data.length := by
  unfold layout
  simp only [List.length_append, toBytes_length t 8 (Or.inr rfl), fileBytes_length, entries_length]
  omega

theorem layout_header : headerOf t (layout t hd es data) = hd := by
  unfold headerOf layout
  rw [slice_hit _ _ 128 (toBytes_length t 8 (Or.inr rfl) hd), from_to_bytes t 8 (Or.inr rfl)]

theorem layout_declared (hn : es.length < 2 ^ 32) : declared t (layout t hd es data) = es.length := by
  unfold declared
  rw [num_toBytes (f := fileBytes t 4 (UInt32.ofNat es.length).toNat) (by rw [layout_length]; omega) ?_]
  · rw [fileValue_fileBytes, UInt32.toNat_ofNat_of_lt' hn]; exact Nat.mod_eq_of_lt hn
  · unfold layout
    rw [slice_skip _ _ 128 _ _ (toBytes_length t 8 (Or.inr rfl) hd) (by decide)]
    exact slice_hit _ _ 4 (by simp)

theorem entries_slice (i : Nat) (hi : i < es.length) (rest : List Byte) :
    slice ((es.map (TagEntry.toBytes t)).flatten ++ rest) (12 * i) 12 = TagEntry.toBytes t es[i] := by
  induction es generalizing i with
  | nil => simp at hi
  | cons e es ih =>
    rw [List.map_cons, List.flatten_cons, List.append_assoc]
    cases i with
    | zero => exact slice_hit _ _ 12 (tagToBytes_length t e)
    | succ i =>
      rw [slice_skip _ _ 12 _ _ (tagToBytes_length t e) (by omega)]
      have := ih i (by simpa using hi)
      rw [show 12 * (i + 1) - 12 = 12 * i by omega]
      exact this

theorem layout_entry (i : Nat) (hi : i < es.length) :
    entry t (layout t hd es data) i = ⟨es[i].sig.val.toNat, es[i].offset.toNat, es[i].size.toNat⟩ := by
  have hs : slice (layout t hd es data) (132 + 12 * i) 12 = TagEntry.toBytes t es[i] := by
    unfold layout
    rw [slice_skip _ _ 128 _ _ (toBytes_length t 8 (Or.inr rfl) hd) (by omega),
      slice_skip _ _ 4 _ _ (by simp) (by omega), show 132 + 12 * i - 128 - 4 = 12 * i by omega]
    exact entries_slice t es i hi data
  have h := tag_from_to_bytes t es[i]
  rw [← hs, tagFromBytes_eq t _ (slice_length (by rw [layout_length]; omega)), num_slice _ _ _ _ _ _ (by decide),
    num_slice _ _ _ _ _ _ (by decide), num_slice _ _ _ _ _ _ (by decide)] at h
  unfold entry
  generalize es[i] = e at h ⊢
  rw [← h]
  simp only [num4_toNat]
  rw [show 132 + 12 * i + 0 = 132 + 12 * i by omega, show 132 + 12 * i + 4 = 136 + 12 * i by omega,
    show 132 + 12 * i + 8 = 140 + 12 * i by omega]

/-- A directory line as numbers. -/
def entryOf (e : TagEntry) : Entry := ⟨e.sig.val.toNat, e.offset.toNat, e.size.toNat⟩

theorem layout_entries (hn : es.length < 2 ^ 32) :
    (List.range (declared t (layout t hd es data))).map (entry t (layout t hd es data)) = es.map entryOf := by
  rw [layout_declared t hd es data hn]
  apply List.ext_getElem
  · simp
  · intro i h1 h2
    rw [List.getElem_map, List.getElem_map, List.getElem_range]
    exact layout_entry t hd es data i (by simpa using h2)

theorem layout_size : num t (layout t hd es data) 0 4 = hd.size.toNat := by
  have h := layout_header t hd es data
  rw [headerOf_eq t _ (by rw [layout_length]; omega)] at h
  rw [← num4_toNat]
  exact congrArg (fun h => h.size.toNat) h

theorem layout_kept (hn : es.length < 2 ^ 32) (hlen : (layout t hd es data).length < t.usizeMod) :
    kept t (layout t hd es data) =
      (es.filter fun e => e.offset.toNat + e.size.toNat ≤ min hd.size.toNat (132 + 12 * es.length + data.length)).map
        entryOf := by
  unfold kept
  rw [layout_entries t hd es data hn, List.filter_map]
  unfold limit
  rw [Nat.mod_eq_of_lt hlen, layout_size, layout_length]
  rfl

theorem layout_verdict (hm : hd.magic.val = 0x61637370) (hdt : ICCHeader.Dated hd) (hn : es.length ≤ 100)
    (ho : t.checks = true → ∀ e ∈ es, e.offset.toNat + e.size.toNat < 2 ^ 32) :
    verdict t (layout t hd es data) = .table (kept t (layout t hd es data)) := by
  have hl := layout_length t hd es data
  have hh := layout_header t hd es data
  have hd' := layout_declared t hd es data (by omega)
  rw [headerOf_eq t _ (by omega)] at hh
  have hp : es.length ≤ present (layout t hd es data) := by unfold present; omega
  unfold verdict
  rw [if_neg (by omega), if_neg, if_neg, if_neg (by omega), if_neg (by omega), if_neg, if_neg (by omega)]
  · rintro ⟨hc, i, hi, h⟩
    rw [hd', Nat.min_eq_left hp] at hi
    rw [layout_entry t hd es data i hi] at h
    have := ho hc es[i] (List.getElem_mem hi)
    simp only at h
    omega
  · rw [not_not]
    unfold DateOk
    have := congrArg ICCHeader.date hh
    unfold ICCHeader.Dated at hdt
    rw [← this] at hdt
    simpa only [num2_toNat] using hdt
  · rw [not_not, ← num4_toNat]
    have := congrArg ICCHeader.magic hh
    simp only at this
    rw [← this] at hm
    simp only at hm
    rw [hm]
    rfl

end

theorem sigOf_sig (s : Signature) : sigOf s.val.toNat = s := by
  unfold sigOf; rw [UInt32.ofNat_toNat]

theorem tags_good (t : Target) (b : List Byte) (now d : NaiveDateTime) (f : OsFile)
    (hv : verdict t b = .table (kept t b)) :
    tags (goodProfile t b now d f) = (kept t b).map fun e => (some (sigOf e.name), some e.offset, some e.size) := by
  unfold tags
  have hc : (goodProfile t b now d f).tagCount = (kept t b).length := rfl
  rw [hc]
  apply List.ext_getElem
  · simp
  · intro i h1 h2
    have hi : i < (kept t b).length := by simpa using h1
    simp only [List.getElem_map, List.getElem_range, names_get t b now d f hv, offsets_get t b now d f hv,
      sizes_get t b now d f hv, if_pos hi, List.getElem?_eq_getElem hi, Option.map_some]

theorem keeps_good (t : Target) (b : List Byte) (now d : NaiveDateTime) (f : OsFile) (hd : ICCHeader)
    (hh : headerOf t b = hd) (hdt : hd.date.toNaive = some d) (hok : ICCHeader.Dated hd) :
    Keeps hd (goodProfile t b now d f) := by
  subst hh
  obtain ⟨n, h1, h2, h3, h4, h5, h6, h7, h8, -⟩ := (Props.C32_date_conversion (headerOf t b).date).1 hok
  rw [hdt] at h1
  cases h1
  exact ⟨rfl, rfl, rfl, rfl, by exact_mod_cast h2, h3, h4, h5, h6, h7, h8, rfl, rfl, rfl, rfl, rfl, rfl, rfl⟩

/-! ### Which bytes a profile remembers -/

theorem at_length (b : List Byte) (o n : Nat) : (at_ b o n).length = n := by simp [at_]

theorem at_add (b : List Byte) (o m n : Nat) : at_ b o (m + n) = at_ b o m ++ at_ b (o + m) n := by
  unfold at_
  rw [List.range_add, List.map_append, List.map_map]
  congr 1
  apply List.map_congr_left
  intro i _
  simp [Nat.add_assoc]

theorem at_add_iff (b b' : List Byte) (o m n : Nat) :
    at_ b o (m + n) = at_ b' o (m + n) ↔ at_ b o m = at_ b' o m ∧ at_ b (o + m) n = at_ b' (o + m) n := by
  rw [at_add, at_add]
  constructor
  · intro h
    exact List.append_inj h (by rw [at_length, at_length])
  · rintro ⟨h1, h2⟩; rw [h1, h2]

theorem num_eq_iff (t : Target) (b b' : List Byte) (o n : Nat) :
    num t b o n = num t b' o n ↔ at_ b o n = at_ b' o n := by
  constructor
  · intro h
    have := congrArg (fileBytes t n) h
    unfold num at this
    rwa [fileBytes_fileValue t _ (at_length b o n), fileBytes_fileValue t _ (at_length b' o n)] at this
  · intro h; unfold num; rw [h]

theorem u32_num_iff (t : Target) (b b' : List Byte) (o : Nat) :
    UInt32.ofNat (num t b o 4) = UInt32.ofNat (num t b' o 4) ↔ at_ b o 4 = at_ b' o 4 := by
  rw [← num_eq_iff t, ← UInt32.toNat_inj, num4_toNat, num4_toNat]

theorem u64_num_iff (t : Target) (b b' : List Byte) (o : Nat) :
    UInt64.ofNat (num t b o 8) = UInt64.ofNat (num t b' o 8) ↔ at_ b o 8 = at_ b' o 8 := by
  rw [← num_eq_iff t, ← UInt64.toNat_inj, num8_toNat, num8_toNat]

theorem u16_num_iff (t : Target) (b b' : List Byte) (o : Nat) :
    UInt16.ofNat (num t b o 2) = UInt16.ofNat (num t b' o 2) ↔ at_ b o 2 = at_ b' o 2 := by
  rw [← num_eq_iff t, ← UInt16.toNat_inj, num2_toNat, num2_toNat]

theorem memBytes_iff (b b' : List Byte) (o n : Nat) : memBytes b o n = memBytes b' o n ↔ at_ b o n = at_ b' o n := by
  rw [← Vector.toList_inj, memBytes_toList, memBytes_toList]

theorem column_inj {α β : Type} {xs ys : List α} (f : α → β) (d : β) (hl : xs.length = ys.length)
    (h : column (xs.map f) d = column (ys.map f) d) : xs.map f = ys.map f := by
  unfold column at h
  exact (List.append_inj h (by simp [hl])).1

theorem table_inj {es es' : List Entry} (hl : es.length = es'.length) (h1 : es.map Entry.name = es'.map Entry.name)
    (h2 : es.map Entry.offset = es'.map Entry.offset) (h3 : es.map Entry.size = es'.map Entry.size) : es = es' := by
  induction es generalizing es' with
  | nil => cases es' with
    | nil => rfl
    | cons e es' => cases hl
  | cons e es ih => cases es' with
    | nil => cases hl
    | cons e' es' =>
      simp only [List.map_cons, List.cons.injEq] at h1 h2 h3
      rw [ih (by simpa using hl) h1.2 h2.2 h3.2]
      congr 1
      cases e; cases e'
      simp only [Entry.mk.injEq]
      exact ⟨h1.1, h2.1, h3.1⟩

theorem good_eq_iff {t : Target} {b b' : List Byte} (hv : verdict t b = .table (kept t b))
    (hv' : verdict t b' = .table (kept t b')) (now now' d d' : NaiveDateTime) (f f' : OsFile)
    (hf : f.data = b) (hr : f.readable = true) (hw : f.writable = false)
    (hf' : f'.data = b') (hr' : f'.readable = true) (hw' : f'.writable = false)
    (hd : (headerOf t b).date.toNaive = some d) (hd' : (headerOf t b').date.toNaive = some d') :
    (goodProfile t b now d f).eq (goodProfile t b' now' d' f') = true ↔
      at_ b 8 28 = at_ b' 8 28 ∧ at_ b 44 24 = at_ b' 44 24 ∧ at_ b 80 20 = at_ b' 80 20 ∧
        kept t b = kept t b' := by
  have hb := (verdict_table hv).1
  have hb' := (verdict_table hv').1
  have s1 := fun x y : List Byte => at_add_iff x y 8 4 24
  have s2 := fun x y : List Byte => at_add_iff x y 12 4 20
  have s3 := fun x y : List Byte => at_add_iff x y 16 4 16
  have s4 := fun x y : List Byte => at_add_iff x y 20 4 12
  have s5 := fun x y : List Byte => at_add_iff x y 24 2 10
  have s6 := fun x y : List Byte => at_add_iff x y 26 2 8
  have s7 := fun x y : List Byte => at_add_iff x y 28 2 6
  have s8 := fun x y : List Byte => at_add_iff x y 30 2 4
  have s9 := fun x y : List Byte => at_add_iff x y 32 2 2
  have u1 := fun x y : List Byte => at_add_iff x y 44 4 20
  have u2 := fun x y : List Byte => at_add_iff x y 48 4 16
  have u3 := fun x y : List Byte => at_add_iff x y 52 4 12
  have u4 := fun x y : List Byte => at_add_iff x y 56 8 4
  have w1 := fun x y : List Byte => at_add_iff x y 80 4 16
  norm_num only at s1 s2 s3 s4 s5 s6 s7 s8 s9 u1 u2 u3 u4 w1
  rw [s1, s2, s3, s4, s5, s6, s7, s8, s9, u1, u2, u3, u4, w1]
  constructor
  · intro h
    rw [Profile.eq_iff] at h
    have g := good_describes hv now d f hf hr hw hd
    have g' := good_describes hv' now' d' f' hf' hr' hw' hd'
    generalize goodProfile t b now d f = p at *
    generalize goodProfile t b' now' d' f' = p' at *
    have tab : kept t b = kept t b' := by
      have hl : (kept t b).length = (kept t b').length := by
        rw [← g.tagCount, ← g'.tagCount]; exact congrArg (fun p => p.tagCount) h
      refine table_inj hl ?_ ?_ ?_
      · apply column_inj _ _ hl
        rw [← g.tagNames, ← g'.tagNames]
        exact congrArg (fun p => List.map (fun s : Signature => s.val.toNat) p.tagNames) h
      · apply column_inj _ _ hl
        rw [← g.tagOffsets, ← g'.tagOffsets]
        exact congrArg (fun p => p.tagOffsets) h
      · apply column_inj _ _ hl
        rw [← g.tagSizes, ← g'.tagSizes]
        exact congrArg (fun p => p.tagSizes) h
    simp only [← num_eq_iff t]
    rw [← g.version, ← g'.version, ← g.deviceClass, ← g'.deviceClass, ← g.colorSpace, ← g'.colorSpace, ← g.pcs,
      ← g'.pcs, ← g.month, ← g'.month, ← g.day, ← g'.day, ← g.hour, ← g'.hour,
      ← g.minute, ← g'.minute, ← g.second, ← g'.second, ← g.flags, ← g'.flags, ← g.manufacturer, ← g'.manufacturer,
      ← g.model, ← g'.model, ← g.attributes, ← g'.attributes, ← g.renderingIntent, ← g'.renderingIntent, ← g.creator,
      ← g'.creator]
    have hy : num t b 24 2 = num t b' 24 2 := by
      have := g.year
      have := g'.year
      have : p.created.date.year = p'.created.date.year := congrArg (fun p => p.created.date.year) h
      omega
    have hid : num t b 84 16 = num t b' 84 16 := by
      rw [num_eq_iff, ← g.profileId, ← g'.profileId]
      exact congrArg (fun p => p.profileId.id8.toList) h
    have c : ∀ {α : Type} (q : Profile → α), q { p with io := none } = q { p' with io := none } :=
      fun q => congrArg q h
    exact ⟨⟨c fun p => p.version.toNat, c fun p => p.deviceClass.val.toNat, c fun p => p.colorSpace.val.toNat,
      c fun p => p.pcs.val.toNat, hy, c fun p => p.created.date.month, c fun p => p.created.date.day,
      c fun p => p.created.time.hour, c fun p => p.created.time.minute, c fun p => p.created.time.second⟩,
      ⟨c fun p => p.flags.toNat, c fun p => p.manufacturer.toNat, c fun p => p.model.toNat,
        c fun p => p.attributes.toNat, c fun p => p.renderingIntent.toNat⟩,
      ⟨c fun p => p.creator.toNat, hid⟩, tab⟩
  · rintro ⟨⟨e1, e2, e3, e4, e5, e6, e7, e8, e9, e10⟩, ⟨e11, e12, e13, e14, e15⟩, ⟨e16, e17⟩, hk⟩
    have hdd : d = d' := by
      have : (headerOf t b).date = (headerOf t b').date := by
        rw [headerOf_eq t b (by omega), headerOf_eq t b' (by omega)]
        simp only [DateTimeNumber.mk.injEq, u16_num_iff]
        exact ⟨e5, e6, e7, e8, e9, e10⟩
      rw [this, hd'] at hd
      cases hd
      rfl
    subst hdd
    rw [Profile.eq_iff]
    unfold goodProfile onFile withTable filled
    rw [hk, headerOf_eq t b (by omega), headerOf_eq t b' (by omega)]
    simp only [Profile.setHeader, Signature.toU32]
    rw [(u32_num_iff t b b' 8).mpr e1, (u32_num_iff t b b' 12).mpr e2, (u32_num_iff t b b' 16).mpr e3,
      (u32_num_iff t b b' 20).mpr e4, (u32_num_iff t b b' 44).mpr e11, (u32_num_iff t b b' 48).mpr e12,
      (u32_num_iff t b b' 52).mpr e13, (u64_num_iff t b b' 56).mpr e14, (u32_num_iff t b b' 64).mpr e15,
      (u32_num_iff t b b' 80).mpr e16, (memBytes_iff b b' 84 16).mpr e17]
    rfl

end Lcms
