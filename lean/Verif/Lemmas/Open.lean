import Verif.Lemmas.Profile

namespace Lcms
open Spec

theorem kept_lt (t : Target) (b : List Byte) (e : Entry) (he : e ∈ kept t b) :
    e.name < 2 ^ 32 ∧ e.offset < 2 ^ 32 ∧ e.size < 2 ^ 32 := by
  unfold kept at he
  rw [List.mem_filter, List.mem_map] at he
  obtain ⟨⟨i, -, rfl⟩, -⟩ := he
  exact entry_lt t b i

theorem kept_length (t : Target) (b : List Byte) : (kept t b).length ≤ declared t b := by
  unfold kept
  exact (List.length_filter_le _ _).trans (by simp)

theorem sigOf_toNat (n : Nat) (h : n < 2 ^ 32) : (sigOf n).val.toNat = n := UInt32.toNat_ofNat_of_lt' h

theorem column_map {α β : Type} (f : α → β) (xs : List α) (d : α) :
    (column xs d).map f = column (xs.map f) (f d) := by
  simp [column]

/-- The profile built from a good file is the one described by it. -/
theorem header_says {σ : Type} (t : Target) (b : List Byte) (hb : 128 ≤ b.length) (now d : NaiveDateTime) (f : σ)
    (es : List Entry) (hes : ∀ e ∈ es, e.name < 2 ^ 32) (hdate : DateOk t b)
    (hdt : (headerOf t b).date.toNaive = some d) :
    Says t b es { withTable (filled t b d (Profile.new now : Profile σ)) es with io := some f } := by
  obtain ⟨d', h1, h2, h3, h4, h5, h6, h7, h8⟩ := (headerOf_date t b hb).1 hdate
  rw [hdt] at h1
  cases h1
  have hh := headerOf_eq t b hb
  constructor
  case version => simp only [withTable, filled, Profile.setHeader, hh, num4_toNat]
  case deviceClass => simp only [withTable, filled, Profile.setHeader, hh, num4_toNat]
  case colorSpace => simp only [withTable, filled, Profile.setHeader, hh, num4_toNat]
  case pcs => simp only [withTable, filled, Profile.setHeader, hh, num4_toNat]
  case flags => simp only [withTable, filled, Profile.setHeader, hh, num4_toNat]
  case manufacturer => simp only [withTable, filled, Profile.setHeader, hh, Signature.toU32, num4_toNat]
  case model => simp only [withTable, filled, Profile.setHeader, hh, num4_toNat]
  case attributes => simp only [withTable, filled, Profile.setHeader, hh, num8_toNat]
  case renderingIntent => simp only [withTable, filled, Profile.setHeader, hh, num4_toNat]
  case creator => simp only [withTable, filled, Profile.setHeader, hh, Signature.toU32, num4_toNat]
  case profileId => simp only [withTable, filled, hh, memBytes_toList]
  case year => exact h2
  case month => exact h3
  case day => exact h4
  case hour => exact h5
  case minute => exact h6
  case second => exact h7
  case frac => exact h8
  case tagCount => rfl
  case tagNames =>
    show (column _ _).map _ = _
    rw [column_map, List.map_map]
    have e : (Signature.default).val.toNat = 0x20202020 := by decide
    rw [e]
    congr 1
    apply List.map_congr_left
    intro x hx
    exact sigOf_toNat _ (hes x hx)
  case tagOffsets => rfl
  case tagSizes => rfl
  case tagLinked =>
    show (column _ _).map _ = _
    rw [column_map]
    show column _ none = _
    congr 1
    unfold linkCol
    rw [List.map_map]
    apply List.map_congr_left
    intro i hi
    rw [List.mem_range] at hi
    simp only [Function.comp]
    by_cases htw : hasLaterTwin es i
    · rw [if_pos htw, if_pos htw, List.getElem?_eq_getElem hi]
      simp only [Option.map_some]
      rw [sigOf_toNat _ (hes _ (List.getElem_mem hi))]
    · rw [if_neg htw, if_neg htw]; rfl
  case tagSaveAsRaw => rfl
  case readMode => rfl

theorem describes (t : Target) (b : List Byte) (hb : 128 ≤ b.length) (now d : NaiveDateTime) (f : OsFile)
    (hd : f.data = b) (hr : f.readable = true) (hw : f.writable = false) (hdate : DateOk t b)
    (hdt : (headerOf t b).date.toNaive = some d) :
    Describes t b (kept t b) (onFile (withTable (filled t b d (Profile.new now)) (kept t b)) f) :=
  { header_says t b hb now d f (kept t b) (fun x hx => (kept_lt t b x hx).1) hdate hdt with
    content := ⟨f, rfl, hd, hr, hw⟩ }

/-- What opening a file for reading gives, by the verdict on its content. -/
def outcome (env : Handlers) (ctx : CState) (fs : FS) (r : Opened × CState × FS) (v : Verdict)
    (good : List Entry → Opened → Prop) : Prop :=
  match v with
  | .short => r = (.err .unexpectedEof, ctx, fs)
  | .badMagic =>
    r = match signalError env .badSignature "not an ICC profile, invalid signature".toList ctx with
      | .done () c' => (.err .invalidData, c', fs)
      | .panic c' => (.panic, c', fs)
  | .badDate => r = (.panic, ctx, fs)
  | .tooMany n =>
    r = match signalError env .range ("Too many tags ".toList ++ decimal n) ctx with
      | .done () c' => (.err .invalidData, c', fs)
      | .panic c' => (.panic, c', fs)
  | .overflow => r = (.panic, ctx, fs)
  | .table es => good es r.1 ∧ r.2 = (ctx, fs)

theorem verdict_table {t : Target} {b : List Byte} {es : List Entry} (h : verdict t b = .table es) :
    132 ≤ b.length ∧ DateOk t b ∧ declared t b ≤ 100 ∧ declared t b ≤ present b ∧ es = kept t b ∧
      num t b 36 4 = acsp ∧ ¬ (t.checks = true ∧ Overflows t b) := by
  unfold verdict at h
  split at h
  · cases h
  split at h
  · cases h
  rename_i hm
  split at h
  · cases h
  rename_i hd
  split at h
  · cases h
  split at h
  · cases h
  split at h
  · cases h
  split at h
  · cases h
  cases h
  refine ⟨Nat.le_of_not_lt ?_, not_not.mp hd, Nat.le_of_not_lt ?_, Nat.le_of_not_lt ?_, rfl, not_not.mp hm, ?_⟩ <;>
    assumption

theorem FS.put_same (fs : FS) (path : Path) (b : List Byte) (h : fs.files path = some b) :
    fs.put path b = fs := by
  unfold FS.put
  cases fs with
  | mk files r c =>
    simp only [FS.mk.injEq, and_true]
    funext q
    by_cases hq : q = path
    · subst hq; rw [if_pos rfl]; exact h.symm
    · rw [if_neg hq]

/-- The profile that a good file yields. -/
def goodProfile (t : Target) (b : List Byte) (now d : NaiveDateTime) (f : OsFile) : Profile :=
  onFile (withTable (filled t b d (Profile.new now)) (kept t b)) f

theorem openRead_eq (t : Target) (env : Handlers) (now : NaiveDateTime) (sched : List OsResp) (ctx : CState)
    (fs : FS) (path : Path) (b : List Byte) (hlen : b.length < 9223372036854775808)
    (hmay : fs.mayRead path = none) (hfile : fs.files path = some b) :
    outcome env ctx fs (openFromFileThr t env now sched ctx fs path .read) (verdict t b)
      (fun _ r => ∃ d f, (headerOf t b).date.toNaive = some d ∧ f.data = b ∧ f.readable = true ∧
        f.writable = false ∧ r = .ok (goodProfile t b now d f)) := by
  have ho : fs.open path sched =
      .ok { data := b, pos := 0, readable := true, writable := false, sched := sched } := by
    unfold FS.open; rw [hmay, hfile]
  generalize hf0 : ({ data := b, pos := 0, readable := true, writable := false, sched := sched } : OsFile) = f0
    at ho
  have e0 : f0.data = b := by rw [← hf0]
  have e1 : f0.readable = true := by rw [← hf0]
  have e2 : f0.pos = 0 := by rw [← hf0]
  have e3 : f0.writable = false := by rw [← hf0]
  obtain ⟨f', q, d', r', w', h⟩ := readHeaderIo_eq t env b hlen (Profile.new now) (new_table now) ctx f0 e0 e1 e2
  have hopen : openFromFileThr t env now sched ctx fs path .read =
      match Profile.readHeaderIo t (OsFile.handler t) env ⟨onFile (Profile.new now) f0, ctx⟩ with
      | .ok () s => (.ok s.prof, s.ctx, fs.put path (s.prof.contentOr []))
      | .err e s => (.err e, s.ctx, fs.put path (s.prof.contentOr []))
      | .panic s => (.panic, s.ctx, fs.put path (s.prof.contentOr [])) := by
    unfold openFromFileThr
    simp only [ho]
    rfl
  have hput : ∀ x : Profile, fs.put path ((onFile x f').contentOr []) = fs := by
    intro x
    show fs.put path f'.data = fs
    rw [d']
    exact FS.put_same fs path b hfile
  rw [hopen]
  unfold outcome
  cases hv : verdict t b with
  | short => rw [hv] at h; simp only at h ⊢; rw [h]; simp only [hput]
  | badMagic =>
    rw [hv] at h; simp only at h ⊢; rw [h]
    cases signalError env .badSignature "not an ICC profile, invalid signature".toList ctx <;> simp only [hput]
  | badDate => rw [hv] at h; simp only at h ⊢; rw [h]; simp only [hput]
  | tooMany n =>
    rw [hv] at h; simp only at h ⊢; rw [h]
    cases signalError env .range ("Too many tags ".toList ++ decimal n) ctx <;> simp only [hput]
  | overflow => rw [hv] at h; simp only at h ⊢; rw [h]; simp only [hput]
  | table es =>
    rw [hv] at h
    simp only at h ⊢
    obtain ⟨d, hd, h⟩ := h
    have hes := (verdict_table hv).2.2.2.2.1
    subst hes
    rw [h]
    simp only [hput, and_true]
    exact ⟨d, f', hd, d', r', by rw [w', e3], rfl⟩

/-- Everything known about a successful read open. -/
theorem openRead_ok {t : Target} {env : Handlers} {now : NaiveDateTime} {sched : List OsResp} {ctx : CState}
    {fs : FS} {path : Path} {b : List Byte} (hlen : b.length < 9223372036854775808)
    (hfile : fs.files path = some b) {p : Profile}
    (h : (openFromFileThr t env now sched ctx fs path .read).1 = .ok p) :
    ∃ d f, verdict t b = .table (kept t b) ∧ (headerOf t b).date.toNaive = some d ∧ f.data = b ∧
      f.readable = true ∧ f.writable = false ∧ p = goodProfile t b now d f := by
  cases hmay : fs.mayRead path with
  | some e =>
    have : fs.open path sched = .error e := by unfold FS.open; rw [hmay]
    unfold openFromFileThr at h
    simp only [this] at h
    cases h
  | none =>
    have ho := openRead_eq t env now sched ctx fs path b hlen hmay hfile
    unfold outcome at ho
    cases hv : verdict t b with
    | short => rw [hv] at ho; simp only at ho; rw [ho] at h; cases h
    | badMagic =>
      rw [hv] at ho; simp only at ho; rw [ho] at h
      split at h <;> cases h
    | badDate => rw [hv] at ho; simp only at ho; rw [ho] at h; cases h
    | tooMany n =>
      rw [hv] at ho; simp only at ho; rw [ho] at h
      split at h <;> cases h
    | overflow => rw [hv] at ho; simp only at ho; rw [ho] at h; cases h
    | table es =>
      rw [hv] at ho
      simp only at ho
      obtain ⟨⟨d, f, h1, h2, h3, h4, h5⟩, -⟩ := ho
      rw [h5] at h
      cases h
      exact ⟨d, f, by rw [(verdict_table hv).2.2.2.2.1], h1, h2, h3, h4, rfl⟩

theorem good_describes {t : Target} {b : List Byte} (hv : verdict t b = .table (kept t b)) (now d : NaiveDateTime)
    (f : OsFile) (hd : f.data = b) (hr : f.readable = true) (hw : f.writable = false)
    (hdt : (headerOf t b).date.toNaive = some d) : Describes t b (kept t b) (goodProfile t b now d f) := by
  have h := verdict_table hv
  exact describes t b (by have := h.1; omega) now d f hd hr hw h.2.1 hdt

/-- The directory lines a profile lists. -/
def listed (p : Profile) : List (Option Nat × Option Nat × Option Nat) :=
  (List.range p.tagCount).map fun i =>
    ((p.tagNames[i]?).map (fun s => s.val.toNat), p.tagOffsets[i]?, p.tagSizes[i]?)

theorem kept_100 {t : Target} {b : List Byte} (hv : verdict t b = .table (kept t b)) :
    (kept t b).length ≤ 100 := (kept_length t b).trans (verdict_table hv).2.2.1

theorem names_get (t : Target) (b : List Byte) (now d : NaiveDateTime) (f : OsFile)
    (hv : verdict t b = .table (kept t b)) (i : Nat) :
    (goodProfile t b now d f).tagNames[i]? =
      if i < (kept t b).length then ((kept t b)[i]?).map (fun e => sigOf e.name)
      else if i < 100 then some Signature.default else none := by
  have h := column_get ((kept t b).map fun e => sigOf e.name) Signature.default (by simpa using kept_100 hv) i
  rw [List.length_map, List.getElem?_map] at h
  exact h

theorem offsets_get (t : Target) (b : List Byte) (now d : NaiveDateTime) (f : OsFile)
    (hv : verdict t b = .table (kept t b)) (i : Nat) :
    (goodProfile t b now d f).tagOffsets[i]? =
      if i < (kept t b).length then ((kept t b)[i]?).map Entry.offset
      else if i < 100 then some 0 else none := by
  have h := column_get ((kept t b).map Entry.offset) 0 (by simpa using kept_100 hv) i
  rw [List.length_map, List.getElem?_map] at h
  exact h

theorem sizes_get (t : Target) (b : List Byte) (now d : NaiveDateTime) (f : OsFile)
    (hv : verdict t b = .table (kept t b)) (i : Nat) :
    (goodProfile t b now d f).tagSizes[i]? =
      if i < (kept t b).length then ((kept t b)[i]?).map Entry.size
      else if i < 100 then some 0 else none := by
  have h := column_get ((kept t b).map Entry.size) 0 (by simpa using kept_100 hv) i
  rw [List.length_map, List.getElem?_map] at h
  exact h

theorem linked_get (t : Target) (b : List Byte) (now d : NaiveDateTime) (f : OsFile)
    (hv : verdict t b = .table (kept t b)) (i : Nat) (hi : i < (kept t b).length) :
    (goodProfile t b now d f).tagLinked[i]? =
      some (if hasLaterTwin (kept t b) i then ((kept t b)[i]?).map (fun e => sigOf e.name) else none) := by
  have h := column_get (linkCol (kept t b)) none (by rw [linkCol_length]; exact kept_100 hv) i
  rw [linkCol_length, if_pos hi] at h
  refine Eq.trans h ?_
  unfold linkCol
  rw [List.getElem?_map, List.getElem?_range hi]
  rfl

theorem listed_good (t : Target) (b : List Byte) (now d : NaiveDateTime) (f : OsFile)
    (hv : verdict t b = .table (kept t b)) :
    listed (goodProfile t b now d f) = (kept t b).map fun e => (some e.name, some e.offset, some e.size) := by
  unfold listed
  have hc : (goodProfile t b now d f).tagCount = (kept t b).length := rfl
  rw [hc]
  apply List.ext_getElem
  · simp
  · intro i h1 h2
    have hi : i < (kept t b).length := by simpa using h1
    simp only [List.getElem_map, List.getElem_range, names_get t b now d f hv, offsets_get t b now d f hv,
      sizes_get t b now d f hv, if_pos hi, List.getElem?_eq_getElem hi, Option.map_some]
    rw [sigOf_toNat _ (kept_lt t b _ (List.getElem_mem hi)).1]

/-! ### Dependence on the bytes -/

theorem at_append (a c : List Byte) (o n : Nat) (h : o + n ≤ a.length) : at_ (a ++ c) o n = at_ a o n := by
  unfold at_
  apply List.map_congr_left
  intro i hi
  rw [List.mem_range] at hi
  simp only [List.getD_eq_getElem?_getD]
  rw [List.getElem?_append_left (by omega)]

theorem num_append (t : Target) (a c : List Byte) (o n : Nat) (h : o + n ≤ a.length) :
    num t (a ++ c) o n = num t a o n := by
  unfold num; rw [at_append a c o n h]

theorem at_congr {b b' : List Byte} {m o n : Nat} (hb : b.take m = b'.take m) (h : o + n ≤ m) :
    at_ b o n = at_ b' o n := by
  unfold at_
  apply List.map_congr_left
  intro i hi
  rw [List.mem_range] at hi
  simp only [List.getD_eq_getElem?_getD]
  have := congrArg (fun l => l[o + i]?) hb
  simp only [List.getElem?_take, if_pos (show o + i < m by omega)] at this
  rw [this]

theorem num_congr (t : Target) {b b' : List Byte} {m o n : Nat} (hb : b.take m = b'.take m) (h : o + n ≤ m) :
    num t b o n = num t b' o n := by
  unfold num; rw [at_congr hb h]

/-- Two files of equal length that agree up to the end of the directory. -/
theorem verdict_congr (t : Target) {b b' : List Byte} (hl : b.length = b'.length)
    (hb : b.take (132 + 12 * declared t b) = b'.take (132 + 12 * declared t b)) :
    verdict t b = verdict t b' ∧ kept t b = kept t b' ∧ (128 ≤ b.length → headerOf t b = headerOf t b') := by
  have hn : ∀ o n, o + n ≤ 132 → num t b o n = num t b' o n := fun o n h => num_congr t hb (by omega)
  have hdec : declared t b = declared t b' := hn 128 4 (by omega)
  have hen : ∀ i < declared t b, entry t b i = entry t b' i := by
    intro i hi
    unfold entry
    rw [num_congr t hb (by omega), num_congr t hb (by omega), num_congr t hb (by omega)]
  have hlim : limit t b = limit t b' := by unfold limit; rw [hn 0 4 (by omega), hl]
  have hkept : kept t b = kept t b' := by
    have e : (List.range (declared t b)).map (entry t b) = (List.range (declared t b')).map (entry t b') := by
      rw [← hdec]
      apply List.map_congr_left
      intro i hi
      exact hen i (List.mem_range.mp hi)
    unfold kept
    rw [hlim, e]
  have hpres : present b = present b' := by unfold present; rw [hl]
  have hov : Overflows t b ↔ Overflows t b' := by
    unfold Overflows
    rw [← hdec, ← hpres]
    constructor
    · rintro ⟨i, hi, h⟩
      exact ⟨i, hi, by rw [← hen i (by omega)]; exact h⟩
    · rintro ⟨i, hi, h⟩
      exact ⟨i, hi, by rw [hen i (by omega)]; exact h⟩
  have hdate : DateOk t b ↔ DateOk t b' := by
    unfold DateOk
    rw [hn 24 2 (by omega), hn 26 2 (by omega), hn 28 2 (by omega), hn 30 2 (by omega), hn 32 2 (by omega),
      hn 34 2 (by omega)]
  refine ⟨?_, hkept, ?_⟩
  · unfold verdict
    refine ite_congr (by rw [hl]) (fun _ => rfl) fun _ => ?_
    refine ite_congr (by rw [hn 36 4 (by omega)]) (fun _ => rfl) fun _ => ?_
    refine ite_congr (by rw [propext hdate]) (fun _ => rfl) fun _ => ?_
    refine ite_congr (by rw [hl]) (fun _ => rfl) fun _ => ?_
    refine ite_congr (by rw [hdec]) (fun _ => by rw [hdec]) fun _ => ?_
    refine ite_congr (by rw [propext hov]) (fun _ => rfl) fun _ => ?_
    exact ite_congr (by rw [hdec, hpres]) (fun _ => rfl) fun _ => by rw [hkept]
  · intro h128
    rw [headerOf_eq t b h128, headerOf_eq t b' (by omega)]
    have hm : ∀ o k, o + k ≤ 132 → memBytes b o k = memBytes b' o k := by
      intro o k h
      apply Vector.toList_inj.mp
      rw [memBytes_toList, memBytes_toList, at_congr hb (by omega)]
    rw [hn 0 4 (by omega), hn 4 4 (by omega), hn 8 4 (by omega), hn 12 4 (by omega), hn 16 4 (by omega),
      hn 20 4 (by omega), hn 24 2 (by omega), hn 26 2 (by omega), hn 28 2 (by omega), hn 30 2 (by omega),
      hn 32 2 (by omega), hn 34 2 (by omega), hn 36 4 (by omega), hn 40 4 (by omega), hn 44 4 (by omega),
      hn 48 4 (by omega), hn 52 4 (by omega), hn 56 8 (by omega), hn 64 4 (by omega), hn 68 4 (by omega),
      hn 72 4 (by omega), hn 76 4 (by omega), hn 80 4 (by omega), hm 84 16 (by omega), hm 100 28 (by omega)]

/-- The numbers of a file depend on the host only through the file byte order. -/
theorem num_host {t t' : Target} (h : t.leFeature = t'.leFeature) (b : List Byte) (o n : Nat) :
    num t b o n = num t' b o n := by
  unfold num fileValue; rw [h]

theorem kept_host {t t' : Target} (h : t.leFeature = t'.leFeature) (b : List Byte)
    (h1 : b.length < t.usizeMod) (h2 : b.length < t'.usizeMod) : kept t b = kept t' b := by
  unfold kept limit declared
  rw [Nat.mod_eq_of_lt h1, Nat.mod_eq_of_lt h2, num_host h, num_host h]
  have : entry t b = entry t' b := by
    funext i; unfold entry; rw [num_host h, num_host h, num_host h]
  rw [this]

theorem headerOf_host {t t' : Target} (h : t.leFeature = t'.leFeature) (b : List Byte) (hb : 128 ≤ b.length) :
    headerOf t b = headerOf t' b := by
  rw [headerOf_eq t b hb, headerOf_eq t' b hb]
  simp only [num_host h]

/-! ### Profile equality -/

theorem Profile.eq_iff {σ : Type} (p q : Profile σ) :
    p.eq q = true ↔ ({ p with io := none } : Profile σ) = { q with io := none } := by
  cases p; cases q
  simp only [Profile.eq, ProfileID.eq, Bool.and_eq_true, beq_iff_eq, Profile.mk.injEq, true_and]
  constructor
  · rintro ⟨⟨⟨⟨⟨⟨⟨⟨⟨⟨⟨⟨⟨⟨⟨⟨⟨⟨h1, h2⟩, h3⟩, h4⟩, h5⟩, h6⟩, h7⟩, h8⟩, h9⟩, h10⟩, h11⟩, h12⟩, h13⟩, h14⟩, h15⟩,
      h16⟩, h17⟩, h18⟩, h19⟩
    refine ⟨h1, h2, h3, h4, h5, h6, h7, h8, h9, h10, h11, ?_, h13, h14, h15, h16, h17, h18, h19⟩
    exact congrArg ProfileID.mk h12
  · rintro ⟨h1, h2, h3, h4, h5, h6, h7, h8, h9, h10, h11, h12, h13, h14, h15, h16, h17, h18, h19⟩
    exact ⟨⟨⟨⟨⟨⟨⟨⟨⟨⟨⟨⟨⟨⟨⟨⟨⟨⟨h1, h2⟩, h3⟩, h4⟩, h5⟩, h6⟩, h7⟩, h8⟩, h9⟩, h10⟩, h11⟩, by rw [h12]⟩, h13⟩, h14⟩,
      h15⟩, h16⟩, h17⟩, h18⟩, h19⟩

theorem goodProfile_eq {t t' : Target} {b b' : List Byte} (hh : headerOf t b = headerOf t' b')
    (hk : kept t b = kept t' b') (now now' d : NaiveDateTime) (f f' : OsFile) :
    (goodProfile t b now d f).eq (goodProfile t' b' now' d f') = true := by
  rw [Profile.eq_iff]
  unfold goodProfile onFile withTable filled
  rw [hh, hk]
  rfl

end Lcms
