import Verif.Lemmas.LiveFile
import Verif.Lemmas.Assemble
import Verif.Lemmas.AnyHandler
import Verif.Props.Open
import Verif.Props.Handlers

/-! # Property C114: reading a file that somebody rewrites meanwhile -/

namespace Lcms.Props

open Lcms.Spec

/-! ### A file at rest made of delivered bytes -/

section
variable (t : Target) (D : Nat) (hd cnt : List Byte) (ls : List (List Byte))

/-- The delivered bytes, in the order of a file, with the size field set to `D` and enough bytes behind them. -/
def atRest : List Byte :=
  fileBytes t 4 D ++ (hd.drop 4 ++ (cnt ++ (ls.flatten ++ zeros (D - (132 + 12 * ls.length)))))

variable {t D hd cnt ls}

theorem flatten_length (hl : ∀ l ∈ ls, l.length = 12) : ls.flatten.length = 12 * ls.length := by
  induction ls with
  | nil => rfl
  | cons l ls ih =>
    rw [List.flatten_cons, List.length_append, hl l (by simp), ih fun l h => hl l (by simp [h]), List.length_cons]
    omega

theorem atRest_length (h1 : hd.length = 128) (h2 : cnt.length = 4) (hl : ∀ l ∈ ls, l.length = 12) :
    (atRest t D hd cnt ls).length = max (132 + 12 * ls.length) D := by
  unfold atRest
  simp only [List.length_append, fileBytes_length, List.length_drop, h1, h2, flatten_length hl, zeros,
    List.length_replicate]
  omega

theorem atRest_get (h1 : hd.length = 128) (i : Nat) (hi : 4 ≤ i) (hi' : i < 128) :
    (atRest t D hd cnt ls)[i]? = hd[i]? := by
  unfold atRest
  rw [List.getElem?_append_right (by simpa using hi), fileBytes_length,
    List.getElem?_append_left (by simp only [List.length_drop]; omega), List.getElem?_drop]
  congr 1; omega

theorem atRest_get_cnt (h1 : hd.length = 128) (h2 : cnt.length = 4) (i : Nat) (hi : i < 4) :
    (atRest t D hd cnt ls)[128 + i]? = cnt[i]? := by
  unfold atRest
  rw [List.getElem?_append_right (by simp; omega), fileBytes_length,
    List.getElem?_append_right (by simp only [List.length_drop]; omega), List.length_drop, h1,
    List.getElem?_append_left (by omega), show 128 + i - 4 - (128 - 4) = i by omega]

theorem atRest_get_line (h1 : hd.length = 128) (h2 : cnt.length = 4) (i : Nat) (hi : i < ls.flatten.length) :
    (atRest t D hd cnt ls)[132 + i]? = ls.flatten[i]? := by
  unfold atRest
  rw [List.getElem?_append_right (by simp; omega), fileBytes_length,
    List.getElem?_append_right (by simp only [List.length_drop]; omega), List.length_drop, h1,
    List.getElem?_append_right (by omega), h2, List.getElem?_append_left (by omega),
    show 132 + i - 4 - (128 - 4) - 4 = i by omega]

theorem num_of_get (b b' : List Byte) (o o' n : Nat) (h : ∀ i < n, b[o + i]? = b'[o' + i]?) :
    num t b o n = num t b' o' n := by
  unfold num at_
  congr 1
  apply List.map_congr_left
  intro i hi
  simp only [List.getD_eq_getElem?_getD]
  rw [h i (List.mem_range.mp hi)]

theorem flatten_get (hl : ∀ l ∈ ls, l.length = 12) (j : Nat) (hj : j < ls.length) (k : Nat) (hk : k < 12) :
    ls.flatten[12 * j + k]? = ls[j][k]? := by
  induction ls generalizing j with
  | nil => simp at hj
  | cons l ls ih =>
    have hl0 := hl l (by simp)
    cases j with
    | zero =>
      rw [List.flatten_cons, List.getElem?_append_left (by omega)]
      simp
    | succ j =>
      rw [List.flatten_cons, List.getElem?_append_right (by omega), hl0,
        show 12 * (j + 1) + k - 12 = 12 * j + k by omega,
        ih (fun l h => hl l (by simp [h])) j (by simpa using hj)]
      simp

theorem atRest_header (h1 : hd.length = 128) (o n : Nat) (ho : 4 ≤ o) (hn : o + n ≤ 128) :
    num t (atRest t D hd cnt ls) o n = num t hd o n :=
  num_of_get _ _ _ _ _ fun i hi => atRest_get h1 (o + i) (by omega) (by omega)

theorem atRest_id (h1 : hd.length = 128) : at_ (atRest t D hd cnt ls) 84 16 = at_ hd 84 16 := by
  unfold at_
  apply List.map_congr_left
  intro i hi
  simp only [List.getD_eq_getElem?_getD]
  have := List.mem_range.mp hi
  rw [atRest_get h1 (84 + i) (by omega) (by omega)]

theorem atRest_size (hD : D < 2 ^ 32) : num t (atRest t D hd cnt ls) 0 4 = D := by
  unfold atRest
  rw [num_append _ _ _ _ _ (by simp)]
  unfold num
  rw [← slice_eq_at (by simp), slice_all _ _ (by simp), fileValue_fileBytes]
  exact Nat.mod_eq_of_lt hD

theorem atRest_entry (h1 : hd.length = 128) (h2 : cnt.length = 4) (hl : ∀ l ∈ ls, l.length = 12) (j : Nat)
    (hj : j < ls.length) : entry t (atRest t D hd cnt ls) j = lineOf t ls[j] := by
  have key : ∀ o, o + 4 ≤ 12 → num t (atRest t D hd cnt ls) (132 + 12 * j + o) 4 = num t ls[j] o 4 := by
    intro o ho
    apply num_of_get
    intro i hi
    rw [show 132 + 12 * j + o + i = 132 + (12 * j + (o + i)) by omega,
      atRest_get_line h1 h2 _ (by rw [flatten_length hl]; omega), flatten_get hl j hj _ (by omega)]
  unfold entry lineOf
  rw [show 132 + 12 * j = 132 + 12 * j + 0 by omega, show 136 + 12 * j = 132 + 12 * j + 4 by omega,
    show 140 + 12 * j = 132 + 12 * j + 8 by omega, key 0 (by omega), key 4 (by omega), key 8 (by omega)]

theorem atRest_verdict (h1 : hd.length = 128) (h2 : cnt.length = 4) (hl : ∀ l ∈ ls, l.length = 12)
    (hD : D < 2 ^ 32) (hm : num t hd 36 4 = acsp) (hdate : DateOk t hd) (hn : num t cnt 0 4 = ls.length)
    (h100 : ls.length ≤ 100)
    (hov : t.checks = true → ∀ l ∈ ls, (lineOf t l).offset + (lineOf t l).size < 2 ^ 32) :
    verdict t (atRest t D hd cnt ls) =
      .table ((ls.map (lineOf t)).filter fun e => e.offset + e.size ≤ D) := by
  have hlen := atRest_length (t := t) (D := D) h1 h2 hl
  have hdecl : declared t (atRest t D hd cnt ls) = ls.length := by
    rw [← hn]
    exact num_of_get _ _ _ _ _ fun i hi => by rw [atRest_get_cnt h1 h2 i hi, Nat.zero_add]
  have hmod : (atRest t D hd cnt ls).length < t.usizeMod := by
    rw [hlen]
    unfold Target.usizeMod Target.usizeBits
    split <;> omega
  have hlim : limit t (atRest t D hd cnt ls) = D := by
    unfold limit
    rw [Nat.mod_eq_of_lt hmod, atRest_size hD, hlen]
    omega
  have hpres : ls.length ≤ present (atRest t D hd cnt ls) := by
    unfold present
    rw [hlen]; omega
  have hkept : kept t (atRest t D hd cnt ls) = (ls.map (lineOf t)).filter fun e => e.offset + e.size ≤ D := by
    unfold kept
    rw [hdecl, hlim]
    congr 1
    apply List.ext_getElem
    · simp
    · intro i h h'
      simp only [List.getElem_map, List.getElem_range]
      exact atRest_entry h1 h2 hl i (by simpa using h)
  have hdate' : DateOk t (atRest t D hd cnt ls) := by
    unfold DateOk at hdate ⊢
    simpa only [atRest_header h1 24 2 (by omega) (by omega), atRest_header h1 26 2 (by omega) (by omega),
      atRest_header h1 28 2 (by omega) (by omega), atRest_header h1 30 2 (by omega) (by omega),
      atRest_header h1 32 2 (by omega) (by omega), atRest_header h1 34 2 (by omega) (by omega)] using hdate
  unfold verdict
  rw [if_neg (by omega), if_neg (by rw [atRest_header h1 36 4 (by omega) (by omega)]; exact not_not.mpr hm),
    if_neg (not_not.mpr hdate'), if_neg (by omega), if_neg (by omega), if_neg, if_neg (by omega), hkept]
  rintro ⟨hc, i, hi, hbig⟩
  have hi' : i < ls.length := by omega
  rw [atRest_entry h1 h2 hl i hi'] at hbig
  have := hov hc _ (List.getElem_mem hi')
  omega

theorem atRest_says {σ : Type} (h1 : hd.length = 128) (es : List Entry) (p : Profile σ) (h : Says t hd es p) :
    Says t (atRest t D hd cnt ls) es p := by
  have e := fun o n ho hn => atRest_header (t := t) (D := D) (cnt := cnt) (ls := ls) h1 o n ho hn
  constructor
  · rw [e _ _ (by omega) (by omega)]; exact h.version
  · rw [e _ _ (by omega) (by omega)]; exact h.deviceClass
  · rw [e _ _ (by omega) (by omega)]; exact h.colorSpace
  · rw [e _ _ (by omega) (by omega)]; exact h.pcs
  · rw [e _ _ (by omega) (by omega)]; exact h.year
  · rw [e _ _ (by omega) (by omega)]; exact h.month
  · rw [e _ _ (by omega) (by omega)]; exact h.day
  · rw [e _ _ (by omega) (by omega)]; exact h.hour
  · rw [e _ _ (by omega) (by omega)]; exact h.minute
  · rw [e _ _ (by omega) (by omega)]; exact h.second
  · exact h.frac
  · rw [e _ _ (by omega) (by omega)]; exact h.flags
  · rw [e _ _ (by omega) (by omega)]; exact h.manufacturer
  · rw [e _ _ (by omega) (by omega)]; exact h.model
  · rw [e _ _ (by omega) (by omega)]; exact h.attributes
  · rw [e _ _ (by omega) (by omega)]; exact h.renderingIntent
  · rw [e _ _ (by omega) (by omega)]; exact h.creator
  · rw [atRest_id h1]; exact h.profileId
  · exact h.tagCount
  · exact h.tagNames
  · exact h.tagOffsets
  · exact h.tagSizes
  · exact h.tagLinked
  · exact h.tagSaveAsRaw
  · exact h.readMode

end

/-! ### What a live file delivers -/

namespace Live

open LiveFile

theorem Later.world {s s' : LiveFile} (h : Later s s') {i : Nat} {x : Option Byte}
    (hx : ∃ k, (s'.world k)[i]? = x) : ∃ k, (s.world k)[i]? = x := by
  obtain ⟨-, n, hn⟩ := h
  obtain ⟨k, hk⟩ := hx
  exact ⟨n + k, by rw [← hn]; exact hk⟩

theorem loop (fuel : Nat) (rest : List Byte) (s s' : LiveFile) (l : List Byte)
    (h : readExactLoop fuel rest s = (.ok () s', l)) :
    Later s s' ∧ s'.pos = s.pos + rest.length ∧ ∀ i < rest.length, ∃ k, (s.world k)[s.pos + i]? = l[i]? := by
  induction fuel generalizing rest s l with
  | zero =>
    unfold readExactLoop at h
    split at h
    · rename_i hr; subst hr; cases h; exact ⟨Later.refl _, by simp, by simp⟩
    · cases h
  | succ fuel ih =>
    unfold readExactLoop at h
    split at h
    · rename_i hr; subst hr; cases h; exact ⟨Later.refl _, by simp, by simp⟩
    split at h
    · cases h
    split at h
    · rename_i s1 hs
      have hs1 : Later s s1 ∧ s1.pos = s.pos := by
        unfold sysRead at hs
        split at hs <;> cases hs
        exact ⟨later_pass s _ _, rfl⟩
      obtain ⟨a, b, c⟩ := ih _ _ _ h
      refine ⟨hs1.1.trans a, by rw [b, hs1.2], fun i hi => ?_⟩
      rw [hs1.2] at c
      exact Later.world hs1.1 (c i hi)
    · rename_i got s1 hs
      split at h
      · cases h
      have hs1 : Later s s1 ∧ s1.pos = s.pos + got.length ∧ got.length ≤ rest.length ∧
          ∀ i < got.length, (s.world 0)[s.pos + i]? = got[i]? := by
        unfold sysRead at hs
        split at hs
        · cases hs
        all_goals
          cases hs
          refine ⟨later_pass s _ _, rfl, by simp only [List.length_take, List.length_drop]; omega, fun i hi => ?_⟩
          rw [List.getElem?_take_of_lt (by simp only [List.length_take, List.length_drop] at hi; omega),
            List.getElem?_drop]
      obtain ⟨g1, g2, g3, g4⟩ := hs1
      cases hr : readExactLoop fuel (rest.drop got.length) s1 with
      | mk o l' =>
        rw [hr] at h
        simp only [Prod.mk.injEq] at h
        obtain ⟨rfl, rfl⟩ := h
        obtain ⟨a, b, c⟩ := ih _ _ _ hr
        rw [List.length_drop] at b c
        refine ⟨g1.trans a, by rw [b, g2]; omega, fun i hi => ?_⟩
        by_cases hig : i < got.length
        · exact ⟨0, by rw [g4 i hig, List.getElem?_append_left hig]⟩
        · rw [List.getElem?_append_right (by omega)]
          have := Later.world g1 (c (i - got.length) (by omega))
          rw [g2, show s.pos + got.length + (i - got.length) = s.pos + i by omega] at this
          exact this

theorem ask_live (t : Target) (n : Nat) (s s' : LiveFile) (l : List Byte) (h : ask (handler t) n s = .ok l s') :
    Later s s' ∧ s'.pos = s.pos + n ∧ ∀ i < n, ∃ k, (s.world k)[s.pos + i]? = l[i]? := by
  unfold ask at h
  cases hr : (handler t).read (List.replicate n 0) s with
  | mk o buf =>
    rw [hr] at h
    cases o with
    | err e x => cases h
    | panic => cases h
    | ok u x =>
      cases h
      have := loop _ _ _ _ _ hr
      simpa using this

theorem lines_live (t : Target) (n : Nat) (s s' : LiveFile) (ls : List (List Byte))
    (h : askLines (handler t) n s = (ls, .ok () s')) :
    ls.length = n ∧ (∀ l ∈ ls, l.length = 12) ∧
      ∀ i < ls.flatten.length, ∃ k, (s.world k)[s.pos + i]? = ls.flatten[i]? := by
  induction n generalizing s ls with
  | zero => cases h; simp
  | succ n ih =>
    unfold askLines at h
    cases ha : ask (handler t) 12 s with
    | err e x => rw [ha] at h; cases h
    | panic => rw [ha] at h; cases h
    | ok l x =>
      rw [ha] at h
      simp only [Prod.mk.injEq] at h
      obtain ⟨rfl, h⟩ := h
      have hl := ask_length ha
      obtain ⟨a, b, c⟩ := ask_live t 12 s x l ha
      obtain ⟨d, e, f⟩ := ih x _ (Prod.ext rfl h)
      refine ⟨by rw [List.length_cons, d], ?_, fun i hi => ?_⟩
      · intro l' hl'
        rcases List.mem_cons.mp hl' with rfl | hl'
        · exact hl
        · exact e _ hl'
      · rw [List.flatten_cons] at hi ⊢
        by_cases hi12 : i < 12
        · rw [List.getElem?_append_left (by omega)]; exact c i hi12
        · rw [List.getElem?_append_right (by omega), hl]
          rw [List.length_append] at hi
          have := Later.world a (f (i - 12) (Nat.sub_lt_left_of_lt_add (by omega) (hl ▸ hi)))
          rw [b, show s.pos + 12 + (i - 12) = s.pos + i by omega] at this
          exact this

theorem size_live (t : Target) (s s' : LiveFile) (n : Nat) (hp : s.pos = 128)
    (h : Reports (handler t) s n s') :
    Later s s' ∧ s'.pos = 128 ∧ ∃ k, n = (s.world k).length % t.usizeMod := by
  obtain ⟨here, s1, s2, s3, h1, h2, h3, h4⟩ := h
  replace h1 : Out.ok (s.pos % t.usizeMod) s.pass = .ok here s1 := h1
  rw [hp, Nat.mod_eq_of_lt (by unfold Target.usizeMod Target.usizeBits; split <;> norm_num)] at h1
  cases h1
  rw [handler_seek] at h2 h4
  unfold seek at h2
  have hz : (0 : Int64).toInt = 0 := rfl
  simp only [hz, Int.add_zero] at h2
  split at h2
  · cases h2
    rw [Int.toNat_natCast] at h3
    cases h3
    unfold seek at h4
    simp only [start_toInt 128 (by norm_num)] at h4
    rw [if_pos (by norm_num)] at h4
    cases h4
    refine ⟨⟨rfl, 4, fun k => ?_⟩, rfl, 1, rfl⟩
    show s.world (k + 1 + 1 + 1 + 1) = s.world (4 + k)
    congr 1; omega
  · cases h2

end Live

/-! ### C114 -/

/-- A file, just opened for reading, whose contents change as `w` says. -/
def watched (w : Nat → List Byte) (sched : List OsResp) : LiveFile := ⟨w, 0, true, sched⟩

/-- Reading the header of a profile from it. -/
def seeing (t : Target) (env : Handlers) (now : NaiveDateTime) (ctx : CState) (sched : List OsResp)
    (w : Nat → List Byte) : POutOf LiveFile Unit :=
  Profile.readHeaderThr t (LiveFile.handler t) env (fresh now (watched w sched) ctx)

/-- **C114**, full statement: a file that is rewritten in place, in one step, while its header is being read, is
read as if it had been at rest before or after. -/
def C114_statement : Prop :=
  ∀ (t : Target) (env : Handlers) (now : NaiveDateTime) (ctx : CState) (b b' : List Byte) (n : Nat)
    (sched : List OsResp),
    let live := seeing t env now ctx sched fun k => if k < n then b else b'
    SameReading live (seeing t env now ctx sched fun _ => b) ∨
      SameReading live (seeing t env now ctx sched fun _ => b')

/-- The year in the header and the sizes of the tags, if the header could be read. -/
def gist {σ : Type} : POutOf σ Unit → Option (Int × List Nat)
  | .ok _ s => some (s.prof.created.date.year, s.prof.tagSizes.take s.prof.tagCount)
  | _ => none

theorem gist_same {σ τ : Type} {r : POutOf σ Unit} {r' : POutOf τ Unit} (h : SameReading r r') : gist r = gist r' := by
  cases r <;> cases r' <;> try exact h.elim
  · obtain ⟨h, -⟩ := h
    rename_i s _ s'
    show some (s.prof.strip.created.date.year, s.prof.strip.tagSizes.take s.prof.strip.tagCount) = some
      (s'.prof.strip.created.date.year, s'.prof.strip.tagSizes.take s'.prof.strip.tagCount)
    rw [h]
  · rfl
  · rfl

/-- A new version of `goodFile`: another year, other tags. -/
def revised : List Byte :=
  sample 180 [0x07, 0xE8, 0, 7, 0, 25, 0, 0, 0, 5, 0, 37] 2 [(0x64657363, 156, 12), (0x41324230, 168, 6)] (zeros 24)

/-- What is read if system calls number `n` and later see the new version. -/
def tornAt (n : Nat) : Option (Int × List Nat) :=
  gist (seeing pc quiet noon ctx0 [] fun k => if k < n then goodFile else revised)

/-- What is read of a file at rest. -/
def still (b : List Byte) : Option (Int × List Nat) :=
  gist (seeing pc quiet noon ctx0 [] fun _ => b)

theorem still_old : still goodFile = some (2007, [4, 8]) := by decide +kernel

theorem still_new : still revised = some (2024, [12, 6]) := by decide +kernel

/-- The old header with the new directory. -/
theorem torn_directory : tornAt 1 = some (2007, [12, 6]) := by decide +kernel

/-- One line of the old directory, two of the new one (the last of which are data). -/
example : tornAt 7 = some (2007, [4, 6, 0]) := by decide +kernel

theorem gist_of (h : C114_statement) (b b' : List Byte) (n : Nat) :
    gist (seeing pc quiet noon ctx0 [] fun k => if k < n then b else b') =
        gist (seeing pc quiet noon ctx0 [] fun _ => b) ∨
      gist (seeing pc quiet noon ctx0 [] fun k => if k < n then b else b') =
        gist (seeing pc quiet noon ctx0 [] fun _ => b') :=
  (h pc quiet noon ctx0 b b' n []).imp gist_same gist_same

/-- If the header is read before and the directory after the change, the profile has parts of both files, and no
error is reported. -/
theorem C114_refuted : ¬ C114_statement := by
  intro h
  have e : tornAt 1 = still goodFile ∨ tornAt 1 = still revised := gist_of h goodFile revised 1
  rw [torn_directory, still_old, still_new] at e
  exact absurd e (by decide)

/-- **C114**, what holds, however often and in whatever way the file changes: the profile read is the profile of some
file `b` at rest, one that opens, of which nothing is invented: from the size field to the end of the directory it has
bytes that the file had at these places at some time, and its size field is the smaller of a size that was in
the file and the length of the file at some time.  (No field is fetched twice.) -/
theorem C114_rest_partial (t : Target) (env : Handlers) (now : NaiveDateTime) (ctx : CState)
    (w : Nat → List Byte) (sched : List OsResp) (st : PStateOf LiveFile)
    (hst : seeing t env now ctx sched w = .ok () st) :
    ∃ b es, b.length < 2 ^ 32 ∧ verdict t b = .table es ∧ Says t b es st.prof ∧
      (∀ i, 4 ≤ i → i < 132 + 12 * declared t b → ∃ k x, (w k)[i]? = some x ∧ b[i]? = some x) ∧
      ∃ f k, num t b 0 4 = min (num t f 0 4) ((w k).length % t.usizeMod) ∧
        ∀ i < 4, ∃ k x, (w k)[i]? = some x ∧ f[i]? = some x := by
  have hr : Reading t (LiveFile.handler t) env (watched w sched) ctx
      (seeing t env now ctx sched w) :=
    readHeader_any t _ env now _ ctx
  obtain ⟨hd, s1, size, s2, cnt, s3, ls, s4, a1, a2, a3, a4, a5, a6, a7, a8, -, a9⟩ := hr.success _ _ hst
  obtain ⟨b1, b2, b3⟩ := Live.ask_live t _ _ _ _ a1
  obtain ⟨c1, c2, c3⟩ := Live.size_live t s1 s2 size b2 ((reportedSize_reports ..).mp a3)
  obtain ⟨d1, d2, d3⟩ := Live.ask_live t _ _ _ _ a5
  obtain ⟨e1, e2, e3⟩ := Live.lines_live t _ _ _ _ a7
  have h1 := ask_length a1
  have h2 := ask_length a5
  have hz : (watched w sched).pos = 0 := rfl
  obtain ⟨D, hD⟩ : ∃ D, D = min (num t hd 0 4) size := ⟨_, rfl⟩
  have hD32 : D < 2 ^ 32 := by have := num_lt t hd 0 4; omega
  have hv := atRest_verdict (D := D) h1 h2 e2 hD32 a2 a4 e1.symm (by omega) a8
  rw [← hD] at a9
  have hlen := atRest_length (t := t) (D := D) h1 h2 e2
  have hdecl : declared t (atRest t D hd cnt ls) = ls.length := by
    rw [e1]
    exact num_of_get _ _ _ _ _ fun i hi => by rw [atRest_get_cnt h1 h2 i hi, Nat.zero_add]
  refine ⟨atRest t D hd cnt ls, _, by omega, hv, atRest_says h1 _ _ a9, fun i hi hi' => ?_, hd, ?_⟩
  · rw [hdecl] at hi'
    have hx : (atRest t D hd cnt ls)[i]? = some ((atRest t D hd cnt ls)[i]'(by omega)) :=
      List.getElem?_eq_getElem _
    suffices hk : ∃ k, (w k)[i]? = (atRest t D hd cnt ls)[i]? by
      obtain ⟨k, hk⟩ := hk
      exact ⟨k, _, hk.trans hx, hx⟩
    by_cases hi1 : i < 128
    · rw [atRest_get h1 i hi hi1]
      have := b3 i hi1
      rwa [hz, Nat.zero_add] at this
    by_cases hi2 : i < 132
    · have := Live.Later.world (b1.trans c1) (d3 (i - 128) (by omega))
      rw [← atRest_get_cnt (t := t) (D := D) (ls := ls) h1 h2 (i - 128) (by omega), c2,
        show 128 + (i - 128) = i by omega] at this
      exact this
    · have := Live.Later.world ((b1.trans c1).trans d1)
        (e3 (i - 132) (by rw [flatten_length e2]; omega))
      rw [← atRest_get_line (t := t) (D := D) h1 h2 (i - 132) (by rw [flatten_length e2]; omega), d2, c2,
        show 128 + 4 + (i - 132) = i by omega] at this
      exact this
  · obtain ⟨k, hk⟩ := c3
    obtain ⟨-, m, hm⟩ := b1
    rw [hm] at hk
    refine ⟨m + k, ?_, fun i hi => ?_⟩
    · rw [atRest_size hD32, hD, hk]; rfl
    · obtain ⟨k, hk⟩ := b3 i (by omega)
      rw [hz, Nat.zero_add] at hk
      have hx : hd[i]? = some (hd[i]'(by omega)) := List.getElem?_eq_getElem _
      exact ⟨k, _, hk.trans hx, hx⟩

/-- The reading above with lines of both directories is that of a file at rest with three tags in that order. -/
example : ∃ b es, verdict pc b = .table es ∧ es.map Entry.size = [4, 6, 0] := by
  have h : tornAt 7 = some (2007, [4, 6, 0]) := by decide +kernel
  unfold tornAt at h
  cases hr : seeing pc quiet noon ctx0 [] fun k => if k < 7 then goodFile else revised with
  | err e st => rw [hr] at h; cases h
  | panic st => rw [hr] at h; cases h
  | ok u st =>
    obtain ⟨b, es, -, hv, hs, -⟩ := C114_rest_partial pc quiet noon ctx0 _ [] st hr
    refine ⟨b, es, hv, ?_⟩
    rw [hr] at h
    have h' := congrArg (fun o => o.map Prod.snd) h
    simp only [gist, Option.map_some, Option.some.injEq] at h'
    rw [hs.tagSizes, hs.tagCount] at h'
    unfold column at h'
    rw [← h', List.take_append_of_le_length (by simp), List.take_of_length_le (by simp)]

end Lcms.Props
