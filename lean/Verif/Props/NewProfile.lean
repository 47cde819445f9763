import Verif.Lemmas.Assemble
import Verif.Props.DateTime
import Verif.Props.Table
import Verif.Spec.NewProfile

/-! # Property C111: what a new profile contains -/

namespace Lcms.Props

open Lcms.Spec

theorem at_zero_iff (t : Target) (b : List Byte) (o n : Nat) :
    at_ b o n = List.replicate n 0 ↔ num t b o n = num t [] o n := by
  rw [num_eq_iff]
  have : at_ [] o n = List.replicate n 0 := by simp [at_]
  rw [this]

theorem num_nil (t : Target) (o n : Nat) : num t [] o n = 0 := by
  have h : at_ [] o n = List.replicate n (0 : Byte) := by simp [at_]
  have m : ∀ n, msbFirst (List.replicate n 0) = 0 := by
    intro n
    unfold msbFirst
    induction n with
    | zero => rfl
    | succ n ih => rw [List.replicate_succ, List.foldl_cons]; simpa using ih
  unfold num
  rw [h]
  unfold fileValue lsbFirst
  rw [List.reverse_replicate, m]
  split <;> rfl

theorem zeros_iff (t : Target) (b : List Byte) (o n : Nat) : at_ b o n = List.replicate n 0 ↔ num t b o n = 0 := by
  rw [at_zero_iff t, num_nil]

/-- The zero runs of a blank header, field by field. -/
theorem zero_fields (t : Target) (b : List Byte) :
    (at_ b 44 24 = List.replicate 24 0 ∧ at_ b 80 20 = List.replicate 20 0) ↔
      (num t b 44 4 = 0 ∧ num t b 48 4 = 0 ∧ num t b 52 4 = 0 ∧ num t b 56 8 = 0 ∧ num t b 64 4 = 0) ∧
        num t b 80 4 = 0 ∧ at_ b 84 16 = List.replicate 16 0 := by
  simp only [← zeros_iff t]
  have s1 := at_add b 44 4 20
  have s2 := at_add b 48 4 16
  have s3 := at_add b 52 4 12
  have s4 := at_add b 56 8 4
  have s5 := at_add b 80 4 16
  norm_num only at s1 s2 s3 s4 s5
  rw [s1, s2, s3, s4, s5]
  have split : ∀ (x y : List Byte) (m n : Nat), x.length = m →
      (x ++ y = List.replicate (m + n) 0 ↔ x = List.replicate m 0 ∧ y = List.replicate n 0) := by
    intro x y m n hx
    rw [List.replicate_add]
    exact ⟨fun h => List.append_inj h (by simpa using hx), fun h => by rw [h.1, h.2]⟩
  rw [split _ _ 4 20 (at_length ..), split _ _ 4 16 (at_length ..), split _ _ 4 12 (at_length ..),
    split _ _ 8 4 (at_length ..), split _ _ 4 16 (at_length ..)]

theorem ofNaive_congr {a b : NaiveDateTime} (h1 : a.date.year = b.date.year) (h2 : a.date.month = b.date.month)
    (h3 : a.date.day = b.date.day) (h4 : a.time.hour = b.time.hour) (h5 : a.time.minute = b.time.minute)
    (h6 : a.time.second = b.time.second) : DateTimeNumber.ofNaive a = DateTimeNumber.ofNaive b := by
  unfold DateTimeNumber.ofNaive NaiveDate.yearCe
  rw [h1, h2, h3, h4, h5, h6]

/-- **C111**: a new profile has no tags, whatever number or name one asks for, no handler, and cannot be read;
two new profiles are equal exactly if they were made at the same instant. -/
theorem C111_new {σ : Type} (t : Target) (h : Handler σ) (env : Handlers) (ctx : CState) (now now' : NaiveDateTime) :
    let p : Profile σ := Profile.new now
    p.getTagCount = 0 ∧ (∀ n, (p.getTagSignature n).map (fun s => s.val.toNat) = some 0x20202020) ∧
    p.getIoHandler = none ∧ (∀ sig, p.searchOneTag sig = .none) ∧
    (∀ follow n sig, p.searchTag follow (n + 1) sig = some .none) ∧
    Profile.readHeaderThr t h env ⟨p, ctx⟩ = .err .invalidData ⟨p, ctx⟩ ∧
    (p.eq (Profile.new now') = true ↔ now = now') := by
  intro p
  refine ⟨rfl, ?_, rfl, fun _ => rfl, fun _ _ _ => rfl, rfl, ?_⟩
  · intro n
    show Option.map _ (if n > 0 then some Signature.default else (List.replicate 100 Signature.default)[n]?) = _
    by_cases hn : n > 0
    · rw [if_pos hn]; rfl
    · rw [if_neg hn]
      have : n = 0 := by omega
      subst this; rfl
  · rw [(C46_equality).2.2.2]
    constructor
    · rintro ⟨io, h⟩
      exact (congrArg Profile.created h).symm
    · rintro rfl
      exact ⟨none, rfl⟩

/-- **C111**: a profile read from a file is equal to a new one exactly if the header says nothing beyond version
2.1 and the date, and no tag is listed. -/
theorem C111_blank (t : Target) (env : Handlers) (now now' : NaiveDateTime) (sched : List OsResp) (ctx : CState)
    (fs : FS) (path : Path) (b : List Byte) (hlen : b.length < 9223372036854775808)
    (hfile : fs.files path = some b) (p : Profile)
    (h : (openFromFileThr t env now' sched ctx fs path .read).1 = .ok p)
    (hwf : now.WF) (hy : 1 ≤ now.date.year) (hy' : now.date.year ≤ 65535) :
    p.eq (Profile.new now) = true ↔ BlankHeader t b now ∧ kept t b = [] := by
  obtain ⟨d, f, hv, hd, h1, h2, h3, rfl⟩ := openRead_ok hlen hfile h
  have g := (good_describes hv now' d f h1 h2 h3 hd).toSays
  have hc : (goodProfile t b now' d f).created = d := rfl
  generalize goodProfile t b now' d f = p at *
  rw [(C46_equality).2.2.2]
  have hz := zero_fields t b
  constructor
  · rintro ⟨io, he⟩
    have c : ∀ {α : Type} (q : Profile → α), q { p with io := io } = q (Profile.new now) := fun q =>
      congrArg q he.symm
    have cr : p.created = now := c (fun p => p.created)
    obtain ⟨z1, z2⟩ := hz.mpr ⟨⟨g.flags ▸ congrArg UInt32.toNat (c (fun p => p.flags)),
      g.manufacturer ▸ congrArg UInt32.toNat (c (fun p => p.manufacturer)),
      g.model ▸ congrArg UInt32.toNat (c (fun p => p.model)),
      g.attributes ▸ congrArg UInt64.toNat (c (fun p => p.attributes)),
      g.renderingIntent ▸ congrArg UInt32.toNat (c (fun p => p.renderingIntent))⟩,
      g.creator ▸ congrArg UInt32.toNat (c (fun p => p.creator)),
      g.profileId ▸ congrArg (fun x : ProfileID => x.id8.toList) (c (fun p => p.profileId))⟩
    refine ⟨{ version := g.version ▸ congrArg UInt32.toNat (c (fun p => p.version))
              deviceClass := g.deviceClass ▸ congrArg (fun s : Signature => s.val.toNat) (c (fun p => p.deviceClass))
              colorSpace := g.colorSpace ▸ congrArg (fun s : Signature => s.val.toNat) (c (fun p => p.colorSpace))
              pcs := g.pcs ▸ congrArg (fun s : Signature => s.val.toNat) (c (fun p => p.pcs))
              year := by rw [← g.year, cr]
              month := by rw [← g.month, cr]
              day := by rw [← g.day, cr]
              hour := by rw [← g.hour, cr]
              minute := by rw [← g.minute, cr]
              second := by rw [← g.second, cr]
              frac := by rw [← cr]; exact g.frac
              zero1 := z1, zero2 := z2 }, ?_⟩
    have hn : p.tagCount = 0 := c (fun p => p.tagCount)
    rw [g.tagCount] at hn
    exact List.length_eq_zero_iff.mp hn
  · rintro ⟨hb, hk⟩
    refine ⟨none, ?_⟩
    rw [hk] at g
    obtain ⟨⟨z1, z2, z3, z4, z5⟩, z6, z7⟩ := hz.mp ⟨hb.zero1, hb.zero2⟩
    have sg : ∀ {x y : Signature}, x.val.toNat = y.val.toNat → x = y := by
      rintro ⟨x⟩ ⟨y⟩ h
      exact congrArg Signature.mk (UInt32.toNat_inj.mp h)
    have e1 := g.year.trans hb.year
    have ed : d = now := by
      have hyn : (headerOf t b).date.year ≠ 0 := by
        intro h0
        by_cases hvd : ValidDate (headerOf t b).date.year.toNat (headerOf t b).date.month.toNat
            (headerOf t b).date.day.toNat ∧
          ValidTime (headerOf t b).date.hours.toNat (headerOf t b).date.minutes.toNat (headerOf t b).date.seconds.toNat
        · obtain ⟨n, hn, hny, -⟩ := (C32_date_conversion _).1 hvd
          rw [hd] at hn
          rw [hc, Option.some.inj hn, hny, h0] at e1
          simp at e1
          omega
        · rw [(C32_date_conversion _).2 hvd] at hd
          cases hd
      have e := ofNaive_congr (hc ▸ e1) (hc ▸ g.month.trans hb.month) (hc ▸ g.day.trans hb.day)
        (hc ▸ g.hour.trans hb.hour) (hc ▸ g.minute.trans hb.minute) (hc ▸ g.second.trans hb.second)
      rw [(C33_round_trip_partial _ _ hd).1.mpr hyn] at e
      have := C34_naive_round_trip now hwf hy hy'
      rw [← e, hd] at this
      rw [Option.some.inj this]
      obtain ⟨n1, n2, n3⟩ := now
      have := hb.frac
      simp only at this
      subst this
      rfl
    have names : ∀ l : List Signature, l.map (fun s => s.val.toNat) = List.replicate 100 0x20202020 →
        l = List.replicate 100 Signature.default := by
      intro l hl
      rw [List.eq_replicate_iff] at hl ⊢
      exact ⟨by simpa using hl.1, fun x hx => sg (hl.2 _ (List.mem_map_of_mem hx))⟩
    have links : ∀ l : List (Option Signature), l.map (Option.map fun s => s.val.toNat) = List.replicate 100 none →
        l = List.replicate 100 none := by
      intro l hl
      rw [List.eq_replicate_iff] at hl ⊢
      exact ⟨by simpa using hl.1, fun x hx => Option.map_eq_none_iff.mp (hl.2 _ (List.mem_map_of_mem hx))⟩
    have n32 : ∀ {x y : UInt32}, x.toNat = y.toNat → x = y := UInt32.toNat_inj.mp
    have f1 := n32 (y := 0x02100000) (g.version.trans hb.version)
    have f2 := sg (y := Signature.default) (g.deviceClass.trans hb.deviceClass)
    have f3 := sg (y := Signature.default) (g.colorSpace.trans hb.colorSpace)
    have f4 := sg (y := Signature.default) (g.pcs.trans hb.pcs)
    have f5 := n32 (y := 0) (g.flags.trans z1)
    have f6 := n32 (y := 0) (g.manufacturer.trans z2)
    have f7 := n32 (y := 0) (g.model.trans z3)
    have f8 := UInt64.toNat_inj.mp ((g.attributes.trans z4 : _ = (0 : UInt64).toNat))
    have f9 := n32 (y := 0) (g.renderingIntent.trans z5)
    have f10 := n32 (y := 0) (g.creator.trans z6)
    have f11 : p.profileId = ProfileID.zero := by
      have := g.profileId.trans z7
      cases hp : p.profileId
      rw [hp] at this
      unfold ProfileID.zero
      rw [ProfileID.mk.injEq, ← Vector.toList_inj, this]
      rfl
    have f12 := g.tagCount
    have f13 := names _ g.tagNames
    have f14 := links _ g.tagLinked
    have f15 := g.tagOffsets
    have f16 := g.tagSizes
    have f17 := g.tagSaveAsRaw
    have f18 := g.readMode
    rw [ed] at hc
    cases p
    simp only at f1 f2 f3 f4 f5 f6 f7 f8 f9 f10 f11 f12 f13 f14 f15 f16 f17 f18 hc
    subst f1 f2 f3 f4 f5 f6 f7 f8 f9 f10 f11 f12 f13 f14 f15 f16 f17 f18 hc
    rfl

/-- A file with nothing in it but a date: 2007-07-25 00:05:37. -/
def blankFile : List Byte :=
  be4 132 ++ zeros 4 ++ be4 0x02100000 ++ be4 0x20202020 ++ be4 0x20202020 ++ be4 0x20202020 ++ goodDate ++
    be4 0x61637370 ++ zeros 92

/-- It is read as the profile made at that time, not as one made a second later; the sample file is not. -/
example :
    (match (openFromFileThr pc quiet noon [] ctx0 (oneFile [] blankFile) [] .read).1 with
      | .ok p => p.eq (Profile.new ⟨⟨2007, 206⟩, ⟨337, 0⟩⟩) && !p.eq (Profile.new ⟨⟨2007, 206⟩, ⟨338, 0⟩⟩)
      | _ => false) = true ∧
    (match (openFromFileThr pc quiet noon [] ctx0 (oneFile [] goodFile) [] .read).1 with
      | .ok p => p.eq (Profile.new ⟨⟨2007, 206⟩, ⟨337, 0⟩⟩)
      | _ => true) = false := by
  decide +kernel

end Lcms.Props
