import Verif.Lemmas.DateTime

/-!
# Properties C32-C34: ICC dates
-/

namespace Lcms.Props

open Lcms Spec

/-- **C32**: the conversion returns exactly the named moment when it exists and panics otherwise. -/
theorem C32_date_conversion (d : DateTimeNumber) :
    (ValidDate d.year.toNat d.month.toNat d.day.toNat ∧
        ValidTime d.hours.toNat d.minutes.toNat d.seconds.toNat →
      ∃ n, d.toNaive = some n ∧ n.date.year = d.year.toNat ∧ n.date.month = d.month.toNat ∧
        n.date.day = d.day.toNat ∧ n.time.hour = d.hours.toNat ∧ n.time.minute = d.minutes.toNat ∧
        n.time.second = d.seconds.toNat ∧ n.time.frac = 0 ∧ n.WF) ∧
    (¬ (ValidDate d.year.toNat d.month.toNat d.day.toNat ∧
        ValidTime d.hours.toNat d.minutes.toNat d.seconds.toNat) → d.toNaive = none) := by
  constructor
  · rintro ⟨hd, ht⟩
    have hd0 := hd
    obtain ⟨h1, h2, h3, h4⟩ := hd0
    obtain ⟨t1, t2, t3⟩ := ht
    have hs := daysBefore_succ d.year.toNat d.month.toNat h1 h2
    obtain ⟨k1, k2⟩ := month_day d.year.toNat d.month.toNat d.day.toNat h1 h2 h3 (by omega)
    refine ⟨⟨⟨d.year.toNat, daysBefore d.year.toNat d.month.toNat + d.day.toNat⟩,
      ⟨d.hours.toNat * 3600 + d.minutes.toNat * 60 + d.seconds.toNat, 0⟩⟩, ?_, rfl, k1, k2, ?_, ?_, ?_, rfl,
      ?_, ?_, ?_⟩
    · unfold DateTimeNumber.toNaive
      rw [fromYmd_eq, if_pos hd]
      unfold NaiveDate.andHms
      exact if_pos ⟨by omega, by omega, by omega⟩
    · simp only [NaiveTime.hour]; omega
    · simp only [NaiveTime.minute]; omega
    · simp only [NaiveTime.second]; omega
    · dsimp only; omega
    · dsimp only
      rw [← daysBefore_13]
      have := daysBefore_mono d.year.toNat (d.month.toNat + 1) (12 - d.month.toNat) (by omega) (by omega)
      rw [show d.month.toNat + 1 + (12 - d.month.toNat) = 13 by omega] at this
      omega
    · dsimp only; omega
  · intro h
    unfold DateTimeNumber.toNaive
    rw [fromYmd_eq]
    by_cases hd : ValidDate d.year.toNat d.month.toNat d.day.toNat
    · rw [if_pos hd]
      unfold NaiveDate.andHms
      apply if_neg
      rintro ⟨a, b, c⟩
      exact h ⟨hd, by unfold ValidTime; omega⟩
    · rw [if_neg hd]

/-- 29 February 2000 exists, 29 February 1900 does not, and the zero date of many files does not. -/
example : (DateTimeNumber.toNaive ⟨2000, 2, 29, 23, 59, 59⟩).isSome = true ∧
    DateTimeNumber.toNaive ⟨1900, 2, 29, 0, 0, 0⟩ = none ∧
    DateTimeNumber.toNaive ⟨0, 0, 0, 0, 0, 0⟩ = none ∧
    (DateTimeNumber.toNaive ⟨2007, 7, 25, 0, 5, 37⟩).map (fun n => (n.date.month, n.date.day, n.time.second))
      = some (7, 25, 37) := by decide

/-- **C33** as one would state it. -/
def C33_statement : Prop :=
  ∀ (d : DateTimeNumber) (n : NaiveDateTime), d.toNaive = some n → DateTimeNumber.ofNaive n = d

/-- **C33** is violated: year 0 comes back as year 1 (`year_ce` counts 1 BCE as 1). -/
theorem C33_refuted : ¬ C33_statement := by
  intro h
  have := h ⟨0, 1, 1, 0, 0, 0⟩ ⟨⟨0, 1⟩, ⟨0, 0⟩⟩ (by decide)
  exact absurd this (by decide)

/-- **C33**, what holds: the round trip is the identity exactly for the years from 1 on; in year 0 only the year
changes (to 1). -/
theorem C33_round_trip_partial (d : DateTimeNumber) (n : NaiveDateTime) (h : d.toNaive = some n) :
    (DateTimeNumber.ofNaive n = d ↔ d.year ≠ 0) ∧
    (d.year = 0 → DateTimeNumber.ofNaive n = { d with year := 1 }) := by
  have hv : ValidDate d.year.toNat d.month.toNat d.day.toNat ∧
      ValidTime d.hours.toNat d.minutes.toNat d.seconds.toNat := by
    by_contra hc
    rw [(C32_date_conversion d).2 hc] at h; cases h
  obtain ⟨n', h', hy, hm, hd, hh, hmi, hs, _, _⟩ := (C32_date_conversion d).1 hv
  rw [h] at h'; cases h'
  have key : DateTimeNumber.ofNaive n = { d with year := UInt16.ofNat n.date.yearCe } := by
    unfold DateTimeNumber.ofNaive
    rw [hm, hd, hh, hmi, hs]; simp
  have hz : d.year = 0 ↔ d.year.toNat = 0 := by
    rw [← UInt16.toNat_inj]; simp
  constructor
  · rw [key]
    constructor
    · intro he hc
      have hce := congrArg DateTimeNumber.year he
      simp only [NaiveDate.yearCe, hy, hc] at hce
      exact absurd hce (by decide)
    · intro hne
      have h0 : d.year.toNat ≠ 0 := fun h0 => hne (hz.mpr h0)
      have : n.date.yearCe = d.year.toNat := by
        unfold NaiveDate.yearCe; rw [hy, if_neg (by omega)]; simp
      rw [this]; simp
  · intro hc
    rw [key]
    have : n.date.yearCe = 1 := by
      unfold NaiveDate.yearCe; rw [hy, hz.mp hc]; simp
    rw [this]; rfl

example : ∃ n, DateTimeNumber.toNaive ⟨2024, 12, 31, 23, 59, 58⟩ = some n ∧
    DateTimeNumber.ofNaive n = ⟨2024, 12, 31, 23, 59, 58⟩ :=
  ⟨⟨⟨2024, 366⟩, ⟨86398, 0⟩⟩, by decide⟩

/-- **C34**: from chrono and back, for the years an ICC date can hold, only the fraction of the second is lost. -/
theorem C34_naive_round_trip (n : NaiveDateTime) (hwf : n.WF) (h1 : 1 ≤ n.date.year)
    (h2 : n.date.year ≤ 65535) :
    (DateTimeNumber.ofNaive n).toNaive = some ⟨n.date, ⟨n.time.secs, 0⟩⟩ := by
  obtain ⟨⟨y, o⟩, ⟨s, f⟩⟩ := n
  obtain ⟨w1, w2, w3⟩ := hwf
  dsimp only at *
  rw [← daysBefore_13] at w2
  obtain ⟨m, d, m1, m2, d1, hle, ho⟩ := ordinal_cases y o w1 w2
  subst ho
  obtain ⟨k1, k2⟩ := month_day y m d m1 m2 d1 hle
  have hs := daysBefore_succ y m m1 m2
  have hd31 : daysIn y m ≤ 31 := by unfold daysIn; split_ifs <;> omega
  have ey : (UInt16.ofNat (NaiveDate.yearCe ⟨y, daysBefore y m + d⟩)).toNat = y.toNat := by
    unfold NaiveDate.yearCe; rw [if_neg (by dsimp only; omega)]
    simp only [UInt16.toNat_ofNat']; omega
  have em : (UInt16.ofNat m).toNat = m := by rw [UInt16.toNat_ofNat']; omega
  have ed : (UInt16.ofNat d).toNat = d := by rw [UInt16.toNat_ofNat']; omega
  have eh : (UInt16.ofNat (s / 60 / 60)).toNat = s / 60 / 60 := by rw [UInt16.toNat_ofNat']; omega
  have emi : (UInt16.ofNat (s / 60 % 60)).toNat = s / 60 % 60 := by rw [UInt16.toNat_ofNat']; omega
  have es : (UInt16.ofNat (s % 60)).toNat = s % 60 := by rw [UInt16.toNat_ofNat']; omega
  have eyi : ((y.toNat : Nat) : Int) = y := by omega
  have hv : ValidDate y m d := ⟨m1, m2, d1, by omega⟩
  simp only [DateTimeNumber.toNaive, DateTimeNumber.ofNaive, NaiveTime.hour, NaiveTime.minute,
    NaiveTime.second, k1, k2, ey, em, ed, eh, emi, es, eyi, fromYmd_eq, hv, if_true, NaiveDate.andHms]
  rw [if_pos (by omega)]
  congr 3; omega

example : (⟨⟨2026, 320⟩, ⟨86399, 1500000000⟩⟩ : NaiveDateTime).WF ∧
    DateTimeNumber.ofNaive ⟨⟨2026, 320⟩, ⟨86399, 1500000000⟩⟩ = ⟨2026, 11, 16, 23, 59, 59⟩ := by
  refine ⟨⟨by decide, by decide, by decide⟩, by decide⟩

end Lcms.Props
