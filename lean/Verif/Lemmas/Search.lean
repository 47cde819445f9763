import Verif.Lemmas.Open

/-! # Lemmas: looking up tags -/

namespace Lcms

open Lcms.Spec

theorem searchOneFrom_spec (p : Profile) (sig : Signature) (k : Nat) :
    ∀ i, i + k ≤ p.tagNames.length →
      match p.searchOneFrom sig i k with
      | .some j => i ≤ j ∧ j < i + k ∧ p.tagNames[j]? = some sig ∧ ∀ m, i ≤ m → m < j → p.tagNames[m]? ≠ some sig
      | .none => ∀ m, i ≤ m → m < i + k → p.tagNames[m]? ≠ some sig
      | .panic => False := by
  induction k with
  | zero =>
    intro i _
    rw [Profile.searchOneFrom]
    intro m h1 h2
    omega
  | succ k ih =>
    intro i hi
    rw [Profile.searchOneFrom, List.getElem?_eq_getElem (by omega)]
    simp only
    by_cases hs : sig = p.tagNames[i]
    · rw [if_pos hs]
      simp only
      refine ⟨le_refl _, by omega, ?_, fun m h1 h2 => by omega⟩
      rw [List.getElem?_eq_getElem (by omega), ← hs]
    · rw [if_neg hs]
      have hh := ih (i + 1) (by omega)
      have hne : p.tagNames[i]? ≠ some sig := by
        rw [List.getElem?_eq_getElem (by omega)]
        intro h
        exact hs (Option.some.inj h).symm
      cases hr : p.searchOneFrom sig (i + 1) k with
      | some j =>
        rw [hr] at hh
        simp only at hh ⊢
        refine ⟨by omega, by omega, hh.2.2.1, fun m h1 h2 => ?_⟩
        rcases Nat.lt_or_eq_of_le h1 with h | h
        · exact hh.2.2.2 m h h2
        · subst h; exact hne
      | none =>
        rw [hr] at hh
        simp only at hh ⊢
        intro m h1 h2
        rcases Nat.lt_or_eq_of_le h1 with h | h
        · exact hh m h (by omega)
        · subst h; exact hne
      | panic => rw [hr] at hh; exact hh

/-- The name in cell `i` of an opened profile. -/
theorem names_iff {t : Target} {b : List Byte} (now d : NaiveDateTime) (f : OsFile)
    (hv : verdict t b = .table (kept t b)) (sig : Signature) (i : Nat) (hi : i < (kept t b).length) :
    (goodProfile t b now d f).tagNames[i]? = some sig ↔ (kept t b)[i].name = sig.val.toNat := by
  rw [names_get t b now d f hv, if_pos hi, List.getElem?_eq_getElem hi]
  have hlt := (kept_lt t b _ (List.getElem_mem hi)).1
  simp only [Option.map_some, Option.some.injEq]
  constructor
  · intro h
    rw [← h, sigOf_toNat _ hlt]
  · intro h
    rw [h]
    unfold sigOf
    rw [UInt32.ofNat_toNat]

end Lcms
