import Verif.Model.Testing
import Verif.Lemmas.Debug
import Verif.Lemmas.DateTime
import Verif.Props.OwnTests

/-! # Property C102: the files of the repository's tests do not collide -/

namespace Lcms.Props

open Lcms.Spec

theorem split_first {α : Type} (x : α) : ∀ (s s' a a' : List α), x ∉ s → x ∉ s' →
    s ++ x :: a = s' ++ x :: a' → s = s' ∧ a = a'
  | [], [], a, a', _, _, h => ⟨rfl, (List.cons.inj h).2⟩
  | [], y :: s', a, a', _, h2, h => absurd (List.cons.inj h).1 (fun e => h2 (by rw [e]; exact List.mem_cons_self))
  | y :: s, [], a, a', h1, _, h => absurd (List.cons.inj h).1.symm (fun e => h1 (by rw [e]; exact List.mem_cons_self))
  | y :: s, z :: s', a, a', h1, h2, h => by
    obtain ⟨e1, e2⟩ := List.cons.inj h
    obtain ⟨e3, e4⟩ := split_first x s s' a a' (fun m => h1 (List.mem_cons_of_mem _ m))
      (fun m => h2 (List.mem_cons_of_mem _ m)) e2
    exact ⟨by rw [e1, e3], e4⟩

theorem split_last {α : Type} (x : α) (a a' s s' : List α) (h1 : x ∉ s) (h2 : x ∉ s')
    (h : a ++ [x] ++ s = a' ++ [x] ++ s') : a = a' ∧ s = s' := by
  have h' := congrArg List.reverse h
  simp only [List.reverse_append, List.reverse_cons, List.nil_append, List.append_assoc,
    List.cons_append] at h'
  have := split_first x s.reverse s'.reverse a.reverse a'.reverse (by simpa) (by simpa) h'
  exact ⟨List.reverse_injective this.2, List.reverse_injective this.1⟩

theorem decimal_not_mem (n : Nat) (c : Char) (hc : c.isDigit = false) : c ∉ decimal n := by
  intro h
  rw [decimal_digits n c h] at hc
  cases hc

/-- The same millisecond. -/
def SameMilli (a b : NaiveDateTime) : Prop :=
  a.date = b.date ∧ a.time.secs = b.time.secs ∧ a.time.frac / 1000000 = b.time.frac / 1000000

theorem date_of_parts (a b : NaiveDate) (ha1 : 1 ≤ a.ordinal)
    (ha2 : a.ordinal ≤ if IsLeap a.year then 366 else 365) (hb1 : 1 ≤ b.ordinal)
    (hb2 : b.ordinal ≤ if IsLeap b.year then 366 else 365) (hy : a.year = b.year) (hm : a.month = b.month)
    (hd : a.day = b.day) : a = b := by
  rw [← daysBefore_13] at ha2 hb2
  obtain ⟨y, o⟩ := a
  obtain ⟨y', o'⟩ := b
  simp only at hy ha1 ha2 hb1 hb2
  subst hy
  obtain ⟨m, d, h1, h2, h3, h4, rfl⟩ := ordinal_cases y o ha1 ha2
  obtain ⟨m', d', h1', h2', h3', h4', rfl⟩ := ordinal_cases y o' hb1 hb2
  rw [(month_day y m d h1 h2 h3 h4).1, (month_day y m' d' h1' h2' h3' h4').1] at hm
  rw [(month_day y m d h1 h2 h3 h4).2, (month_day y m' d' h1' h2' h3' h4').2] at hd
  rw [hm, hd]

/-- A directory with its separator. -/
def withSep (d : Path) : Path := if d = [] ∨ d.getLast? = some '/' then d else d ++ ['/']

theorem push_rel (d file : Path) (h : file.head? ≠ some '/') : Path.push d file = withSep d ++ file := by
  unfold Path.push withSep
  rw [if_neg h]
  split
  · rfl
  · rw [List.append_assoc]; rfl

theorem tempFileName_head (name : Str) (now : NaiveDateTime) : (tempFileName name now).head? = some 'l' := rfl

/-- **C102**: two calls of `get_temp_file_path` (in one process, so with one `temp_dir()`) name the same file
exactly if they give the same test name in the same millisecond — whatever characters the names contain. -/
theorem C102_names (dir : Path) (name name' : Str) (now now' : NaiveDateTime) (h : now.WF) (h' : now'.WF) :
    getTempFilePath dir name now = getTempFilePath dir name' now' ↔ name = name' ∧ SameMilli now now' := by
  constructor
  · intro e
    have hl : ∀ name now, (tempFileName name now).head? ≠ some '/' := fun name now => by
      rw [tempFileName_head]; decide
    unfold getTempFilePath at e
    rw [push_rel _ _ (hl name now), push_rel _ _ (hl name' now')] at e
    have e1 := List.append_cancel_left e
    unfold tempFileName at e1
    have hdash : ∀ n, '-' ∉ decimal n := fun n => decimal_not_mem n '-' (by decide)
    have e2 := List.append_cancel_right e1
    obtain ⟨e3, f7⟩ := split_last '-' _ _ _ _ (hdash _) (hdash _) e2
    obtain ⟨e4, f6⟩ := split_last '-' _ _ _ _ (hdash _) (hdash _) e3
    obtain ⟨e5, f5⟩ := split_last '-' _ _ _ _ (hdash _) (hdash _) e4
    obtain ⟨e6, f4⟩ := split_last '-' _ _ _ _ (hdash _) (hdash _) e5
    obtain ⟨e7, f3⟩ := split_last '-' _ _ _ _ (hdash _) (hdash _) e6
    obtain ⟨e8, f2⟩ := split_last '-' _ _ _ _ (hdash _) (hdash _) e7
    have hline : ∀ n, '_' ∉ decimalInt n := by
      intro n hn
      unfold decimalInt at hn
      split at hn
      · rcases List.mem_cons.mp hn with hc | hc
        · revert hc; decide
        · exact decimal_not_mem _ '_' (by decide) hc
      · exact decimal_not_mem _ '_' (by decide) hn
    obtain ⟨e9, f1⟩ := split_last '_' _ _ _ _ (hline _) (hline _) e8
    have g6 := decimal_inj f6
    have g5 := decimal_inj f5
    have g4 := decimal_inj f4
    unfold NaiveTime.second at g6
    unfold NaiveTime.minute at g5
    unfold NaiveTime.hour at g4
    exact ⟨List.append_cancel_left e9, date_of_parts _ _ h.ord_pos h.ord_le h'.ord_pos h'.ord_le (decimalInt_inj f1) (decimal_inj f2)
      (decimal_inj f3), by omega, decimal_inj f7⟩
  · rintro ⟨rfl, hd, hs, hf⟩
    unfold getTempFilePath tempFileName NaiveTime.hour NaiveTime.minute NaiveTime.second NaiveTime.millis
    rw [hd, hs, hf]

/-- A leap second is not confused with the second after it. -/
example : tempFileName "t".toList ⟨⟨2016, 366⟩, ⟨86399, 1500000000⟩⟩ = "lcms2.rs_t_2016-12-31-23-59-59-1500.dat".toList ∧
    tempFileName "t".toList ⟨⟨2017, 1⟩, ⟨0, 500000000⟩⟩ = "lcms2.rs_t_2017-1-1-0-0-0-500.dat".toList := by
  decide +kernel

/-- **C102**: the file lies in the temporary directory, if the test name has no separator. -/
theorem C102_place (dir : Path) (name : Str) (now : NaiveDateTime) (hname : '/' ∉ name) :
    ∃ base, '/' ∉ base ∧ base ≠ [] ∧
      (getTempFilePath dir name now = dir ++ base ∧ (dir = [] ∨ dir.getLast? = some '/') ∨
        getTempFilePath dir name now = dir ++ "/".toList ++ base) := by
  have hne : tempFileName name now ≠ [] := by
    intro h
    have := tempFileName_head name now
    rw [h] at this
    cases this
  refine ⟨tempFileName name now, ?_, hne, ?_⟩
  · have hd : ∀ n, '/' ∉ decimal n := fun n => decimal_not_mem n '/' (by decide)
    have hy : '/' ∉ decimalInt now.date.year := by
      intro hn
      unfold decimalInt at hn
      split at hn
      · rcases List.mem_cons.mp hn with hc | hc
        · revert hc; decide
        · exact hd _ hc
      · exact hd _ hn
    unfold tempFileName
    simp only [List.mem_append, not_or]
    refine ⟨⟨⟨⟨⟨⟨⟨⟨⟨⟨⟨⟨⟨⟨⟨⟨?_, hname⟩, ?_⟩, hy⟩, ?_⟩, hd _⟩, ?_⟩, hd _⟩, ?_⟩, hd _⟩, ?_⟩, hd _⟩, ?_⟩, hd _⟩, ?_⟩, hd _⟩, ?_⟩ <;>
      decide
  · unfold getTempFilePath
    rw [push_rel _ _ (by rw [tempFileName_head]; decide)]
    unfold withSep
    split
    · rename_i h; exact .inl ⟨rfl, h⟩
    · exact .inr rfl

theorem put_other (fs : FS) (p q : Path) (b : List UInt8) (h : q ≠ p) : (fs.put p b).files q = fs.files q := by
  unfold FS.put
  simp only
  rw [if_neg h]

/-- **C102**: while a test writes its file and reads it back, other tests (with other names) may write to
theirs, at any times, any number of times: `test_file_writes_data_to_disk` and
`test_file_reads_data_from_disk` still find what they wrote. -/
theorem C102_isolated (t : Target) (fs : FS) (dir : Path) (name : Str) (now : NaiveDateTime) (hnow : now.WF)
    (others : List (Str × NaiveDateTime × List UInt8)) (hothers : ∀ o ∈ others, o.1 ≠ name ∧ o.2.1.WF)
    (buf old : List UInt8) (sc1 sc2 : List OsResp)
    (hc : fs.mayCreate (getTempFilePath dir name now) = none)
    (hr : fs.mayRead (getTempFilePath dir name now) = none) (hlen : old.length = buf.length) :
    ∃ f f', fs.create (getTempFilePath dir name now) sc1 = .ok f ∧ (OsFile.handler t).write buf f = .ok () f' ∧
      ∃ g g', (others.foldl (fun fs o => fs.put (getTempFilePath dir o.1 o.2.1) o.2.2)
          (fs.put (getTempFilePath dir name now) f'.data)).open (getTempFilePath dir name now) sc2 = .ok g ∧
        (OsFile.handler t).read old g = (.ok () g', buf) := by
  obtain ⟨f, f', h1, h2, g, g', h3, h4⟩ := C96_write_read_test t fs _ buf old sc1 sc2 hc hr hlen
  refine ⟨f, f', h1, h2, g, g', ?_, h4⟩
  rw [← h3]
  have key : ∀ (os : List (Str × NaiveDateTime × List UInt8)) (fs : FS), (∀ o ∈ os, o.1 ≠ name ∧ o.2.1.WF) →
      let fs' := os.foldl (fun fs o => fs.put (getTempFilePath dir o.1 o.2.1) o.2.2) fs
      fs'.files (getTempFilePath dir name now) = fs.files (getTempFilePath dir name now) ∧ fs'.mayRead = fs.mayRead := by
    intro os
    induction os with
    | nil => intro fs _; exact ⟨rfl, rfl⟩
    | cons o os ih =>
      intro fs ho
      have hne : getTempFilePath dir name now ≠ getTempFilePath dir o.1 o.2.1 := by
        intro e
        exact (ho o List.mem_cons_self).1
          ((C102_names dir name o.1 now o.2.1 hnow (ho o List.mem_cons_self).2).mp e).1.symm
      have hi := ih (fs.put (getTempFilePath dir o.1 o.2.1) o.2.2) (fun o' h => ho o' (List.mem_cons_of_mem _ h))
      exact ⟨hi.1.trans (put_other fs _ _ _ hne), hi.2⟩
  have hk := key others (fs.put (getTempFilePath dir name now) f'.data) hothers
  unfold FS.open
  rw [hk.1, hk.2]

/-- The ten names in src/io/file_file.rs are different from each other. -/
example : (["test_file_tell_reports_correct_location", "test_file_writes_data_to_disk-42u64",
    "test_file_writes_data_to_disk-69u32", "test_file_writes_data_to_disk-123u16", "test_file_writes_data_to_disk-7u8",
    "test_file_reads_data_from_disk-42u64", "test_file_reads_data_from_disk-69u32",
    "test_file_reads_data_from_disk-123u16", "test_file_reads_data_from_disk-7u8",
    "test_file_seeks_to_the_correct_location"].map String.toList).Nodup := by decide +kernel

/-- **C102**: a resource named by a relative path is looked up below `resources/test` of the package; an
absolute path is taken as it is. -/
theorem C102_resource (root file : Path) :
    (file.head? = some '/' → getTestResourcePath root file = file) ∧
    (file.head? ≠ some '/' → getTestResourcePath root file =
      Path.push root "resources/test/".toList ++ file) := by
  constructor
  · intro h
    unfold getTestResourcePath
    rw [Path.push, if_pos h]
  · intro h
    unfold getTestResourcePath
    rw [push_rel _ _ h, push_rel root _ (by decide), push_rel root _ (by decide)]
    generalize withSep root = r
    rw [withSep, if_neg]
    · rw [show "resources/test/".toList = "resources/test".toList ++ ['/'] from rfl]
      simp only [List.append_assoc]
    · rintro (h0 | h0)
      · exact nomatch (List.append_eq_nil_iff.mp h0).2
      · rw [List.getLast?_append, show "resources/test".toList.getLast? = some 't' from rfl] at h0
        cases h0

example : getTestResourcePath "/repo".toList "sRGB_v4_ICC_preference.icc".toList =
    "/repo/resources/test/sRGB_v4_ICC_preference.icc".toList := by decide +kernel

end Lcms.Props
