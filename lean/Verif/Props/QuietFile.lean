import Verif.Model.LiveFile
import Verif.Spec.Target

/-!
# Property C110, continued: a file that nobody changes

Reading through a handle to a file that others may change is the same as reading through `File` as long as nobody does
(src/io/file_file.rs:5-28).
-/

namespace Lcms.Props

/-- The handle `f`, whose file stays as it is. -/
def unmoved (f : OsFile) : LiveFile := ⟨fun _ => f.data, f.pos, f.readable, f.sched⟩

/-- The same outcome, with the handle seen that way. -/
def unmovedOut {α : Type} : Out OsFile α → Out LiveFile α
  | .ok a f => .ok a (unmoved f)
  | .err e f => .err e (unmoved f)
  | .panic => .panic

theorem unmoved_loop (fuel : Nat) (rest : List Byte) (f : OsFile) :
    LiveFile.readExactLoop fuel rest (unmoved f) =
      (unmovedOut (OsFile.readExactLoop fuel rest f).1, (OsFile.readExactLoop fuel rest f).2) := by
  induction fuel generalizing rest f with
  | zero =>
    unfold LiveFile.readExactLoop OsFile.readExactLoop
    split <;> rfl
  | succ fuel ih =>
    unfold LiveFile.readExactLoop OsFile.readExactLoop
    by_cases h1 : rest = []
    · rw [if_pos h1, if_pos h1]
      rfl
    rw [if_neg h1, if_neg h1]
    by_cases h2 : f.readable = false
    · rw [if_pos h2, if_pos (show (unmoved f).readable = false from h2)]
      rfl
    rw [if_neg h2, if_neg (show ¬ (unmoved f).readable = false from h2)]
    obtain ⟨data, pos, readable, writable, sched⟩ := f
    have step : ∀ (got : List Byte) (g : OsFile),
        (if got = [] then ((.err .unexpectedEof (unmoved g) : Out LiveFile Unit), rest)
          else ((LiveFile.readExactLoop fuel (rest.drop got.length) (unmoved g)).1,
            got ++ (LiveFile.readExactLoop fuel (rest.drop got.length) (unmoved g)).2)) =
        (unmovedOut (if got = [] then ((.err .unexpectedEof g : Out OsFile Unit), rest)
          else ((OsFile.readExactLoop fuel (rest.drop got.length) g).1,
            got ++ (OsFile.readExactLoop fuel (rest.drop got.length) g).2)).1,
          (if got = [] then ((.err .unexpectedEof g : Out OsFile Unit), rest)
          else ((OsFile.readExactLoop fuel (rest.drop got.length) g).1,
            got ++ (OsFile.readExactLoop fuel (rest.drop got.length) g).2)).2) := by
      intro got g
      split
      · rfl
      · rw [ih]
    rcases sched with - | ⟨- | c, more⟩
    · exact step ((data.drop pos).take rest.length) ⟨data, pos + ((data.drop pos).take rest.length).length, readable, writable, []⟩
    · exact ih rest ⟨data, pos, readable, writable, more⟩
    · exact step ((data.drop pos).take (min rest.length (c + 1)))
        ⟨data, pos + ((data.drop pos).take (min rest.length (c + 1))).length, readable, writable, more⟩

/-- **C110**, undisturbed: reading, seeking (from the start, the end and the position) and asking for the position do the
same through either handle, whatever the operating system does, and leave the same handle. -/
theorem C110_undisturbed (t : Target) (f : OsFile) :
    (∀ buf, (LiveFile.handler t).read buf (unmoved f) =
      (unmovedOut ((OsFile.handler t).read buf f).1, ((OsFile.handler t).read buf f).2)) ∧
    (∀ p, (LiveFile.handler t).seek p (unmoved f) = unmovedOut ((OsFile.handler t).seek p f)) ∧
    (LiveFile.handler t).tell (unmoved f) = unmovedOut ((OsFile.handler t).tell f) := by
  refine ⟨fun buf => unmoved_loop _ _ _, fun p => ?_, rfl⟩
  show LiveFile.seek p (unmoved f) = unmovedOut (OsFile.seek p f)
  have key : ∀ q : Int,
      (if 0 ≤ q ∧ q < 9223372036854775808 then (.ok () { (unmoved f).pass with pos := q.toNat } : Out LiveFile Unit)
        else .err .invalidInput (unmoved f).pass) =
      unmovedOut (if 0 ≤ q ∧ q < 9223372036854775808 then .ok () { f with pos := q.toNat } else .err .invalidInput f) := by
    intro q
    split <;> rfl
  cases p <;> exact key _

/-- Two bytes back from position 3 of a file of 4 bytes, then a read in two pieces. -/
example : (LiveFile.handler pc).seek (.current (-2)) (unmoved ⟨[10, 20, 30, 40], 3, true, false, [.chunk 0, .interrupted]⟩) =
      .ok () (unmoved ⟨[10, 20, 30, 40], 1, true, false, [.chunk 0, .interrupted]⟩) ∧
    ((LiveFile.handler pc).read [0, 0] (unmoved ⟨[10, 20, 30, 40], 1, true, false, [.chunk 0, .interrupted]⟩)).2 = [20, 30] := by
  constructor
  · rw [(C110_undisturbed _ _).2.1]
    rfl
  · rw [(C110_undisturbed _ _).1]
    decide +kernel

end Lcms.Props
