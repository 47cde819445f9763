import Verif.Model.CursorLate
import Verif.Props.Client
import Verif.Props.Handlers

/-! # Property C116: `FileMem` does not show the version of the standard library -/

namespace Lcms.Props

open Lcms.Spec

/-- The same handler on the older and on the newer library. -/
def Versions (t : Target) (h k : Handler Mem) : Prop :=
  h = Mem.vec t ∧ k = Mem.vecLate t ∨ h = Mem.fixed t ∧ k = Mem.fixedLate t

/-- A program that, after a `read` that failed, ends or seeks to a place counted from the start before it does
anything else. -/
def Tidy {α : Type} : Client α → Prop
  | .call op k => (∀ o, Tidy (k o)) ∧
      ∀ buf e b, op = .read buf → match k (.readErr e b) with
        | .call (.seek (.start _)) _ => True
        | .call _ _ => False
        | _ => True
  | _ => True

/-- Two runs end alike: the same value with the same handler, or the same error with the same buffer. -/
def EndAlike {α : Type} : Out Mem α → Out Mem α → Prop
  | .ok a s, .ok a' s' => a = a' ∧ s = s'
  | .err e s, .err e' s' => e = e' ∧ s.buf = s'.buf
  | .panic, .panic => True
  | _, _ => False

/-- `m` on the older library and `m'` on the newer one end alike, from every state. -/
def Agree {α : Type} (m m' : M Mem α) : Prop := ∀ s, EndAlike (m s) (m' s)

private theorem endAlike_refl {α : Type} (o : Out Mem α) : EndAlike o o := by cases o <;> simp [EndAlike]

theorem versions_others {t : Target} {h k : Handler Mem} (v : Versions t h k) :
    h.seek = k.seek ∧ h.tell = k.tell ∧ h.write = k.write := by
  rcases v with ⟨rfl, rfl⟩ | ⟨rfl, rfl⟩ <;> exact ⟨rfl, rfl, rfl⟩

/-- What the two `read`s do: the same, unless there are too few bytes. -/
theorem versions_read {t : Target} {h k : Handler Mem} (v : Versions t h k) (b : List UInt8) (s : Mem) :
    (∃ got, h.read b s = (.ok () ⟨s.buf, s.pos + b.length⟩, got) ∧ k.read b s = (.ok () ⟨s.buf, s.pos + b.length⟩, got)) ∨
    (h.read b s = (.err .unexpectedEof s, b) ∧ k.read b s = (.err .unexpectedEof ⟨s.buf, s.buf.length⟩, b)) := by
  have e : h.read = Mem.readExact ∧ k.read = Mem.readExactLate := by
    rcases v with ⟨rfl, rfl⟩ | ⟨rfl, rfl⟩ <;> exact ⟨rfl, rfl⟩
  rw [e.1, e.2]
  unfold Mem.readExact Mem.readExactLate
  simp only
  split
  · exact Or.inr ⟨rfl, rfl⟩
  · exact Or.inl ⟨_, rfl, rfl⟩

private theorem agree_bind {α β : Type} {m m' : M Mem α} {f f' : α → M Mem β} (hm : Agree m m')
    (hf : ∀ a, Agree (f a) (f' a)) : Agree (m >>= f) (m' >>= f') := by
  intro s
  rw [M.bind_apply, M.bind_apply]
  have := hm s
  cases h1 : m s <;> cases h2 : m' s <;> rw [h1, h2] at this <;> simp only [EndAlike] at this
  · obtain ⟨rfl, rfl⟩ := this
    exact hf _ _
  · exact this
  · trivial

private theorem agree_rfl {α : Type} (m : M Mem α) : Agree m m := fun _ => endAlike_refl _

private theorem agree_readBuf {t : Target} {h k : Handler Mem} (v : Versions t h k) (n : Nat) :
    Agree (readBuf h n) (readBuf k n) := by
  intro s
  unfold readBuf
  rcases versions_read v (zeros n) s with ⟨got, e1, e2⟩ | ⟨e1, e2⟩
  · rw [e1, e2]; exact ⟨rfl, rfl⟩
  · rw [e1, e2]; exact ⟨rfl, rfl⟩

private theorem agree_size {t : Target} {h k : Handler Mem} (v : Versions t h k) :
    Agree (reportedSize h) (reportedSize k) := by
  have e : reportedSize h = reportedSize k := by
    funext s
    obtain ⟨e1, e2, -⟩ := versions_others v
    unfold reportedSize
    rw [e1, e2]
  rw [e]
  exact agree_rfl _

private theorem agree_write {t : Target} {h k : Handler Mem} (v : Versions t h k) (b : List Byte) :
    Agree (h.write b) (k.write b) := by
  rw [(versions_others v).2.2]
  exact agree_rfl _

private theorem agree_u32 {t : Target} {h k : Handler Mem} (v : Versions t h k) : Agree (readU32 t h) (readU32 t k) :=
  agree_bind (agree_readBuf v 4) fun _ => agree_rfl _

private theorem agree_u16 {t : Target} {h k : Handler Mem} (v : Versions t h k) : Agree (readU16 t h) (readU16 t k) :=
  agree_bind (agree_readBuf v 2) fun _ => agree_rfl _

private theorem agree_s15 {t : Target} {h k : Handler Mem} (v : Versions t h k) :
    Agree (readS15f16 t h) (readS15f16 t k) :=
  agree_bind (agree_u32 v) fun _ => agree_rfl _

/-- **C116** Every provided method of `IOHandler` gives on the newer library what it gives on the older one: the same
value or error, the same buffer, and after a success the same position; for arrays also the same items. -/
theorem C116_methods (t : Target) (h k : Handler Mem) (v : Versions t h k) :
    Agree (reportedSize h) (reportedSize k) ∧ Agree (readU8 h) (readU8 k) ∧ Agree (readU16 t h) (readU16 t k) ∧
    Agree (readU32 t h) (readU32 t k) ∧ Agree (readF32 t h) (readF32 t k) ∧ Agree (readU64 t h) (readU64 t k) ∧
    Agree (readS15f16 t h) (readS15f16 t k) ∧ Agree (readXyz t h) (readXyz t k) ∧
    (∀ xs s, EndAlike (readU16Array t h xs s).1 (readU16Array t k xs s).1 ∧
      (readU16Array t h xs s).2 = (readU16Array t k xs s).2) ∧
    (∀ x, Agree (writeU8 h x) (writeU8 k x)) ∧ (∀ x, Agree (writeU16 t h x) (writeU16 t k x)) ∧
    (∀ x, Agree (writeU32 t h x) (writeU32 t k x)) ∧ (∀ x, Agree (writeF32 t h x) (writeF32 t k x)) ∧
    (∀ x, Agree (writeU64 t h x) (writeU64 t k x)) ∧ (∀ x, Agree (writeS15f16 t h x) (writeS15f16 t k x)) ∧
    (∀ x, Agree (writeXyz t h x) (writeXyz t k x)) ∧ ∀ xs, Agree (writeU16Array t h xs) (writeU16Array t k xs) := by
  refine ⟨agree_size v, agree_bind (agree_readBuf v 1) fun _ => agree_rfl _, agree_u16 v, agree_u32 v,
    agree_bind (agree_u32 v) fun _ => agree_rfl _, agree_bind (agree_readBuf v 8) fun _ => agree_rfl _, agree_s15 v,
    agree_bind (agree_s15 v) fun _ => agree_bind (agree_s15 v) fun _ => agree_bind (agree_s15 v) fun _ => agree_rfl _,
    ?_, fun _ => agree_write v _, fun _ => agree_write v _, fun _ => agree_write v _, fun _ => agree_write v _,
    fun _ => agree_write v _, fun _ => agree_write v _,
    fun _ => agree_bind (agree_write v _) fun _ => agree_bind (agree_write v _) fun _ => agree_write v _, ?_⟩
  · intro xs
    induction xs with
    | nil => intro s; exact ⟨⟨rfl, rfl⟩, rfl⟩
    | cons x xs ih =>
      intro s
      have := agree_u16 v s
      simp only [readU16Array]
      cases h1 : readU16 t h s <;> cases h2 : readU16 t k s <;> rw [h1, h2] at this <;> simp only [EndAlike] at this
      · obtain ⟨rfl, rfl⟩ := this
        obtain ⟨i1, i2⟩ := ih ‹Mem›
        exact ⟨i1, congrArg (List.cons _) i2⟩
      · exact ⟨this, rfl⟩
      · exact ⟨trivial, rfl⟩
  · intro xs
    induction xs with
    | nil => exact agree_rfl _
    | cons x xs ih => exact agree_bind (agree_write v _) fun _ => ih

/-- The outcome of a whole program: the position is not looked at. -/
def SameBuffer {α : Type} (o o' : Out Mem α) : Prop := seen Mem.buf o = seen Mem.buf o'

/-- **C116** A tidy program gets the same result from `FileMem` on both libraries and leaves the same buffer. -/
theorem C116_programs {α : Type} (t : Target) (h k : Handler Mem) (v : Versions t h k) (c : Client α) (hc : Tidy c)
    (s : Mem) : SameBuffer (c.run (hstep h) s) (c.run (hstep k) s) := by
  obtain ⟨o1, o2, o3⟩ := versions_others v
  induction c generalizing s with
  | done a => rfl
  | fail e => rfl
  | panic => rfl
  | call op f ih =>
    obtain ⟨hc1, hc2⟩ := hc
    by_cases hr : ∃ buf, op = .read buf
    · obtain ⟨buf, rfl⟩ := hr
      rcases versions_read v buf s with ⟨got, e1, e2⟩ | ⟨e1, e2⟩
      · simp only [Client.run, hstep, e1, e2, obsRead]
        exact ih _ (hc1 _) _
      · simp only [Client.run, hstep, e1, e2, obsRead]
        have h2 := hc2 buf .unexpectedEof buf rfl
        have h1 := hc1 (.readErr .unexpectedEof buf)
        have ih' := ih (.readErr .unexpectedEof buf) h1
        generalize f (.readErr .unexpectedEof buf) = c at h1 h2 ih'
        obtain ⟨b, p⟩ := s
        cases c with
        | done a => rfl
        | fail e => rfl
        | panic => rfl
        | call op g =>
          match op, h2 with
          | .seek (.start n), _ =>
            have e : ∀ p, k.seek (.start n) ⟨b, p⟩ = .ok () ⟨b, n.toNat⟩ := by
              intro p
              rcases v with ⟨rfl, rfl⟩ | ⟨rfl, rfl⟩ <;> rfl
            have := ih' ⟨b, p⟩
            simp only [Client.run, hstep, e, o1, obsUnit] at this ⊢
            exact this
    · have e : hstep h op s = hstep k op s := by
        cases op with
        | read buf => exact absurd ⟨buf, rfl⟩ hr
        | write b => simp only [hstep, o3]
        | seek p => simp only [hstep, o1]
        | tell => simp only [hstep, o2]
        | size =>
          simp only [hstep]
          have : reportedSize h = reportedSize k := by
            funext s; unfold reportedSize; rw [o1, o2]
          rw [this]
      simp only [Client.run, e]
      cases hk : hstep k op s with
      | mk o r =>
        cases r with
        | none => rfl
        | some s' => exact ih _ (hc1 _) _

/-- **C116** Reading a profile from memory: the same result, error, profile, context and signals. -/
theorem C116_profiles (t : Target) (h k : Handler Mem) (v : Versions t h k) (env : Handlers) (now : NaiveDateTime)
    (ctx : CState) (s : Mem) :
    SameReading (Profile.readHeaderThr t h env (fresh now s ctx)) (Profile.readHeaderThr t k env (fresh now s ctx)) := by
  have hrel : ∀ {α : Type} (m m' : M Mem α), Agree m m' → ∀ x y : Mem, x = y → OutRel Eq (fun _ => False) (m x) (m' y) := by
    rintro α m m' ha x _ rfl
    have := ha x
    cases h1 : m x <;> cases h2 : m' x <;> rw [h1, h2] at this <;> simp only [EndAlike] at this
    · exact this
    · obtain ⟨rfl, _⟩ := this
      exact Or.inr ⟨_, rfl⟩
    · trivial
  have ha : Lcms.Alike h k Eq (fun _ => False) := ⟨fun n _ => hrel _ _ (agree_readBuf v n)⟩
  have hh : PRel Eq (fun _ => False) (Profile.readHeaderIo t h env) (Profile.readHeaderIo t k env) :=
    readHeaderIo_rel t env ha fun header =>
      (PRel.onIo (hrel _ _ (agree_size v))).bind (Silent.onIo _) fun r => afterSize_rel t env ha header r
  exact sameReading_of_rel (hh (fresh now s ctx).prof (fresh now s ctx).prof s s ctx rfl rfl rfl rfl)

/-- A program that reads past the end and then appends. -/
def careless : Client Unit :=
  .call (.seek (.start 3)) fun _ => .call (.read [0]) fun _ => .call (.write [7]) fun _ => .done ()

/-- The same with a seek in between. -/
def careful : Client Unit :=
  .call (.seek (.start 3)) fun _ => .call (.read [0]) fun _ => .call (.seek (.start 3)) fun _ =>
    .call (.write [7]) fun _ => .done ()

/-- It is tidy; the other one is not, and leaves different buffers. -/
example : Tidy careful ∧ ¬ Tidy careless ∧
    seen Mem.buf (careless.run (hstep (Mem.vec pc)) ⟨[1], 0⟩) = .ok () [1, 0, 0, 7] ∧
    seen Mem.buf (careless.run (hstep (Mem.vecLate pc)) ⟨[1], 0⟩) = .ok () [1, 7] := by
  refine ⟨?_, ?_, by decide +kernel, by decide +kernel⟩
  · simp [Tidy, careful]
  · intro h
    exact (h.1 .unit).2 [0] .unexpectedEof [0] rfl

end Lcms.Props
