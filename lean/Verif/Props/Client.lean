import Verif.Props.File
import Verif.Props.Mem
import Verif.Spec.Client

/-! # Property C98: programs that react to what they read -/

namespace Lcms.Props

open Lcms Spec

/-! ### The functions of the library are programs -/

theorem IsClient.pure {α : Type} (a : α) : IsClient (fun σ (_ : Handler σ) => (Pure.pure a : M σ α)) :=
  ⟨.done a, fun _ _ _ => rfl⟩

theorem IsClient.panic {α : Type} : IsClient (fun σ (_ : Handler σ) => (M.panic : M σ α)) :=
  ⟨.panic, fun _ _ _ => rfl⟩

/-- Programs one after the other. -/
def Client.bind {α β : Type} : Client α → (α → Client β) → Client β
  | .done a, f => f a
  | .fail e, _ => .fail e
  | .panic, _ => .panic
  | .call op k, f => .call op fun o => Client.bind (k o) f

theorem Client.run_bind {σ α β : Type} (step : Op → σ → Obs × Option σ) (c : Client α) (f : α → Client β) (s : σ) :
    (Client.bind c f).run step s = match c.run step s with
      | .ok a s' => (f a).run step s'
      | .err e s' => .err e s'
      | .panic => .panic := by
  induction c generalizing s with
  | done a => rfl
  | fail e => rfl
  | panic => rfl
  | call op k ih =>
    simp only [Client.bind, Client.run]
    split
    · rfl
    · exact ih _ _

theorem IsClient.bind {α β : Type} {F : (σ : Type) → Handler σ → M σ α} {G : α → (σ : Type) → Handler σ → M σ β}
    (hF : IsClient F) (hG : ∀ a, IsClient (G a)) :
    IsClient (fun σ (h : Handler σ) => (F σ h >>= fun a => G a σ h : M σ β)) := by
  obtain ⟨c, hc⟩ := hF
  choose d hd using hG
  refine ⟨Client.bind c d, fun σ h s => ?_⟩
  rw [Client.run_bind, ← hc]
  show M.bind (F σ h) (fun a => G a σ h) s = _
  unfold M.bind
  cases F σ h s with
  | ok a s' => exact hd a σ h s'
  | err e s' => rfl
  | panic => rfl

theorem IsClient.write (b : List UInt8) : IsClient (fun σ (h : Handler σ) => (h.write b : M σ Unit)) := by
  refine ⟨.call (.write b) fun o => match o with
    | .err e => .fail e
    | _ => .done (), fun _ h s => ?_⟩
  simp only [Client.run, hstep]
  cases h.write b s <;> rfl

theorem IsClient.seek (p : SeekFrom) : IsClient (fun σ (h : Handler σ) => (h.seek p : M σ Unit)) := by
  refine ⟨.call (.seek p) fun o => match o with
    | .err e => .fail e
    | _ => .done (), fun _ h s => ?_⟩
  simp only [Client.run, hstep]
  cases h.seek p s <;> rfl

theorem IsClient.tell : IsClient (fun σ (h : Handler σ) => (h.tell : M σ Nat)) := by
  refine ⟨.call .tell fun o => match o with
    | .err e => .fail e
    | .num n => .done n
    | _ => .panic, fun _ h s => ?_⟩
  simp only [Client.run, hstep]
  cases h.tell s <;> rfl

theorem IsClient.readBuf (n : Nat) : IsClient (fun σ (h : Handler σ) => (Lcms.readBuf h n : M σ (List UInt8))) := by
  refine ⟨.call (.read (zeros n)) fun o => match o with
    | .bytes b => .done b
    | .readErr e _ => .fail e
    | _ => .panic, fun _ h s => ?_⟩
  simp only [Client.run, hstep, Lcms.readBuf]
  rcases h.read (zeros n) s with ⟨_ | _ | _, b⟩ <;> rfl

/-- What a program makes of the failure of a call instead of passing it on. -/
theorem IsClient.tell' : IsClient (fun σ (h : Handler σ) => (fun s => match h.tell s with
    | .ok n s' => .ok (.inr n) s'
    | .err e s' => .ok (.inl e) s'
    | .panic => .panic : M σ (IoErr ⊕ Nat))) := by
  refine ⟨.call .tell fun o => match o with
    | .err e => .done (.inl e)
    | .num n => .done (.inr n)
    | _ => .panic, fun _ h s => ?_⟩
  simp only [Client.run, hstep]
  cases h.tell s <;> rfl

theorem IsClient.reportedSize : IsClient (fun σ (h : Handler σ) => (Lcms.reportedSize h : M σ Nat)) := by
  have h := IsClient.bind IsClient.tell fun cur => IsClient.bind (IsClient.seek (.end_ 0)) fun _ => IsClient.bind IsClient.tell' fun r =>
    IsClient.bind (IsClient.seek (.start (UInt64.ofNat cur))) fun _ => show
      IsClient (fun σ (_ : Handler σ) => (match r with
        | .inl e => M.fail e
        | .inr n => Pure.pure n : M σ Nat)) from
        match r with
        | .inl e => ⟨.fail e, fun _ _ _ => rfl⟩
        | .inr n => ⟨.done n, fun _ _ _ => rfl⟩
  obtain ⟨c, hc⟩ := h
  refine ⟨c, fun σ h s => Eq.trans ?_ (hc σ h s)⟩
  show Lcms.reportedSize h s = M.bind h.tell (fun _ => M.bind (h.seek _) fun _ => M.bind _ fun _ => M.bind (h.seek _) _) s
  unfold Lcms.reportedSize M.bind
  cases h.tell s with
  | panic => rfl
  | err e s' => rfl
  | ok n s' =>
    simp only
    cases h.seek (.end_ 0) s' with
    | panic => rfl
    | err e s' => rfl
    | ok _ s' =>
      simp only
      cases h.tell s' with
      | panic => rfl
      | err e s' =>
        simp only
        cases h.seek (.start (UInt64.ofNat n)) s' <;> rfl
      | ok r s' =>
        simp only
        cases h.seek (.start (UInt64.ofNat n)) s' <;> rfl

theorem IsClient.readU8 : IsClient (fun σ (h : Handler σ) => (Lcms.readU8 h : M σ UInt8)) :=
  IsClient.bind (IsClient.readBuf 1) fun buf => match buf with
    | b :: _ => IsClient.pure b
    | [] => IsClient.panic

theorem IsClient.readU16 (t : Target) : IsClient (fun σ (h : Handler σ) => (Lcms.readU16 t h : M σ UInt16)) :=
  IsClient.bind (IsClient.readBuf 2) fun _ => IsClient.pure _

theorem IsClient.readU32 (t : Target) : IsClient (fun σ (h : Handler σ) => (Lcms.readU32 t h : M σ UInt32)) :=
  IsClient.bind (IsClient.readBuf 4) fun _ => IsClient.pure _

theorem IsClient.readU64 (t : Target) : IsClient (fun σ (h : Handler σ) => (Lcms.readU64 t h : M σ UInt64)) :=
  IsClient.bind (IsClient.readBuf 8) fun _ => IsClient.pure _

theorem IsClient.readF32 (t : Target) : IsClient (fun σ (h : Handler σ) => (Lcms.readF32 t h : M σ F32)) :=
  IsClient.bind (IsClient.readU32 t) fun _ => IsClient.pure _

theorem IsClient.readS15f16 (t : Target) :
    IsClient (fun σ (h : Handler σ) => (Lcms.readS15f16 t h : M σ F64)) :=
  IsClient.bind (IsClient.readU32 t) fun v => by
    cases h : s15f16ToF64 t v.toInt32 with
    | some x => exact IsClient.pure x
    | none => exact IsClient.panic

theorem IsClient.readXyz (t : Target) : IsClient (fun σ (h : Handler σ) => (Lcms.readXyz t h : M σ CIEXYZ)) :=
  IsClient.bind (IsClient.readS15f16 t) fun _ => IsClient.bind (IsClient.readS15f16 t) fun _ => IsClient.bind (IsClient.readS15f16 t) fun _ =>
    IsClient.pure _

theorem IsClient.readU16Array (t : Target) (xs : List UInt16) :
    IsClient (fun σ (h : Handler σ) s => withBuffer (Lcms.readU16Array t h xs s)) := by
  induction xs with
  | nil => exact ⟨.done (none, []), fun _ _ _ => rfl⟩
  | cons x xs ih =>
    obtain ⟨d, hd⟩ := ih
    refine ⟨.call (.read (zeros 2)) fun o => match o with
      | .bytes b => Client.bind d fun r => .done (r.1, adjustEndiannessU16 t (UInt16.ofNat (neVal t b)) :: r.2)
      | .readErr e _ => .done (some e, x :: xs)
      | _ => .panic, fun _ h s => ?_⟩
    simp only [Client.run, hstep, Lcms.readU16Array]
    have e : Lcms.readU16 t h s = M.bind (Lcms.readBuf h 2)
      (fun b => Pure.pure (adjustEndiannessU16 t (UInt16.ofNat (neVal t b)))) s := rfl
    rw [e]
    unfold M.bind Lcms.readBuf
    rcases h.read (zeros 2) s with ⟨_ | _ | _, b⟩
    · rename_i s'
      simp only [obsRead, Client.run_bind, ← hd]
      show withBuffer ((Lcms.readU16Array t h xs s').1, _ :: (Lcms.readU16Array t h xs s').2) = _
      rcases Lcms.readU16Array t h xs s' with ⟨_ | _ | _, l⟩ <;> rfl
    · rfl
    · rfl

theorem IsClient.writeU16Array (t : Target) (vs : List UInt16) :
    IsClient (fun σ (h : Handler σ) => (Lcms.writeU16Array t h vs : M σ Unit)) := by
  induction vs with
  | nil => exact IsClient.pure ()
  | cons v vs ih => exact IsClient.bind (IsClient.write _) fun _ => ih

/-- **C98** All provided methods of `IOHandler` are programs: they only make calls of the four required
methods, and what they do depends on nothing but the results. -/
theorem C98_library (t : Target) :
    IsClient (fun σ (h : Handler σ) => (reportedSize h : M σ Nat)) ∧
    IsClient (fun σ (h : Handler σ) => (readU8 h : M σ UInt8)) ∧
    IsClient (fun σ (h : Handler σ) => (readU16 t h : M σ UInt16)) ∧
    IsClient (fun σ (h : Handler σ) => (readU32 t h : M σ UInt32)) ∧
    IsClient (fun σ (h : Handler σ) => (readU64 t h : M σ UInt64)) ∧
    IsClient (fun σ (h : Handler σ) => (readF32 t h : M σ F32)) ∧
    IsClient (fun σ (h : Handler σ) => (readS15f16 t h : M σ F64)) ∧
    IsClient (fun σ (h : Handler σ) => (readXyz t h : M σ CIEXYZ)) ∧
    (∀ xs, IsClient (fun σ (h : Handler σ) s => withBuffer (readU16Array t h xs s))) ∧
    (∀ v, IsClient (fun σ (h : Handler σ) => (writeU8 h v : M σ Unit))) ∧
    (∀ v, IsClient (fun σ (h : Handler σ) => (writeU16 t h v : M σ Unit))) ∧
    (∀ v, IsClient (fun σ (h : Handler σ) => (writeU32 t h v : M σ Unit))) ∧
    (∀ v, IsClient (fun σ (h : Handler σ) => (writeU64 t h v : M σ Unit))) ∧
    (∀ v, IsClient (fun σ (h : Handler σ) => (writeF32 t h v : M σ Unit))) ∧
    (∀ v, IsClient (fun σ (h : Handler σ) => (writeS15f16 t h v : M σ Unit))) ∧
    (∀ v, IsClient (fun σ (h : Handler σ) => (writeXyz t h v : M σ Unit))) ∧
    (∀ vs, IsClient (fun σ (h : Handler σ) => (writeU16Array t h vs : M σ Unit))) :=
  ⟨IsClient.reportedSize, IsClient.readU8, IsClient.readU16 t, IsClient.readU32 t, IsClient.readU64 t,
    IsClient.readF32 t, IsClient.readS15f16 t, IsClient.readXyz t, IsClient.readU16Array t,
    fun _ => IsClient.write _, fun _ => IsClient.write _, fun _ => IsClient.write _, fun _ => IsClient.write _,
    fun _ => IsClient.write _, fun _ => IsClient.write _,
    fun _ => IsClient.bind (IsClient.write _) fun _ => IsClient.bind (IsClient.write _) fun _ => IsClient.write _,
    IsClient.writeU16Array t⟩

/-! ### The same results on different handlers -/

/-- **C98** A program that keeps its accesses below offset `2^63` gets the same result from a `File`, whatever
the schedule of short transfers and interruptions, as from complete transfers, and leaves the same content
and position. -/
theorem C98_file {α : Type} (t : Target) (c : Client α) (s : OsFile) (hl : s.data.length < 2 ^ 63)
    (hp : s.pos < 2 ^ 63) (hsm : c.Along (PFile.step t) Small ⟨s.data, s.pos, s.readable, s.writable⟩) :
    c.run (PFile.step t) ⟨s.data, s.pos, s.readable, s.writable⟩ =
      seen (fun s' => ⟨s'.data, s'.pos, s'.readable, s'.writable⟩) (c.run (hstep (OsFile.handler t)) s) := by
  show c.run (PFile.step t) (OsFile.abs s) = seen OsFile.abs _
  change c.Along (PFile.step t) Small (OsFile.abs s) at hsm
  induction c generalizing s with
  | done a => rfl
  | fail e => rfl
  | panic => rfl
  | call op k ih =>
    obtain ⟨o, f', hst, hP, hrest⟩ := hsm
    obtain ⟨h1, h2⟩ := file_step_sim t op s hl hp
      (by intro b hb; subst hb; exact hP) (by intro b hb; subst hb; exact hP)
    simp only [Client.run]
    rw [h1]
    rw [h1] at hst
    cases hf : hstep (OsFile.handler t) op s with
    | mk o' r =>
      rw [hf] at hst h2
      cases r with
      | none => rfl
      | some s' =>
        simp only [Option.map, Prod.mk.injEq, Option.some.injEq] at hst
        obtain ⟨rfl, hfe⟩ := hst
        obtain ⟨hl', hp'⟩ := h2 s' rfl
        exact ih o' s' hl' hp' (by rw [hfe]; exact hrest)

/-- **C98** Every program gets from a `FileMem<Vec<u8>>` exactly what it would get from the abstract tape. -/
theorem C98_vec {α : Type} (t : Target) (c : Client α) (m : Mem) (hm : m.buf.length ≤ t.isizeMax) :
    c.run (Tape.step t) (Tape.ofList m.buf m.pos) =
      seen (fun m' => Tape.ofList m'.buf m'.pos) (c.run (hstep (Mem.vec t)) m) := by
  show c.run (Tape.step t) (Mem.tape m) = seen Mem.tape _
  induction c generalizing m with
  | done a => rfl
  | fail e => rfl
  | panic => rfl
  | call op k ih =>
    obtain ⟨h1, h2⟩ := vec_step_sim t op m hm
    simp only [Client.run]
    rw [h1]
    cases hf : hstep (Mem.vec t) op m with
    | mk o r =>
      rw [hf] at h2
      cases r with
      | none => rfl
      | some m' => exact ih o m' (h2 m' rfl)

/-- **C98** A program all of whose calls succeed on a `FileMem<Vec<u8>>`, at positions below `2^63`, gets the
same result from a read/write `File` with the same content and position under any schedule, and leaves the
same content and position. -/
theorem C98_file_like_vec {α : Type} (t : Target) (c : Client α) (m : Mem) (sc : List OsResp)
    (hlen : m.buf.length ≤ t.isizeMax) (hpos : m.pos < 2 ^ 63) (hall : c.Along (hstep (Mem.vec t)) AllOk m) :
    seen (fun f => (f.data, f.pos)) (c.run (hstep (OsFile.handler t)) ⟨m.buf, m.pos, true, true, sc⟩) =
      seen (fun m' => (m'.buf, m'.pos)) (c.run (hstep (Mem.vec t)) m) := by
  induction c generalizing m sc with
  | done a => rfl
  | fail e => rfl
  | panic => rfl
  | call op k ih =>
    obtain ⟨o, m1, hst, hok, hrest⟩ := hall
    obtain ⟨m', sc', e1, e2⟩ := C18_file_like_vec t [op] m sc hlen hpos ⟨o, m1, hst, hok, trivial⟩
    simp only [runWith, hst] at e1 e2
    obtain rfl : m1 = m' := by simpa using e1
    have hf : hstep (OsFile.handler t) op ⟨m.buf, m.pos, true, true, sc⟩ = (o, some ⟨m1.buf, m1.pos, true, true, sc'⟩) := by
      cases hf : hstep (OsFile.handler t) op ⟨m.buf, m.pos, true, true, sc⟩ with
      | mk o' r =>
        rw [hf] at e2
        cases r with
        | none => simp at e2
        | some s1 => simpa using e2
    simp only [Client.run, hst, hf]
    exact ih o m1 sc' ((vec_step_sim t op m hlen).2 m1 (by rw [hst])) hok.2 hrest

/-- A program that reads a length and then as many bytes as it says. -/
def pascal : Client (List UInt8) :=
  .call (.read [0]) fun o => match o with
    | .bytes [n] => .call (.read (List.replicate n.toNat 0)) fun o => match o with
      | .bytes b => .done b
      | _ => .fail .invalidData
    | _ => .fail .invalidData

/-- Under byte-wise transfers with an interruption it reads what it reads from memory. -/
example : pascal.run (hstep (OsFile.handler pc)) ⟨[2, 7, 8, 9], 0, true, true, [.chunk 0, .chunk 0, .interrupted, .chunk 0]⟩
      = .ok [7, 8] ⟨[2, 7, 8, 9], 3, true, true, []⟩ ∧
    pascal.run (hstep (Mem.vec pc)) (Mem.new [2, 7, 8, 9]) = .ok [7, 8] ⟨[2, 7, 8, 9], 3⟩ ∧
    pascal.Along (hstep (Mem.vec pc)) AllOk (Mem.new [2, 7, 8, 9]) := by
  refine ⟨by decide, by decide, .bytes [2], ⟨[2, 7, 8, 9], 1⟩, by decide, ⟨rfl, by decide⟩, .bytes [7, 8],
    ⟨[2, 7, 8, 9], 3⟩, by decide, ⟨rfl, by decide⟩, trivial⟩

/-- Its other outcome: a length beyond the end. -/
example : pascal.run (hstep (Mem.vec pc)) (Mem.new [5, 7]) = .err .invalidData ⟨[5, 7], 1⟩ := by decide

end Lcms.Props
