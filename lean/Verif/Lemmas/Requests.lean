import Verif.Lemmas.AnyHandler
import Verif.Spec.Requests

/-! # Lemmas: the requests made while reading a header -/

namespace Lcms

open Lcms.Spec

variable {σ α β : Type}

/-- From a log satisfying `P`, `m` ends normally with a log satisfying `Q`, or otherwise with one satisfying `E`. -/
def MLog (P : σ × List Req → Prop) (m : M (σ × List Req) α) (Q : α → σ × List Req → Prop) (E : List Req → Prop) :
    Prop :=
  ∀ x, P x → E x.2 ∧
    match m x with
    | .ok a x' => Q a x'
    | .err _ x' => E x'.2
    | .panic => True

/-- The same for methods of a profile; the profile keeps a handler. -/
def PLog (P : σ × List Req → Prop) (m : PMof (σ × List Req) α) (Q : α → σ × List Req → Prop) (E : List Req → Prop) :
    Prop :=
  ∀ st x, st.prof.io = some x → P x →
    match m st with
    | .ok a st' => ∃ x', st'.prof.io = some x' ∧ Q a x'
    | .err _ st' => ∃ x', st'.prof.io = some x' ∧ E x'.2
    | .panic st' => ∃ x', st'.prof.io = some x' ∧ E x'.2

theorem PLog.bind {P : σ × List Req → Prop} {m : PMof (σ × List Req) α} {Q : α → σ × List Req → Prop}
    {E : List Req → Prop} {f : α → PMof (σ × List Req) β} {R : β → σ × List Req → Prop} (h : PLog P m Q E)
    (hf : ∀ a, PLog (Q a) (f a) R E) : PLog P (m >>= f) R E := by
  intro st x hs hp
  have h1 := h st x hs hp
  rw [PM.bind_apply]
  cases hm : m st with
  | ok a st' =>
    rw [hm] at h1
    obtain ⟨x', e1, e2⟩ := h1
    exact hf a st' x' e1 e2
  | err e st' => rw [hm] at h1; exact h1
  | panic st' => rw [hm] at h1; exact h1

theorem PLog.onIo {P : σ × List Req → Prop} {m : M (σ × List Req) α} {Q : α → σ × List Req → Prop}
    {E : List Req → Prop} (h : MLog P m Q E) : PLog P (PM.onIo m) Q E := by
  intro st x hs hp
  obtain ⟨h0, h1⟩ := h x hp
  unfold PM.onIo
  simp only [hs]
  cases hm : m x with
  | ok a s' => rw [hm] at h1; exact ⟨s', rfl, h1⟩
  | err e s' => rw [hm] at h1; exact ⟨s', rfl, h1⟩
  | panic => exact ⟨x, hs, h0⟩

section
variable {P : σ × List Req → Prop} {E : List Req → Prop}

theorem PLog.modify (f : Profile (σ × List Req) → Profile (σ × List Req)) (hf : ∀ p, (f p).io = p.io) :
    PLog P (PM.modify f) (fun _ => P) E := by
  intro st x hs hp
  exact ⟨x, by rw [← hs]; exact hf st.prof, hp⟩

theorem PLog.orPanic (o : Option α) (hPE : ∀ x, P x → E x.2) :
    PLog P (PM.orPanic o : PMof (σ × List Req) α) (fun _ => P) E := by
  intro st x hs hp
  cases o with
  | none => exact ⟨x, hs, hPE x hp⟩
  | some a => exact ⟨x, hs, hp⟩

theorem PLog.fail {Q : α → σ × List Req → Prop} (e : IoErr) (hPE : ∀ x, P x → E x.2) :
    PLog P (PM.fail e : PMof (σ × List Req) α) Q E := by
  intro st x hs hp
  exact ⟨x, hs, hPE x hp⟩

theorem PLog.signal (env : Handlers) (code : ErrorCode) (text : Str) (hPE : ∀ x, P x → E x.2) :
    PLog P (PM.signal env code text : PMof (σ × List Req) Unit) (fun _ => P) E := by
  intro st x hs hp
  unfold PM.signal
  cases signalError env code text st.ctx with
  | done u c => exact ⟨x, hs, hp⟩
  | panic c => exact ⟨x, hs, hPE x hp⟩

theorem MLog.readBuf (h : Handler σ) (n : Nat) {Q : σ × List Req → Prop} (hPE : ∀ x, P x → E x.2)
    (hPQ : ∀ s l buf s', P (s, l) → ask h n s = .ok buf s' → Q (s', l ++ [.read n]))
    (hPE' : ∀ x, P x → E (x.2 ++ [.read n])) : MLog P (readBuf (logged h) n) (fun _ => Q) E := by
  rintro ⟨s, l⟩ hp
  refine ⟨hPE _ hp, ?_⟩
  have hz : (zeros n).length = n := by simp [zeros]
  have ha : ask h n s = Lcms.readBuf h n s := rfl
  unfold Lcms.readBuf at ha
  unfold Lcms.readBuf logged
  simp only [hz]
  cases hr : h.read (zeros n) s with
  | mk o buf =>
    rw [hr] at ha
    cases o with
    | ok a s' => exact hPQ s l buf s' hp ha
    | err e s' => exact hPE' _ hp
    | panic => trivial

theorem MLog.readU32 (t : Target) (h : Handler σ) {Q : UInt32 → σ × List Req → Prop} (hPE : ∀ x, P x → E x.2)
    (hPQ : ∀ s l buf s', P (s, l) → ask h 4 s = .ok buf s' →
      Q (UInt32.ofNat (fileValue t buf)) (s', l ++ [.read 4]))
    (hPE' : ∀ x, P x → E (x.2 ++ [.read 4])) : MLog P (readU32 t (logged h)) Q E := by
  rintro ⟨s, l⟩ hp
  refine ⟨hPE _ hp, ?_⟩
  rw [readU32_eq]
  have hz : (zeros 4).length = 4 := by simp [zeros]
  have ha : ask h 4 s = Lcms.readBuf h 4 s := rfl
  unfold Lcms.readBuf at ha
  unfold Lcms.readBuf logged
  simp only [hz]
  cases hr : h.read (zeros 4) s with
  | mk o buf =>
    rw [hr] at ha
    cases o with
    | ok a s' => exact hPQ s l buf s' hp ha
    | err e s' => exact hPE' _ hp
    | panic => trivial

end

/-- The position the handler gives after the header has been read. -/
def Here (h : Handler σ) (s : σ) (here : Nat) : Prop :=
  ∀ hd s1 q s2, ask h 128 s = .ok hd s1 → h.tell s1 = .ok q s2 → here = q

theorem here_exists (h : Handler σ) (s : σ) : ∃ here, Here h s here := by
  cases h1 : ask h 128 s with
  | ok hd s1 =>
    cases h2 : h.tell s1 with
    | ok q s2 =>
      refine ⟨q, ?_⟩
      rintro hd' s1' q' s2' e1 e2
      rw [h1] at e1; cases e1
      rw [h2] at e2; cases e2
      rfl
    | err e s2 =>
      refine ⟨0, ?_⟩
      rintro hd' s1' q' s2' e1 e2
      rw [h1] at e1; cases e1
      rw [h2] at e2; cases e2
    | panic =>
      refine ⟨0, ?_⟩
      rintro hd' s1' q' s2' e1 e2
      rw [h1] at e1; cases e1
      rw [h2] at e2; cases e2
  | err e s1 => exact ⟨0, by rintro hd' s1' q' s2' e1 e2; rw [h1] at e1; cases e1⟩
  | panic => exact ⟨0, by rintro hd' s1' q' s2' e1 e2; rw [h1] at e1; cases e1⟩

/-- The log so far is a beginning of what it may be. -/
def Begun (here : Nat) (l : List Req) : Prop := ∃ n ≤ 100, l <+: headerRequests here n

theorem begun_of_append {here : Nat} {l l' : List Req} (h : Begun here (l ++ l')) : Begun here l := by
  obtain ⟨n, hn, hp⟩ := h
  exact ⟨n, hn, (List.prefix_append l l').trans hp⟩

theorem MLog.reportedSize (h : Handler σ) (s0 : σ) (here : Nat) (hh : Here h s0 here) :
    MLog (fun x => x.2 = [.read 128] ∧ ∃ hd, ask h 128 s0 = .ok hd x.1) (reportedSize (logged h))
      (fun _ x => x.2 = [.read 128, .tell, .seek (.end_ 0), .tell, .seek (.start (UInt64.ofNat here))] ∧
        AfterSize h s0 here x.1)
      (Begun here) := by
  rintro ⟨s, l⟩ ⟨hl, hd, h0⟩
  simp only at hl h0
  subst hl
  have full : Begun here [.read 128, .tell, .seek (.end_ 0), .tell, .seek (.start (UInt64.ofNat here))] :=
    ⟨0, by omega, [.read 4], rfl⟩
  have b4 := begun_of_append (l := [.read 128, .tell, .seek (.end_ 0), .tell]) full
  have b3 := begun_of_append (l := [.read 128, .tell, .seek (.end_ 0)]) full
  have b2 := begun_of_append (l := [.read 128, .tell]) full
  have b1 := begun_of_append (l := [.read 128]) full
  refine ⟨b1, ?_⟩
  unfold Lcms.reportedSize
  simp only [logged]
  cases h1 : h.tell s with
  | panic => trivial
  | err e s1 => exact b2
  | ok q s1 =>
    have hq := hh hd s q s1 h0 h1
    subst hq
    simp only [keep]
    cases h2 : h.seek (.end_ 0) s1 with
    | panic => trivial
    | err e s2 => exact b3
    | ok u s2 =>
      simp only
      cases h3 : h.tell s2 with
      | panic => trivial
      | err e s3 =>
        simp only
        cases h4 : h.seek (.start (UInt64.ofNat here)) s3 with
        | panic => trivial
        | err e s4 => exact full
        | ok u s4 => exact full
      | ok size s3 =>
        simp only
        cases h4 : h.seek (.start (UInt64.ofNat here)) s3 with
        | panic => trivial
        | err e s4 => exact full
        | ok u' s4 => exact ⟨rfl, hd, s, s1, u, s2, size, s3, u', h0, h1, h2, h3, h4⟩

theorem headerRequests_succ (here n : Nat) : headerRequests here (n + 1) = headerRequests here n ++ [.read 12] := by
  unfold headerRequests
  rw [List.replicate_succ', List.append_assoc]

theorem PLog.tagLoop (t : Target) (h : Handler σ) (hs n : Nat) (here k : Nat) (hk : k + n ≤ 100) :
    PLog (fun x => x.2 = headerRequests here k) (Profile.tagLoop t (logged h) hs n)
      (fun _ x => x.2 = headerRequests here (k + n)) (Begun here) := by
  induction n generalizing k with
  | zero =>
    intro st x hs hp
    exact ⟨x, hs, hp⟩
  | succ n ih =>
    have hB : ∀ j, j ≤ 100 → ∀ l, l = headerRequests here j → Begun here l := fun j hj l hl =>
      ⟨j, hj, by rw [hl]; exact List.prefix_rfl⟩
    have hrec : PLog (fun x => x.2 = headerRequests here (k + 1)) (Profile.tagLoop t (logged h) hs n)
        (fun _ x => x.2 = headerRequests here (k + (n + 1))) (Begun here) := by
      rw [show k + (n + 1) = k + 1 + n by omega]
      exact ih (k + 1) (by omega)
    unfold Profile.tagLoop
    refine PLog.bind (PLog.onIo (MLog.readBuf h 12 (Q := fun x => x.2 = headerRequests here (k + 1))
      (fun x => hB k (by omega) x.2)
      (fun s l buf s' hl _ => by simp only at hl ⊢; rw [hl, headerRequests_succ])
      (fun x hl => hB (k + 1) (by omega) _ (by rw [hl, headerRequests_succ])))) ?_
    intro buf
    refine PLog.bind (PLog.orPanic _ fun x => hB (k + 1) (by omega) x.2) ?_
    intro skip
    split
    · exact hrec
    · intro st x hs hp
      rw [PM.bind_apply]
      simp only [PM.self, PM.bind_apply]
      cases ha : Profile.addTag (TagEntry.fromBytes t buf) st.prof with
      | none => exact ⟨x, hs, hB (k + 1) (by omega) x.2 hp⟩
      | some p' =>
        refine hrec ⟨p', st.ctx⟩ x ?_ hp
        rw [← hs]
        exact addTag_io ha

theorem PLog.readHeaderIo (t : Target) (h : Handler σ) (env : Handlers) (s : σ) (here : Nat) (hh : Here h s here) :
    PLog (fun x => x = (s, [])) (Profile.readHeaderIo t (logged h) env)
      (fun _ x => ∃ n ≤ 100, x.2 = headerRequests here n ∧ ∃ cnt, CountAsked h s here cnt ∧ n = fileValue t cnt)
      (Begun here) := by
  have b0 : Begun here [] := ⟨0, by omega, _, rfl⟩
  have b1 : ∀ l : List Req, l = [.read 128] → Begun here l := by rintro l rfl; exact ⟨0, by omega, _, rfl⟩
  have b5 : ∀ l : List Req, l = [.read 128, .tell, .seek (.end_ 0), .tell, .seek (.start (UInt64.ofNat here))] →
      Begun here l := by rintro l rfl; exact ⟨0, by omega, [.read 4], rfl⟩
  have b6 : ∀ l : List Req, l = headerRequests here 0 → Begun here l := by
    rintro l rfl; exact ⟨0, by omega, List.prefix_rfl⟩
  unfold Profile.readHeaderIo
  refine PLog.bind (PLog.onIo (MLog.readBuf h 128
    (Q := fun x => x.2 = [.read 128] ∧ ∃ hd, ask h 128 s = .ok hd x.1)
    (fun x hl => by rw [hl]; exact b0)
    (fun s1 l buf s' hl ha => by
      simp only [Prod.mk.injEq] at hl
      obtain ⟨rfl, rfl⟩ := hl
      exact ⟨rfl, buf, ha⟩)
    (fun x hl => by rw [hl]; exact b1 _ rfl))) ?_
  intro buf
  simp only
  split
  · exact PLog.bind (PLog.signal env _ _ fun x hx => b1 _ hx.1) fun _ => PLog.fail _ fun x hx => b1 _ hx.1
  · refine PLog.bind (PLog.modify _ fun p => rfl) fun _ => ?_
    refine PLog.bind (PLog.onIo (MLog.reportedSize h s here hh)) fun reported => ?_
    refine PLog.bind (PLog.orPanic _ fun x hx => b5 x.2 hx.1) fun created => ?_
    refine PLog.bind (PLog.modify _ fun p => rfl) fun _ => ?_
    refine PLog.bind (PLog.modify _ fun p => rfl) fun _ => ?_
    refine PLog.bind (PLog.onIo (MLog.readU32 t h
      (Q := fun n x => x.2 = headerRequests here 0 ∧ ∃ cnt, CountAsked h s here cnt ∧ n.toNat = fileValue t cnt)
      (fun x hx => b5 x.2 hx.1)
      (fun s' l buf s'' hl ha => by
        obtain ⟨hl, hs⟩ := hl
        simp only at hl hs ⊢
        refine ⟨by rw [hl]; rfl, buf, ⟨s', s'', hs, ha⟩, ?_⟩
        have hlt := fileValue_lt t buf
        rw [ask_length ha] at hlt
        simp only [UInt32.toNat_ofNat']
        exact Nat.mod_eq_of_lt (by omega))
      (fun x hl => b6 _ (by rw [hl.1]; rfl)))) fun n => ?_
    split
    · exact PLog.bind (PLog.signal env _ _ fun x hx => b6 x.2 hx.1) fun _ => PLog.fail _ fun x hx => b6 x.2 hx.1
    · rename_i hn
      intro st x hs ⟨hl, cnt, hcnt, hval⟩
      have hn' : 0 + n.toNat ≤ 100 := by unfold MAX_TABLE_TAG at hn; omega
      have := PLog.tagLoop t h (if (ICCHeader.fromBytes t 8 buf).size.toNat ≥ reported then reported
        else (ICCHeader.fromBytes t 8 buf).size.toNat) n.toNat here 0 hn' st x hs hl
      cases hr : Profile.tagLoop t (logged h) (if (ICCHeader.fromBytes t 8 buf).size.toNat ≥ reported then reported
        else (ICCHeader.fromBytes t 8 buf).size.toNat) n.toNat st with
      | ok a st' =>
        rw [hr] at this
        obtain ⟨x', e1, e2⟩ := this
        exact ⟨x', e1, _, hn', e2, cnt, hcnt, by omega⟩
      | err e st' => rw [hr] at this; exact this
      | panic st' => rw [hr] at this; exact this

/-! ### The log changes nothing -/

/-- The same state, with a log. -/
def WithLog (x : σ × List Req) (y : σ) : Prop := x.1 = y

theorem logged_alike (h : Handler σ) : Alike (logged h) h WithLog (fun _ => False) where
  readBuf := by
    rintro n - ⟨s, l⟩ y rfl
    unfold Lcms.readBuf logged
    simp only
    cases hr : h.read (zeros n) s with
    | mk o buf =>
      cases o with
      | ok a s' => exact ⟨rfl, rfl⟩
      | err e s' => exact Or.inr ⟨s', rfl⟩
      | panic => trivial

theorem logged_size (h : Handler σ) (x : σ × List Req) (y : σ) (hxy : WithLog x y) :
    OutRel WithLog (fun _ => False) (reportedSize (logged h) x) (reportedSize h y) := by
  obtain ⟨s, l⟩ := x
  cases hxy
  unfold Lcms.reportedSize
  simp only [logged]
  cases h1 : h.tell s with
  | panic => trivial
  | err e s1 => exact Or.inr ⟨s1, rfl⟩
  | ok here s1 =>
    simp only [keep]
    cases h2 : h.seek (.end_ 0) s1 with
    | panic => trivial
    | err e s2 => exact Or.inr ⟨s2, rfl⟩
    | ok u s2 =>
      simp only
      cases h3 : h.tell s2 with
      | panic => trivial
      | err e s3 =>
        simp only
        cases h4 : h.seek (.start (UInt64.ofNat here)) s3 with
        | panic => trivial
        | err e s4 => exact Or.inr ⟨s4, rfl⟩
        | ok u s4 => exact Or.inr ⟨s4, rfl⟩
      | ok size s3 =>
        simp only
        cases h4 : h.seek (.start (UInt64.ofNat here)) s3 with
        | panic => trivial
        | err e s4 => exact Or.inr ⟨s4, rfl⟩
        | ok u s4 => exact ⟨rfl, rfl⟩

theorem logged_header (t : Target) (h : Handler σ) (env : Handlers) :
    PRel WithLog (fun _ => False) (Profile.readHeaderIo t (logged h) env) (Profile.readHeaderIo t h env) :=
  readHeaderIo_rel t env (logged_alike h) fun header =>
    (PRel.onIo (logged_size h)).bind (Silent.onIo _) fun reported => afterSize_rel t env (logged_alike h) header reported

end Lcms
