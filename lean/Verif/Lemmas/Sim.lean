import Verif.Lemmas.Process

/-! # Lemmas: reading a header through two handlers that behave alike -/

namespace Lcms

open Lcms.Spec

/-- Two outcomes of a method of a handler agree, with related states afterwards if they are successes; or the
first one is an error from `Bad`. -/
def OutRel {σ τ α : Type} (R : σ → τ → Prop) (Bad : IoErr → Prop) : Out σ α → Out τ α → Prop
  | .ok a s, .ok b f => a = b ∧ R s f
  | .err e _, o => Bad e ∨ ∃ f, o = .err e f
  | .panic, .panic => True
  | _, _ => False

/-- Two outcomes agree: same value, same profile fields, same context, related handlers. -/
def POutRel {σ τ α : Type} (R : σ → τ → Prop) (Bad : IoErr → Prop) (c : CState) :
    POutOf σ α → POutOf τ α → Prop
  | .ok a s, .ok b s' => a = b ∧ s.prof.strip = s'.prof.strip ∧ s.ctx = s'.ctx ∧
      ∃ x y, s.prof.io = some x ∧ s'.prof.io = some y ∧ R x y
  | .err e s, o => (Bad e ∧ s.ctx = c) ∨ ∃ s', o = .err e s' ∧ s.ctx = s'.ctx ∧ s.prof.strip = s'.prof.strip
  | .panic s, .panic s' => s.ctx = s'.ctx ∧ s.prof.strip = s'.prof.strip
  | _, _ => False

/-- Two methods agree from related states. -/
def PRel {σ τ α : Type} (R : σ → τ → Prop) (Bad : IoErr → Prop) (m : PMof σ α) (k : PMof τ α) : Prop :=
  ∀ (p : Profile σ) (q : Profile τ) x y c, p.strip = q.strip → p.io = some x → q.io = some y → R x y →
    POutRel R Bad c (m ⟨p, c⟩) (k ⟨q, c⟩)

/-- The context is not touched on success. -/
def Silent {σ α : Type} (m : PMof σ α) : Prop :=
  ∀ p c a s, m ⟨p, c⟩ = .ok a s → s.ctx = c

theorem PRel.bind {σ τ α β : Type} {R : σ → τ → Prop} {Bad : IoErr → Prop} {m : PMof σ α} {k : PMof τ α}
    {f : α → PMof σ β} {g : α → PMof τ β} (hm : PRel R Bad m k) (hs : Silent m)
    (hf : ∀ a, PRel R Bad (f a) (g a)) : PRel R Bad (m >>= f) (k >>= g) := by
  intro p q x y c hpq hx hy hR
  have h := hm p q x y c hpq hx hy hR
  rw [PM.bind_apply, PM.bind_apply]
  cases h1 : m ⟨p, c⟩ with
  | ok a s =>
    cases h2 : k ⟨q, c⟩ with
    | ok b s' =>
      rw [h1, h2] at h
      obtain ⟨rfl, e1, e2, x', y', e3, e4, e5⟩ := h
      have := hs p c a s h1
      obtain ⟨sp, sc⟩ := s
      obtain ⟨sp', sc'⟩ := s'
      simp only at *
      subst e2 this
      exact hf a sp sp' x' y' sc e1 e3 e4 e5
    | err e s' => rw [h1, h2] at h; exact h.elim
    | panic s' => rw [h1, h2] at h; exact h.elim
  | err e s =>
    rw [h1] at h
    simp only
    rcases h with h | ⟨s', h, e1, e2⟩
    · exact Or.inl h
    · rw [h]; exact Or.inr ⟨s', rfl, e1, e2⟩
  | panic s =>
    cases h2 : k ⟨q, c⟩ with
    | ok b s' => rw [h1, h2] at h; exact h.elim
    | err e s' => rw [h1, h2] at h; exact h.elim
    | panic s' => rw [h1, h2] at h; exact h

section Basic
variable {σ τ : Type} {R : σ → τ → Prop} {Bad : IoErr → Prop}

theorem PRel.pure {α : Type} (a : α) : PRel R Bad (pure a) (pure a) := by
  intro p q x y c hpq hx hy hR
  exact ⟨rfl, hpq, rfl, x, y, hx, hy, hR⟩

theorem PRel.fail {α : Type} (e : IoErr) : PRel R Bad (PM.fail e : PMof σ α) (PM.fail e) := by
  intro p q x y c hpq hx hy hR
  exact Or.inr ⟨_, rfl, rfl, hpq⟩

theorem PRel.orPanic {α : Type} (o : Option α) : PRel R Bad (PM.orPanic o) (PM.orPanic o) := by
  cases o with
  | some a => exact PRel.pure a
  | none =>
    intro p q x y c hpq hx hy hR
    exact ⟨rfl, hpq⟩

theorem PRel.modify {f : Profile σ → Profile σ} {g : Profile τ → Profile τ}
    (hfg : ∀ p q, p.strip = q.strip → (f p).strip = (g q).strip) (hf : ∀ p, (f p).io = p.io)
    (hg : ∀ q, (g q).io = q.io) : PRel R Bad (PM.modify f) (PM.modify g) := by
  intro p q x y c hpq hx hy hR
  exact ⟨rfl, hfg p q hpq, rfl, x, y, by rw [hf, hx], by rw [hg, hy], hR⟩

theorem PRel.signal (env : Handlers) (code : ErrorCode) (text : Str) {α : Type} (e : IoErr) :
    PRel R Bad (PM.signal env code text >>= fun _ => (PM.fail e : PMof σ α))
      (PM.signal env code text >>= fun _ => PM.fail e) := by
  intro p q x y c hpq hx hy hR
  rw [PM.bind_apply, PM.bind_apply]
  unfold PM.signal
  cases signalError env code text c with
  | done a c' => exact Or.inr ⟨_, rfl, rfl, hpq⟩
  | panic c' => exact ⟨rfl, hpq⟩

theorem PRel.onIo {α : Type} {m : M σ α} {k : M τ α} (h : ∀ x y, R x y → OutRel R Bad (m x) (k y)) :
    PRel R Bad (PM.onIo m) (PM.onIo k) := by
  intro p q x y c hpq hx hy hR
  have h := h x y hR
  unfold PM.onIo
  simp only [hx, hy]
  cases h1 : m x with
  | ok a s =>
    cases h2 : k y with
    | ok b f => rw [h1, h2] at h; exact ⟨h.1, hpq, rfl, s, f, rfl, rfl, h.2⟩
    | err e f => rw [h1, h2] at h; exact h.elim
    | panic => rw [h1, h2] at h; exact h.elim
  | err e s =>
    rw [h1] at h
    rcases h with h | ⟨f, h⟩
    · exact Or.inl ⟨h, rfl⟩
    · rw [h]; exact Or.inr ⟨_, rfl, rfl, hpq⟩
  | panic =>
    cases h2 : k y with
    | ok b f => rw [h1, h2] at h; exact h.elim
    | err e f => rw [h1, h2] at h; exact h.elim
    | panic => exact ⟨rfl, hpq⟩

theorem Silent.onIo {α : Type} (m : M σ α) : Silent (PM.onIo m) := by
  intro p c a s h
  unfold PM.onIo at h
  split at h
  · cases h
  · split at h <;> cases h; rfl

theorem Silent.modify (f : Profile σ → Profile σ) : Silent (PM.modify f) := by
  intro p c a s h; cases h; rfl

theorem Silent.orPanic {α : Type} (o : Option α) : Silent (PM.orPanic (σ := σ) o) := by
  intro p c a s h
  cases o <;> cases h; rfl

end Basic

/-! ### `addTag` does not look at the handler -/

theorem linkStep_strip {σ : Type} (tag : TagEntry) (p : Profile σ) (j : Nat) :
    Profile.linkStep tag p.strip j = (Profile.linkStep tag p j).map Profile.strip := by
  unfold Profile.linkStep
  simp only [Profile.strip, Option.bind_eq_bind]
  cases p.tagOffsets[j]? with
  | none => rfl
  | some o =>
    simp only [Option.bind_some]
    split
    · cases p.tagSizes[j]? with
      | none => rfl
      | some z =>
        simp only [Option.bind_some]
        split
        · cases p.tagNames[j]? with
          | none => rfl
          | some nm =>
            simp only [Option.bind_some]
            cases Profile.store p.tagLinked j (some nm) <;> rfl
        · rfl
    · rfl

theorem linkLoop_strip {σ : Type} (tag : TagEntry) (js : List Nat) (p : Profile σ) :
    Profile.linkLoop tag js p.strip = (Profile.linkLoop tag js p).map Profile.strip := by
  induction js generalizing p with
  | nil => rfl
  | cons j js ih =>
    unfold Profile.linkLoop
    simp only [Option.bind_eq_bind]
    rw [linkStep_strip]
    cases Profile.linkStep tag p j with
    | none => rfl
    | some p' => simp only [Option.map_some, Option.bind_some]; exact ih p'

theorem addTag_strip {σ : Type} (tag : TagEntry) (p : Profile σ) :
    Profile.addTag tag p.strip = (Profile.addTag tag p).map Profile.strip := by
  unfold Profile.addTag
  simp only [Option.bind_eq_bind]
  show (Profile.store p.tagNames p.tagCount tag.sig).bind _ = _
  cases Profile.store p.tagNames p.tagCount tag.sig with
  | none => rfl
  | some names =>
    simp only [Option.bind_some]
    show (Profile.store p.tagOffsets p.tagCount tag.offset.toNat).bind _ = _
    cases Profile.store p.tagOffsets p.tagCount tag.offset.toNat with
    | none => rfl
    | some offsets =>
      simp only [Option.bind_some]
      show (Profile.store p.tagSizes p.tagCount tag.size.toNat).bind _ = _
      cases Profile.store p.tagSizes p.tagCount tag.size.toNat with
      | none => rfl
      | some sizes =>
        simp only [Option.bind_some]
        have h := linkLoop_strip tag (List.range p.tagCount)
          { p with tagNames := names, tagOffsets := offsets, tagSizes := sizes }
        have e : (Profile.strip { p with tagNames := names, tagOffsets := offsets, tagSizes := sizes }) =
            { p.strip with tagNames := names, tagOffsets := offsets, tagSizes := sizes } := rfl
        rw [e] at h
        show (Profile.linkLoop tag (List.range p.tagCount) _).bind _ = _
        rw [h]
        cases Profile.linkLoop tag (List.range p.tagCount)
          { p with tagNames := names, tagOffsets := offsets, tagSizes := sizes } <;> rfl

theorem linkStep_io {σ : Type} {tag : TagEntry} {p p' : Profile σ} {j : Nat}
    (h : Profile.linkStep tag p j = some p') : p'.io = p.io := by
  unfold Profile.linkStep at h
  simp only [Option.bind_eq_bind, Option.bind_eq_some_iff] at h
  obtain ⟨o, -, h⟩ := h
  split at h
  · simp only [Option.bind_eq_some_iff] at h
    obtain ⟨z, -, h⟩ := h
    split at h
    · simp only [Option.bind_eq_some_iff] at h
      obtain ⟨nm, -, l, -, h⟩ := h
      cases h; rfl
    · cases h; rfl
  · cases h; rfl

theorem linkLoop_io {σ : Type} {tag : TagEntry} {js : List Nat} {p p' : Profile σ}
    (h : Profile.linkLoop tag js p = some p') : p'.io = p.io := by
  induction js generalizing p with
  | nil => cases h; rfl
  | cons j js ih =>
    unfold Profile.linkLoop at h
    simp only [Option.bind_eq_bind, Option.bind_eq_some_iff] at h
    obtain ⟨p1, h1, h2⟩ := h
    rw [ih h2, linkStep_io h1]

theorem addTag_io {σ : Type} {tag : TagEntry} {p p' : Profile σ} (h : Profile.addTag tag p = some p') :
    p'.io = p.io := by
  unfold Profile.addTag at h
  simp only [Option.bind_eq_bind, Option.bind_eq_some_iff] at h
  obtain ⟨a, -, b, -, c, -, p1, h1, h2⟩ := h
  cases h2
  have := linkLoop_io h1
  exact this

/-- The part of the loop body that stores a line. -/
theorem PRel.addTag {σ τ : Type} {R : σ → τ → Prop} {Bad : IoErr → Prop} (tag : TagEntry) :
    PRel R Bad (PM.self >>= fun p => PM.orPanic (Profile.addTag tag p) >>= fun p' => PM.modify (fun _ => p'))
      (PM.self >>= fun p => PM.orPanic (Profile.addTag tag p) >>= fun p' => PM.modify (fun _ => p')) := by
  intro p q x y c hpq hx hy hR
  have hp := addTag_strip tag p
  rw [hpq, addTag_strip tag q] at hp
  rw [PM.bind_ok _ (rfl : PM.self (⟨p, c⟩ : PStateOf σ) = .ok p ⟨p, c⟩),
    PM.bind_ok _ (rfl : PM.self (⟨q, c⟩ : PStateOf τ) = .ok q ⟨q, c⟩)]
  cases h1 : Profile.addTag tag p with
  | none =>
    cases h2 : Profile.addTag tag q with
    | none => exact ⟨rfl, hpq⟩
    | some q' => rw [h1, h2] at hp; cases hp
  | some p' =>
    cases h2 : Profile.addTag tag q with
    | none => rw [h1, h2] at hp; cases hp
    | some q' =>
      rw [h1, h2] at hp
      simp only [Option.map_some, Option.some.injEq] at hp
      exact ⟨rfl, hp.symm, rfl, x, y, (addTag_io h1).trans hx, (addTag_io h2).trans hy, hR⟩

theorem Silent.addTag {σ : Type} (tag : TagEntry) :
    Silent (PM.self (σ := σ) >>= fun p => PM.orPanic (Profile.addTag tag p) >>= fun p' =>
      PM.modify (fun _ => p')) := by
  intro p c a s h
  rw [PM.bind_ok _ (rfl : PM.self (⟨p, c⟩ : PStateOf σ) = .ok p ⟨p, c⟩)] at h
  cases h1 : Profile.addTag tag p with
  | none => rw [h1] at h; cases h
  | some p' => rw [h1] at h; cases h; rfl

/-- Sequencing is associative. -/
theorem PM.bind_assoc {σ α β γ : Type} (m : PMof σ α) (f : α → PMof σ β) (g : β → PMof σ γ) :
    (m >>= f) >>= g = m >>= fun a => f a >>= g := by
  funext s
  simp only [PM.bind_apply]
  cases m s <;> rfl

/-! ### Handlers that behave alike -/

/-- From related states the calls made while reading a header agree. -/
structure Alike {σ τ : Type} (h : Handler σ) (k : Handler τ) (R : σ → τ → Prop) (Bad : IoErr → Prop) : Prop where
  readBuf : ∀ n, 0 < n → ∀ x y, R x y → OutRel R Bad (readBuf h n x) (readBuf k n y)

theorem tagLoop_rel {σ τ : Type} {h : Handler σ} {k : Handler τ} {R : σ → τ → Prop} {Bad : IoErr → Prop}
    (t : Target) (ha : Alike h k R Bad) (size n : Nat) :
    PRel R Bad (Profile.tagLoop t h size n) (Profile.tagLoop t k size n) := by
  induction n with
  | zero => exact PRel.pure ()
  | succ n ih =>
    unfold Profile.tagLoop
    refine (PRel.onIo (ha.readBuf 12 (by omega))).bind (Silent.onIo _) fun buf => ?_
    refine (PRel.orPanic _).bind (Silent.orPanic _) fun skip => ?_
    cases skip with
    | true => exact ih
    | false =>
      simp only [Bool.false_eq_true, if_false]
      have e : ∀ {ρ : Type} (hd : Handler ρ), (do
            let p ← PM.self
            let p' ← PM.orPanic (Profile.addTag (TagEntry.fromBytes t buf) p)
            PM.modify fun _ => p'
            Profile.tagLoop t hd size n) =
          (PM.self >>= fun p => PM.orPanic (Profile.addTag (TagEntry.fromBytes t buf) p) >>= fun p' =>
            PM.modify (fun _ => p')) >>= fun _ => Profile.tagLoop t hd size n := by
        intro ρ hd
        rw [PM.bind_assoc]
        congr 1
        funext p
        rw [PM.bind_assoc]
      rw [e, e]
      exact (PRel.addTag _).bind (Silent.addTag _) fun _ => ih

theorem OutRel.map {σ τ α β : Type} {R : σ → τ → Prop} {Bad : IoErr → Prop} {m : M σ α} {k : M τ α} (f : α → β)
    {x : σ} {y : τ} (h : OutRel R Bad (m x) (k y)) :
    OutRel R Bad ((m >>= fun a => pure (f a) : M σ β) x) ((k >>= fun a => pure (f a) : M τ β) y) := by
  show OutRel R Bad (M.bind m (fun a => M.pure (f a)) x) (M.bind k (fun a => M.pure (f a)) y)
  unfold M.bind
  cases h1 : m x with
  | ok a s =>
    cases h2 : k y with
    | ok b s' => rw [h1, h2] at h; exact ⟨by rw [h.1], h.2⟩
    | err e s' => rw [h1, h2] at h; exact h.elim
    | panic => rw [h1, h2] at h; exact h.elim
  | err e s =>
    rw [h1] at h
    rcases h with h | ⟨f, h⟩
    · exact Or.inl h
    · rw [h]; exact Or.inr ⟨_, rfl⟩
  | panic =>
    cases h2 : k y with
    | ok b s' => rw [h1, h2] at h; exact h.elim
    | err e s' => rw [h1, h2] at h; exact h.elim
    | panic => exact True.intro

theorem readU32_rel {σ τ : Type} {h : Handler σ} {k : Handler τ} {R : σ → τ → Prop} {Bad : IoErr → Prop}
    (t : Target) (ha : Alike h k R Bad) (x : σ) (y : τ) (hR : R x y) :
    OutRel R Bad (readU32 t h x) (readU32 t k y) :=
  OutRel.map (fun buf => adjustEndiannessU32 t (UInt32.ofNat (neVal t buf))) (ha.readBuf 4 (by omega) x y hR)

/-- The part of `read_header_thr` after the size is known. -/
def afterSize {σ : Type} (t : Target) (h : Handler σ) (env : Handlers) (header : ICCHeader) (reported : Nat) :
    PMof σ Unit :=
  PM.orPanic header.date.toNaive >>= fun created =>
  PM.modify (fun p => { p with created := created }) >>= fun _ =>
  PM.modify (fun p => { p with profileId := header.profileId }) >>= fun _ =>
  PM.onIo (readU32 t h) >>= fun n =>
  if n.toNat > MAX_TABLE_TAG then
    PM.signal env .range ("Too many tags ".toList ++ decimal n.toNat) >>= fun _ => PM.fail .invalidData
  else Profile.tagLoop t h (if header.size.toNat ≥ reported then reported else header.size.toNat) n.toNat

theorem readHeaderIo_split {σ : Type} (t : Target) (h : Handler σ) (env : Handlers) :
    Profile.readHeaderIo t h env =
      PM.onIo (readBuf h 128) >>= fun buf =>
      if (ICCHeader.fromBytes t 8 buf).magic ≠ MAGIC_NUMBER then
        PM.signal env .badSignature "not an ICC profile, invalid signature".toList >>= fun _ =>
          PM.fail .invalidData
      else
        PM.modify (Profile.setHeader (ICCHeader.fromBytes t 8 buf)) >>= fun _ =>
          PM.onIo (reportedSize h) >>= fun reported =>
          afterSize t h env (ICCHeader.fromBytes t 8 buf) reported := rfl

theorem setHeader_strip {σ τ : Type} (h : ICCHeader) (p : Profile σ) (q : Profile τ) (e : p.strip = q.strip) :
    (Profile.setHeader h p).strip = (Profile.setHeader h q).strip := by
  have e' : Profile.setHeader h p.strip = Profile.setHeader h q.strip := by rw [e]
  exact e'

theorem PRel.setCreated {σ τ : Type} {R : σ → τ → Prop} {Bad : IoErr → Prop} (d : NaiveDateTime) :
    PRel R Bad (PM.modify (fun p : Profile σ => { p with created := d }))
      (PM.modify (fun p : Profile τ => { p with created := d })) := by
  refine PRel.modify (fun p q e => ?_) (fun _ => rfl) (fun _ => rfl)
  have e' : ({ p.strip with created := d } : Profile Unit) = { q.strip with created := d } := by rw [e]
  exact e'

theorem PRel.setId {σ τ : Type} {R : σ → τ → Prop} {Bad : IoErr → Prop} (d : ProfileID) :
    PRel R Bad (PM.modify (fun p : Profile σ => { p with profileId := d }))
      (PM.modify (fun p : Profile τ => { p with profileId := d })) := by
  refine PRel.modify (fun p q e => ?_) (fun _ => rfl) (fun _ => rfl)
  have e' : ({ p.strip with profileId := d } : Profile Unit) = { q.strip with profileId := d } := by rw [e]
  exact e'

theorem afterSize_rel {σ τ : Type} {h : Handler σ} {k : Handler τ} {R : σ → τ → Prop} {Bad : IoErr → Prop}
    (t : Target) (env : Handlers) (ha : Alike h k R Bad) (header : ICCHeader) (reported : Nat) :
    PRel R Bad (afterSize t h env header reported) (afterSize t k env header reported) := by
  unfold afterSize
  refine (PRel.orPanic _).bind (Silent.orPanic _) fun d => ?_
  refine (PRel.setCreated d).bind (Silent.modify _) fun _ => ?_
  refine (PRel.setId _).bind (Silent.modify _) fun _ => ?_
  refine (PRel.onIo (readU32_rel t ha)).bind (Silent.onIo _) fun n => ?_
  by_cases hn : n.toNat > MAX_TABLE_TAG
  · rw [if_pos hn, if_pos hn]
    exact PRel.signal env _ _ _
  · rw [if_neg hn, if_neg hn]
    exact tagLoop_rel t ha _ _

theorem readHeaderIo_rel {σ τ : Type} {h : Handler σ} {k : Handler τ} {R : σ → τ → Prop} {Bad : IoErr → Prop}
    (t : Target) (env : Handlers) (ha : Alike h k R Bad)
    (hsize : ∀ header, PRel R Bad (PM.onIo (reportedSize h) >>= afterSize t h env header)
      (PM.onIo (reportedSize k) >>= afterSize t k env header)) :
    PRel R Bad (Profile.readHeaderIo t h env) (Profile.readHeaderIo t k env) := by
  rw [readHeaderIo_split, readHeaderIo_split]
  refine (PRel.onIo (ha.readBuf 128 (by omega))).bind (Silent.onIo _) fun buf => ?_
  by_cases hm : (ICCHeader.fromBytes t 8 buf).magic ≠ MAGIC_NUMBER
  · rw [if_pos hm, if_pos hm]
    exact PRel.signal env _ _ _
  · rw [if_neg hm, if_neg hm]
    refine (PRel.modify (setHeader_strip _) (fun _ => rfl) (fun _ => rfl)).bind (Silent.modify _) fun _ => ?_
    exact hsize _

end Lcms
