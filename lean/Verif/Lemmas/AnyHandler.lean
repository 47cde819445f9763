import Verif.Lemmas.Sim
import Verif.Spec.Source

/-! # Lemmas: reading a header through an arbitrary handler -/

namespace Lcms

open Lcms.Spec

theorem readBuf_ask {σ : Type} (h : Handler σ) (n : Nat) (s : σ) : readBuf h n s = ask h n s := rfl

theorem ask_length {σ : Type} {h : Handler σ} {n : Nat} {s s' : σ} {l : List Byte} (hl : ask h n s = .ok l s') :
    l.length = n := by
  unfold ask at hl
  have := h.read_length (List.replicate n 0) s
  cases hr : h.read (List.replicate n 0) s with
  | mk o buf =>
    rw [hr] at hl this
    cases o with
    | ok a s1 => cases hl; simpa using this
    | err e s1 => cases hl
    | panic => cases hl

theorem tagFromBytes_line (t : Target) (l : List Byte) (h : l.length = 12) :
    TagEntry.fromBytes t l = tagOf (lineOf t l) := by
  rw [tagFromBytes_eq t l h]; rfl

theorem lineOf_lt (t : Target) (l : List Byte) :
    (lineOf t l).name < 2 ^ 32 ∧ (lineOf t l).offset < 2 ^ 32 ∧ (lineOf t l).size < 2 ^ 32 :=
  ⟨num_lt t l _ 4, num_lt t l _ 4, num_lt t l _ 4⟩

theorem onIo_any {σ α : Type} (m : M σ α) (p : Profile σ) (s : σ) (c : CState) (hp : p.io = some s) :
    PM.onIo m ⟨p, c⟩ =
      match m s with
      | .ok a s' => .ok a ⟨{ p with io := some s' }, c⟩
      | .err e s' => .err e ⟨{ p with io := some s' }, c⟩
      | .panic => .panic ⟨p, c⟩ := by
  unfold PM.onIo
  simp only [hp]
  cases m s <;> rfl

/-- Lines that lie within the limit. -/
def within (hs : Nat) (es : List Entry) : List Entry := es.filter fun e => e.offset + e.size ≤ hs

/-- The table is `es`, and then only in-range lines. -/
def Grown {σ : Type} (hs : Nat) (p0 : Profile σ) (es : List Entry) (c : CState) (s : PStateOf σ) : Prop :=
  ∃ es' x, (∀ e ∈ es', e.offset + e.size ≤ hs ∧ e.name < 2 ^ 32) ∧ es.length + es'.length ≤ 100 ∧
    s = ⟨{ withTable p0 (es ++ es') with io := some x }, c⟩

/-- The directory loop, by what the handler delivers. -/
theorem tagLoop_any {σ : Type} (t : Target) (h : Handler σ) (hs : Nat) (hhs : hs < 2 ^ 32) (n : Nat) :
    ∀ (es : List Entry) (p : Profile σ) (c : CState) (s : σ), es.length + n ≤ 100 →
      let r := Profile.tagLoop t h hs n ⟨{ withTable p es with io := some s }, c⟩
      let raw := (askLines h n s).1.map (lineOf t)
      if t.checks = true ∧ ∃ e ∈ raw, 2 ^ 32 ≤ e.offset + e.size then
        ∃ st, r = .panic st ∧ Grown hs p es c st
      else match (askLines h n s).2 with
        | .ok _ s' => r = .ok () ⟨{ withTable p (es ++ within hs raw) with io := some s' }, c⟩
        | .err e s' => r = .err e ⟨{ withTable p (es ++ within hs raw) with io := some s' }, c⟩
        | .panic => ∃ st, r = .panic st ∧ Grown hs p es c st := by
  induction n with
  | zero =>
    intro es p c s hl
    simp only [askLines, List.map_nil, List.not_mem_nil, false_and, exists_false, and_false, if_false, within,
      List.filter_nil, List.append_nil]
    rfl
  | succ n ih =>
    intro es p c s hl
    simp only
    have hio : ({ withTable p es with io := some s } : Profile σ).io = some s := rfl
    have hgrow0 : ∀ x, Grown hs p es c ⟨{ withTable p es with io := some x }, c⟩ := fun x =>
      ⟨[], x, by simp, by simp; omega, by simp⟩
    rw [Profile.tagLoop, PM.bind_apply, onIo_any _ _ s c hio, readBuf_ask]
    unfold askLines
    cases hb : ask h 12 s with
    | panic =>
      simp only [List.map_nil, List.not_mem_nil, false_and, exists_false, and_false, if_false]
      exact ⟨_, rfl, hgrow0 s⟩
    | err e s' =>
      simp only [List.map_nil, List.not_mem_nil, false_and, exists_false, and_false, if_false, within,
        List.filter_nil, List.append_nil]
    | ok l s' =>
      simp only
      rw [tagFromBytes_line t l (ask_length hb)]
      obtain ⟨l1, l2, l3⟩ := lineOf_lt t l
      rw [outOfRange_eq t hs hhs (lineOf t l) l2 l3]
      simp only [List.map_cons, List.mem_cons, exists_eq_or_imp]
      by_cases hov : t.checks = true ∧ 2 ^ 32 ≤ (lineOf t l).offset + (lineOf t l).size
      · rw [if_pos hov, if_pos ⟨hov.1, Or.inl hov.2⟩]
        exact ⟨_, rfl, hgrow0 s'⟩
      · rw [if_neg hov]
        have hiff : (t.checks = true ∧ (2 ^ 32 ≤ (lineOf t l).offset + (lineOf t l).size ∨
            ∃ e ∈ (askLines h n s').1.map (lineOf t), 2 ^ 32 ≤ e.offset + e.size)) ↔
            (t.checks = true ∧ ∃ e ∈ (askLines h n s').1.map (lineOf t), 2 ^ 32 ≤ e.offset + e.size) := by
          constructor
          · rintro ⟨a, b | b⟩
            · exact absurd ⟨a, b⟩ hov
            · exact ⟨a, b⟩
          · rintro ⟨a, b⟩; exact ⟨a, Or.inr b⟩
        simp only [hiff]
        by_cases hsk : hs < (lineOf t l).offset + (lineOf t l).size
        · have hd : decide (hs < (lineOf t l).offset + (lineOf t l).size) = true := by simpa using hsk
          have hw : within hs (lineOf t l :: (askLines h n s').1.map (lineOf t)) =
              within hs ((askLines h n s').1.map (lineOf t)) := by
            unfold within; rw [List.filter_cons_of_neg (by simpa using hsk)]
          rw [hd, hw]
          exact ih es p c s' (by omega)
        · have hd : decide (hs < (lineOf t l).offset + (lineOf t l).size) = false := by simpa using hsk
          have hw : within hs (lineOf t l :: (askLines h n s').1.map (lineOf t)) =
              lineOf t l :: within hs ((askLines h n s').1.map (lineOf t)) := by
            unfold within; rw [List.filter_cons_of_pos (by simpa using hsk)]
          have ha : Profile.addTag (tagOf (lineOf t l)) ({ withTable p es with io := some s' } : Profile σ) =
              some { withTable p (es ++ [lineOf t l]) with io := some s' } :=
            addTag_eq { p with io := some s' } es (lineOf t l) (by omega) l2 l3
          rw [hd, hw]
          have hrun : ∀ (k : PMof σ Unit), ((PM.orPanic (some false) : PMof σ Bool) >>= fun skip =>
              if skip = true then k else
                PM.self >>= fun q => PM.orPanic (Profile.addTag (tagOf (lineOf t l)) q) >>= fun p' =>
                  PM.modify (fun _ => p') >>= fun _ => k)
              ⟨{ withTable p es with io := some s' }, c⟩ =
              k ⟨{ withTable p (es ++ [lineOf t l]) with io := some s' }, c⟩ := by
            intro k
            simp only [PM.orPanic, PM.pure_apply, Bool.false_eq_true, if_false, PM.bind_apply, PM.self, ha,
              PM.modify]
          have hrun := hrun (Profile.tagLoop t h hs n)
          have hih := ih (es ++ [lineOf t l]) p c s' (by simp; omega)
          have hg : ∀ st, Grown hs p (es ++ [lineOf t l]) c st → Grown hs p es c st := by
            rintro st ⟨es', x, g1, g2, g3⟩
            refine ⟨lineOf t l :: es', x, ?_, ?_, ?_⟩
            · intro e he
              rcases List.mem_cons.mp he with rfl | he
              · exact ⟨by omega, l1⟩
              · exact g1 e he
            · simp at g2 ⊢; omega
            · rw [g3]; simp
          rw [hrun]
          simp only at hih
          rw [show es ++ lineOf t l :: within hs ((askLines h n s').1.map (lineOf t)) =
            (es ++ [lineOf t l]) ++ within hs ((askLines h n s').1.map (lineOf t)) by simp]
          by_cases hover : t.checks = true ∧ ∃ e ∈ (askLines h n s').1.map (lineOf t), 2 ^ 32 ≤ e.offset + e.size
          · rw [if_pos hover] at hih ⊢
            obtain ⟨st, e1, e2⟩ := hih
            exact ⟨st, e1, hg st e2⟩
          · rw [if_neg hover] at hih ⊢
            cases hend : (askLines h n s').2 with
            | ok a x => rw [hend] at hih; exact hih
            | err e x => rw [hend] at hih; exact hih
            | panic =>
              rw [hend] at hih
              obtain ⟨st, e1, e2⟩ := hih
              exact ⟨st, e1, hg st e2⟩

/-- The handler delivers a complete header and directory, and no check of the program fails. -/
def Complete {σ : Type} (t : Target) (h : Handler σ) (s : σ) : Prop :=
  ∃ hd s1 size s2 cnt s3 ls s4,
    ask h 128 s = .ok hd s1 ∧ num t hd 36 4 = acsp ∧ reportedSize h s1 = .ok size s2 ∧ DateOk t hd ∧
    ask h 4 s2 = .ok cnt s3 ∧ num t cnt 0 4 ≤ 100 ∧ askLines h (num t cnt 0 4) s3 = (ls, .ok () s4) ∧
    (t.checks = true → ∀ l ∈ ls, (lineOf t l).offset + (lineOf t l).size < 2 ^ 32)

/-- Overflow checks are on and one of the delivered lines ends beyond 2³². -/
def Overflows {σ : Type} (t : Target) (h : Handler σ) (s : σ) : Prop :=
  t.checks = true ∧ ∃ hd s1 size s2 cnt s3, ask h 128 s = .ok hd s1 ∧ reportedSize h s1 = .ok size s2 ∧
    ask h 4 s2 = .ok cnt s3 ∧
    ∃ l ∈ (askLines h (num t cnt 0 4) s3).1, 2 ^ 32 ≤ (lineOf t l).offset + (lineOf t l).size

/-- What holds of any outcome of reading a header. -/
structure Reading {σ : Type} (t : Target) (h : Handler σ) (env : Handlers) (s : σ) (ctx : CState)
    (r : POutOf σ Unit) : Prop where
  table : ∃ es, HasTable r.state.prof es ∧ ∀ e ∈ es, e.offset + e.size < 2 ^ 32
  success : ∀ u st, r = .ok u st → ∃ hd s1 size s2 cnt s3 ls s4,
    ask h 128 s = .ok hd s1 ∧ num t hd 36 4 = acsp ∧ reportedSize h s1 = .ok size s2 ∧ DateOk t hd ∧
    ask h 4 s2 = .ok cnt s3 ∧ num t cnt 0 4 ≤ 100 ∧ askLines h (num t cnt 0 4) s3 = (ls, .ok () s4) ∧
    (t.checks = true → ∀ l ∈ ls, (lineOf t l).offset + (lineOf t l).size < 2 ^ 32) ∧
    st.prof.io = some s4 ∧
    Says t hd ((ls.map (lineOf t)).filter fun e => e.offset + e.size ≤ min (num t hd 0 4) size) st.prof
  panics : ∀ st, r = .panic st → ¬ Polite h ∨ Overflows t h s ∨ (∃ hd s1, ask h 128 s = .ok hd s1 ∧ ¬ DateOk t hd) ∨
    ∃ code text c', callHandler env ctx.ctx.errorHandler ctx.ctx code text = .panics c'
  completes : Complete t h s → ∃ st, r = .ok () st
  signals : ∃ l, r.state.ctx.trace = ctx.trace ++ l ∧ l.length ≤ 1 ∧
    (l ≠ [] → (∃ st, r = .err .invalidData st) ∨ ∃ st, r = .panic st)

theorem hasTable_new {σ : Type} (now : NaiveDateTime) (io : Option σ) :
    HasTable { (Profile.new now : Profile σ) with io := io } [] := by
  refine ⟨by simp, rfl, ?_, rfl, rfl, ?_, rfl⟩
  · show (List.replicate MAX_TABLE_TAG Signature.default).map _ = _
    rw [List.map_replicate]
    rfl
  · show (List.replicate MAX_TABLE_TAG none).length = 100
    rw [List.length_replicate]; rfl

theorem hasTable_withTable {σ : Type} (p : Profile σ) (hp : p.tagSaveAsRaw = List.replicate 100 false)
    (es : List Entry) (h : es.length ≤ 100) (hn : ∀ e ∈ es, e.name < 2 ^ 32) (io : Option σ) :
    HasTable { withTable p es with io := io } es := by
  refine ⟨h, rfl, ?_, rfl, rfl, ?_, hp⟩
  · show (column _ _).map _ = _
    rw [column_map, List.map_map]
    have e : (Signature.default).val.toNat = 0x20202020 := by decide
    rw [e]
    congr 1
    apply List.map_congr_left
    intro x hx
    exact sigOf_toNat _ (hn x hx)
  · show (column _ _).length = _
    rw [column_length _ _ (by rw [linkCol_length]; exact h)]

section
variable {σ : Type} {t : Target} {h : Handler σ} {env : Handlers} {s : σ} {ctx : CState}

theorem Reading.err {e : IoErr} {st : PStateOf σ} (hc : st.ctx = ctx) {es : List Entry} (ht : HasTable st.prof es)
    (hes : ∀ e ∈ es, e.offset + e.size < 2 ^ 32) (hn : ¬ Complete t h s) : Reading t h env s ctx (.err e st) :=
  ⟨⟨es, ht, hes⟩, fun _ _ h => (by cases h), fun _ h => (by cases h), fun h => absurd h hn, [], by
    show st.ctx.trace = _
    rw [hc, List.append_nil], by simp, fun h => absurd rfl h⟩

theorem Reading.panic {st : PStateOf σ} (hc : st.ctx = ctx) {es : List Entry} (ht : HasTable st.prof es)
    (hes : ∀ e ∈ es, e.offset + e.size < 2 ^ 32)
    (hw : ¬ Polite h ∨ Overflows t h s ∨ (∃ hd s1, ask h 128 s = .ok hd s1 ∧ ¬ DateOk t hd) ∨
      ∃ code text c', callHandler env ctx.ctx.errorHandler ctx.ctx code text = .panics c')
    (hn : ¬ Complete t h s) : Reading t h env s ctx (.panic st) :=
  ⟨⟨es, ht, hes⟩, fun _ _ h => (by cases h), fun _ _ => hw, fun h => absurd h hn, [], by
    show st.ctx.trace = _
    rw [hc, List.append_nil], by simp, fun h => absurd rfl h⟩

theorem Reading.signal (code : ErrorCode) (text : Str) (p : Profile σ) {es : List Entry} (ht : HasTable p es)
    (hes : ∀ e ∈ es, e.offset + e.size < 2 ^ 32) (hn : ¬ Complete t h s) :
    Reading t h env s ctx ((PM.signal env code text >>= fun _ => (PM.fail .invalidData : PMof σ Unit)) ⟨p, ctx⟩) := by
  rw [PM.bind_apply]
  unfold PM.signal signalError
  cases hc : callHandler env ctx.ctx.errorHandler ctx.ctx code text with
  | panics c' =>
    exact ⟨⟨es, ht, hes⟩, fun _ _ h => (by cases h), fun _ _ => Or.inr (Or.inr (Or.inr ⟨code, text, c', hc⟩)),
      fun h => absurd h hn, [⟨code, text⟩], rfl, by simp, fun _ => Or.inr ⟨_, rfl⟩⟩
  | returns c' =>
    exact ⟨⟨es, ht, hes⟩, fun _ _ h => (by cases h), fun _ h => (by cases h),
      fun h => absurd h hn, [⟨code, text⟩], rfl, by simp, fun _ => Or.inl ⟨_, rfl⟩⟩

end

theorem not_polite_ask {σ : Type} {h : Handler σ} {n : Nat} {s : σ} (hp : ask h n s = .panic) : ¬ Polite h := by
  rintro ⟨h1, -, -⟩
  apply h1 (List.replicate n 0) s
  unfold ask at hp
  cases hr : h.read (List.replicate n 0) s with
  | mk o buf =>
    rw [hr] at hp
    cases o with
    | panic => rfl
    | ok a x => cases hp
    | err e x => cases hp

theorem not_polite_lines {σ : Type} {h : Handler σ} {n : Nat} {s : σ} (hp : (askLines h n s).2 = .panic) :
    ¬ Polite h := by
  induction n generalizing s with
  | zero => cases hp
  | succ n ih =>
    unfold askLines at hp
    cases ha : ask h 12 s with
    | ok l s' => rw [ha] at hp; exact ih hp
    | err e s' => rw [ha] at hp; cases hp
    | panic => exact not_polite_ask ha

theorem not_polite_size {σ : Type} {h : Handler σ} {s : σ} (hp : reportedSize h s = .panic) : ¬ Polite h := by
  rintro ⟨-, h2, h3⟩
  unfold reportedSize at hp
  cases e1 : h.tell s with
  | panic => exact h3 _ e1
  | err e x => rw [e1] at hp; cases hp
  | ok c x =>
    rw [e1] at hp; simp only at hp
    cases e2 : h.seek (.end_ 0) x with
    | panic => exact h2 _ _ e2
    | err e y => rw [e2] at hp; cases hp
    | ok u y =>
      rw [e2] at hp; simp only at hp
      cases e3 : h.tell y with
      | panic => exact h3 _ e3
      | err e z =>
        rw [e3] at hp; simp only at hp
        cases e4 : h.seek (.start (UInt64.ofNat c)) z with
        | panic => exact h2 _ _ e4
        | err e w => rw [e4] at hp; cases hp
        | ok u w => rw [e4] at hp; cases hp
      | ok n z =>
        rw [e3] at hp; simp only at hp
        cases e4 : h.seek (.start (UInt64.ofNat c)) z with
        | panic => exact h2 _ _ e4
        | err e w => rw [e4] at hp; cases hp
        | ok u w => rw [e4] at hp; cases hp

theorem askLines_fst_length {σ : Type} (h : Handler σ) (n : Nat) (s : σ) : (askLines h n s).1.length ≤ n := by
  induction n generalizing s with
  | zero => simp [askLines]
  | succ n ih =>
    unfold askLines
    cases ask h 12 s with
    | ok l s' => simp only [List.length_cons]; have := ih s'; omega
    | err e s' => simp
    | panic => simp

theorem slice_all (b : List Byte) (n : Nat) (h : b.length = n) : slice b 0 n = b := by
  unfold slice; rw [List.drop_zero, List.take_of_length_le (by omega)]

theorem readU32_ask {σ : Type} (t : Target) (h : Handler σ) (s : σ) :
    readU32 t h s =
      match ask h 4 s with
      | .ok l s' => .ok (UInt32.ofNat (num t l 0 4)) s'
      | .err e s' => .err e s'
      | .panic => .panic := by
  rw [readU32_eq, readBuf_ask]
  cases hb : ask h 4 s with
  | ok l s' =>
    simp only [Out.map]
    congr 2
    unfold num
    rw [← slice_eq_at (by rw [ask_length hb]), slice_all l 4 (ask_length hb)]
  | err e s' => rfl
  | panic => rfl

theorem readHeader_any {σ : Type} (t : Target) (h : Handler σ) (env : Handlers) (now : NaiveDateTime) (s : σ)
    (ctx : CState) :
    Reading t h env s ctx
      (Profile.readHeaderIo t h env ⟨{ (Profile.new now : Profile σ) with io := some s }, ctx⟩) := by
  rw [readHeaderIo_split, PM.bind_apply, onIo_any _ _ s ctx rfl, readBuf_ask]
  have hno : ∀ e ∈ ([] : List Entry), e.offset + e.size < 2 ^ 32 := by simp
  -- the deliveries are the only ones
  have c1 : ∀ o, ask h 128 s = o → Complete t h s → ∃ hd s1, o = .ok hd s1 := by
    rintro o rfl ⟨hd, s1, _, _, _, _, _, _, a, -⟩; exact ⟨hd, s1, a⟩
  cases hask : ask h 128 s with
  | panic =>
    exact Reading.panic rfl (hasTable_new now _) hno (Or.inl (not_polite_ask hask))
      (fun h => by obtain ⟨_, _, a⟩ := c1 _ hask h; cases a)
  | err e s1 => exact Reading.err rfl (hasTable_new now _) hno (fun h => by obtain ⟨_, _, a⟩ := c1 _ hask h; cases a)
  | ok hd s1 =>
    simp only
    have hlen := ask_length hask
    have hhd : ICCHeader.fromBytes t 8 hd = headerOf t hd := by unfold headerOf; rw [slice_all hd 128 hlen]
    have hb : 128 ≤ hd.length := by omega
    have c2 : Complete t h s → num t hd 36 4 = acsp ∧ DateOk t hd ∧ ∃ size s2 cnt s3 ls s4,
        reportedSize h s1 = .ok size s2 ∧ ask h 4 s2 = .ok cnt s3 ∧ num t cnt 0 4 ≤ 100 ∧
        askLines h (num t cnt 0 4) s3 = (ls, .ok () s4) ∧
        (t.checks = true → ∀ l ∈ ls, (lineOf t l).offset + (lineOf t l).size < 2 ^ 32) := by
      rintro ⟨hd', s1', size, s2, cnt, s3, ls, s4, a1, a2, a3, a4, a5, a6, a7, a8⟩
      rw [hask] at a1
      cases a1
      exact ⟨a2, a4, size, s2, cnt, s3, ls, s4, a3, a5, a6, a7, a8⟩
    rw [hhd]
    by_cases hmag : (headerOf t hd).magic ≠ MAGIC_NUMBER
    · rw [if_pos hmag]
      exact Reading.signal _ _ _ (hasTable_new now _) hno
        (fun h => (headerOf_magic t hd hb).mp hmag (c2 h).1)
    rw [if_neg hmag]
    have hmag' := mt (headerOf_magic t hd hb).mpr hmag
    rw [not_not] at hmag'
    -- the profile fields do not matter for the table
    have htab : ∀ x : Option σ, HasTable { Profile.setHeader (headerOf t hd) (Profile.new now) with io := x } [] :=
      fun x => hasTable_withTable (Profile.setHeader (headerOf t hd) (Profile.new now)) rfl [] (by simp) (by simp) x
    have e1 : PM.modify (Profile.setHeader (headerOf t hd))
        ⟨{ (Profile.new now : Profile σ) with io := some s1 }, ctx⟩ =
        .ok () ⟨{ Profile.setHeader (headerOf t hd) (Profile.new now) with io := some s1 }, ctx⟩ := rfl
    rw [PM.bind_ok _ e1, PM.bind_apply, onIo_any _ _ s1 ctx rfl]
    cases hsz : reportedSize h s1 with
    | panic =>
      exact Reading.panic rfl (htab _) hno (Or.inl (not_polite_size hsz))
        (fun h => by obtain ⟨-, -, _, _, _, _, _, _, a, -⟩ := c2 h; rw [hsz] at a; cases a)
    | err e s2 =>
      exact Reading.err rfl (htab _) hno
        (fun h => by obtain ⟨-, -, _, _, _, _, _, _, a, -⟩ := c2 h; rw [hsz] at a; cases a)
    | ok size s2 =>
      simp only
      unfold afterSize
      by_cases hdate : DateOk t hd
      swap
      · rw [(headerOf_date t hd hb).2 hdate, PM.bind_apply]
        exact Reading.panic rfl (htab _) hno (Or.inr (Or.inr (Or.inl ⟨hd, s1, hask, hdate⟩)))
          (fun h => hdate (c2 h).2.1)
      have c3 : Complete t h s → ∃ cnt s3 ls s4, ask h 4 s2 = .ok cnt s3 ∧ num t cnt 0 4 ≤ 100 ∧
          askLines h (num t cnt 0 4) s3 = (ls, .ok () s4) ∧
          (t.checks = true → ∀ l ∈ ls, (lineOf t l).offset + (lineOf t l).size < 2 ^ 32) := by
        intro h
        obtain ⟨-, -, _, _, cnt, s3, ls, s4, a, a1, a2, a3, a4⟩ := c2 h
        rw [hsz] at a
        cases a
        exact ⟨cnt, s3, ls, s4, a1, a2, a3, a4⟩
      obtain ⟨d, hd1, -⟩ := (headerOf_date t hd hb).1 hdate
      rw [hd1]
      have e2 : ∀ k : PMof σ Unit, ((PM.orPanic (some d) : PMof σ NaiveDateTime) >>= fun created =>
          PM.modify (fun p => { p with created := created }) >>= fun _ =>
          PM.modify (fun p => { p with profileId := (headerOf t hd).profileId }) >>= fun _ => k)
          ⟨{ Profile.setHeader (headerOf t hd) (Profile.new now) with io := some s2 }, ctx⟩ =
          k ⟨{ withTable (filled t hd d (Profile.new now : Profile σ)) [] with io := some s2 }, ctx⟩ := fun _ => rfl
      rw [e2]
      have htab2 : ∀ es : List Entry, es.length ≤ 100 → (∀ e ∈ es, e.name < 2 ^ 32) → ∀ x : Option σ,
          HasTable { withTable (filled t hd d (Profile.new now : Profile σ)) es with io := x } es :=
        fun es h1 h2 x => hasTable_withTable (filled t hd d (Profile.new now : Profile σ)) rfl es h1 h2 x
      rw [PM.bind_apply, onIo_any _ _ s2 ctx rfl, readU32_ask]
      cases hcnt : ask h 4 s2 with
      | panic =>
        exact Reading.panic rfl (htab2 [] (by simp) (by simp) _) hno (Or.inl (not_polite_ask hcnt))
          (fun h => by obtain ⟨_, _, _, _, a, -⟩ := c3 h; rw [hcnt] at a; cases a)
      | err e s3 =>
        exact Reading.err rfl (htab2 [] (by simp) (by simp) _) hno
          (fun h => by obtain ⟨_, _, _, _, a, -⟩ := c3 h; rw [hcnt] at a; cases a)
      | ok cnt s3 =>
        simp only
        have c4 : Complete t h s → num t cnt 0 4 ≤ 100 ∧ ∃ ls s4, askLines h (num t cnt 0 4) s3 = (ls, .ok () s4) ∧
            (t.checks = true → ∀ l ∈ ls, (lineOf t l).offset + (lineOf t l).size < 2 ^ 32) := by
          intro h
          obtain ⟨_, _, ls, s4, a, a1, a2, a3⟩ := c3 h
          rw [hcnt] at a
          cases a
          exact ⟨a1, ls, s4, a2, a3⟩
        rw [num4_toNat]
        by_cases hmany : num t cnt 0 4 > MAX_TABLE_TAG
        · rw [if_pos hmany]
          exact Reading.signal _ _ _ (htab2 [] (by simp) (by simp) _) hno
            (fun h => by have := (c4 h).1; unfold MAX_TABLE_TAG at hmany; omega)
        rw [if_neg hmany]
        have hmany : num t cnt 0 4 ≤ 100 := by unfold MAX_TABLE_TAG at hmany; omega
        have hsize : (headerOf t hd).size.toNat = num t hd 0 4 := by rw [headerOf_eq t hd hb]; exact num4_toNat t hd 0
        have hlim : (if (headerOf t hd).size.toNat ≥ size then size else (headerOf t hd).size.toNat) =
            min (num t hd 0 4) size := by rw [hsize]; split <;> omega
        rw [hlim]
        have hlim32 : min (num t hd 0 4) size < 2 ^ 32 := lt_of_le_of_lt (Nat.min_le_left _ _) (num_lt t hd 0 4)
        have hloop := tagLoop_any t h (min (num t hd 0 4) size) hlim32 (num t cnt 0 4) []
          (filled t hd d (Profile.new now)) ctx s3 (by simpa using hmany)
        simp only [List.nil_append] at hloop
        generalize hr : Profile.tagLoop t h (min (num t hd 0 4) size) (num t cnt 0 4)
          ⟨{ withTable (filled t hd d (Profile.new now : Profile σ)) [] with io := some s3 }, ctx⟩ = r at hloop ⊢
        have hin : ∀ e ∈ within (min (num t hd 0 4) size) ((askLines h (num t cnt 0 4) s3).1.map (lineOf t)),
            e.offset + e.size < 2 ^ 32 ∧ e.name < 2 ^ 32 := by
          intro e he
          unfold within at he
          rw [List.mem_filter] at he
          obtain ⟨he1, he2⟩ := he
          rw [List.mem_map] at he1
          obtain ⟨l, -, rfl⟩ := he1
          exact ⟨lt_of_le_of_lt (by simpa using he2) hlim32, (lineOf_lt t l).1⟩
        have hlen2 : (within (min (num t hd 0 4) size) ((askLines h (num t cnt 0 4) s3).1.map (lineOf t))).length ≤ 100 := by
          unfold within
          refine (List.length_filter_le _ _).trans ?_
          rw [List.length_map]
          exact (askLines_fst_length h _ s3).trans hmany
        have hgrown : ∀ st, Grown (min (num t hd 0 4) size) (filled t hd d (Profile.new now : Profile σ)) [] ctx st →
            st.ctx = ctx ∧ ∃ es, HasTable st.prof es ∧ ∀ e ∈ es, e.offset + e.size < 2 ^ 32 := by
          rintro st ⟨es', x, g1, g2, rfl⟩
          refine ⟨rfl, es', ?_, fun e he => lt_of_le_of_lt (g1 e he).1 hlim32⟩
          exact htab2 es' (by simpa using g2) (fun e he => (g1 e he).2) (some x)
        by_cases hov : t.checks = true ∧ ∃ e ∈ (askLines h (num t cnt 0 4) s3).1.map (lineOf t), 2 ^ 32 ≤ e.offset + e.size
        · rw [if_pos hov] at hloop
          obtain ⟨st, rfl, hg⟩ := hloop
          obtain ⟨g1, es, g2, g3⟩ := hgrown st hg
          have hover : Overflows t h s := by
            obtain ⟨hc, e, he, hbig⟩ := hov
            rw [List.mem_map] at he
            obtain ⟨l, hl, rfl⟩ := he
            exact ⟨hc, hd, s1, size, s2, cnt, s3, hask, hsz, hcnt, l, hl, hbig⟩
          refine Reading.panic g1 g2 g3 (Or.inr (Or.inl hover)) fun h => ?_
          obtain ⟨-, ls, s4, a, a1⟩ := c4 h
          obtain ⟨hc, e, he, hbig⟩ := hov
          rw [a, List.mem_map] at he
          obtain ⟨l, hl, rfl⟩ := he
          have := a1 hc l hl
          omega
        rw [if_neg hov] at hloop
        cases hend : (askLines h (num t cnt 0 4) s3).2 with
        | panic =>
          rw [hend] at hloop
          obtain ⟨st, rfl, hg⟩ := hloop
          obtain ⟨g1, es, g2, g3⟩ := hgrown st hg
          exact Reading.panic g1 g2 g3 (Or.inl (not_polite_lines hend))
            (fun h => by obtain ⟨-, _, _, a, -⟩ := c4 h; rw [a] at hend; cases hend)
        | err e s4 =>
          rw [hend] at hloop
          simp only at hloop
          rw [hloop]
          exact Reading.err rfl (htab2 _ hlen2 (fun e he => (hin e he).2) _) (fun e he => (hin e he).1)
            (fun h => by obtain ⟨-, _, _, a, -⟩ := c4 h; rw [a] at hend; cases hend)
        | ok u s4 =>
          rw [hend] at hloop
          simp only at hloop
          rw [hloop]
          refine ⟨⟨_, htab2 _ hlen2 (fun e he => (hin e he).2) _, fun e he => (hin e he).1⟩, ?_, fun _ h => (by cases h),
            fun _ => ⟨_, rfl⟩, [], by simp [POutOf.state], by simp, fun h => absurd rfl h⟩
          intro u' st hst
          cases hst
          refine ⟨hd, s1, size, s2, cnt, s3, (askLines h (num t cnt 0 4) s3).1, s4, hask, hmag', hsz, hdate, hcnt, hmany,
            ?_, fun hc l hl => ?_, rfl, ?_⟩
          · rw [← hend]
          · by_contra hbig
            exact hov ⟨hc, _, List.mem_map.mpr ⟨l, hl, rfl⟩, by omega⟩
          · exact header_says t hd hb now d s4 _ (fun e he => (hin e he).2) hdate hd1

theorem Reading.complete {σ : Type} {t : Target} {h : Handler σ} {env : Handlers} {s : σ} {ctx : CState}
    {r : POutOf σ Unit} (hr : Reading t h env s ctx r) (u : Unit) (st : PStateOf σ) (hst : r = .ok u st) :
    Complete t h s := by
  obtain ⟨hd, s1, size, s2, cnt, s3, ls, s4, a1, a2, a3, a4, a5, a6, a7, a8, -⟩ := hr.success u st hst
  exact ⟨hd, s1, size, s2, cnt, s3, ls, s4, a1, a2, a3, a4, a5, a6, a7, a8⟩

theorem reportedSize_reports {σ : Type} (h : Handler σ) (s : σ) (size : Nat) (s' : σ) :
    reportedSize h s = .ok size s' ↔ Reports h s size s' := by
  unfold reportedSize Reports
  cases e1 : h.tell s with
  | panic => simp
  | err e x => simp
  | ok c x =>
    simp only
    cases e2 : h.seek (.end_ 0) x with
    | panic => simp [e2]
    | err e y => simp [e2]
    | ok u y =>
      simp only
      cases e3 : h.tell y with
      | panic => simp [e2, e3]
      | err e z =>
        simp only
        cases e4 : h.seek (.start (UInt64.ofNat c)) z <;> simp [e2, e3]
      | ok n z =>
        simp only
        cases e4 : h.seek (.start (UInt64.ofNat c)) z with
        | panic => simp [e2, e3, e4]
        | err e w => simp [e2, e3]; intros; subst_vars; simp [e4]
        | ok u w => simp [e2, e3]; rintro -; rw [e4]; simp

theorem complete_iff {σ : Type} (t : Target) (h : Handler σ) (s : σ) :
    Complete t h s ↔ ∃ hd size cnt ls s4, Delivers t h s hd size cnt ls (.ok () s4) ∧ num t hd 36 4 = acsp ∧
      DateOk t hd ∧ num t cnt 0 4 ≤ 100 ∧
      (t.checks = true → ∀ l ∈ ls, (lineOf t l).offset + (lineOf t l).size < 2 ^ 32) := by
  constructor
  · rintro ⟨hd, s1, size, s2, cnt, s3, ls, s4, a1, a2, a3, a4, a5, a6, a7, a8⟩
    exact ⟨hd, size, cnt, ls, s4, ⟨s1, s2, s3, a1, (reportedSize_reports ..).mp a3, a5, a7⟩, a2, a4, a6, a8⟩
  · rintro ⟨hd, size, cnt, ls, s4, ⟨s1, s2, s3, a1, a3, a5, a7⟩, a2, a4, a6, a8⟩
    exact ⟨hd, s1, size, s2, cnt, s3, ls, s4, a1, a2, (reportedSize_reports ..).mpr a3, a4, a5, a6, a7, a8⟩

theorem disturbed_of_rel {σ τ : Type} {R : σ → τ → Prop} {Bad : IoErr → Prop} {c : CState} {x : POutOf σ Unit}
    {y : POutOf τ Unit} (h : POutRel R Bad c x y) :
    SameReading x y ∨ ∃ e st, x = .err e st ∧ st.ctx = c ∧ Bad e := by
  cases x with
  | ok a s => cases y <;> simp_all [POutRel, SameReading]
  | panic s => cases y <;> simp_all [POutRel, SameReading]
  | err e s =>
    rcases h with ⟨h1, h2⟩ | ⟨s', rfl, h1, h2⟩
    · exact Or.inr ⟨e, s, rfl, h2, h1⟩
    · exact Or.inl ⟨rfl, h2, h1⟩

theorem sameReading_of_rel {σ τ : Type} {R : σ → τ → Prop} {c : CState} {x : POutOf σ Unit} {y : POutOf τ Unit}
    (h : POutRel R (fun _ => False) c x y) : SameReading x y := by
  cases x <;> cases y <;> simp_all [POutRel, SameReading]

end Lcms
