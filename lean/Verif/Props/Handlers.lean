import Verif.Lemmas.AnyHandler
import Verif.Lemmas.SharedOpen
import Verif.Lemmas.Record
import Verif.Props.Open

/-! # Properties C75–C79: profiles and values on arbitrary, in-memory and failing handlers -/

namespace Lcms.Props

open Lcms.Spec

/-! ### C75 -/

/-- A new profile on a handle, as every `open_…` function prepares it. -/
def fresh {σ : Type} (now : NaiveDateTime) (s : σ) (ctx : CState) : PStateOf σ :=
  ⟨{ (Profile.new now : Profile σ) with io := some s }, ctx⟩

/-- **C75**: whatever implements the handler trait and however it behaves, reading a profile through it
* leaves, however it ends, a tag table of at most 100 lines, all of them ending below 2³²;
* succeeds exactly if the handler delivers everything asked for, the magic number is there, the date exists,
  the count is at most 100 and (with overflow checks) no line overflows;
* then keeps exactly the delivered lines that end within the size in the header and the size the handler
  reports, takes every other field from the 128 delivered bytes, keeps the handle, and signals nothing;
* panics only if a handler method or the error callback panics, the date is impossible, or (with overflow
  checks) a line overflows;
* signals at most one error, and then does not succeed: it returns `InvalidData`, or the callback panicked. -/
theorem C75_any_handler {σ : Type} (t : Target) (h : Handler σ) (env : Handlers) (now : NaiveDateTime) (s : σ)
    (ctx : CState) :
    let r := Profile.readHeaderThr t h env (fresh now s ctx)
    (∃ es, HasTable r.state.prof es ∧ ∀ e ∈ es, e.offset + e.size < 2 ^ 32) ∧
    ((∃ st, r = .ok () st) ↔
      ∃ hd size cnt lines s', Delivers t h s hd size cnt lines (.ok () s') ∧ num t hd 36 4 = acsp ∧ DateOk t hd ∧
        num t cnt 0 4 ≤ 100 ∧ (t.checks = true → ∀ l ∈ lines, (lineOf t l).offset + (lineOf t l).size < 2 ^ 32)) ∧
    (∀ st, r = .ok () st → ∃ hd size cnt lines s', Delivers t h s hd size cnt lines (.ok () s') ∧
      Says t hd ((lines.map (lineOf t)).filter fun e => e.offset + e.size ≤ min (num t hd 0 4) size) st.prof ∧
      st.prof.io = some s' ∧ st.ctx.trace = ctx.trace) ∧
    (∀ st, r = .panic st → ¬ Polite h ∨ (∃ hd s1, ask h 128 s = .ok hd s1 ∧ ¬ DateOk t hd) ∨
      (t.checks = true ∧ ∃ hd size cnt lines last, Delivers t h s hd size cnt lines last ∧
        ∃ l ∈ lines, 2 ^ 32 ≤ (lineOf t l).offset + (lineOf t l).size) ∨
      ∃ code text c', callHandler env ctx.ctx.errorHandler ctx.ctx code text = .panics c') ∧
    ∃ l, r.state.ctx.trace = ctx.trace ++ l ∧ l.length ≤ 1 ∧
      (l ≠ [] → (∃ st, r = .err .invalidData st) ∨ ∃ st, r = .panic st) := by
  intro r
  have hr : Reading t h env s ctx r := readHeader_any t h env now s ctx
  refine ⟨hr.table, ⟨?_, fun hc => hr.completes ((complete_iff t h s).mpr hc)⟩, ?_, ?_, hr.signals⟩
  · rintro ⟨st, hst⟩
    apply (complete_iff t h s).mp
    exact hr.complete _ _ hst
  · intro st hst
    obtain ⟨hd, s1, size, s2, cnt, s3, ls, s4, a1, -, a3, -, a5, -, a7, -, a8, a9⟩ := hr.success _ _ hst
    refine ⟨hd, size, cnt, ls, s4, ⟨s1, s2, s3, a1, (reportedSize_reports ..).mp a3, a5, a7⟩, a9, a8, ?_⟩
    obtain ⟨l, e1, -, e3⟩ := hr.signals
    rw [hst] at e1 e3
    have hl : l = [] := by
      by_contra hl
      rcases e3 hl with ⟨_, e⟩ | ⟨_, e⟩ <;> cases e
    rw [hl, List.append_nil] at e1
    exact e1
  · intro st hst
    rcases hr.panics st hst with a | ⟨a, hd, s1, size, s2, cnt, s3, b1, b2, b3, b4⟩ | a | a
    · exact Or.inl a
    · exact Or.inr (Or.inr (Or.inl ⟨a, hd, size, cnt, _, _,
        ⟨s1, s2, s3, b1, (reportedSize_reports ..).mp b2, b3, rfl⟩, b4⟩))
    · exact Or.inr (Or.inl a)
    · exact Or.inr (Or.inr (Or.inr a))

/-- A pipe that cannot seek but claims it did, and always says it is at `n`. -/
def pipe (n : Nat) : Handler (List Byte) where
  read := fun buf s =>
    if buf.length ≤ s.length then (.ok () (s.drop buf.length), s.take buf.length) else (.err .unexpectedEof s, buf)
  seek := fun _ s => .ok () s
  tell := fun s => .ok n s
  write := fun _ s => .err .badFd s
  read_length := by
    intro buf s
    split
    · simp only [List.length_take]; omega
    · rfl

/-- The sizes of the tags of a profile read through the pipe. -/
def pipeTags (n : Nat) (b : List Byte) : Option (List Nat) :=
  match Profile.readHeaderThr pc (pipe n) quiet (fresh noon b ctx0) with
  | .ok _ st => some (st.prof.tagSizes.take st.prof.tagCount)
  | _ => none

/-- A pipe that claims to be long is believed, up to the size in the header. -/
example : pipeTags 1000 goodFile = some [4, 8] := by decide +kernel

/-- One that claims to be short loses the tag behind its end. -/
example : pipeTags 175 goodFile = some [4] := by decide +kernel

/-- Without a handler nothing happens: the error is `InvalidData`, the profile and the context stay as they are, and
nothing is signalled. -/
theorem C75_no_handler {σ : Type} (t : Target) (h : Handler σ) (env : Handlers) (p : Profile σ) (ctx : CState)
    (hp : p.io = none) : Profile.readHeaderThr t h env ⟨p, ctx⟩ = .err .invalidData ⟨p, ctx⟩ := by
  unfold Profile.readHeaderThr
  rw [show (PStateOf.mk p ctx).prof.io = none from hp]

/-- A new profile has none. -/
example (t : Target) (env : Handlers) (now : NaiveDateTime) (ctx : CState) :
    Profile.readHeaderThr t (OsFile.handler t) env ⟨Profile.new now, ctx⟩ = .err .invalidData ⟨Profile.new now, ctx⟩ :=
  C75_no_handler t _ env _ ctx rfl

/-! ### C76 -/

/-- **C76**: a profile image in memory — growable or fixed buffer — and a file with the same bytes give the same
result: success, error or panic, the same error, the same profile, the same signals; for every content,
target, clock value, callback and read schedule of the file.  (`hb`: no Rust buffer is longer.) -/
theorem C76_memory_like_file (t : Target) (env : Handlers) (now : NaiveDateTime) (ctx : CState) (b : List Byte)
    (hb : b.length ≤ t.isizeMax) (sched : List OsResp) (w : Bool) (h : Handler Mem)
    (hh : h = Mem.vec t ∨ h = Mem.fixed t) :
    SameReading (Profile.readHeaderThr t h env (fresh now (⟨b, 0⟩ : Mem) ctx))
      (Profile.readHeaderThr t (OsFile.handler t) env (fresh now (⟨b, 0, true, w, sched⟩ : OsFile) ctx)) :=
  sameReading_of_rel (memFile_header t env h hh b hb (fresh now (⟨b, 0⟩ : Mem) ctx).prof
    (fresh now (⟨b, 0, true, w, sched⟩ : OsFile) ctx).prof ⟨b, 0⟩ ⟨b, 0, true, w, sched⟩ ctx rfl rfl rfl
    ⟨rfl, rfl, rfl, Nat.zero_le _, rfl⟩)

/-- The sample file in memory. -/
example : (match Profile.readHeaderThr pc (Mem.fixed pc) quiet (fresh noon ⟨goodFile, 0⟩ ctx0) with
    | .ok _ st => some (st.prof.tagSizes.take st.prof.tagCount)
    | _ => none) = some [4, 8] := by decide +kernel

/-! ### C77 -/

/-- **C77**: if the system calls on a file may fail, be interrupted, be cut short, and others may truncate it at
any moment, then reading a profile from it still gives what the undisturbed file gives — or an error without
any signal: `UnexpectedEof` if there was a truncation, or an OS error that really occurred.  No wrong table, no
additional panic.  (`hb`, `hw`: file sizes fit `off_t` and `usize`.) -/
theorem C77_disturbed_file (t : Target) (env : Handlers) (now : NaiveDateTime) (ctx : CState) (b : List Byte)
    (hb : b.length < 9223372036854775808) (hw : b.length < t.usizeMod) (script : List OsEvent) (w w' : Bool) :
    let r := Profile.readHeaderThr t (SharedFile.handler t) env (fresh now (⟨b, 0, true, w, script⟩ : SharedFile) ctx)
    SameReading r (Profile.readHeaderThr t (OsFile.handler t) env (fresh now (⟨b, 0, true, w', []⟩ : OsFile) ctx)) ∨
    ∃ e st, r = .err e st ∧ st.ctx = ctx ∧
      ((e = .unexpectedEof ∧ OsEvent.truncated ∈ script) ∨ ∃ n, e = .other n ∧ OsEvent.fail n ∈ script) := by
  intro r
  have h := troubled_header t env script b hb hw
    (fresh now (⟨b, 0, true, w, script⟩ : SharedFile) ctx).prof (fresh now (⟨b, 0, true, w', []⟩ : OsFile) ctx).prof
    ⟨b, 0, true, w, script⟩ ⟨b, 0, true, w', []⟩ ctx rfl rfl rfl
    ⟨rfl, rfl, rfl, rfl, Nat.zero_le _, fun _ h => h, Or.inl rfl⟩
  exact disturbed_of_rel h

/-- In particular without truncations and failures nothing can be noticed. -/
theorem C77_benign (t : Target) (env : Handlers) (now : NaiveDateTime) (ctx : CState) (b : List Byte)
    (hb : b.length < 9223372036854775808) (hw : b.length < t.usizeMod) (script : List OsEvent) (w w' : Bool)
    (h1 : OsEvent.truncated ∉ script) (h2 : ∀ n, OsEvent.fail n ∉ script) :
    SameReading
      (Profile.readHeaderThr t (SharedFile.handler t) env (fresh now (⟨b, 0, true, w, script⟩ : SharedFile) ctx))
      (Profile.readHeaderThr t (OsFile.handler t) env (fresh now (⟨b, 0, true, w', []⟩ : OsFile) ctx)) := by
  rcases C77_disturbed_file t env now ctx b hb hw script w w' with h | ⟨_, _, -, -, ⟨-, h⟩ | ⟨n, -, h⟩⟩
  · exact h
  · exact absurd h h1
  · exact absurd h (h2 n)

/-- How reading the sample file ends under a script: `none` is success. -/
def endsWith (script : List OsEvent) : Option IoErr :=
  match Profile.readHeaderThr pc (SharedFile.handler pc) quiet
    (fresh noon (⟨goodFile, 0, true, false, script⟩ : SharedFile) ctx0) with
  | .ok _ _ => none
  | .err e _ => some e
  | .panic _ => some (.other 0)

/-- Truncated after the first two transfers, failing at the third, and neither. -/
example : endsWith [.chunk 1000, .chunk 1000, .truncated] = some .unexpectedEof ∧
    endsWith [.chunk 1000, .interrupted, .fail 5] = some (.other 5) ∧
    endsWith [.chunk 3, .interrupted, .chunk 0] = none := by decide +kernel

/-- A truncation before a seek or a read really empties the file: the seek leaves an empty file, and a read of at least
one byte, in one system call, gets none. -/
theorem C77_truncation_seen (t : Target) (p : SeekFrom) (n : Nat) (s : SharedFile) (es : List OsEvent)
    (hs : s.script = .truncated :: es) :
    (∀ s', (SharedFile.handler t).seek p s = .ok () s' → s'.data = []) ∧
    (∀ e s', (SharedFile.handler t).seek p s = .err e s' → s'.data = []) ∧
    (∀ got s', SharedFile.sysRead n s = .done got s' → got = [] ∧ s'.data = []) := by
  have hseek : (SharedFile.handler t).seek p s = SharedFile.seek p s := rfl
  refine ⟨fun s' h => ?_, fun e s' h => ?_, fun got s' h => ?_⟩
  · rw [hseek] at h
    simp only [SharedFile.seek, hs, SharedFile.settle, SharedFile.after, if_true] at h
    cases p <;> simp only at h <;> split at h <;> cases h <;> rfl
  · rw [hseek] at h
    simp only [SharedFile.seek, hs, SharedFile.settle, SharedFile.after, if_true] at h
    cases p <;> simp only at h <;> split at h <;> cases h <;> rfl
  · simp only [SharedFile.sysRead, hs, SharedFile.next, SharedFile.after, if_true, List.drop_nil, List.take_nil] at h
    split at h <;> cases h <;> exact ⟨rfl, rfl⟩

/-- Seeking to the end of a file truncated meanwhile. -/
example : (SharedFile.handler pc).seek (.end_ 0) ⟨[1, 2, 3], 2, true, false, [.truncated, .chunk 1]⟩ =
    .ok () ⟨[], 0, true, false, [.chunk 1]⟩ := by decide +kernel

/-! ### C78 -/

/-- **C78**: values written one after the other to a file whose system calls may fail (nobody truncating it):
the file is the old one overwritten, from the position on, with a prefix of the values' encodings — all of them
if no error was returned; otherwise the error is an OS error that occurred and the prefix is shorter.  The
position is behind the prefix.  No panic. -/
theorem C78_failing_writes (t : Target) (vs : List Val) (bss : List (List Byte))
    (henc : List.Forall₂ (Encodes t) vs bss) (s : SharedFile) (hw : s.writable = true)
    (ht : OsEvent.truncated ∉ s.script) :
    let r := putAll t (SharedFile.handler t) vs s
    ∃ k s', Overwritten s.data s.pos (bss.flatten.take k) s'.data ∧ s'.pos = s.pos + k ∧
      ((r = .ok () s' ∧ k = bss.flatten.length) ∨
       ∃ n, r = .err (.other n) s' ∧ k < bss.flatten.length ∧ OsEvent.fail n ∈ s.script) := by
  intro r
  have hr : r = writeChunks (SharedFile.handler t) (vs.flatMap (chunks t)) s := by
    simp only [r, putAll_chunks]
  obtain ⟨k, sc, -, -, o⟩ := writeChunks_ends t (vs.flatMap (chunks t)) s hw ht
  rw [← encodes_all t vs bss henc, ← hr] at o
  exact ⟨k, _, (overwritten_iff ..).mpr rfl, rfl, o⟩

/-- Three values on a disk that is full after five bytes. -/
example : putAll pc (SharedFile.handler pc) [.u16 0x0102, .u32 0x03040506, .u8 7]
      ⟨[9, 9, 9, 9, 9, 9, 9, 9], 1, true, true, [.chunk 1, .chunk 2, .fail 28]⟩ =
    .err (.other 28) ⟨[9, 1, 2, 3, 4, 5, 9, 9], 6, true, true, []⟩ := by decide +kernel

/-- Each of them has an encoding. -/
theorem C78_encodable (t : Target) (vs : List Val) : ∃ bss, List.Forall₂ (Encodes t) vs bss := by
  refine ⟨vs.map fun v => (chunks t v).flatten, ?_⟩
  induction vs with
  | nil => exact .nil
  | cons v vs ih => exact .cons ((encodes_iff t v _).mpr rfl) ih

/-! ### C79 -/

/-- **C79**: reading `n` bytes from a file whose system calls may fail and which others may truncate: the caller's
buffer is a prefix of what the file contained from the position on, followed by what was in the buffer; the
position is behind that prefix.  The prefix is the whole buffer iff the read succeeds; otherwise the error is
`UnexpectedEof` — the file ended there or was truncated — or an OS error that occurred.  The file itself is
changed by nobody but the truncating processes.  No panic. -/
theorem C79_failing_read (t : Target) (buf : List Byte) (s : SharedFile) (hr : s.readable = true) :
    let r := (SharedFile.handler t).read buf s
    ∃ k s', r.2 = (s.data.drop s.pos).take k ++ buf.drop k ∧ k ≤ s.data.length - s.pos ∧ s'.pos = s.pos + k ∧
      (s'.data = s.data ∨ (s'.data = [] ∧ OsEvent.truncated ∈ s.script)) ∧
      ((r.1 = .ok () s' ∧ k = buf.length) ∨
       (r.1 = .err .unexpectedEof s' ∧ k < buf.length ∧
         (OsEvent.truncated ∈ s.script ∨ s.data.length ≤ s.pos + k)) ∨
       ∃ n, r.1 = .err (.other n) s' ∧ k < buf.length ∧ OsEvent.fail n ∈ s.script) := by
  intro r
  obtain ⟨s', k, l, p, -, k2, b, o⟩ := SharedFile.readExact_ends buf s hr
  exact ⟨k, s', b, by omega, p, l.data, o⟩

/-- A disk that fails after three bytes. -/
example : (SharedFile.handler pc).read [0, 0, 0, 0, 0] ⟨[1, 2, 3, 4, 5, 6], 1, true, false, [.chunk 2, .fail 5]⟩ =
    (.err (.other 5) ⟨[1, 2, 3, 4, 5, 6], 4, true, false, []⟩, [2, 3, 4, 0, 0]) := by decide +kernel

end Lcms.Props
