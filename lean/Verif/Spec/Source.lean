import Verif.Spec.Profile

/-!
# Specification vocabulary: what an arbitrary handler delivers
-/

namespace Lcms.Spec

/-- Ask a handler for `n` bytes. -/
def ask {σ : Type} (h : Handler σ) (n : Nat) (s : σ) : Out σ (List UInt8) :=
  match h.read (List.replicate n 0) s with
  | (.ok _ s', buf) => .ok buf s'
  | (.err e s', _) => .err e s'
  | (.panic, _) => .panic

/-- Ask a handler for up to `n` directory lines of 12 bytes; the lines delivered before the first failure, and
how it ended. -/
def askLines {σ : Type} (h : Handler σ) : Nat → σ → List (List UInt8) × Out σ Unit
  | 0, s => ([], .ok () s)
  | n + 1, s =>
    match ask h 12 s with
    | .ok l s' => (l :: (askLines h n s').1, (askLines h n s').2)
    | .err e s' => ([], .err e s')
    | .panic => ([], .panic)

/-- Asked for its size (remember the position, go to the end, ask where that is, go back), the handler says
`size`. -/
def Reports {σ : Type} (h : Handler σ) (s : σ) (size : Nat) (s' : σ) : Prop :=
  ∃ here s1 s2 s3, h.tell s = .ok here s1 ∧ h.seek (.end_ 0) s1 = .ok () s2 ∧ h.tell s2 = .ok size s3 ∧
    h.seek (.start (UInt64.ofNat here)) s3 = .ok () s'

/-- What a handler delivers to a reader of a profile: 128 bytes of header, its size, 4 bytes of tag count, and
directory lines, as many as the count says or fewer if it fails first (`last` is how that ended). -/
def Delivers {σ : Type} (t : Target) (h : Handler σ) (s : σ) (hd : List UInt8) (size : Nat) (cnt : List UInt8)
    (lines : List (List UInt8)) (last : Out σ Unit) : Prop :=
  ∃ s1 s2 s3, ask h 128 s = .ok hd s1 ∧ Reports h s1 size s2 ∧ ask h 4 s2 = .ok cnt s3 ∧
    askLines h (num t cnt 0 4) s3 = (lines, last)

/-- The meaning of a directory line. -/
def lineOf (t : Target) (l : List UInt8) : Entry := ⟨num t l 0 4, num t l 4 4, num t l 8 4⟩

/-- The tag table of a profile is `es`. -/
def HasTable {σ : Type} (p : Profile σ) (es : List Entry) : Prop :=
  es.length ≤ 100 ∧ p.tagCount = es.length ∧
  p.tagNames.map (fun s => s.val.toNat) = column (es.map Entry.name) 0x20202020 ∧
  p.tagOffsets = column (es.map Entry.offset) 0 ∧ p.tagSizes = column (es.map Entry.size) 0 ∧
  p.tagLinked.length = 100 ∧ p.tagSaveAsRaw = List.replicate 100 false

/-- A handler none of whose methods panics. -/
def Polite {σ : Type} (h : Handler σ) : Prop :=
  (∀ buf s, (h.read buf s).1 ≠ .panic) ∧ (∀ p s, h.seek p s ≠ .panic) ∧ ∀ s, h.tell s ≠ .panic

/-- Two ways to get a profile have the same outcome: the same kind of result, the same error, the same profile up
to the handle in it, and the same context with the same signals. -/
def SameReading {σ τ : Type} : POutOf σ Unit → POutOf τ Unit → Prop
  | .ok _ s, .ok _ s' => s.prof.strip = s'.prof.strip ∧ s.ctx = s'.ctx
  | .err e s, .err e' s' => e = e' ∧ s.prof.strip = s'.prof.strip ∧ s.ctx = s'.ctx
  | .panic s, .panic s' => s.prof.strip = s'.prof.strip ∧ s.ctx = s'.ctx
  | _, _ => False

end Lcms.Spec
