# Formal model of lcms2.rs (stefanrbk/lcms2.rs.old2) in Lean 4

## 1. What is here

* `properties.jsonl` – the properties (generated by `tools/gen_properties.py`).
* `lean/Verif/Model/*.lean` – the executable model, function by function; each definition cites the
  file and lines in `/repo` it models.
* `lean/Verif/Spec/*.lean` – small specifications, written without using the model's helpers.
* `lean/Verif/Lemmas/*.lean` – helper lemmas.
* `lean/Verif/Props/*.lean` – only the property theorems (`C01_…`), with a non-vacuity `example`
  beside each, and refutations (`…_refuted`) where the code does not have the property.
* `MANIFEST.json` – property → theorems. `seeded/LOG.jsonl` – mutation tests of the theorems.

## 2. Modelling decisions

**Target.** All theorems quantify over a `Target`: host byte order, cargo feature
`use_little_endian`, `usize` width (32 or 64), and whether integer-overflow checks are compiled in
(debug) or arithmetic wraps (release).

**Results.** A fallible Rust call returns `Out σ α`: `ok value state`, `err kind state`
(`io::Result::Err`, with the state the handler is left in) or `panic`. Panics are explicit values,
never totalised away: array indexing, overflow under checks, `chrono::from_ymd`, and
`Mutex::lock().unwrap()` can all produce `panic`.

**I/O handlers.** The trait is a record of four functions `read/seek/tell/write` over an arbitrary
state type; the provided trait methods (`read_u16` …) are defined once over any handler. `read` takes
the caller's buffer (FileNull does not overwrite it). Instances: `FileMem` over a fixed buffer
(`&mut [u8]`, `Box<[u8]>`) and over a `Vec`; `FileNull`; `File`.
The `std` code these wrap (Cursor, `read_exact`, `write_all`) is modelled from its source as of
mid-2022, loops included (C116 compares with newer versions, which differ in where a failed `read_exact` leaves a
`Cursor`). `File` is a POSIX regular file: contents, offset, access flags, and an
arbitrary finite schedule of short transfers and `EINTR`. `SharedFile` (C77–C79) is the same `File` in a
harsher world: an arbitrary finite script of short transfers, `EINTR`, failing transfers and truncations by
other processes.

**Floating point.** `F64` is an IEEE-754 binary64 model (NaN, signed infinities, signed zero, finite
rationals) with correctly rounded (ties-to-even) `+ − × ÷`, used for the fixed point conversions. The curve evaluator
is written once over an abstract arithmetic `FOps`; panic/shape properties are proved for *every*
arithmetic, the inverse/monotonicity laws for the real numbers, NaN behaviour for `F64` with arbitrary
`powf/exp/log10`, and order, error bounds and round trips in `F64` (C103–C106, C112, C117–C120) for monotone or accurate
ones. C104 checks the arithmetic itself against IEEE 754.

**Context.** The error handler is a function pointer with arbitrary context effect (may panic); every
invocation is recorded in a ghost trace. The plugin lists in a context are opaque.

**GLOBAL_CONTEXT.** A mutex with poison flag; a history is a list of `open_from_file` calls, or (C86) the steps
of any number of threads that make such calls, under any schedule. Calls with other contexts take no lock; they overlap
system call by system call (C110).

**search_tag.** The Rust `loop` is modelled by an iteration function with fuel; "terminates" means
some fuel suffices, "diverges" means none does.

## 3. Plan per property

| id | modelled | proof |
|----|----------|-------|
| C01–C02 | `adjust_endianness_*` of both modules, `to_be/to_le/from_*_bytes` | byte-list induction (base-256 digits) |
| C03–C04 | trait methods over any handler | unfolding + C02; statement mentions only `read`/`write` and digits |
| C05–C07 | typed accessors on `FileMem` | buffer algebra (take/drop/append), induction on arrays |
| C08–C11 | Cursor over slice / Vec | loop closed forms; refinement to a tape spec by induction on histories |
| C12 | `reported_size` for all handlers | unfolding |
| C13–C16 | FileNull | invariants, simulation against FileMem; refutations where false |
| C17–C18 | File with OS schedule | induction on schedule+remaining bytes; simulation |
| C19–C23 | s15f16 conversions over `F64` | exactness and monotonicity of IEEE rounding |
| C24–C27 | Signature, UTF-8 decoding, Debug | digits, UTF-8 decoder ↔ encoder lemma |
| C28–C31 | repr(C) layout algorithm, header & tag entry | computation over symbolic bytes |
| C32–C34 | chrono validity and field accessors | case analysis |
| C35–C51 | Profile over File, FS, Context, mutex | functional spec of parsing; loop invariant; corollaries |
| C52–C56 | Context, plugins | induction on the chain |
| C57–C59 | evaluator over any `FOps`, `is_in_set` | case analysis on type; list induction |
| C60–C72 | evaluator over ℝ | `Real.rpow`, `exp`, `logb` algebra |
| C73 | evaluator over `F64` | unfolding comparisons |
| C74 | constant tables | kernel `decide` over the complete finite tables |
| C75 | `read_header_thr` over any handler | loop invariant by what the handler delivers |
| C76–C77 | the same over `FileMem` and `SharedFile` | relational simulation against `File` |
| C78–C79 | typed values on `SharedFile` | induction on the script and the remaining bytes |
| C80–C81 | typed accessors over handlers with the laws of a byte store | laws proved for each handler, then induction on records and histories |
| C82 | `Context::new` | invariance under histories (C54) |
| C83 | a client writing header, count, directory, data; then opening | composition of C30, C31 and C35 over the file layout |
| C84 | profile equality of two opened files | fields of the equality ↔ byte ranges |
| C85 | `read_header_thr` over a handler that keeps a log | Hoare logic over the log, loop invariant |
| C86 | `n` threads in `open_from_file`, any schedule | invariant over steps (serial state up to the holder), variant |
| C87 | types 1–5 against the formulas of ICC.1:2010 | case analysis; refuted at one point |
| C88–C91 | evaluator over ℝ: domains, inverse first, monotonicity | case analysis, C60–C72 |
| C92 | evaluator in f64: finite in, not NaN out | case analysis over the f64 model, `powf`, `exp`, `log10` assumed as in ISO C |
| C93–C95 | `std::fmt` builders, both layouts; every `Debug` of the crate | unique readability by structure of the text; refutations |
| C96 | the assertions of the tests in profile.rs and file_file.rs | through C35 and C17, first 240 bytes of the test resource as a literal |
| C97 | evaluator over ℝ: closed table of values (`Spec/CurveValues.lean`) | case analysis, C88 |
| C98 | adaptive client programs on `File`, `FileMem<Vec>`; provided methods as programs | induction over the program, C17, C18 |
| C99–C100 | evaluator over ℝ: continuity, unit interval | limits at the joints, C97 |
| C101 | `read_header_thr` on a profile that holds tags already | closed form of the directory loop on any table; refutation |
| C102 | `src/testing.rs` | unique splitting of the file name from its end |
| C103 | the curves in binary64, every rounding included | IEEE operations monotone in the order with infinities, then per type |
| C104 | the straight pieces of types 4, 5, −4 in binary64 | nearest-even characterisation of rounding, with uniqueness; case analysis for NaN, infinities, signs and comparisons |
| C105 | types 1–8 in binary64 against real arithmetic | error propagation through the rounded operations, an accurate `powf` and `log10` |
| C106 | types 1–8 and 108 in binary64, there and back | C105 backwards, logarithm of the error |
| C107 | `read_header` and `open_from_file` on the global context, in any order | invariant over mixed histories; splitting `open_from_file` |
| C108 | Measuring with a `FileNull`, then writing into a buffer of that size | refinement of the null handler and the fixed buffer against the encoded bytes |
| C109 | Signature constants are those of the original library (tests/include/bindings.rs) — one differs | comparison of complete tables with an independent table of numbers |
| C110 | Threads in `open_from_file_thr`, each with its own context, overlapping system call by system call | simulation of a file that decays by an undisturbed one, induction over ticks and over a thread's calls |
| C111 | `Profile::new`: what it contains, and which files read as one | case analysis; the description of a read profile (C35) against the initial values |
| C112 | types -1 to -6 in binary64 against the exact values of C97 | error propagation through root, subtraction and quotient |
| C113 | `close` of the three handlers | C17 and C09 followed by one step; induction over later write-backs |
| C114 | reading a file that is rewritten meanwhile | violated: torn read; C75 plus a file assembled from the delivered bytes |
| C115 | the documentation examples of `lcms2::io` | closed forms of fixed buffers; violated with `use_little_endian` |
| C116 | `FileMem` on newer versions of `std` | agreement of outcomes, closed under bind; induction over client programs |
| C117 | types -7, -8, ±108 and ±109 in binary64 against the exact values of C97 | error propagation through differences, roots, logarithms and the logistic function |
| C118 | types 1–8 and 108 in binary64, inverse first and then the curve | C112 and C117, then the error of `a * z + b` relative to the exact root, then the power |
| C119 | types 2–8 in binary64 for parameters and arguments of either sign | one lemma for the error of `a * x + c` with cancellation, then C105 power and logarithm steps |
| C120 | the unit interval in binary64 | value at 1 as an upper bound by monotone rounding (C103); the sigmoid at 1 by a rounding argument; a concrete negative value at 0, bounded by C117 |

Properties the code does not have are listed in section 5.

## 4. What each part of the model stands for

* **Signature, ProfileID** – a signature is the big-endian value of its four bytes. `str` is a list of
  Unicode scalar values; UTF-8 decoding follows `core::str::validations`, encoding is Lean's own
  `String.utf8EncodeChar`. `Debug` uses `{:?}` of a string; which characters `std` prints unescaped is a
  parameter (`plain`) about which nothing is assumed.
* **Header and tag entry** – the unions are memory images. The layout is *computed* by the `repr(C)`
  algorithm from the declared field list, so C28/C30 prove the offsets rather than assume them. The
  alignment of `u64` is a parameter in C28–C31 (4 and 8) and 8 in the profile reader; both give the same
  layout (C28).
* **Dates** – chrono 0.4.19 `NaiveDate` (year, ordinal), `NaiveTime` (seconds, fraction). Only what the
  program calls is modelled. A `NaiveDateTime` value satisfies chrono's own representation invariant where
  a theorem says so (`NaiveDateTime.WF`).
* **Profile** – generic in the handler (`Box<dyn IOHandler>` in the code). The public API only creates
  profiles on a `File`, so C35–C51 are about those; C75–C77 are about other handlers. Arrays are lists of
  length 100; out-of-range indexing is a panic.
* **File system** – regular files by path; opening can be refused by an arbitrary, fixed reason per path.
  Other processes do not touch the file while it is read, except in C77–C79, C110 and C114.
* **Threads** – a call of `open_from_file` is four steps (lock, open or create, read the header, return and drop
  the guard) between which other threads may be scheduled. `std::sync::Mutex` is assumed to exclude, to block
  and to poison as documented; the error callback does not take the lock itself (it would deadlock).
* **LiveFile** (C110, C114) – a call of `open_from_file_thr` without a lock; each of its system calls happens at a tick of a
  global clock, the ticks being arbitrary. In C110 the files at each tick follow from the creating calls before it; in
  C114 they are arbitrary.
* **Stored** (C113) – a file and what its medium holds; the OS may put anything on the medium of a file that is not
  up to date; `fdatasync` brings it up to date or fails.
* **SharedFile** – others may only truncate the file, to length 0 (which is what `open_from_file_thr` in write
  mode does); they do not write to it. `lseek` fails only for an invalid target.
* **Curves** – one evaluator over an abstract arithmetic. `realOps` works on `Option ℝ`: an operation
  without a mathematical value gives `none`, never a default value; `Maps` demands a defined result, so an
  inverse law cannot hold because of Lean's `x / 0 = 0` or `log (-1) = log 1`.
* **Debug** – the text a value writes, as a function of the texts of its parts; the builders of `std::fmt` including
  the indentation adapter. Texts of floats, of chrono dates and of `std::fs::File` are parameters. `FullContext` is a
  context with the plugin items that `Context` leaves opaque; function pointers are addresses.
* **Constants** – transcribed by `tools/gen_constants.py` from the source text.

## 5. Properties the code does not have

| id | why |
|----|-----|
| C13 | `FileNull::read` leaves the caller's buffer as it was |
| C14 | with overflow checks a backward seek panics (negative offset cast to a huge `usize`); an empty write past the end grows the file |
| C15 | as C14 |
| C19 | `i32::MIN.abs()` panics with overflow checks |
| C21 | `floor(x + 0.5)` rounds 0.49999999999999994/65536 up |
| C33 | year 0 comes back as year 1 |
| C37 | on a 32-bit host the length of a file of 4 GiB or more is cut to 32 bits, so tags inside the file are dropped |
| C39 | index 100 with 100 tags panics |
| C41 | an invalid date or, with overflow checks, `offset + size` overflowing, panics |
| C43 | opening for writing truncates the file and then always fails |
| C47 | the earlier of two tags with the same data is linked, to itself |
| C49 | so a lookup that follows links loops forever |
| C50 | a panic while opening poisons the global mutex; every later `open_from_file` panics |
| C52 | the last plugin of a chain is never checked |
| C59 | `i32::MIN` panics with overflow checks |
| C61 | type 1 tests `|γ| − 1 < tol` instead of `|γ − 1| < tol` |
| C68 | type −8 returns 0 for every value of a curve with negative `a` |
| C70 | type −109 uses `log10` where `ln` is needed |
| C87, C90 | type 3 returns 0 instead of `c` at its joint `X = −b/a` |
| C94 | `InterpolationPluginChunk` prints `LogErrorChunk`, `IntentsListItem` prints `IntentListItem` |
| C95 | the derived `Debug` of the formatter chunk prints addresses |
| C101 | a second `read_header` appends its tags to the old ones and links each to itself |
| C109 | `DIGITAL_CINEMA_PROJECTOR` is `dcpj` as in the ICC specification; lcms2.h has `dcjp` |
| C114 | a file rewritten between two system calls of one open can be read as a profile that was never in it |
| C115 | with `use_little_endian` the documented bytes and values come out reversed |

Two smaller findings are parts of proved claims: the sigmoid with parameter 3/8 sends 0 to −3/2^53 (C120), and type −3
drops to 0 at the single point `r = c` (C103).

Each row of the table has a `…_refuted` theorem with a concrete witness and a `…_partial` theorem, which where possible is an
exact description of what the code does instead.

## 6. Trusted base

* **Lean**: the kernel of Lean 4.33.0. Every theorem depends on no axioms other than `propext`,
  `Classical.choice` and `Quot.sound` (`#print axioms`, checked by `vcheck` for all theorems). There are no
  axioms of our own, no `sorry`, no `native_decide`, no `bv_decide`, no `implemented_by`, no `unsafe`.
  `decide +kernel` is used on closed finite facts (tables, concrete witnesses); it is evaluation by the kernel.
* **Mathlib**: only as proved mathematics.
* **The reading of the source**: that each definition of `Model/` says what the cited lines of `/repo` say.
  This is the one thing no theorem can establish. The statements of `Spec/` and of the theorems in `Props/`
  are the second thing to read.

Assumed about what is outside the repository, each stated at its definition:

* `std` of mid-2022: `Cursor`, the default loops of `read_exact` and `write_all`, integer and byte order
  functions, `as` casts, `f64` arithmetic (IEEE-754 binary64, round to nearest even; NaN payloads are not
  distinguished), `f64::max/floor/abs`, saturating float-to-int `as`, `Mutex` poisoning, `{}` and `{:2x}` and
  `{:?}` formatting.
* `powf`, `exp`, `log10` of the platform: arbitrary functions in theorems about `f64`, except that C103 and C120 assume
  them monotone (`MonoLibm`) and C105, C106, C112, C117–C119 accurate to a stated error; these are hypotheses of the
  theorems.
* chrono 0.4.19 for `from_ymd`, `and_hms`, the field accessors, `year_ce`, `timestamp_subsec_millis`; `PathBuf::push` on Unix.
* the compiler: `repr(C)` layout as in the Rust reference; `Signature(u32)` laid out as `u32`;
  `size_of::<ICCHeader>() = 128`, so that the transmuting unions are defined behaviour.
* the operating system: a POSIX regular file; short transfers and `EINTR` are modelled throughout,
  failing transfers (`EIO`, `ENOSPC`, …) in C77–C79 only, changes made by others while a file is read in C77–C79,
  C110 and C114 only, special files and directories not at all; offsets are below `2^63`.
* running out of memory (which aborts) does not happen.

Not modelled:

* the types without code: `Mlu`, `NamedColorList`, `Pipeline`, `Stage`, `Sequence`, `ToneCurve`,
  `CurveSegment`, `Transform`, `Formatter`, `InterpParams`, `TagDescriptor`, `TypeHandler`;
* `tests/`, `bindings/`, `build.rs`;
* the evaluator in real arithmetic ignores rounding: C60–C72, C87–C91 and C97–C100 are statements about the formulas.
