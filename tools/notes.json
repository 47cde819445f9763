{
 "C02": "Stated for the array and the integer variants of both modules and for the feature-selected re-exports.",
 "C05": "Hypothesis: the eight bytes fit below isize::MAX, the largest allocation.",
 "C06": "Start position within the buffer (an empty array written past the end writes nothing).",
 "C09": "Initial buffer at most isize::MAX bytes, as for every Rust allocation.",
 "C12": "States whose length and position fit usize (and i64 for File).",
 "C13": "The claim is false for raw reads into a non-zero buffer (C13_refuted); proved for typed reads, u16 arrays and zeroed buffers.",
 "C14": "The claim is false: backward relative seeks panic in debug builds, an empty write past the end grows the prediction (C14_refuted, C14_refuted_release); proved for all other histories, and that it fails for every one of these (C14_exact).",
 "C15": "The claim is false in builds with overflow checks, where every legitimate backward seek panics (C15_refuted, C15_exact); proved without overflow checks.",
 "C17": "Histories whose accesses stay below offset 2^63, the limit of the operating system.",
 "C19": "The claim is false for 0x80000000 in builds with overflow checks (C19_refuted); proved for all other patterns and, without checks, for all.",
 "C21": "The claim is false for exactly one double, 0.49999999999999994/65536 (C21_refuted); proved for every other double in range.",
 "C24": "The conversions do not depend on the host, so the model functions take no target.",
 "C28": "`struct Signature(u32)` is taken to have the layout of u32 (not promised by the language, true of rustc).",
 "C33": "The claim is false for year 0, which comes back as year 1 (C33_refuted); proved to hold exactly for years from 1.",
 "C34": "WF is chrono's representation invariant (ordinal within the year, second within the day).",
 "C35": "The installed handler is assumed to return; file sizes below 2^63 (off_t). Directories and special files are not modelled.",
 "C37": "The claim is false on 32-bit hosts for files of 4 GiB and more (C37_refuted); proved whenever the file length fits usize.",
 "C39": "The claim is false for index 100 of a profile with 100 tags, which panics (C39_refuted); proved for every other index.",
 "C41": "The claim is false: a non-existent creation date panics in every build, a tag end beyond 32 bits in builds with overflow checks (C41_refuted); proved that nothing else does.",
 "C43": "The claim is false: the header is read from the write-only file just created (C43_refuted); proved that every open for writing fails, and what it leaves behind.",
 "C44": "On 32-bit hosts for files below 4 GiB.",
 "C52": "The claim is false: the last plugin of a chain is never checked (C52_refuted); proved for all the others.",
 "C47": "The claim is false: the earlier of two tags with the same data is linked, to itself (C47_refuted); proved exactly when and to what a tag is linked.",
 "C49": "The claim is false: the lookup of the first of two tags with the same data loops forever (C49_refuted); proved exactly when it returns, and what.",
 "C50": "The claim is false: a panic while opening poisons the global mutex (C50_refuted); proved that this is the only influence of earlier calls.",
 "C54": "The error callback is any function of the context, code and text; it may change the context before it returns or panics.",
 "C57": "Proved for an arbitrary arithmetic, so it does not depend on floating point.",
 "C58": "With overflow checks the lookup of i32::MIN panics on a non-empty collection (C59).",
 "C59": "The claim is false: i32::MIN panics with overflow checks and a non-empty collection (C59_refuted); proved exactly when it panics.",
 "C60": "Exact real arithmetic; an undefined operation is distinguished from a value.",
 "C61": "The claim is false: type 1 compares |gamma|-1 instead of |gamma-1| with the tolerance (C61_refuted); proved that type -1 behaves and exactly for which gamma type 1 does.",
 "C68": "The claim is false for negative a: type -8 returns 0 (C68_refuted, C68_negative); proved for positive a.",
 "C70": "The claim is false: type -109 uses log10 where ln is needed (C70_refuted); proved what the round trip gives instead, for every k and x.",
 "C73": "The platform functions powf, exp and log10 are arbitrary.",
 "C62": "Exact real arithmetic; an undefined operation is distinguished from a value.",
 "C63": "Exact real arithmetic; an undefined operation is distinguished from a value.",
 "C64": "Exact real arithmetic; an undefined operation is distinguished from a value.",
 "C65": "Exact real arithmetic; an undefined operation is distinguished from a value.",
 "C66": "Exact real arithmetic; an undefined operation is distinguished from a value.",
 "C67": "Exact real arithmetic; an undefined operation is distinguished from a value.",
 "C69": "Exact real arithmetic; an undefined operation is distinguished from a value.",
 "C71": "Exact real arithmetic; an undefined operation is distinguished from a value.",
 "C72": "Exact real arithmetic; an undefined operation is distinguished from a value.",
 "C75": "A handler is any record of read/seek/tell/write functions over any state type.",
 "C76": "The public API only puts a File into a profile; the field is Box<dyn IOHandler>.",
 "C77": "File sizes below 2^63 and below 2^32 on 32-bit targets. seek fails only for invalid targets; other processes only truncate (to length 0), as open_from_file_thr(Write) does.",
 "C78": "Without concurrent truncation.",
 "C79": "Buffer contents after an error are those of std's default read_exact loop.",
 "C80": "s15f16 values must lie on the grid n/65536 with |n| < 2^31; other values are rounded (C20, C21).",
 "C81": "Cells lie within the initial content.",
 "C82": "Plugin lists are opaque; function pointers are numbers.",
 "C83": "The library has no writer of profiles; the client program saveProfile composes its encoders. Opening for writing itself fails (C43), so the file is created with File::create.",
 "C84": "Equality is the library's PartialEq on profiles, which ignores the handler.",
 "C85": "Requests are those of the IOHandler methods; for File, what the operating system is asked follows from C17.",
 "C86": "std::sync::Mutex is assumed to exclude, block and poison as documented; the error callback does not lock the mutex itself; a call is four atomic steps (lock, open or create, read the header, return). Threads with their own contexts: C110.",
 "C87": "Violated by type 3 at its joint X = -b/a (0 instead of c). Also types 2 and 3 return 0 when |a| is below the tolerance. Real arithmetic.",
 "C88": "Real arithmetic; a comparison with an undefined quantity counts as false, as with NaN.",
 "C89": "Real arithmetic; parameters above the tolerance.",
 "C90": "Violated at the joint when c is not 0. Real arithmetic.",
 "C91": "Real arithmetic.",
 "C92": "powf is only assumed to give numbers on non-negative bases (C99 F.10.4.4), for -4 also non-negative ones for non-negative exponents. For the types above 6 exp is assumed non-negative, log10 a number from zero on, and for 108 the power monotone with 1 to any power 1. Outside the stated domains the other types can return NaN; 109 is the proved example.",
 "C93": "Texts of dates (chrono) are assumed to show the date and to end visibly, texts of other handlers to end visibly.",
 "C94": "Violated by InterpolationPluginChunk, which calls itself LogErrorChunk, and IntentsListItem, which calls itself IntentListItem (C94_refuted); proved for the others.",
 "C95": "Violated as soon as a formatter factory is installed: its address is printed (C95_refuted); proved exactly what the text shows and when it is unchanged.",
 "C97": "Real arithmetic, as C88; together with C88 it fixes the evaluator on the reals completely.",
 "C98": "A program sees results only, not addresses or timing; the preconditions on sizes are those of C17 and C18.",
 "C99": "Real arithmetic; positive exponents.",
 "C100": "Real arithmetic.",
 "C101": "Violated by every file with a tag. C101_append_partial is the exact outcome for any second file, C101_again_partial says when the claim holds, C101_lookup_partial what becomes of lookups. `read_header` is private and called once per profile, so no caller outside the crate sees this.",
 "C103": "About the values computed in binary64, not the real ones. MonoLibm lists what is assumed of the platform's pow, exp and log10 (monotone where the mathematical functions are; satisfiable: crude_mono). Type 3 needs a positive offset (C103_type3_drops).",
 "C104": "Correct is the IEEE-754 rule stated on values (nearest, ties to even, overflow threshold); C104_unique shows that it determines the result, so it also checks the binary64 model used by the other curve claims. C104_operations, C104_nan, C104_infinite, C104_sign and C104_compare are about the arithmetic itself, the line theorems about the code.",
 "C105": "AccuratePow is an assumption on the platform, stated for normal results and shown to be satisfiable (C105_accurate_pow_exists). Non-negative slopes, offsets and arguments only, so that nothing cancels; base, power and sum away from underflow and overflow. Type 7 also assumes an accurate log10 (AccurateLog, satisfiable: C105_accurate_log_exists). Types 108 and 109 are in C117.",
 "C106": "The platform's powf is assumed accurate (AccuratePow) and, for type 4, monotone in the base; C106_platform_exists shows that both can hold. The straight piece needs the value below the joint to be smaller than the value at it; for sRGB that is proved. Type 109 is left out because type -109 does not invert it (C70).",
 "C107": "Calls are atomic because each holds the global lock; a panic inside one is caught by the caller and poisons the mutex.",
 "C108": "Sizes up to isize::MAX; the clients `save` and `saveProfile` are made of the library's own calls (the library has no saving function yet).",
 "C109": "Violated by one constant: DIGITAL_CINEMA_PROJECTOR is 'dcpj' (as in the ICC specification), lcms2.h has 'dcjp'. The partial theorem states that it is the only one. The numbers of the 208 enumeration constants come from tests/include/bindings.rs; the 27 macros (plugin types, magic numbers, status codes) are not in the bindings and their four characters come from the published headers and the ICC specification.",
 "C110": "Files are neither removed nor written to meanwhile, except for being created or truncated by these calls; system calls do not fail other than by permission (C77 has failures). Panics are caught; a thread that dies of one is one with a shorter program.",
 "C111": "For the comparison with files the new profile's clock is in the years 1 to 65535; a date in a file has no fraction of a second, so the clock must have none for them to be equal.",
 "C112": "The platform's powf has relative error at most ε ≤ 1/8 (a hypothesis; cutLibm meets it with 2^-52). gamma is from 1/1000 to 1024 and a at least 1/1000; roots and quotients stay from 2^-1021 to 2^1022. Types -4 and -5 keep a distance from the joint that covers the error of the joint as computed. The other negative types are in C117.",
 "C113": "Assumes that a successful fdatasync puts the file's contents on the medium, and that the OS writes nothing back to a medium that is up to date. The history stays below offset 2^63.",
 "C114": "Violated: header and directory are fetched with separate system calls and nothing ties them together, so a rewrite in between gives a mixture without an error. Proved instead: whatever happens to the file, the profile read is that of some file at rest that opens, made of bytes the file had at those offsets.",
 "C115": "Violated in builds with use_little_endian: the examples of the typed reads and of the fixed point writes spell out bytes most significant first. Proved: all other examples hold for all values in every build, and those hold for all values exactly without the feature.",
 "C116": "The position after a failed read is the one thing that differs (C09, C10 and C98 describe the older behaviour there); a program that goes on without seeking can notice it, as the example shows.",
 "C117": "powf, log10 and exp are assumed to have relative errors at most ε or δ on the arguments in question (satisfiable with 2^-52: C117_accurate_exp_exists). Every difference must stay well above the error of its operands; for type -109 this excludes arguments whose w(1-w) is below eight times the error of w, which for large k are those near 0 and 1. With C105 and C112 every type of the evaluator has an accuracy theorem on the ranges stated there.",
 "C118": "powf is assumed to have a relative error at most ε on the arguments in question, and log10 one of at most δ for types 7 and 8. The argument must be at a distance from the joint that accounts for the error of the inverse, since the second evaluation chooses its piece by the computed number; for type 3 the same holds at zero. In type 8 the slope in the exponent must be at least 1/1000, as the code returns 0 below 1/10000. Type 109 has no inverse (C70).",
 "C119": "powf is assumed to have a relative error at most ε on the arguments in question, and log10 one of at most δ for type 7. The bounds grow with the cancellation in the sums, as they must. Numbers so close to the root of a x + b that the sum keeps no digit (κ above 1/8) are not covered. Types 2 and 3 need a of at least 1/1000: below 1/10000 the code returns 0 (C97).",
 "C120": "powf and exp are only assumed monotone (MonoLibm), as in C103. The upper bounds on the parameters are conditions on the computed sums. For type 109 the upper end is exact, but the lower end is not: with exp rounded to nearest at 3/8 and -3/8 the curve with parameter 3/8 sends 0 to -3/2^53, so a caller who takes square roots or indexes a table with the result must clamp. C120_sigmoid_band bounds the fall, from C117. C120_expUp and C120_expDown prove that the two values of exp used are the nearest ones. Types -3, -7, -8 and -109 are not covered: -3 drops to 0 at r = c (C103), the others have conditions at 0 that rarely hold."
}