#!/usr/bin/env python3
"""Writes /verif/properties.jsonl (one JSON object per line)."""
import json, os
P = []
def p(title, statement, quantifier, why, anchors):
    P.append(dict(id=f"C{len(P)+1:02d}", title=title, statement=statement,
                  quantifier=quantifier, why_tests_cant=why, anchors=anchors))

BE="src/io/big_endian.rs"; LE="src/io/little_endian.rs"; IOH="src/io/io_handler.rs"
MEM="src/io/file_mem.rs"; NUL="src/io/file_null.rs"; FIL="src/io/file_file.rs"
PRO="src/types/profile.rs"; SIG="src/types/signature.rs"; HDR="src/types/icc_header.rs"
TAG="src/types/tag_entry.rs"; DAT="src/types/date_time_number.rs"; PID="src/types/profile_id.rs"
CTX="src/state/context.rs"; ERR="src/state/chunks/error_handler.rs"; PAR="src/plugins/para_curve.rs"
PLG="src/plugins/plugin.rs"

# ---- endianness -----------------------------------------------------------
p("Endianness adjustment is its own inverse",
  "For both endianness modules, applying adjust_endianness_u16/u32/u64 twice returns the original integer, and applying adjust_endianness_16/32/64 twice returns the original byte array.",
  "every integer / byte array of each width, every host byte order, both the big_endian and little_endian modules",
  "2^64 values times host byte orders the test machine does not have",
  [f"{BE}: adjust_endianness_*", f"{LE}: adjust_endianness_*"])
p("Endianness adjustment means the same on every host",
  "The native reading of big_endian::adjust_endianness_N(bytes) is the big-endian value of bytes (little_endian: the little-endian value), and adjusting the native integer read from bytes gives that same value; so array and integer variants agree on any host.",
  "every byte array of each width, both host byte orders, both modules",
  "tests run on one host byte order only",
  [f"{BE}", f"{LE}"])
# ---- IOHandler typed accessors ---------------------------------------------
p("Typed writes put exactly the file-order bytes on the stream",
  "On any IOHandler, write_u8/u16/u32/f32/u64(v) is exactly one write of the 1/2/4/4/8 bytes of v, most significant first (least significant first with feature use_little_endian), whatever the host byte order.",
  "every value, every handler implementation and state, both host byte orders, both feature settings",
  "unbounded handler implementations; foreign byte order",
  [f"{IOH}: write_u8..write_u64, write_f32"])
p("Typed reads decode exactly the file-order bytes",
  "On any IOHandler, read_u8/u16/u32/f32/u64 performs exactly one read of 1/2/4/4/8 bytes and returns their big-endian (feature: little-endian) value; it fails exactly when that read fails, with the same error and handler state.",
  "every handler implementation and state, both host byte orders, both feature settings",
  "unbounded handler implementations; foreign byte order",
  [f"{IOH}: read_u8..read_u64, read_f32"])
p("Write, seek back, read returns the value written",
  "On a FileMem over a Vec, at any position, writing a u8/u16/u32/u64/f32, seeking back to where it was written and reading the same type returns the same value (f32: the same bit pattern, NaN payloads included).",
  "every prior buffer, every position, every value, every target",
  "all positions inside, at and beyond the end of arbitrary buffers",
  [f"{IOH}", f"{MEM}"])
p("u16 array write/read round trip",
  "write_u16_array(xs) appends exactly 2*len bytes in order, and reading back into a slice of the same length yields xs, for every length including 0.",
  "every list of u16 of any length, every prior buffer and position",
  "unbounded array length",
  [f"{IOH}: read_u16_array, write_u16_array"])
p("A failing u16 array read keeps the items already read",
  "If read_u16_array fails, the caller's slice holds the values that were completely available, in order, followed by its own old items unchanged; it succeeds iff 2*len bytes are available.",
  "every slice length and every amount of available data",
  "unbounded lengths and failure points",
  [f"{IOH}: read_u16_array"])
# ---- FileMem ----------------------------------------------------------------
p("FileMem over a fixed buffer never resizes it and writes only in its window",
  "For a FileMem over &mut [u8] or Box<[u8]>, no sequence of operations changes the buffer length; a write at position p changes no byte outside [p, p+n); it succeeds iff n = 0 or p+n <= len; a write that does not fit stores the part that fits and reports WriteZero.",
  "every history of read/write/seek/tell, every buffer and position",
  "unbounded histories, sizes and boundary positions",
  [f"{MEM}: impl IOHandler for FileMem"])
p("FileMem over a Vec behaves like an abstract byte tape",
  "Every history of operations on FileMem<Vec<u8>> returns the same results and errors as an abstract file: a zero-filled infinite tape with a length and a position, where write extends the length, gaps read as zero, and seek past the end is legal.",
  "every finite history of read/write/seek/tell/reported_size from every initial buffer",
  "unbounded histories",
  [f"{MEM}", f"{IOH}: reported_size"])
p("FileMem reads are exact and all-or-nothing",
  "A FileMem read of n bytes succeeds iff n = 0 or p+n <= len, returns bytes [p,p+n) and advances by n; otherwise it fails with UnexpectedEof and neither the buffer nor the position changes. Reading never changes the stored bytes.",
  "every buffer, position and request length",
  "all sizes and boundaries",
  [f"{MEM}: read"])
p("FileMem seek succeeds exactly for representable positions",
  "seek(Start n) goes to n; seek(End d)/seek(Current d) go to len+d / pos+d iff that lies in 0..2^64-1, otherwise fail with InvalidInput leaving the position; no seek changes the bytes.",
  "every position, length and i64/u64 offset",
  "2^64 offsets, extreme values",
  [f"{MEM}: seek"])
p("reported_size returns the length and restores the position",
  "On FileMem, File and FileNull, a successful reported_size returns the stream length and leaves position and contents as they were.",
  "every handler state representable on the target",
  "all positions, also beyond the end, and file sizes beyond 4 GiB on 32-bit targets",
  [f"{IOH}: reported_size", f"{MEM}", f"{NUL}", f"{FIL}"])
# ---- FileNull ---------------------------------------------------------------
p("Reading from a FileNull yields zeros",
  "Regardless of what was written, every value read from a FileNull is 0 (documented: '0' is always read out).",
  "every history of writes/seeks followed by any read, every caller buffer",
  "unbounded histories; depends on the caller's buffer contents",
  [f"{NUL}: read", f"{IOH}: read_*"])
p("FileNull predicts the size a real write would produce",
  "Running a write sequence against a FileNull and against an initially empty FileMem<Vec<u8>> gives the same position after every step and the same reported_size.",
  "every history of writes, reads, seeks, typed writes that succeeds on the FileMem",
  "unbounded histories",
  [f"{NUL}", f"{MEM}"])
p("FileNull seek with negative offsets",
  "seek(Current(-n)) and seek(End(-n)) on a FileNull move the position back by n, as on the other handlers, and never panic.",
  "every position, size and offset; both overflow-check build modes",
  "depends on the build profile and on every offset",
  [f"{NUL}: seek"])
p("FileNull operations never report an I/O error",
  "No read, write, seek, tell or typed access on a FileNull ever returns Err.",
  "every state and operation",
  "all states",
  [f"{NUL}"])
# ---- File -------------------------------------------------------------------
p("File reads and writes do not depend on how the OS splits them",
  "For std::fs::File, whatever short transfers or EINTR interruptions the OS performs, read/write return the same result, bytes and final position as a single full transfer.",
  "every schedule of short reads/writes and interruptions",
  "schedules are chosen by the OS",
  [f"{FIL}: read, write"])
p("File and FileMem<Vec> are interchangeable",
  "A history of operations that succeeds throughout on FileMem<Vec<u8>> succeeds on a read/write File with the same content, returning the same data and ending with the same content and position.",
  "every finite history whose operations all succeed in memory with positions below 2^63",
  "unbounded histories",
  [f"{FIL}", f"{MEM}"])
# ---- fixed point ------------------------------------------------------------
p("read_s15f16 is exact",
  "read_s15f16 returns exactly n/65536 where n is the two's complement big-endian 32-bit integer on the stream, for every bit pattern.",
  "all 2^32 bit patterns, both overflow-check modes",
  "2^32 inputs; the extreme value depends on the build profile",
  [f"{IOH}: read_s15f16, s15f16_to_f64"])
p("Fixed point survives a read/write round trip",
  "Writing with write_s15f16 the value obtained from read_s15f16 reproduces the same four bytes.",
  "all 2^32 bit patterns",
  "2^32 inputs and IEEE rounding",
  [f"{IOH}: s15f16_to_f64, f64_to_s15f16"])
p("write_s15f16 rounds to the nearest representable value",
  "For |v| within range, write_s15f16(v) stores an integer n with |n/65536 - v| <= 1/131072.",
  "every finite f64 in range",
  "2^64 inputs; double rounding",
  [f"{IOH}: f64_to_s15f16"])
p("write_s15f16 saturates and never panics",
  "Values at or above 32768 store 0x7FFFFFFF, values below -32768 store 0x80000000, +-infinity likewise, NaN stores 0; the stored integer is monotone in v.",
  "every f64 including NaN and infinities",
  "2^64 inputs",
  [f"{IOH}: f64_to_s15f16"])
p("XYZ values are three consecutive fixed point numbers",
  "read_xyz/write_xyz transfer exactly 12 bytes in order X,Y,Z, and a CIEXYZ read from a stream is written back as the same 12 bytes.",
  "all 2^96 bit patterns, every buffer/position",
  "2^96 inputs",
  [f"{IOH}: read_xyz, write_xyz"])
# ---- Signature --------------------------------------------------------------
p("Signature <-> u32 and <-> [u8;4] are inverse bijections",
  "Converting to u32 (or to 4 bytes) and back gives the same signature, and the two views agree via big-endian order on every host.",
  "all 2^32 signatures",
  "2^32 inputs, both host orders",
  [f"{SIG}: From<u32>, From<Signature> for u32/[u8;4], From<&[u8;4]>, new"])
p("Signature from a slice pads with spaces and truncates",
  "Signature::from(&[u8]) of any length is the big-endian value of the first four bytes of (slice followed by spaces); the fixed-size array conversions of 1..4 bytes and the &str conversion agree with it; empty gives the default signature.",
  "every byte slice of any length, every string",
  "unbounded length",
  [f"{SIG}: From<&[u8]>, From<&[u8;1..4]>, From<&str>, Default"])
p("Signature to String and back",
  "String::from(sig) is the text whose UTF-8 encoding is the four bytes when they are valid UTF-8 and four spaces otherwise; Signature::from(String::from(sig)) == sig iff the bytes are valid UTF-8 or sig is the default.",
  "all 2^32 signatures",
  "2^32 inputs, UTF-8 validity corner cases",
  [f"{SIG}: From<Signature> for String, From<&str>"])
p("Debug output distinguishes signatures and profile IDs",
  "Two signatures (two profile IDs) with the same Debug value text are equal.",
  "all pairs of signatures / of 16-byte IDs",
  "2^64 and 2^256 pairs",
  [f"{SIG}: impl Debug", f"{PID}: impl Debug"])
# ---- header / tag entry layout ---------------------------------------------
p("The in-memory header layout has no padding on any target",
  "Under the repr(C) rules, with u64 aligned to 4 or 8, the ICC header occupies exactly 128 bytes and the tag entry exactly 12, with every field at its ICC offset, so reinterpretation of the byte array is total. The rule by which the offsets are computed is, for every list of fields, that of repr(C): each field at the first multiple of its alignment after the field before, and the size the first multiple of the largest alignment.",
  "every permitted alignment of u64",
  "tests run on one target",
  [f"{HDR}: ICCHeader, ICCHeaderConverter", f"{TAG}: TagEntry"])
p("Header fields are read at their ICC offsets in file order",
  "Decoding a 128-byte header yields, for each field, the big-endian (feature: little-endian) integer at the offset the ICC specification assigns to it; profile ID and reserved bytes are copied verbatim.",
  "every 128-byte block, both host orders, both feature settings",
  "256^128 inputs; foreign byte order",
  [f"{HDR}: swap_endianness, from_bytes"])
p("Header encoding and decoding are inverse bijections",
  "to_bytes(from_bytes(b)) = b for every 128-byte block and from_bytes(to_bytes(h)) = h for every header.",
  "every block and every header value, both host orders",
  "256^128 inputs",
  [f"{HDR}: from_bytes, to_bytes"])
p("Tag entries decode at their offsets and round trip",
  "A 12-byte entry decodes to signature, offset, size as consecutive big-endian u32, and encode/decode are inverse bijections.",
  "every 12-byte block and every entry, both host orders",
  "256^12 inputs",
  [f"{TAG}: from_bytes, to_bytes"])
# ---- dates ------------------------------------------------------------------
p("Header date conversion succeeds exactly for real calendar dates",
  "DateTimeNumber -> NaiveDateTime yields the same year/month/day/h/m/s when they form a valid proleptic Gregorian date and time; it panics otherwise (never silently yields another date).",
  "all 2^96 date fields",
  "2^96 inputs",
  [f"{DAT}: From<DateTimeNumber> for NaiveDateTime"])
p("Date round trip",
  "Converting a valid DateTimeNumber to NaiveDateTime and back returns the same DateTimeNumber.",
  "every valid date time",
  "all dates including year 0 and leap days",
  [f"{DAT}"])
p("NaiveDateTime to ICC date and back",
  "For a NaiveDateTime in years 1..65535, converting to DateTimeNumber and back returns it truncated to whole seconds.",
  "every NaiveDateTime of chrono's range",
  "unbounded range of dates incl. negative years and leap seconds",
  [f"{DAT}: From<NaiveDateTime> for DateTimeNumber"])
# ---- Profile open -----------------------------------------------------------
p("Opening for read is a function of the file content only",
  "open_from_file_thr(Read) on a file returns exactly what the ICC header/tag directory rules prescribe for its bytes: same fields, same tag table, same error, for every content, OS read schedule and wall-clock time.",
  "every file content, every short-read schedule, every clock value, every target",
  "unbounded file contents",
  [f"{PRO}: open_from_file_thr, read_header_thr"])
p("Tags listed by an opened profile lie inside the file",
  "Every tag reported by an opened profile has offset+size (as unbounded integers) at most the smaller of the header size field and the file length; no entry wraps around 2^32.",
  "every file content, both overflow-check modes",
  "adversarial 32-bit offsets/sizes",
  [f"{PRO}: read_header_thr"])
p("Tag table keeps directory order and never drops an in-range tag",
  "An opened profile lists exactly the in-range directory entries, in directory order, with their names, offsets and sizes.",
  "every file content",
  "unbounded contents",
  [f"{PRO}: read_header_thr, get_tag_count, get_tag_signature"])
p("At most 100 tags, never an index out of bounds while opening",
  "get_tag_count() of an opened profile is at most MAX_TABLE_TAG and at most the directory count; a directory count above 100 is refused; opening never panics by indexing.",
  "every file content",
  "adversarial tag counts",
  [f"{PRO}: read_header_thr"])
p("get_tag_signature is total",
  "get_tag_signature(n) returns the n-th tag's signature for n < get_tag_count() and the default signature for every other n, without panicking.",
  "every opened profile and every usize n",
  "all n including the boundary n = count = 100",
  [f"{PRO}: get_tag_signature"])
p("Error signalling of open is exact",
  "Opening signals BadSignature exactly when the magic is wrong, Range with the text 'Too many tags N' exactly when the directory count exceeds 100, and signals nothing otherwise; it signals at most once.",
  "every file content, every installed handler",
  "unbounded contents",
  [f"{PRO}: read_header_thr", f"{CTX}: signal_error"])
p("Opening never panics",
  "open_from_file_thr returns Ok or Err for every file content; malformed input never panics.",
  "every file content, both overflow-check modes",
  "adversarial contents",
  [f"{PRO}: read_header_thr", f"{DAT}"])
p("Opening for read never modifies any file",
  "After open_from_file_thr(Read) every file has the content it had before, whatever the result. If it succeeds, get_io_handler shows a handle with the content of the file, on which every non-empty write fails and changes nothing.",
  "every file system state, path and content",
  "all contents and failure points",
  [f"{PRO}: open_from_file_thr"])
p("Opening for write yields a writable profile",
  "open_from_file_thr(Write) on a creatable path returns a profile in write mode.",
  "every path and file system state",
  "all prior contents",
  [f"{PRO}: open_from_file_thr"])
p("Opening does not depend on the wall clock, and re-opening gives an equal profile",
  "Two successful read opens of the same content compare equal with ==, at any times, on any hosts, with any read schedules.",
  "every content, pair of times, hosts, schedules",
  "all pairs of executions",
  [f"{PRO}: new, PartialEq"])
p("Only the directory prefix and the length matter",
  "Two files of equal length agreeing on the first 132+12*N bytes (N = tag count field) open to equal profiles or equal failures.",
  "every pair of files",
  "unbounded contents",
  [f"{PRO}: read_header_thr"])
p("Profile equality is an equivalence that ignores the I/O handle",
  "== on profiles is reflexive, symmetric and transitive and holds iff all header fields, tag table entries, links and mode are equal, regardless of the handler.",
  "every pair/triple of profiles",
  "all pairs",
  [f"{PRO}: impl PartialEq", f"{PID}: impl PartialEq"])
p("Tag links mark duplicates of an earlier tag's data",
  "In an opened profile a tag whose offset and size equal those of an earlier listed tag is linked to that earlier tag's signature, and a tag with unique data is not linked.",
  "every opened profile",
  "unbounded directories",
  [f"{PRO}: read_header_thr (Search for links)"])
p("Tag lookup finds the first tag with the signature",
  "Looking up a signature without following links returns the smallest index below the tag count holding that signature, and nothing iff no tag has it.",
  "every opened profile and every signature",
  "unbounded directories",
  [f"{PRO}: search_one_tag, search_tag"])
p("Tag lookup with links terminates",
  "Looking up a signature following links returns for every opened profile.",
  "every opened profile and signature",
  "non-termination cannot be observed by a test",
  [f"{PRO}: search_tag"])
p("A failed open of one file does not affect later opens",
  "After any history of open_from_file calls, the next open_from_file gives the same result as on a fresh process with the same file system.",
  "every history of calls with any contents",
  "unbounded histories; involves mutex poisoning",
  [f"{PRO}: open_from_file", f"{CTX}: GLOBAL_CONTEXT"])
p("Standard ICC files and the use_little_endian feature",
  "With use_little_endian a file starting with a standards-conforming header ('acsp' at offset 36) is always rejected with BadSignature; without it, a file is accepted past the magic check iff it has 'acsp' there, on both host byte orders.",
  "every file content, both hosts",
  "unbounded contents; feature matrix",
  [f"{PRO}", "src/io.rs: feature re-exports"])
# ---- Context / plugins ------------------------------------------------------
p("init_plugin rejects a chain containing an invalid plugin",
  "init_plugin returns Ok iff every plugin in the chain has the right magic, a supported version and a known type.",
  "every plugin chain of any length",
  "unbounded chains",
  [f"{CTX}: init_plugin"])
p("init_plugin reports the first offence exactly once",
  "On failure init_plugin calls the error handler exactly once, with code UnknownExtension and the same text it returns; the text names the first offending plugin among those it inspects; on success the handler is not called.",
  "every plugin chain, every handler",
  "unbounded chains",
  [f"{CTX}: init_plugin, signal_error"])
p("Context state is only changed by the error handler",
  "init_plugin and profile opening change a context only through the installed error handler; with the default handler the context is unchanged, and get_user_data always returns the data given to Context::new.",
  "every history of API calls",
  "unbounded histories",
  [f"{CTX}", f"{ERR}"])
p("Plugin kind predicates partition plugins",
  "For every plugin payload exactly one of the nine is_* predicates holds.",
  "every PluginType value",
  "arbitrary payloads",
  [f"{PLG}: PluginType::is_*"])
p("Error codes are faithfully numbered and ordered",
  "ErrorCode discriminants are the lcms2 numbers 0..13, distinct, and the derived order is the numeric order.",
  "every pair of codes",
  "completeness over all pairs",
  [f"{ERR}: ErrorCode"])
# ---- Curves -----------------------------------------------------------------
p("The evaluator needs exactly the declared number of parameters",
  "For every curve type t of the default set, and its inverse -t, default_eval_parametric_fn panics iff fewer parameters than the declared parameter_count are supplied; extra parameters never change the result.",
  "every type of the default set and its inverse, every parameter slice, every input, any floating point semantics",
  "unbounded slices and all floats",
  [f"{PAR}: Default for ParametricCurves, default_eval_parametric_fn"])
p("Unknown curve types evaluate to zero and are not in the set",
  "default_eval_parametric_fn returns 0 without panicking for every type not in the default set, and is_in_set(t) = Some(i) iff i is the first entry whose id is |t| (for i32::MIN, whose absolute value does not fit an i32: without overflow checks the first entry whose id is i32::MIN itself).",
  "all 2^32 types, any parameters, any collection of curves",
  "2^32 types, unbounded collections",
  [f"{PAR}: is_in_set, default_eval_parametric_fn"])
p("is_in_set never panics",
  "is_in_set returns for every i32 type.",
  "all 2^32 types, every curve collection, both overflow-check modes",
  "depends on build profile and extreme value",
  [f"{PAR}: is_in_set"])
p("Type -1 inverts type 1",
  "With real arithmetic, for gamma >= 0.0001 and x >= 0 the pair is inverse in both directions.",
  "all real gamma >= 0.0001 and x >= 0", "uncountably many inputs",
  [f"{PAR}: 1, -1"])
p("Gamma curves treat negative input consistently",
  "For a negative input, type 1 and type -1 both return the input when gamma is 1 (within 0.0001) and both clip to 0 otherwise.",
  "all real gamma and negative inputs", "uncountably many inputs",
  [f"{PAR}: 1, -1"])
p("Type -2 inverts type 2 (CIE 122)",
  "With real arithmetic, for a >= 0.0001, gamma >= 0.0001 and x >= max(0,-b/a), eval(-2, eval(2, x)) = x.",
  "all real parameters in range", "uncountably many inputs", [f"{PAR}: 2, -2"])
p("Type -3 inverts type 3 (IEC 61966-3)",
  "For a >= 0.0001, gamma != 0 and x >= 0 with ax+b > 0, eval(-3, eval(3, x)) = x.",
  "all real parameters in range", "uncountably many inputs", [f"{PAR}: 3, -3"])
p("Type -4 inverts type 4 (sRGB shape)",
  "For a, c, gamma >= 0.0001, ad+b >= 0 and cd <= (ad+b)^gamma, eval(-4, eval(4, x)) = x for every x.",
  "all real x and parameters in range", "uncountably many inputs", [f"{PAR}: 4, -4"])
p("Type -5 inverts type 5",
  "For a, c, gamma >= 0.0001, ad+b >= 0 and cd+f <= (ad+b)^gamma+e, eval(-5, eval(5, x)) = x for every x.",
  "all real x and parameters in range", "uncountably many inputs", [f"{PAR}: 5, -5"])
p("Type -6 inverts type 6",
  "For |a| >= 0.0001, gamma > 0 and ax+b >= 0, eval(-6, eval(6, x)) = x.",
  "all real parameters in range", "uncountably many inputs", [f"{PAR}: 6, -6"])
p("Type -7 inverts type 7",
  "For gamma, a, b >= 0.0001, x >= 0 and b x^gamma + c > 0, eval(-7, eval(7, x)) = x.",
  "all real parameters in range", "uncountably many inputs", [f"{PAR}: 7, -7"])
p("Type -8 inverts type 8",
  "For |a| >= 0.0001, |c| >= 0.0001, b > 0, b != 1, eval(-8, eval(8, x)) = x for every x.",
  "all real parameters in range", "uncountably many inputs", [f"{PAR}: 8, -8"])
p("Type -108 inverts type 108",
  "For g >= 0.0001 and 0 <= x <= 1, type 108 maps [0,1] to [0,1] and eval(-108, eval(108, x)) = x.",
  "all real g and x in range", "uncountably many inputs", [f"{PAR}: 108, -108"])
p("Type -109 inverts type 109 (sigmoid)",
  "For k != 0 and 0 <= x <= 1, eval(-109, eval(109, x)) = x.",
  "all real k and x in range", "uncountably many inputs", [f"{PAR}: 109, -109, sigmoid_*"])
p("The sigmoid is a strictly increasing curve through 0, 1/2 and 1",
  "For every k != 0 type 109 maps 0 to 0, 1/2 to 1/2, 1 to 1, is strictly increasing, and so maps [0,1] into [0,1].",
  "all real k != 0 and x", "uncountably many inputs", [f"{PAR}: sigmoid_factory"])
p("Forward curves are monotone on their domain",
  "Types 1, 2, 4, 5, 6 are non-decreasing in x on x >= 0 for positive gamma and slope parameters (with a non-decreasing joint for 4, 5).",
  "all real parameters in range", "uncountably many inputs", [f"{PAR}: 1,2,4,5,6"])
p("NaN input",
  "In IEEE arithmetic, for every curve type, a NaN input never reaches the power function of types 2 and 3: type 2 returns 0 and type 3 returns c (or 0 when a is below tolerance). A NaN offset b is not noticed either: type 2 returns 0, type 3 returns c below zero and 0 from zero on, types 4 and 5 return 0 and e above the joint.",
  "all parameters, any powf/exp/log10 implementation", "2^64 patterns per parameter", [f"{PAR}: 2, 3"])
p("Signature constants",
  "The nine plugin type signatures are pairwise distinct and differ from the plugin magic, so each match arm of init_plugin is reachable; within every signature module equal constants occur only for the documented synonyms (colorant / matrix column).",
  "all pairs of constants of each module", "completeness over tables", ["src/types/signatures/*.rs"])

# ---- arbitrary, in-memory and failing handlers -----------------------------
p("Reading a profile through any handler",
  "Whatever implements IOHandler and however it behaves, read_header_thr on a new profile leaves a table of at most 100 tags that end below 2^32; succeeds exactly if the handler delivers all that is asked for, the magic number is right, the date exists, at most 100 tags are declared and (with overflow checks) no line overflows; then keeps exactly the delivered lines ending within the header's and the reported size and takes all other fields from the delivered header; panics only if a handler method or the error callback panics, the date is impossible or (with checks) a line overflows; signals at most one error and then does not succeed. Without a handler it returns InvalidData and changes nothing.",
  "every handler implementation and state, every target, callback, clock and context",
  "unbounded handler implementations, including inconsistent ones",
  [f"{PRO}: read_header_thr", f"{IOH}: IOHandler"])
p("A profile in memory reads like the same bytes in a file",
  "read_header_thr through FileMem (growable or fixed) over bytes b has the same outcome as through File over b: same kind of result, same error, same profile fields, same context and signals.",
  "every content up to isize::MAX bytes, every read schedule of the file, every target, callback and clock",
  "unbounded contents and schedules",
  [f"{PRO}: read_header_thr", f"{MEM}", f"{FIL}"])
p("Disturbed files never give a wrong profile",
  "If system calls on the file fail, are interrupted or cut short, and other processes truncate the file at any moment, read_header_thr gives what the undisturbed file gives, or an error without any signal: UnexpectedEof if there was a truncation, or an OS error that occurred.",
  "every content, every finite script of events, every target, callback and clock",
  "races and media errors cannot be scheduled exhaustively",
  [f"{PRO}: read_header_thr", f"{FIL}: read"])
p("Failing writes leave a prefix",
  "Writing any list of typed values to a File whose system calls may fail leaves the old content overwritten by a prefix of the concatenated encodings: all of it without error; otherwise the error is an OS error that occurred and the prefix is shorter. The position is behind the prefix; nothing panics.",
  "every list of values of the eight writable kinds, every prior content and position, every finite script without truncation, every target",
  "a full disk at every byte position is not reproducible in tests",
  [f"{IOH}: write_*", f"{FIL}: write"])
p("Failing reads leave a prefix",
  "A read from a File whose system calls may fail and which others may truncate leaves in the buffer a prefix of the content from the position on followed by the old rest of the buffer, with the position behind the prefix; the prefix is complete iff the read succeeds; otherwise the error is UnexpectedEof (file ended or truncated) or an OS error that occurred.",
  "every buffer, content, position and finite script, every target",
  "races and media errors cannot be scheduled exhaustively",
  [f"{FIL}: read"])

# ---- records and cells -----------------------------------------------------
p("Records of typed values round-trip",
  "Writing any list of typed values (u8, u16, u16 arrays, u32, f32, u64, s15f16 on the fixed-point grid, XYZ), going back and reading with the same accessors returns the same values and leaves the old content overwritten by the concatenated encodings.",
  "every list of values, every position and prior content, Vec and fixed FileMem and File, every schedule, every target",
  "unbounded records; composition of accessors", [f"{IOH}: read_*, write_*", MEM, FIL])
p("Typed cells at disjoint offsets are independent variables",
  "For any typed cells at pairwise disjoint offsets, every history of seek+write and seek+read through the typed accessors behaves like assignments to and reads of independent variables; bytes outside the cells never change.",
  "every number of cells, every history, Vec and fixed FileMem and File, every schedule, every target",
  "unbounded histories", [f"{IOH}: read_*, write_*", MEM, FIL])
p("What a new context contains",
  "A context made by Context::new(data) contains, and after every history of calls still contains: data, 16 alarm codes (0x7F00 for the first three channels, 0 for the others), adaption state 1.0, the default interpolators, no plugins, and an error handler without effect.",
  "every data and every history of init_plugin and open calls", "unbounded histories",
  [f"{CTX}: Context::new", "src/state/chunks/*.rs: Default"])

# ---- writing a file with the library's encoders, and opening it --------------
p("A profile file written with the library opens as what was written",
  "Writing a header, the tag count, the directory and the data through the library's encoders and a created File, then opening that file, gives a profile with the header's fields and exactly the directory lines that end within both the declared size and the file, in order; the same calls on an empty FileMem produce the same bytes.",
  "every header with an existing date and the right magic number, up to 100 arbitrary lines (with overflow checks: ending below 2^32), any data, any write and read schedules, any two targets with the same file byte order",
  "unbounded contents; writing and opening are tested separately at best",
  [f"{HDR}: to_bytes, from_bytes", f"{TAG}: to_bytes, from_bytes", f"{IOH}: write_u32_thr", f"{PRO}: open_from_file_thr", FIL, MEM])
p("What a profile remembers of its file",
  "Two opened files give equal profiles (PartialEq) exactly if they agree on header bytes 8-35, 44-67 and 80-99 and on the directory lines within range: declared size, CMM, platform, illuminant, reserved bytes and tag data are forgotten, nothing else is.",
  "every pair of files that open, any schedules, clocks, contexts", "all pairs of files",
  [f"{PRO}: read_header_thr, PartialEq"])

# ---- what is asked of a handler; threads -------------------------------------
p("What reading a header asks of its handler",
  "Whatever the handler, the profile and the contents, reading a header makes a beginning of this sequence of calls and no others: read 128 bytes, tell, seek to the end, tell, seek back, read 4 bytes, then at most 100 times read 12 bytes; a success has made all of them, reading as many times 12 bytes as the 4 bytes, in file order, say. So it makes at most 106 calls, reads at most 1332 bytes and never writes.",
  "every handler implementation and state, every profile, target, callback and context",
  "an untrusted tag count or size would show as unbounded work only on the right input",
  [f"{PRO}: read_header_thr", f"{IOH}: read_u32_thr, reported_size"])
p("Threads opening profiles at the same time",
  "However threads that call open_from_file are scheduled: at most one is between taking the global lock and giving it back; completed calls have the results they would have had one after the other in order of completion, and leave the same context and files; after a panic every call completed later panics; each thread completes its calls in program order and leaves out calls only after a panic it did not catch; some thread can always move; everything completes within four steps per call under any schedule that gives every thread its turns.",
  "every number of threads, every program, every schedule, every file system, callback and target",
  "interleavings cannot be enumerated by tests",
  [f"{PRO}: open_from_file", f"{CTX}: GLOBAL_CONTEXT"])

# ---- curves against the ICC specification ------------------------------------
p("Types 1-5 are the ICC parametric curve functions 0-4",
  "On the unit interval, evaluating types 1 to 5 gives the values of function types 0 to 4 of parametricCurveType (ICC.1:2010, 10.16) wherever the published formula has a value.",
  "all real parameters and inputs", "exactness over the reals; the joints are measure-zero sets no random test hits",
  [f"{PAR}: default_eval_parametric_fn"])
p("Domains of the parametric curves",
  "For each of the twenty curve types and all parameters, the set of inputs at which every operation the evaluator uses is defined is exactly the one given in a table (for instance everywhere for types 2-5; for type -109 where |2x-1| tanh(|k|/2) < 1).",
  "all twenty types, all real parameters and inputs", "exactness over the reals",
  [f"{PAR}: default_eval_parametric_fn"])
p("Inverse first, then forward",
  "Applying the inverse type and then the curve is the identity on the values of the curve (types 1, 3-8, 108; for 4 and 5 everywhere if the pieces meet); for type 2 it is the projection onto the values the curve takes from 0 on.",
  "all real parameters above the tolerance, all values", "exactness over the reals",
  [f"{PAR}: default_eval_parametric_fn"])
p("Type 3 is monotone",
  "Type 3 is non-decreasing for positive exponent and slope.",
  "all real parameters, all pairs of inputs", "the violation is at a single point of each curve",
  [f"{PAR}: default_eval_parametric_fn type 3"])
p("Monotonicity of the remaining types",
  "Types 7, 8 and 108 are non-decreasing on the regions on which they are inverted, and so are types -1, -4, -5, -6, -7, -8 and -108 on the values of their curves.",
  "all real parameters of the right signs, all pairs of inputs", "exactness over the reals",
  [f"{PAR}: default_eval_parametric_fn"])

p("Finite numbers do not turn into NaN",
  "In f64 arithmetic, with finite parameters and a finite input, types 1-6 and -1, -2, -3, -5, -6 never return NaN, and type -4 does not for a non-negative exponent; a sigmoid (109) with k so small that exp rounds to 1 does return NaN at 1, and type -8 with base 1 where it divides 0 by 0; an infinite offset makes type 6 NaN where the power overflows. The other types: 8 with a non-negative base and 7 from zero on return NaN exactly where a factor 0 meets an infinite power or logarithm, 109 exactly where its correction is infinite and the sigmoid 0; 108 and -108 never do on the unit interval for a non-negative parameter, -7 and -109 wherever the last power or the logarithm is taken of a non-negative number, -8 for a positive factor and a base with a finite non-zero logarithm.",
  "all finite f64 parameters and inputs, every powf that gives numbers on non-negative bases, every exp and log10",
  "2^64 values of each of up to eight numbers; overflow and rounding interact", [f"{PAR}: default_eval_parametric_fn"])

# ---- Debug output ------------------------------------------------------------
p("Debug texts show the value",
  "In both layouts ({:?} and {:#?}) the Debug text of a header, directory entry, date, XYZ number, error code, FileNull, FileMem and profile determines the value: every field can be read back, whatever bytes the signatures contain (of a profile's handler, what the handler's own text shows). In the short layout each value stands directly behind the name of its field, numbers in decimal. In the long layout every line of a field stands four blanks further in. An error code prints the name of its number; plugins and contexts print their fields, with a fixed text in place of a function.",
  "all pairs of values, both layouts, every table of printable characters", "all pairs of values; ambiguity of nested texts needs adversarial contents",
  [f"{HDR}: derive(Debug)", f"{TAG}: derive(Debug)", f"{SIG}: Debug", f"{PRO}: derive(Debug)", f"{MEM}: derive(Debug)", f"{NUL}: derive(Debug)"])
p("Hand-written Debug implementations name their type",
  "The Debug text of each type with a hand-written implementation begins with the name of the type.",
  "all values, both layouts", "only a comparison of every implementation with its type shows it",
  ["src/state/chunks/interpolation.rs: Debug", "src/plugins/intent.rs: Debug", "src/state/chunks/error_handler.rs: Debug", "src/plugins/tag.rs: Debug", "src/plugins/tag_type.rs: Debug"])
p("The Debug text of a context does not depend on where code is loaded",
  "Moving every function to another address does not change the Debug text of a context.",
  "every context, every relocation, both layouts", "address space layout is not under a test's control",
  [f"{CTX}: derive(Debug)", "src/state/chunks/formatters.rs: derive(Debug)", "src/plugins/transform.rs: Debug"])

# ---- the repository's own tests ----------------------------------------------
p("The repository's own tests, for all surroundings",
  "Every 60960-byte file that starts with the header and directory of the sRGB test resource opens as the profile its test expects, in every build without use_little_endian, on every host, for every context, clock and transfer schedule, and in a use_little_endian build it never does; the file handler's seek, tell, write and read tests hold for all bytes, all rows of writes and all schedules.",
  "every continuation of the file, file system, context, clock, target, transfer schedule; all bytes written",
  "the tests run one file on one machine under one schedule and feature set",
  [f"{PRO}: test_file_loads_with_proper_data_and_endianness", f"{FIL}: test_file_tell_reports_correct_location, test_file_writes_data_to_disk, test_file_reads_data_from_disk, test_file_seeks_to_the_correct_location"])

p("The values of the curves, fallbacks included",
  "For each of the twenty types the curve has exactly the value of a closed formula wherever it has one at all, also for degenerate parameters, at the joints and outside the regular range: e.g. type 2 is 0 everywhere for a negative slope, type -1 is 10^22 for exponent 0, type -5 is 0 between its pieces.",
  "all real parameters, all real inputs, all twenty types", "exactness over the reals; the fallback branches are reached by rare parameters only",
  [f"{PAR}: default_eval_parametric_fn"])

p("Programs that react to what they read",
  "A program that chooses each call by the results of the calls before gets the same result from a File under every schedule of short transfers and interruptions; from a FileMem<Vec<u8>> exactly what the abstract tape gives; and, if its calls succeed in memory, the same result from a File. Every provided method of IOHandler is such a program over the four required ones.",
  "all programs (trees of calls), contents, positions, schedules, targets", "programs and schedules are infinite in number",
  [f"{FIL}: IOHandler for File", f"{MEM}: IOHandler for FileMem<Vec<u8>>", f"{IOH}: provided methods"])

p("Where the curves jump",
  "For positive exponents types 1, 2 and 6 are continuous for all parameters, type 8 for a positive base, type 109 for k not 0; types 4 and 5 are continuous exactly if their pieces meet at d; type 3 with positive slope exactly if b <= 0 and c = 0.",
  "all real parameters with positive exponent", "a jump is a limit statement, not an observation",
  [f"{PAR}: default_eval_parametric_fn"])
p("Curves that keep the unit interval",
  "With exponents and slopes of the usual signs and end values of the pieces between 0 and 1, types 1, -1, 2, 4, 5, 6, 108, -108 and 109 take [0, 1] into [0, 1].",
  "all real parameters satisfying the bounds, all inputs in [0, 1]", "exactness over the reals",
  [f"{PAR}: default_eval_parametric_fn"])

p("Reading a header again changes nothing",
  "Calling read_header_thr a second time, from the start of the same file, leaves an opened profile equal to what it was. (Not so: the tags of the second reading are appended to those of the first, every tag becomes linked to itself so that lookups that follow links never return, and beyond 100 tags in total it panics; only files without tags satisfy the claim.)",
  "all files, targets, schedules, contexts; any second file for the exact outcome", "depends on the state a first call leaves behind; all tag counts on both sides of the capacity",
  [f"{PRO}: Profile::read_header_thr", f"{PRO}: Profile::search_tag"])

p("The files of the tests do not collide",
  "get_temp_file_path gives two calls the same path exactly if the test names are the same and the calls fall in the same millisecond (leap seconds included); the file lies in the temporary directory (for names without a separator); so tests with different names that run at the same time read back what they wrote. get_test_resource_path names a file below resources/test, or an absolute path itself.",
  "all test names (any characters), all points in time, all temporary directories, any interleaving of other tests' writes", "names and clock values are unbounded in number; a collision is a race",
  ["src/testing.rs: get_temp_file_path", "src/testing.rs: get_test_resource_path"])

p("The curves as computed are monotone",
  "On a platform whose pow, exp and log10 are monotone where the mathematical functions are, every curve type evaluated in binary64, with all its roundings, overflows and fallback branches, is monotone in its argument for finite parameters of the right signs: types 1, 2, 6, 8 and -1, -2, -6 everywhere, 3 with a positive offset, 4, 5, -4, -5 if the two branches computed at the joint are in order, 7, -7, -8 from the first argument on for which the inner value is positive, 108 and -108 on the unit interval, 109 for a positive parameter unless the correction overflows, -3 except at the joint, -109 for a positive parameter between the arguments where its inner values stop being positive. So the two computed end values enclose every value in between. Without the joint condition, for type 3 with offset 0, and for type -3 at its joint, there are drops; type -109 with a large parameter is infinite at 0 and 1.",
  "all finite binary64 parameters of the stated signs, all pairs of arguments, all monotone platforms", "2^64 arguments and parameters; rounding could reorder neighbouring values",
  [f"{PAR}: default_eval_parametric_fn"])

p("The straight pieces of the curves are correctly rounded",
  "Below the joint, type 4 returns the binary64 number nearest to r times c, type -4 (with c at least 1/1000) the one nearest to r divided by c, ties to even, infinity exactly from 2^1024 - 2^970 on; type 5 does so twice. The result is off by at most one part in 2^53, or half the smallest number near zero. The arithmetic underneath is that of IEEE 754 in the special cases too: NaN exactly for a NaN operand, inf - inf, 0 * inf, inf / inf and 0 / 0; products and quotients with infinities and quotients by zero are infinite or zero with the sign rule; an exactly zero sum is -0 only for two negative zeros; comparisons are those of the extended reals, false for NaN.",
  "all binary64 parameters and arguments (finite ones for the lines), any platform", "2^64 values each; ties and the overflow threshold are single points",
  [f"{PAR}: default_eval_parametric_fn"])

p("The curves in f64 are close to the exact ones",
  "If the platform's powf has relative error at most eps, then with non-negative a, b, c, e, f and an argument x >= 0 (types 1-3: x > 0 or b > 0), exponents up to 1024, a at least 1/1000 (types 2, 3) and no underflow or overflow, types 2 and 4 return the exact value of the curve within a relative error of 3 max(gamma, 1) 2^-53 + 2 eps, types 3, 5, 6 within 2^-52 more, type 1 within eps. The sRGB curve, with eps = 2^-52, is accurate to 12 * 2^-53 at 0 and from 2^-1000 to 1. Type 8 (positive a, b, non-negative c, d, e) is within a relative error of (3 |ln P| + 4) 2^-53 + 2 eps, P being the power, so never more than 3070 * 2^-53 + 2 eps. Type 7, with a log10 of relative error at most delta, is within 2 a (eps + 4 * 2^-53) + (delta + 3 * 2^-53)(a |log10 S| + |d|) plus twice the smallest positive number, S being the argument of the logarithm.",
  "all binary64 parameters and arguments in that range, any platform with such a powf", "2^64 arguments for each parameter set; rounding errors differ at every one",
  [f"{PAR}: default_eval_parametric_fn"])

p("There and back in f64",
  "If powf has relative error at most eps, type -1 after type 1 returns x within a relative error of 2 |ln x| 2^-53 + (6/gamma + 3) eps, hence within 2^-52 + (6/gamma + 3) eps on the unit interval. Type -4 after type 4 (powf also monotone, no downward jump at the joint) returns x within a relative error of 3 * 2^-53 below the joint, and within a stated multiple of (a x + b)/a from the joint on. The same holds for types 2, 3, 5 and 6, with a share of the added constant in the error; on the straight piece of type 5 the error is at most 10 * 2^-53 of x + f/c. With u = 2^-53 and log10 of relative error at most delta, type 7 returns x within a relative 2u|ln x| + 6k/gamma + 3 eps, where k = (14 eps + 60u + (6 delta + 36u)(|T| + |d|/a)) S/(b x^gamma) + 4u, S = b x^gamma + c and T = log10 S; type 8 within (8u/|log10 b| + (3 delta + 6u)(cx + 2d) + 3m/|ln b|)/c plus the smallest number, m the relative error of the power as recovered; type 108 within (4m gamma + 2 eps)(1 - x) + 3u, m the relative error of the inner root as recovered. For the sRGB curve the round trip is within 100 * 2^-53 of x at 0 and from 2^-1000 to 1.",
  "all binary64 parameters and arguments away from underflow and overflow, any platform with such a powf", "2^64 arguments for each parameter set; the two rounded exponents 1/gamma and gamma are not inverse to each other",
  [f"{PAR}: default_eval_parametric_fn"])

p("The calls on the global context are the _thr calls under a lock",
  "After any series of open_from_file and read_header calls, on any files, handlers and profiles: if one of them would have panicked in a fresh process, every later call panics and touches neither its profile nor the file system; otherwise every later call gives what it gives in a fresh process, for read_header exactly the result and profile of read_header_thr with a new context. With an unpoisoned lock and a handle obtained, open_from_file is read_header on a new profile holding this handle.",
  "all mixed series of calls, all handlers, all profiles, all files", "unbounded histories mixing two entry points and arbitrary handlers",
  [f"{PRO}: Profile::read_header", f"{PRO}: Profile::open_from_file"])

p("Saving in two passes",
  "Writing any pieces (typed values, raw bytes) to a new FileNull succeeds and reported_size is then exactly the number of bytes they have in a file. A fixed buffer takes the same calls exactly if it has at least that size: the bytes are then at its beginning and the rest is untouched; a smaller one is filled with the beginning of the bytes and the error is WriteZero. For profiles: measuring, entering the measured size in the header and saving into a buffer of that size fills the buffer, and its bytes open with the header's fields and every tag that ends within it.",
  "all lists of typed values and byte blocks, all buffers, all headers, directories and data, all targets", "unbounded data and every buffer size",
  [f"{NUL}: FileNull::write", f"{MEM}: FileMem::write", f"{IOH}: reported_size", f"{HDR}: ICCHeader::to_bytes", f"{PRO}: Profile::open_from_file_thr"])

p("The signature constants are those of the original library",
  "Every module of signatures holds exactly the constants of the corresponding enumeration of lcms2.h, as extracted by bindgen in tests/include/bindings.rs, under the corresponding names and with the same 32-bit values; likewise the plugin types and the constants of the root module for the macros. Fails for one constant: the digital cinema projector is 'dcpj' in the port and 'dcjp' in the original (a slip of the original); it is the only difference.",
  "all 235 constants of all ten modules", "the tests compare none of the constants; a swapped letter is visible only in profiles using that signature",
  [f"{SIG}: Signature::new", "src/types/signatures.rs: constants", "src/types/signatures/technology.rs: DIGITAL_CINEMA_PROJECTOR", "src/types/signatures/tag.rs: constants", "src/types/signatures/tag_type.rs: constants", "src/types/signatures/color_space.rs: constants", "src/types/signatures/stage.rs: constants", "tests/include/bindings.rs: cmsSig constants"])

p("Threads with their own contexts do not disturb each other",
  "Calls of open_from_file_thr made by any number of threads, each thread with its own context, overlapping in any way at the grain of single system calls: each call has the result, and does to its context, what it would alone on the files as they are when it opens its own; the only exception is a reading call whose own file another call truncates between opening and a later system call, which may also return UnexpectedEof with nothing signalled. A thread whose files no other call creates gets, for all its calls in turn, the results of making them alone, the same final context and the same files. On a file nobody changes every operation of the handle is that of File.",
  "any finite set of calls in both modes, any ticks of their system calls, any files, contexts, callbacks, transfer schedules and targets", "tests run one interleaving; a call makes a dozen system calls, and the overlaps that matter are a few microseconds wide",
  [f"{PRO}: Profile::open_from_file_thr", f"{PRO}: Profile::read_header_thr", "src/io/file_file.rs: impl IOHandler for File"])

p("What a new profile contains",
  "Profile::new() lists no tags: its count is 0, get_tag_signature gives four spaces for every index without panicking, and both searches find nothing, with or without following links. It has no handler, and read_header_thr on it returns InvalidData, leaving it and the context as they were. Two new profiles are equal exactly if they were made at the same instant. A profile opened from a file is equal to a new one exactly if the file's header has version 2.1, spaces as class, colour space and PCS, the new profile's date, zeros from the flags to the rendering intent and from the creator to the profile ID, and no tag within the limit.",
  "all clock values, indices, signatures, contexts, callbacks, handlers, files shorter than 2^63 bytes and targets", "the clock is different in every run; the comparison with files needs every header",
  [f"{PRO}: Profile::new", f"{PRO}: Profile::get_tag_signature", f"{PRO}: impl PartialEq for Profile", f"{PRO}: Profile::read_header_thr"])

p("The inverse curves in f64 are close to the exact ones",
  "Let powf have relative error at most ε, let S be the exact root of the curve (r^(1/gamma), or (r - c)^(1/gamma) for a shifted one), and let u = 2^-53. Types -1 to -6, evaluated in f64, differ from the exact value of the curve by at most (4u|ln S| + 12u/gamma + 6ε + 4u)(S + |b|)/a on the power piece; the middle term is absent for types -1, -2 and -4, which do not shift, and type -1 has the relative error 2u|ln S| + 3ε. On the straight pieces of types -3, -4 and -5 the relative error is at most 3u (plus a multiple of the smallest number). For types -4 and -5 this holds at a relative distance from the joint of the order of the rounding error of the joint. The inverse sRGB curve with a powf of relative error 2^-52 is within 32u of the exact one from 0 to 1, except within 12u of its joint.",
  "all parameters and arguments in the stated ranges, all platforms with an accurate powf", "rounding errors depend on every bit of seven parameters and the argument; a test compares a few values with a tolerance",
  [f"{PAR}: default_eval_parametric_fn"])

p("What closing a handler guarantees",
  "After any history of calls on a File, close() fails exactly if fdatasync fails, with its error; interruptions by signals are retried. In either case every process then sees the contents the history produced. If close() succeeds these contents are also on the medium, whatever had or had not been written back before, and stay there whatever is written back later. Closing a FileMem or a FileNull always succeeds; a buffer lent to a FileMem then holds exactly what the history produced.",
  "all histories, initial contents, states of the medium, OS schedules and answers of fdatasync, on all targets", "tests cannot cut the power, and fdatasync does not fail in them",
  [f"{FIL}: close", f"{MEM}: close", f"{NUL}: close"])

p("A file rewritten while it is read is read as the old or the new one",
  "If a file is rewritten in place, in one step, while read_header_thr reads it, the outcome is that of the old file or that of the new file at rest. (Violated: the old header with the new directory, without an error. What holds, for any number and any kind of changes: the profile read is that of some file at rest that opens, in which every byte from the size field to the end of the directory is one the file had at that offset at some time, and whose size is the smaller of a size field and a length the file had.)",
  "all old and new contents, moments of the change, OS schedules, targets; for the second part all sequences of contents", "tests do not rewrite a file between two system calls of the reader",
  [f"{PRO}: read_header_thr", f"{FIL}: impl IOHandler for File"])

p("The documentation examples hold for all values",
  "Every example in the documentation of IOHandler, FileMem and FileNull gives the printed result, and the corresponding one for any other values, in every build. (Violated: with use_little_endian the examples that spell out bytes most significant first read or store other values. Those hold for all values exactly in the builds without the feature; all others, among them the ones that check through adjust_endianness_16/32/64, hold for all values in every build. The smallest fixed point number is left out of the reads, see C19; the compile_fail example of close is not a run.)",
  "all values, buffers and targets", "each example runs with one value, on one host, without the feature",
  [f"{IOH}: documentation examples", f"{MEM}: documentation examples", f"{NUL}: documentation examples", "src/io.rs: adjust_endianness_16, adjust_endianness_32, adjust_endianness_64"])

p("FileMem does not show the version of the standard library",
  "Newer versions of std put the position of a Cursor at the end of the buffer when read_exact fails, older ones leave it. The provided methods of IOHandler, reading a profile from memory, and every program that after a failed read ends or seeks from the start, give the same results and leave the same buffer on both.",
  "all buffers, positions, values, tidy programs, profile images, clocks, contexts, targets", "tests run with one version of the standard library",
  [f"{MEM}: impl IOHandler for FileMem", f"{IOH}: IOHandler provided methods", f"{PRO}: read_header_thr"])

p("The remaining curves in f64 are close to the exact ones",
  "Let powf, log10 and exp be accurate to relative errors ε, δ, ε, and let u = 2^-53. Where no difference cancels to the size of the errors, the f64 values differ from the exact ones of C97 by at most: for types 108 and -7 a relative 2u|ln Y| + 6κ/gamma + 3ε, Y the exact value and κ the relative error of the difference under the outer root; for type -108 (4κ gamma + 2ε)(1 - r^gamma)^gamma + 3u; for type -8 (8u/|log10 b| + (3δ + 6u)(|H| + |d|))/c plus the smallest number, H the logarithm to the base b; for type 109 on the unit interval (10ku + 3ε + 16u)/tanh(k/2); for type -109 on the unit interval (κ + (δ + 2u)|N|)/k + 2u, N the logarithm of the odds and κ their relative error (12ku + 6ε + 34u)/(w(1-w)) + 2u.",
  "all parameters and arguments in the stated ranges, all platforms with accurate powf, log10 and exp", "rounding errors depend on every bit of the parameters and the argument; the tests check none of these types",
  [f"{PAR}: default_eval_parametric_fn", f"{PAR}: sigmoid_base", f"{PAR}: sigmoid_factory", f"{PAR}: inverted_sigmoid_factory"])

p("The inverse curve and then the curve give the number back in f64",
  "Let powf be accurate to a relative error ε and u = 2^-53, and let y be a value of a curve of type 1 to 8 or 108. Evaluating the negative type at y and then the positive type at the result, both in f64, succeeds and gives W with: for type 1 |W - y| at most (8u|ln y| + 12 ε gamma + 2ε) y; for types 2 and 4 (power part) at most (4κ gamma + 2ε) y; for types 3, 5 (power part) and 6 at most 2(4κ gamma + 2ε)(y - c) + u|y| plus the smallest number, c the added constant; on the straight part of type 4 at most 3u|y|, of type 5 at most 6u|y - f| + u|y|, each plus a multiple of the smallest number. Here κ = (a e + 6u(S + |b|))/S, S the exact root and e the error of the inverse in C112. For the sRGB curve the error is at most 540u y plus three times the smallest number, unless y is within a relative 4000u of the joint. For type 7, with log10 accurate to a relative error δ, it is at most 2aη + (δ + 3u)(|y - d| + |d|) plus the smallest number, η = 4ρ gamma + 2ε + 4u and ρ the error of the inverse in C117; for type 8, with exponent, d and e of any sign, at most 2(2ψ|ln b| + 2ε + u)(y - e) + u|y| plus three times the smallest number, ψ the error of the exponent recovered; for type 108 the bound of a root taken of a number with the error that the inverse leaves.",
  "all parameters and arguments in the stated ranges, all platforms with an accurate powf", "the error depends on every bit of the parameters and the argument; the tests evaluate no negative type",
  [f"{PAR}: default_eval_parametric_fn"])

p("The curves in f64 for parameters of either sign",
  "Let powf be accurate to a relative error ε, log10 to δ, and u = 2^-53. Let S = a r + b be positive, a, b, r of any sign (a positive for types 2 and 3), and κ = 6u(S + |b|)/S at most 1/8, and also when multiplied by gamma. Then the f64 evaluation at r succeeds and is off the exact curve by at most (4κ gamma + 2ε) S^gamma for types 2 and 4 (from the joint on), and by at most 2(4κ gamma + 2ε) S^gamma + u|y| plus the smallest number for types 3 (r not negative), 5 (from the joint on) and 6, y the exact value. Before the joint type 5 is off by at most 2u|c r| + u|c r + f| plus three times the smallest number. Type 7 is off by at most 2|a|(9/8 η + δ|L|) + 2u|a L| + u|y| plus the same, where S = b r^gamma + c is positive, L = log10 S and η = (2(ε + u)|b| r^gamma + 4uS)/S is at most 1/4. Type 8 with positive base b is off by at most 2(N + u)|a|b^h + u|y| plus the same, where h = c r + d and N = 2|ln b|(2u|c r| + u|h| + 3 times the smallest number) + 2ε.",
  "all parameters and arguments of either sign in the stated ranges, all platforms with accurate powf and log10", "cancellation depends on every bit of the parameters and the argument; the tests use no negative parameter",
  [f"{PAR}: default_eval_parametric_fn"])

p("The curves in f64 keep the unit interval",
  "On every platform whose powf and exp are monotone, types 1, -1, 2, 3, 4, 5, 6, 108 and -108 evaluated in f64 send every number from 0 to 1 to a number from 0 to 1, for finite parameters, none of gamma, a, c (and e, f of type 5) negative, if the f64 values at the upper ends, a + b, (a + b)^gamma + c or + e, c d and c d + f, and the constants c of types 3 and 6 and e, are at most 1. Gamma is positive for types -1, 108 and -108, and not below the tolerance for -1. The sRGB curve fulfils this, and sends 0 to 0 and 1 to 1 exactly. Types -2, -4, -5, -6, 7 and 8 do so, where C103 has them monotone, exactly if their f64 values at 0 and 1 are in the interval; the sRGB inverse sends 0 to 0 and 1 to 1 exactly and keeps the interval if the power at the joint is positive and the inverse does not step down there. Type 109 with a positive parameter sends 1 to exactly 1 if the value there is finite, and then nothing up to 1 above 1; but with an exp rounded to nearest, parameter 3/8 sends 0 to -3/2^53. With an exp of relative error eps (at most 1/20000) and a parameter k from 1/1000 to 700 no value falls below 0 by more than (10 k u + 3 eps + 16 u) / tanh(k/2), u being half a unit in the last place of 1.",
  "all 64-bit numbers from 0 to 1, all parameters in the stated ranges, all platforms with monotone powf and exp", "rounding could leave the interval at any of 2^62 numbers for any parameters; the tests evaluate none of these curves at the ends",
  [f"{PAR}: default_eval_parametric_fn", f"{PAR}: sigmoid_factory"])

out = os.path.join(os.path.dirname(os.path.abspath(__file__)), "..", "properties.jsonl")
with open(out, "w") as f:
    for x in P: f.write(json.dumps(x) + "\n")
print(len(P))
