{
 "claims": [
  {
   "property": "C01",
   "status": "proved",
   "theorems": [
    "Lcms.Props.C01_integers_involutive",
    "Lcms.Props.C01_arrays_involutive"
   ],
   "note": ""
  },
  {
   "property": "C02",
   "status": "proved",
   "theorems": [
    "Lcms.Props.C02_arrays_same_on_every_host",
    "Lcms.Props.C02_integers_same_on_every_host",
    "Lcms.Props.C02_reexports_follow_feature",
    "Lcms.Props.C02_array_reexports_follow_feature"
   ],
   "note": "Stated for the array and the integer variants of both modules and for the feature-selected re-exports."
  },
  {
   "property": "C03",
   "status": "proved",
   "theorems": [
    "Lcms.Props.C03_typed_writes"
   ],
   "note": ""
  },
  {
   "property": "C04",
   "status": "proved",
   "theorems": [
    "Lcms.Props.C04_typed_reads"
   ],
   "note": ""
  },
  {
   "property": "C05",
   "status": "proved",
   "theorems": [
    "Lcms.Props.C05_write_seek_read"
   ],
   "note": "Hypothesis: the eight bytes fit below isize::MAX, the largest allocation."
  },
  {
   "property": "C06",
   "status": "proved",
   "theorems": [
    "Lcms.Props.C06_array_round_trip"
   ],
   "note": "Start position within the buffer (an empty array written past the end writes nothing)."
  },
  {
   "property": "C07",
   "status": "proved",
   "theorems": [
    "Lcms.Props.C07_read_array"
   ],
   "note": ""
  },
  {
   "property": "C08",
   "status": "proved",
   "theorems": [
    "Lcms.Props.C08_fixed_length",
    "Lcms.Props.C08_fixed_write"
   ],
   "note": ""
  },
  {
   "property": "C09",
   "status": "proved",
   "theorems": [
    "Lcms.Props.C09_vec_refines_tape"
   ],
   "note": "Initial buffer at most isize::MAX bytes, as for every Rust allocation."
  },
  {
   "property": "C10",
   "status": "proved",
   "theorems": [
    "Lcms.Props.C10_mem_read"
   ],
   "note": ""
  },
  {
   "property": "C11",
   "status": "proved",
   "theorems": [
    "Lcms.Props.C11_mem_seek"
   ],
   "note": ""
  },
  {
   "property": "C12",
   "status": "proved",
   "theorems": [
    "Lcms.Props.C12_reported_size"
   ],
   "note": "States whose length and position fit usize (and i64 for File)."
  },
  {
   "property": "C13",
   "status": "partial",
   "theorems": [
    "Lcms.Props.C13_refuted",
    "Lcms.Props.C13_typed_partial"
   ],
   "note": "The claim is false for raw reads into a non-zero buffer (C13_refuted); proved for typed reads, u16 arrays and zeroed buffers."
  },
  {
   "property": "C14",
   "status": "partial",
   "theorems": [
    "Lcms.Props.C14_refuted",
    "Lcms.Props.C14_refuted_release",
    "Lcms.Props.C14_predicts_partial",
    "Lcms.Props.C14_exact"
   ],
   "note": "The claim is false: backward relative seeks panic in debug builds, an empty write past the end grows the prediction (C14_refuted, C14_refuted_release); proved for all other histories, and that it fails for every one of these (C14_exact)."
  },
  {
   "property": "C15",
   "status": "partial",
   "theorems": [
    "Lcms.Props.C15_refuted",
    "Lcms.Props.C15_statement_refuted",
    "Lcms.Props.C15_negative_seek_partial",
    "Lcms.Props.C15_exact"
   ],
   "note": "The claim is false in builds with overflow checks, where every legitimate backward seek panics (C15_refuted, C15_exact); proved without overflow checks."
  },
  {
   "property": "C16",
   "status": "proved",
   "theorems": [
    "Lcms.Props.C16_null_never_errs"
   ],
   "note": ""
  },
  {
   "property": "C17",
   "status": "proved",
   "theorems": [
    "Lcms.Props.C17_schedule_independent",
    "Lcms.Props.C17_two_schedules"
   ],
   "note": "Histories whose accesses stay below offset 2^63, the limit of the operating system."
  },
  {
   "property": "C18",
   "status": "proved",
   "theorems": [
    "Lcms.Props.C18_file_like_vec"
   ],
   "note": ""
  },
  {
   "property": "C19",
   "status": "partial",
   "theorems": [
    "Lcms.Props.C19_refuted",
    "Lcms.Props.C19_exact_partial"
   ],
   "note": "The claim is false for 0x80000000 in builds with overflow checks (C19_refuted); proved for all other patterns and, without checks, for all."
  },
  {
   "property": "C20",
   "status": "proved",
   "theorems": [
    "Lcms.Props.C20_fixed_round_trip"
   ],
   "note": ""
  },
  {
   "property": "C21",
   "status": "partial",
   "theorems": [
    "Lcms.Props.C21_refuted",
    "Lcms.Props.C21_nearest_partial"
   ],
   "note": "The claim is false for exactly one double, 0.49999999999999994/65536 (C21_refuted); proved for every other double in range."
  },
  {
   "property": "C22",
   "status": "proved",
   "theorems": [
    "Lcms.Props.C22_saturates"
   ],
   "note": ""
  },
  {
   "property": "C23",
   "status": "proved",
   "theorems": [
    "Lcms.Props.C23_xyz",
    "Lcms.Props.C23_xyz_memory"
   ],
   "note": ""
  },
  {
   "property": "C24",
   "status": "proved",
   "theorems": [
    "Lcms.Props.C24_signature_views"
   ],
   "note": "The conversions do not depend on the host, so the model functions take no target."
  },
  {
   "property": "C25",
   "status": "proved",
   "theorems": [
    "Lcms.Props.C25_slice",
    "Lcms.Props.C25_sources_agree"
   ],
   "note": ""
  },
  {
   "property": "C26",
   "status": "proved",
   "theorems": [
    "Lcms.Props.C26_to_string",
    "Lcms.Props.C26_round_trip"
   ],
   "note": ""
  },
  {
   "property": "C27",
   "status": "proved",
   "theorems": [
    "Lcms.Props.C27_signature_debug_injective",
    "Lcms.Props.C27_profile_id_debug_injective"
   ],
   "note": ""
  },
  {
   "property": "C28",
   "status": "proved",
   "theorems": [
    "Lcms.Props.C28_header_layout",
    "Lcms.Props.C28_parts_layout",
    "Lcms.Props.C28_layout_rule"
   ],
   "note": "`struct Signature(u32)` is taken to have the layout of u32 (not promised by the language, true of rustc)."
  },
  {
   "property": "C29",
   "status": "proved",
   "theorems": [
    "Lcms.Props.C29_header_fields"
   ],
   "note": ""
  },
  {
   "property": "C30",
   "status": "proved",
   "theorems": [
    "Lcms.Props.C30_header_round_trip"
   ],
   "note": ""
  },
  {
   "property": "C31",
   "status": "proved",
   "theorems": [
    "Lcms.Props.C31_tag_entry"
   ],
   "note": ""
  },
  {
   "property": "C32",
   "status": "proved",
   "theorems": [
    "Lcms.Props.C32_date_conversion"
   ],
   "note": ""
  },
  {
   "property": "C33",
   "status": "partial",
   "theorems": [
    "Lcms.Props.C33_refuted",
    "Lcms.Props.C33_round_trip_partial"
   ],
   "note": "The claim is false for year 0, which comes back as year 1 (C33_refuted); proved to hold exactly for years from 1."
  },
  {
   "property": "C34",
   "status": "proved",
   "theorems": [
    "Lcms.Props.C34_naive_round_trip"
   ],
   "note": "WF is chrono's representation invariant (ordinal within the year, second within the day)."
  },
  {
   "property": "C35",
   "status": "proved",
   "theorems": [
    "Lcms.Props.C35_open_read"
   ],
   "note": "The installed handler is assumed to return; file sizes below 2^63 (off_t). Directories and special files are not modelled."
  },
  {
   "property": "C36",
   "status": "proved",
   "theorems": [
    "Lcms.Props.C36_tags_inside"
   ],
   "note": ""
  },
  {
   "property": "C37",
   "status": "partial",
   "theorems": [
    "Lcms.Props.C37_table_partial",
    "Lcms.Props.C37_refuted"
   ],
   "note": "The claim is false on 32-bit hosts for files of 4 GiB and more (C37_refuted); proved whenever the file length fits usize."
  },
  {
   "property": "C38",
   "status": "proved",
   "theorems": [
    "Lcms.Props.C38_tag_count"
   ],
   "note": ""
  },
  {
   "property": "C39",
   "status": "partial",
   "theorems": [
    "Lcms.Props.C39_tag_signature_partial",
    "Lcms.Props.C39_refuted"
   ],
   "note": "The claim is false for index 100 of a profile with 100 tags, which panics (C39_refuted); proved for every other index."
  },
  {
   "property": "C40",
   "status": "proved",
   "theorems": [
    "Lcms.Props.C40_signals"
   ],
   "note": ""
  },
  {
   "property": "C41",
   "status": "partial",
   "theorems": [
    "Lcms.Props.C41_refuted",
    "Lcms.Props.C41_no_panic_partial"
   ],
   "note": "The claim is false: a non-existent creation date panics in every build, a tag end beyond 32 bits in builds with overflow checks (C41_refuted); proved that nothing else does."
  },
  {
   "property": "C42",
   "status": "proved",
   "theorems": [
    "Lcms.Props.C42_read_only",
    "Lcms.Props.C42_handle"
   ],
   "note": ""
  },
  {
   "property": "C43",
   "status": "partial",
   "theorems": [
    "Lcms.Props.C43_refuted",
    "Lcms.Props.C43_open_write_partial"
   ],
   "note": "The claim is false: the header is read from the write-only file just created (C43_refuted); proved that every open for writing fails, and what it leaves behind."
  },
  {
   "property": "C44",
   "status": "proved",
   "theorems": [
    "Lcms.Props.C44_reopen"
   ],
   "note": "On 32-bit hosts for files below 4 GiB."
  },
  {
   "property": "C45",
   "status": "proved",
   "theorems": [
    "Lcms.Props.C45_prefix"
   ],
   "note": ""
  },
  {
   "property": "C46",
   "status": "proved",
   "theorems": [
    "Lcms.Props.C46_equality"
   ],
   "note": ""
  },
  {
   "property": "C47",
   "status": "partial",
   "theorems": [
    "Lcms.Props.C47_refuted",
    "Lcms.Props.C47_links_partial"
   ],
   "note": "The claim is false: the earlier of two tags with the same data is linked, to itself (C47_refuted); proved exactly when and to what a tag is linked."
  },
  {
   "property": "C48",
   "status": "proved",
   "theorems": [
    "Lcms.Props.C48_search"
   ],
   "note": ""
  },
  {
   "property": "C49",
   "status": "partial",
   "theorems": [
    "Lcms.Props.C49_follow_partial",
    "Lcms.Props.C49_refuted"
   ],
   "note": "The claim is false: the lookup of the first of two tags with the same data loops forever (C49_refuted); proved exactly when it returns, and what."
  },
  {
   "property": "C50",
   "status": "partial",
   "theorems": [
    "Lcms.Props.C50_history_partial",
    "Lcms.Props.C50_refuted"
   ],
   "note": "The claim is false: a panic while opening poisons the global mutex (C50_refuted); proved that this is the only influence of earlier calls."
  },
  {
   "property": "C51",
   "status": "proved",
   "theorems": [
    "Lcms.Props.C51_standard_files"
   ],
   "note": ""
  },
  {
   "property": "C52",
   "status": "partial",
   "theorems": [
    "Lcms.Props.C52_refuted",
    "Lcms.Props.C52_init_plugin_partial"
   ],
   "note": "The claim is false: the last plugin of a chain is never checked (C52_refuted); proved for all the others."
  },
  {
   "property": "C53",
   "status": "proved",
   "theorems": [
    "Lcms.Props.C53_first_offence"
   ],
   "note": ""
  },
  {
   "property": "C54",
   "status": "proved",
   "theorems": [
    "Lcms.Props.C54_context_history"
   ],
   "note": "The error callback is any function of the context, code and text; it may change the context before it returns or panics."
  },
  {
   "property": "C55",
   "status": "proved",
   "theorems": [
    "Lcms.Props.C55_partition"
   ],
   "note": ""
  },
  {
   "property": "C56",
   "status": "proved",
   "theorems": [
    "Lcms.Props.C56_error_codes"
   ],
   "note": ""
  },
  {
   "property": "C57",
   "status": "proved",
   "theorems": [
    "Lcms.Props.C57_parameters"
   ],
   "note": "Proved for an arbitrary arithmetic, so it does not depend on floating point."
  },
  {
   "property": "C58",
   "status": "proved",
   "theorems": [
    "Lcms.Props.C58_unknown_types",
    "Lcms.Props.C58_smallest_type"
   ],
   "note": "With overflow checks the lookup of i32::MIN panics on a non-empty collection (C59)."
  },
  {
   "property": "C59",
   "status": "partial",
   "theorems": [
    "Lcms.Props.C59_refuted",
    "Lcms.Props.C59_is_in_set_partial"
   ],
   "note": "The claim is false: i32::MIN panics with overflow checks and a non-empty collection (C59_refuted); proved exactly when it panics."
  },
  {
   "property": "C60",
   "status": "proved",
   "theorems": [
    "Lcms.Props.C60_gamma"
   ],
   "note": "Exact real arithmetic; an undefined operation is distinguished from a value."
  },
  {
   "property": "C61",
   "status": "partial",
   "theorems": [
    "Lcms.Props.C61_refuted",
    "Lcms.Props.C61_negative_partial"
   ],
   "note": "The claim is false: type 1 compares |gamma|-1 instead of |gamma-1| with the tolerance (C61_refuted); proved that type -1 behaves and exactly for which gamma type 1 does."
  },
  {
   "property": "C62",
   "status": "proved",
   "theorems": [
    "Lcms.Props.C62_cie122"
   ],
   "note": "Exact real arithmetic; an undefined operation is distinguished from a value."
  },
  {
   "property": "C63",
   "status": "proved",
   "theorems": [
    "Lcms.Props.C63_iec61966_3"
   ],
   "note": "Exact real arithmetic; an undefined operation is distinguished from a value."
  },
  {
   "property": "C64",
   "status": "proved",
   "theorems": [
    "Lcms.Props.C64_srgb"
   ],
   "note": "Exact real arithmetic; an undefined operation is distinguished from a value."
  },
  {
   "property": "C65",
   "status": "proved",
   "theorems": [
    "Lcms.Props.C65_type5"
   ],
   "note": "Exact real arithmetic; an undefined operation is distinguished from a value."
  },
  {
   "property": "C66",
   "status": "proved",
   "theorems": [
    "Lcms.Props.C66_type6"
   ],
   "note": "Exact real arithmetic; an undefined operation is distinguished from a value."
  },
  {
   "property": "C67",
   "status": "proved",
   "theorems": [
    "Lcms.Props.C67_type7"
   ],
   "note": "Exact real arithmetic; an undefined operation is distinguished from a value."
  },
  {
   "property": "C68",
   "status": "partial",
   "theorems": [
    "Lcms.Props.C68_refuted",
    "Lcms.Props.C68_type8_partial",
    "Lcms.Props.C68_negative"
   ],
   "note": "The claim is false for negative a: type -8 returns 0 (C68_refuted, C68_negative); proved for positive a."
  },
  {
   "property": "C69",
   "status": "proved",
   "theorems": [
    "Lcms.Props.C69_sshaped"
   ],
   "note": "Exact real arithmetic; an undefined operation is distinguished from a value."
  },
  {
   "property": "C70",
   "status": "partial",
   "theorems": [
    "Lcms.Props.C70_refuted",
    "Lcms.Props.C70_sigmoid_partial"
   ],
   "note": "The claim is false: type -109 uses log10 where ln is needed (C70_refuted); proved what the round trip gives instead, for every k and x."
  },
  {
   "property": "C71",
   "status": "proved",
   "theorems": [
    "Lcms.Props.C71_sigmoid"
   ],
   "note": "Exact real arithmetic; an undefined operation is distinguished from a value."
  },
  {
   "property": "C72",
   "status": "proved",
   "theorems": [
    "Lcms.Props.C72_monotone"
   ],
   "note": "Exact real arithmetic; an undefined operation is distinguished from a value."
  },
  {
   "property": "C73",
   "status": "proved",
   "theorems": [
    "Lcms.Props.C73_nan",
    "Lcms.Props.C73_nan_offset"
   ],
   "note": "The platform functions powf, exp and log10 are arbitrary."
  },
  {
   "property": "C74",
   "status": "proved",
   "theorems": [
    "Lcms.Props.C74_constants"
   ],
   "note": ""
  },
  {
   "property": "C75",
   "status": "proved",
   "theorems": [
    "Lcms.Props.C75_any_handler",
    "Lcms.Props.C75_no_handler"
   ],
   "note": "A handler is any record of read/seek/tell/write functions over any state type."
  },
  {
   "property": "C76",
   "status": "proved",
   "theorems": [
    "Lcms.Props.C76_memory_like_file"
   ],
   "note": "The public API only puts a File into a profile; the field is Box<dyn IOHandler>."
  },
  {
   "property": "C77",
   "status": "proved",
   "theorems": [
    "Lcms.Props.C77_disturbed_file",
    "Lcms.Props.C77_benign",
    "Lcms.Props.C77_truncation_seen"
   ],
   "note": "File sizes below 2^63 and below 2^32 on 32-bit targets. seek fails only for invalid targets; other processes only truncate (to length 0), as open_from_file_thr(Write) does."
  },
  {
   "property": "C78",
   "status": "proved",
   "theorems": [
    "Lcms.Props.C78_failing_writes",
    "Lcms.Props.C78_encodable"
   ],
   "note": "Without concurrent truncation."
  },
  {
   "property": "C79",
   "status": "proved",
   "theorems": [
    "Lcms.Props.C79_failing_read"
   ],
   "note": "Buffer contents after an error are those of std's default read_exact loop."
  },
  {
   "property": "C80",
   "status": "proved",
   "theorems": [
    "Lcms.Props.C80_record_vec",
    "Lcms.Props.C80_record_fixed",
    "Lcms.Props.C80_record_file",
    "Lcms.Props.C80_fixed_encoding"
   ],
   "note": "s15f16 values must lie on the grid n/65536 with |n| < 2^31; other values are rounded (C20, C21)."
  },
  {
   "property": "C81",
   "status": "proved",
   "theorems": [
    "Lcms.Props.C81_cells_mem",
    "Lcms.Props.C81_cells_file"
   ],
   "note": "Cells lie within the initial content."
  },
  {
   "property": "C82",
   "status": "proved",
   "theorems": [
    "Lcms.Props.C82_new_context"
   ],
   "note": "Plugin lists are opaque; function pointers are numbers."
  },
  {
   "property": "C83",
   "status": "proved",
   "theorems": [
    "Lcms.Props.C83_write_then_open",
    "Lcms.Props.C83_same_in_memory"
   ],
   "note": "The library has no writer of profiles; the client program saveProfile composes its encoders. Opening for writing itself fails (C43), so the file is created with File::create."
  },
  {
   "property": "C84",
   "status": "proved",
   "theorems": [
    "Lcms.Props.C84_remembered"
   ],
   "note": "Equality is the library's PartialEq on profiles, which ignores the handler."
  },
  {
   "property": "C85",
   "status": "proved",
   "theorems": [
    "Lcms.Props.C85_requests",
    "Lcms.Props.C85_bounds",
    "Lcms.Props.C85_log_is_transparent"
   ],
   "note": "Requests are those of the IOHandler methods; for File, what the operating system is asked follows from C17."
  },
  {
   "property": "C86",
   "status": "proved",
   "theorems": [
    "Lcms.Props.C86_exclusive",
    "Lcms.Props.C86_one_after_the_other",
    "Lcms.Props.C86_poison_spreads",
    "Lcms.Props.C86_program_order",
    "Lcms.Props.C86_no_deadlock",
    "Lcms.Props.C86_everything_completes"
   ],
   "note": "std::sync::Mutex is assumed to exclude, block and poison as documented; the error callback does not lock the mutex itself; a call is four atomic steps (lock, open or create, read the header, return). Threads with their own contexts: C110."
  },
  {
   "property": "C87",
   "status": "partial",
   "theorems": [
    "Lcms.Props.C87_refuted",
    "Lcms.Props.C87_icc_partial"
   ],
   "note": "Violated by type 3 at its joint X = -b/a (0 instead of c). Also types 2 and 3 return 0 when |a| is below the tolerance. Real arithmetic."
  },
  {
   "property": "C88",
   "status": "proved",
   "theorems": [
    "Lcms.Props.C88_domains"
   ],
   "note": "Real arithmetic; a comparison with an undefined quantity counts as false, as with NaN."
  },
  {
   "property": "C89",
   "status": "proved",
   "theorems": [
    "Lcms.Props.C89_inverse_first"
   ],
   "note": "Real arithmetic; parameters above the tolerance."
  },
  {
   "property": "C90",
   "status": "partial",
   "theorems": [
    "Lcms.Props.C90_refuted",
    "Lcms.Props.C90_type3_partial"
   ],
   "note": "Violated at the joint when c is not 0. Real arithmetic."
  },
  {
   "property": "C91",
   "status": "proved",
   "theorems": [
    "Lcms.Props.C91_more_monotone",
    "Lcms.Props.C91_inverses_monotone"
   ],
   "note": "Real arithmetic."
  },
  {
   "property": "C92",
   "status": "proved",
   "theorems": [
    "Lcms.Props.C92_no_nan",
    "Lcms.Props.C92_no_nan_m4",
    "Lcms.Props.C92_sigmoid_nan",
    "Lcms.Props.C92_base_one_nan",
    "Lcms.Props.C92_infinite_offset_nan",
    "Lcms.Props.C92_type8",
    "Lcms.Props.C92_type7",
    "Lcms.Props.C92_type7_inverse",
    "Lcms.Props.C92_type8_inverse",
    "Lcms.Props.C92_type108",
    "Lcms.Props.C92_sigmoid",
    "Lcms.Props.C92_sigmoid_inverse"
   ],
   "note": "powf is only assumed to give numbers on non-negative bases (C99 F.10.4.4), for -4 also non-negative ones for non-negative exponents. For the types above 6 exp is assumed non-negative, log10 a number from zero on, and for 108 the power monotone with 1 to any power 1. Outside the stated domains the other types can return NaN; 109 is the proved example."
  },
  {
   "property": "C93",
   "status": "proved",
   "theorems": [
    "Lcms.Props.C93_tag_entry",
    "Lcms.Props.C93_header",
    "Lcms.Props.C93_small",
    "Lcms.Props.C93_handlers",
    "Lcms.Props.C93_profile",
    "Lcms.Props.C93_atoms",
    "Lcms.Props.C93_tag_entry_text",
    "Lcms.Props.C93_small_text",
    "Lcms.Props.C93_ciexyz_text",
    "Lcms.Props.C93_header_text",
    "Lcms.Props.C93_handlers_text",
    "Lcms.Props.C93_profile_text",
    "Lcms.Props.C93_error_codes",
    "Lcms.Props.C93_long_layout",
    "Lcms.Props.C93_plugin_texts",
    "Lcms.Props.C93_context_text"
   ],
   "note": "Texts of dates (chrono) are assumed to show the date and to end visibly, texts of other handlers to end visibly."
  },
  {
   "property": "C94",
   "status": "partial",
   "theorems": [
    "Lcms.Props.C94_refuted",
    "Lcms.Props.C94_names_partial"
   ],
   "note": "Violated by InterpolationPluginChunk, which calls itself LogErrorChunk, and IntentsListItem, which calls itself IntentListItem (C94_refuted); proved for the others."
  },
  {
   "property": "C95",
   "status": "partial",
   "theorems": [
    "Lcms.Props.C95_context_partial",
    "Lcms.Props.C95_moved_partial",
    "Lcms.Props.C95_refuted"
   ],
   "note": "Violated as soon as a formatter factory is installed: its address is printed (C95_refuted); proved exactly what the text shows and when it is unchanged."
  },
  {
   "property": "C96",
   "status": "proved",
   "theorems": [
    "Lcms.Props.C96_reference_file",
    "Lcms.Props.C96_reference_file_little",
    "Lcms.Props.C96_seek_test",
    "Lcms.Props.C96_tell_test",
    "Lcms.Props.C96_write_read_test"
   ],
   "note": ""
  },
  {
   "property": "C97",
   "status": "proved",
   "theorems": [
    "Lcms.Props.C97_values"
   ],
   "note": "Real arithmetic, as C88; together with C88 it fixes the evaluator on the reals completely."
  },
  {
   "property": "C98",
   "status": "proved",
   "theorems": [
    "Lcms.Props.C98_library",
    "Lcms.Props.C98_file",
    "Lcms.Props.C98_vec",
    "Lcms.Props.C98_file_like_vec"
   ],
   "note": "A program sees results only, not addresses or timing; the preconditions on sizes are those of C17 and C18."
  },
  {
   "property": "C99",
   "status": "proved",
   "theorems": [
    "Lcms.Props.C99_unbroken",
    "Lcms.Props.C99_type4",
    "Lcms.Props.C99_type5",
    "Lcms.Props.C99_type3"
   ],
   "note": "Real arithmetic; positive exponents."
  },
  {
   "property": "C100",
   "status": "proved",
   "theorems": [
    "Lcms.Props.C100_keeps"
   ],
   "note": "Real arithmetic."
  },
  {
   "property": "C101",
   "status": "partial",
   "theorems": [
    "Lcms.Props.C101_append_partial",
    "Lcms.Props.C101_again_partial",
    "Lcms.Props.C101_lookup_partial",
    "Lcms.Props.C101_refuted"
   ],
   "note": "Violated by every file with a tag. C101_append_partial is the exact outcome for any second file, C101_again_partial says when the claim holds, C101_lookup_partial what becomes of lookups. `read_header` is private and called once per profile, so no caller outside the crate sees this."
  },
  {
   "property": "C102",
   "status": "proved",
   "theorems": [
    "Lcms.Props.C102_names",
    "Lcms.Props.C102_place",
    "Lcms.Props.C102_isolated",
    "Lcms.Props.C102_resource"
   ],
   "note": ""
  },
  {
   "property": "C103",
   "status": "proved",
   "theorems": [
    "Lcms.Props.C103_type1",
    "Lcms.Props.C103_type2",
    "Lcms.Props.C103_type3",
    "Lcms.Props.C103_type4",
    "Lcms.Props.C103_type5",
    "Lcms.Props.C103_type6",
    "Lcms.Props.C103_type7",
    "Lcms.Props.C103_type8",
    "Lcms.Props.C103_type108",
    "Lcms.Props.C103_type108_inverse",
    "Lcms.Props.C103_type1_inverse",
    "Lcms.Props.C103_type2_inverse",
    "Lcms.Props.C103_type4_inverse",
    "Lcms.Props.C103_type5_inverse",
    "Lcms.Props.C103_type6_inverse",
    "Lcms.Props.C103_type7_inverse",
    "Lcms.Props.C103_type8_inverse",
    "Lcms.Props.C103_type109",
    "Lcms.Props.C103_enclosed",
    "Lcms.Props.C103_joint_needed",
    "Lcms.Props.C103_type3_drops",
    "Lcms.Props.C103_type3_inverse",
    "Lcms.Props.C103_type3_inverse_drops",
    "Lcms.Props.C103_type109_inverse",
    "Lcms.Props.C103_type109_inverse_infinite"
   ],
   "note": "About the values computed in binary64, not the real ones. MonoLibm lists what is assumed of the platform's pow, exp and log10 (monotone where the mathematical functions are; satisfiable: crude_mono). Type 3 needs a positive offset (C103_type3_drops)."
  },
  {
   "property": "C104",
   "status": "proved",
   "theorems": [
    "Lcms.Props.C104_operations",
    "Lcms.Props.C104_unique",
    "Lcms.Props.C104_line4",
    "Lcms.Props.C104_line5",
    "Lcms.Props.C104_line4_inverse",
    "Lcms.Props.C104_relative",
    "Lcms.Props.C104_absolute",
    "Lcms.Props.C104_nan",
    "Lcms.Props.C104_infinite",
    "Lcms.Props.C104_sign",
    "Lcms.Props.C104_compare"
   ],
   "note": "Correct is the IEEE-754 rule stated on values (nearest, ties to even, overflow threshold); C104_unique shows that it determines the result, so it also checks the binary64 model used by the other curve claims. C104_operations, C104_nan, C104_infinite, C104_sign and C104_compare are about the arithmetic itself, the line theorems about the code."
  },
  {
   "property": "C105",
   "status": "proved",
   "theorems": [
    "Lcms.Props.C105_type1",
    "Lcms.Props.C105_type2",
    "Lcms.Props.C105_type3",
    "Lcms.Props.C105_type4",
    "Lcms.Props.C105_type5",
    "Lcms.Props.C105_type6",
    "Lcms.Props.C105_accurate_pow_exists",
    "Lcms.Props.C105_srgb",
    "Lcms.Props.C105_type8",
    "Lcms.Props.C105_type7",
    "Lcms.Props.C105_accurate_log_exists"
   ],
   "note": "AccuratePow is an assumption on the platform, stated for normal results and shown to be satisfiable (C105_accurate_pow_exists). Non-negative slopes, offsets and arguments only, so that nothing cancels; base, power and sum away from underflow and overflow. Type 7 also assumes an accurate log10 (AccurateLog, satisfiable: C105_accurate_log_exists). Types 108 and 109 are in C117."
  },
  {
   "property": "C106",
   "status": "proved",
   "theorems": [
    "Lcms.Props.C106_type1",
    "Lcms.Props.C106_type1_unit",
    "Lcms.Props.C106_type4_power",
    "Lcms.Props.C106_type4_line",
    "Lcms.Props.C106_platform_exists",
    "Lcms.Props.C106_srgb",
    "Lcms.Props.C106_type2",
    "Lcms.Props.C106_type6",
    "Lcms.Props.C106_type3",
    "Lcms.Props.C106_type5_power",
    "Lcms.Props.C106_type5_line",
    "Lcms.Props.C106_type108",
    "Lcms.Props.C106_type7",
    "Lcms.Props.C106_type8"
   ],
   "note": "The platform's powf is assumed accurate (AccuratePow) and, for type 4, monotone in the base; C106_platform_exists shows that both can hold. The straight piece needs the value below the joint to be smaller than the value at it; for sRGB that is proved. Type 109 is left out because type -109 does not invert it (C70)."
  },
  {
   "property": "C107",
   "status": "proved",
   "theorems": [
    "Lcms.Props.C107_read_header",
    "Lcms.Props.C107_open",
    "Lcms.Props.C107_split"
   ],
   "note": "Calls are atomic because each holds the global lock; a panic inside one is caught by the caller and poisons the mutex."
  },
  {
   "property": "C108",
   "status": "proved",
   "theorems": [
    "Lcms.Props.C108_two_passes",
    "Lcms.Props.C108_applies",
    "Lcms.Props.C108_profile"
   ],
   "note": "Sizes up to isize::MAX; the clients `save` and `saveProfile` are made of the library's own calls (the library has no saving function yet)."
  },
  {
   "property": "C109",
   "status": "partial",
   "theorems": [
    "Lcms.Props.C109_refuted",
    "Lcms.Props.C109_values_partial",
    "Lcms.Props.C109_used"
   ],
   "note": "Violated by one constant: DIGITAL_CINEMA_PROJECTOR is 'dcpj' (as in the ICC specification), lcms2.h has 'dcjp'. The partial theorem states that it is the only one. The numbers of the 208 enumeration constants come from tests/include/bindings.rs; the 27 macros (plugin types, magic numbers, status codes) are not in the bindings and their four characters come from the published headers and the ICC specification."
  },
  {
   "property": "C110",
   "status": "proved",
   "theorems": [
    "Lcms.Props.C110_files",
    "Lcms.Props.C110_call",
    "Lcms.Props.C110_threads",
    "Lcms.Props.C110_undisturbed"
   ],
   "note": "Files are neither removed nor written to meanwhile, except for being created or truncated by these calls; system calls do not fail other than by permission (C77 has failures). Panics are caught; a thread that dies of one is one with a shorter program."
  },
  {
   "property": "C111",
   "status": "proved",
   "theorems": [
    "Lcms.Props.C111_new",
    "Lcms.Props.C111_blank"
   ],
   "note": "For the comparison with files the new profile's clock is in the years 1 to 65535; a date in a file has no fraction of a second, so the clock must have none for them to be equal."
  },
  {
   "property": "C112",
   "status": "proved",
   "theorems": [
    "Lcms.Props.C112_type1",
    "Lcms.Props.C112_type2",
    "Lcms.Props.C112_type3",
    "Lcms.Props.C112_type6",
    "Lcms.Props.C112_type4",
    "Lcms.Props.C112_type5",
    "Lcms.Props.C112_type3_below",
    "Lcms.Props.C112_srgb"
   ],
   "note": "The platform's powf has relative error at most \u03b5 \u2264 1/8 (a hypothesis; cutLibm meets it with 2^-52). gamma is from 1/1000 to 1024 and a at least 1/1000; roots and quotients stay from 2^-1021 to 2^1022. Types -4 and -5 keep a distance from the joint that covers the error of the joint as computed. The other negative types are in C117."
  },
  {
   "property": "C113",
   "status": "proved",
   "theorems": [
    "Lcms.Props.C113_file",
    "Lcms.Props.C113_mem"
   ],
   "note": "Assumes that a successful fdatasync puts the file's contents on the medium, and that the OS writes nothing back to a medium that is up to date. The history stays below offset 2^63."
  },
  {
   "property": "C114",
   "status": "partial",
   "theorems": [
    "Lcms.Props.C114_refuted",
    "Lcms.Props.C114_rest_partial"
   ],
   "note": "Violated: header and directory are fetched with separate system calls and nothing ties them together, so a rewrite in between gives a mixture without an error. Proved instead: whatever happens to the file, the profile read is that of some file at rest that opens, made of bytes the file had at those offsets."
  },
  {
   "property": "C115",
   "status": "partial",
   "theorems": [
    "Lcms.Props.C115_any_build_partial",
    "Lcms.Props.C115_byte_examples_partial",
    "Lcms.Props.C115_refuted"
   ],
   "note": "Violated in builds with use_little_endian: the examples of the typed reads and of the fixed point writes spell out bytes most significant first. Proved: all other examples hold for all values in every build, and those hold for all values exactly without the feature."
  },
  {
   "property": "C116",
   "status": "proved",
   "theorems": [
    "Lcms.Props.C116_methods",
    "Lcms.Props.C116_programs",
    "Lcms.Props.C116_profiles"
   ],
   "note": "The position after a failed read is the one thing that differs (C09, C10 and C98 describe the older behaviour there); a program that goes on without seeking can notice it, as the example shows."
  },
  {
   "property": "C117",
   "status": "proved",
   "theorems": [
    "Lcms.Props.C117_type109",
    "Lcms.Props.C117_type109_inverse",
    "Lcms.Props.C117_accurate_exp_exists",
    "Lcms.Props.C117_type108",
    "Lcms.Props.C117_type108_inverse",
    "Lcms.Props.C117_type7_inverse",
    "Lcms.Props.C117_type8_inverse"
   ],
   "note": "powf, log10 and exp are assumed to have relative errors at most \u03b5 or \u03b4 on the arguments in question (satisfiable with 2^-52: C117_accurate_exp_exists). Every difference must stay well above the error of its operands; for type -109 this excludes arguments whose w(1-w) is below eight times the error of w, which for large k are those near 0 and 1. With C105 and C112 every type of the evaluator has an accuracy theorem on the ranges stated there."
  },
  {
   "property": "C118",
   "status": "proved",
   "theorems": [
    "Lcms.Props.C118_type1",
    "Lcms.Props.C118_type2",
    "Lcms.Props.C118_type3",
    "Lcms.Props.C118_type6",
    "Lcms.Props.C118_type4_power",
    "Lcms.Props.C118_type4_line",
    "Lcms.Props.C118_type5_power",
    "Lcms.Props.C118_type5_line",
    "Lcms.Props.C118_srgb",
    "Lcms.Props.C118_type108",
    "Lcms.Props.C118_type8",
    "Lcms.Props.C118_type7"
   ],
   "note": "powf is assumed to have a relative error at most \u03b5 on the arguments in question, and log10 one of at most \u03b4 for types 7 and 8. The argument must be at a distance from the joint that accounts for the error of the inverse, since the second evaluation chooses its piece by the computed number; for type 3 the same holds at zero. In type 8 the slope in the exponent must be at least 1/1000, as the code returns 0 below 1/10000. Type 109 has no inverse (C70)."
  },
  {
   "property": "C119",
   "status": "proved",
   "theorems": [
    "Lcms.Props.C119_type2",
    "Lcms.Props.C119_type3",
    "Lcms.Props.C119_type4",
    "Lcms.Props.C119_type5_power",
    "Lcms.Props.C119_type5_line",
    "Lcms.Props.C119_type6",
    "Lcms.Props.C119_type8",
    "Lcms.Props.C119_type7"
   ],
   "note": "powf is assumed to have a relative error at most \u03b5 on the arguments in question, and log10 one of at most \u03b4 for type 7. The bounds grow with the cancellation in the sums, as they must. Numbers so close to the root of a x + b that the sum keeps no digit (\u03ba above 1/8) are not covered. Types 2 and 3 need a of at least 1/1000: below 1/10000 the code returns 0 (C97)."
  },
  {
   "property": "C120",
   "status": "proved",
   "theorems": [
    "Lcms.Props.C120_type1",
    "Lcms.Props.C120_type1_inverse",
    "Lcms.Props.C120_type2",
    "Lcms.Props.C120_type4",
    "Lcms.Props.C120_type3",
    "Lcms.Props.C120_type5",
    "Lcms.Props.C120_type6",
    "Lcms.Props.C120_type108",
    "Lcms.Props.C120_srgb",
    "Lcms.Props.C120_ends",
    "Lcms.Props.C120_ends_needed",
    "Lcms.Props.C120_type2_inverse",
    "Lcms.Props.C120_type4_inverse",
    "Lcms.Props.C120_type5_inverse",
    "Lcms.Props.C120_type6_inverse",
    "Lcms.Props.C120_type7",
    "Lcms.Props.C120_type8",
    "Lcms.Props.C120_srgb_inverse",
    "Lcms.Props.C120_type109",
    "Lcms.Props.C120_expUp",
    "Lcms.Props.C120_expDown",
    "Lcms.Props.C120_sigmoid_below",
    "Lcms.Props.C120_sigmoid_band"
   ],
   "note": "powf and exp are only assumed monotone (MonoLibm), as in C103. The upper bounds on the parameters are conditions on the computed sums. For type 109 the upper end is exact, but the lower end is not: with exp rounded to nearest at 3/8 and -3/8 the curve with parameter 3/8 sends 0 to -3/2^53, so a caller who takes square roots or indexes a table with the result must clamp. C120_sigmoid_band bounds the fall, from C117. C120_expUp and C120_expDown prove that the two values of exp used are the nearest ones. Types -3, -7, -8 and -109 are not covered: -3 drops to 0 at r = c (C103), the others have conditions at 0 that rarely hold."
  }
 ]
}
