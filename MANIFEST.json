{
 "claims": [
  {
   "property": "C01",
   "status": "proved",
   "theorems": [
    "Verif.Props.C01_cpulist_independent_of_reads",
    "Verif.Props.C01_every_content",
    "Verif.Props.C01_meaning_unique",
    "Verif.Props.C01_errors_not_masked"
   ],
   "note": ""
  },
  {
   "property": "C02",
   "status": "proved",
   "theorems": [
    "Verif.Props.C02_cpulist_round_trip",
    "Verif.Props.C02_wraps_at_last_number"
   ],
   "note": "The excluded value 2^32-1 is shown to wrap."
  },
  {
   "property": "C03",
   "status": "partial",
   "theorems": [
    "Verif.Props.C03_violated",
    "Verif.Props.C03_long_entry_hides_rest",
    "Verif.Props.C03_success_is_complete_partial",
    "Verif.Props.C03_exact"
   ],
   "note": "The full claim is false of the code (negation proved with a witness); it holds when every entry fits the 256-byte buffer; for all files, the entries actually seen are characterised."
  },
  {
   "property": "C04",
   "status": "proved",
   "theorems": [
    "Verif.Props.C04_detect_exact",
    "Verif.Props.C04_detect_printed",
    "Verif.Props.C04_detect_in_bounds"
   ],
   "note": ""
  },
  {
   "property": "C05",
   "status": "proved",
   "theorems": [
    "Verif.Props.C05_max_below_limit",
    "Verif.Props.C05_max_is_largest"
   ],
   "note": ""
  },
  {
   "property": "C06",
   "status": "proved",
   "theorems": [
    "Verif.Props.C06_lines_independent_of_reads",
    "Verif.Props.C06_every_content",
    "Verif.Props.C06_lines_unique",
    "Verif.Props.C06_readers_terminate"
   ],
   "note": ""
  },
  {
   "property": "C07",
   "status": "partial",
   "theorems": [
    "Verif.Props.C07_violated",
    "Verif.Props.C07_long_line_hides_rest",
    "Verif.Props.C07_complete_partial",
    "Verif.Props.C07_exact",
    "Verif.Props.C07_complete_iff"
   ],
   "note": "False of the code for every buffer size (negation proved); holds exactly when all lines fit the buffer; for all files, the lines actually delivered are characterised."
  },
  {
   "property": "C08",
   "status": "proved",
   "theorems": [
    "Verif.Props.C08_small_file_whole",
    "Verif.Props.C08_large_file_rejected",
    "Verif.Props.C08_whole_or_nothing",
    "Verif.Props.C08_error_fails"
   ],
   "note": ""
  },
  {
   "property": "C09",
   "status": "proved",
   "theorems": [
    "Verif.Props.C09_value_round_trip",
    "Verif.Props.C09_accepts_exactly",
    "Verif.Props.C09_kernel_max",
    "Verif.Props.C09_kernel_max_wraps",
    "Verif.Props.C09_frequency"
   ],
   "note": ""
  },
  {
   "property": "C10",
   "status": "proved",
   "theorems": [
    "Verif.Props.C10_siblings_clamped"
   ],
   "note": ""
  },
  {
   "property": "C11",
   "status": "proved",
   "theorems": [
    "Verif.Props.C11_every_processor_gets_its_apic_id",
    "Verif.Props.C11_in_bounds"
   ],
   "note": ""
  },
  {
   "property": "C12",
   "status": "partial",
   "theorems": [
    "Verif.Props.C12_violated",
    "Verif.Props.C12_violated_in_file",
    "Verif.Props.C12_plain_decimal_partial",
    "Verif.Props.C12_exact",
    "Verif.Props.C12_violated_always"
   ],
   "note": "False of the code (':' counts as digit ten, negation proved with a witness); holds for values whose digits are not followed by ':'. C12_exact gives the number read from every string, C12_violated_always says that every shorter number with a colon is read wrong."
  },
  {
   "property": "C56",
   "status": "proved",
   "theorems": [
    "Verif.Props.C56_filename_fits"
   ],
   "note": ""
  },
  {
   "property": "C17",
   "status": "proved",
   "theorems": [
    "Verif.Props.C17_ranges_partition",
    "Verif.Props.C17_package_core_ranges"
   ],
   "note": "Topology fields as produced by topology.c (SMT field at bit 0, core field next)."
  },
  {
   "property": "C18",
   "status": "proved",
   "theorems": [
    "Verif.Props.C18_sharing_iff_apic_agrees",
    "Verif.Props.C18_sorted_by_apic"
   ],
   "note": ""
  },
  {
   "property": "C19",
   "status": "partial",
   "theorems": [
    "Verif.Props.C19_range_iff_link",
    "Verif.Props.C19_links_resolve",
    "Verif.Props.C19_ids_in_package",
    "Verif.Props.C19_cluster_core_range_partial",
    "Verif.Props.C19_cluster_core_range_violated"
   ],
   "note": "Everything but the core/cluster relation holds without condition; the latter is false when the last-level cache has fewer sharing bits than the SMT field (negation proved) and holds otherwise."
  },
  {
   "property": "C20",
   "status": "proved",
   "theorems": [
    "Verif.Props.C20_maps_inverse",
    "Verif.Props.C20_usable_iff_mapped",
    "Verif.Props.C20_published_are_the_usable"
   ],
   "note": ""
  },
  {
   "property": "C21",
   "status": "proved",
   "theorems": [
    "Verif.Props.C21_cache_sharing",
    "Verif.Props.C21_absent_level"
   ],
   "note": ""
  },
  {
   "property": "C22",
   "status": "partial",
   "theorems": [
    "Verif.Props.C22_violated",
    "Verif.Props.C22_no_fault_partial",
    "Verif.Props.C22_succeeds_on_machine_partial",
    "Verif.Props.C22_collecting_never_faults",
    "Verif.Props.C22_exact",
    "Verif.Props.C22_machine_exact"
   ],
   "note": "False of the code (all-ones APIC id, negation proved). C22_exact and C22_machine_exact say for all inputs exactly when detection is undefined: a bit field of 32 bits or more, no usable processor, or only APIC IDs 0xFFFFFFFF while not everything is shared."
  },
  {
   "property": "C34",
   "status": "proved",
   "theorems": [
    "Verif.Props.C34_max_cache_size"
   ],
   "note": "For the x86/Linux detection path."
  },
  {
   "property": "C57",
   "status": "partial",
   "theorems": [
    "Verif.Props.C57_violated",
    "Verif.Props.C57_violated_always",
    "Verif.Props.C57_published_means_usable_partial"
   ],
   "note": "False of the code: without usable processors it reads the first element of an empty table, always (C57_violated_always)."
  },
  {
   "property": "C58",
   "status": "partial",
   "theorems": [
    "Verif.Props.C58_violated",
    "Verif.Props.C58_violated_always",
    "Verif.Props.C58_exact",
    "Verif.Props.C58_apic_ids_from_files_partial"
   ],
   "note": "False of the code: present but offline processors are published with APIC id 0 and so as threads of the core of APIC id 0; holds if and only if all usable processors are online (C58_exact), and every offline one shares with APIC id 0 (C58_violated_always)."
  },
  {
   "property": "C13",
   "status": "proved",
   "theorems": [
    "Verif.Props.C13_runs_once",
    "Verif.Props.C13_same_verdict",
    "Verif.Props.C13_can_return",
    "Verif.Props.C13_emscripten_runs_once"
   ],
   "note": "Given the contract of pthread_once / InitOnceExecuteOnce."
  },
  {
   "property": "C14",
   "status": "proved",
   "theorems": [
    "Verif.Props.C14_complete_tables",
    "Verif.Props.C14_no_fatal_after",
    "Verif.Props.C14_x86_linux_flag_last"
   ],
   "note": "Sequentially consistent memory; for every platform whose commit block stores the flag last, which is proved for x86 Linux."
  },
  {
   "property": "C15",
   "status": "proved",
   "theorems": [
    "Verif.Props.C15_index_getter",
    "Verif.Props.C15_x86_linux",
    "Verif.Props.C15_x86_linux_uarch",
    "Verif.Props.C15_every_execution"
   ],
   "note": ""
  },
  {
   "property": "C16",
   "status": "proved",
   "theorems": [
    "Verif.Props.C16_x86_linux",
    "Verif.Props.C16_uarch_index"
   ],
   "note": ""
  },
  {
   "property": "C23",
   "status": "partial",
   "theorems": [
    "Verif.Props.C23_smt_then_core",
    "Verif.Props.C23_fields_partial",
    "Verif.Props.C23_package_sharing",
    "Verif.Props.C23_exact",
    "Verif.Props.C23_violated"
   ],
   "note": "False of the code whenever SMT and core level both have a non-zero shift: the core field is as long as the cumulative shift, so packages are merged (negation proved end to end). Holds with one level or an SMT shift of 0; the SMT field is always right."
  },
  {
   "property": "C24",
   "status": "partial",
   "theorems": [
    "Verif.Props.C24_no_htt",
    "Verif.Props.C24_low_fields",
    "Verif.Props.C24_amd",
    "Verif.Props.C24_intel_partial",
    "Verif.Props.C24_fields_partial",
    "Verif.Props.C22_from_cpuid_partial",
    "Verif.Props.C24_violated",
    "Verif.Props.C24_fields_exact",
    "Verif.Props.C24_violated_always"
   ],
   "note": "False of the code when leaf 4 claims more cores than leaf 1 claims logical processors: the SMT width wraps around and detection shifts by 2^32-1 (negation proved end to end). C24_fields_exact says exactly for which answers, C24_violated_always that detection is then undefined whatever the files say. Everything else holds."
  },
  {
   "property": "C25",
   "status": "proved",
   "theorems": [
    "Verif.Props.C25_leaf4",
    "Verif.Props.C25_leaf8000001D",
    "Verif.Props.C25_exact_size",
    "Verif.Props.C25_detect_leaf4",
    "Verif.Props.C25_detect_leaf8000001D"
   ],
   "note": ""
  },
  {
   "property": "C26",
   "status": "partial",
   "theorems": [
    "Verif.Props.C26_descriptor_geometry_partial",
    "Verif.Props.C26_detected_geometry_partial",
    "Verif.Props.C26_violated"
   ],
   "note": "False for descriptor 0xD2 (negation proved for every vendor and model); holds for all others."
  },
  {
   "property": "C29",
   "status": "proved",
   "theorems": [
    "Verif.Props.C29_vendor_exact",
    "Verif.Props.C29_unknown_exact",
    "Verif.Props.C29_whole_processor"
   ],
   "note": ""
  },
  {
   "property": "C30",
   "status": "partial",
   "theorems": [
    "Verif.Props.C30_signature_partial",
    "Verif.Props.C30_exact",
    "Verif.Props.C30_violated"
   ],
   "note": "False where the manuals say extended fields do not apply (negation proved); holds exactly where they apply or are 0."
  },
  {
   "property": "C59",
   "status": "partial",
   "theorems": [
    "Verif.Props.C59_legacy_erased",
    "Verif.Props.C59_legacy_kept_partial",
    "Verif.Props.C59_violated",
    "Verif.Props.C59_violated_always"
   ],
   "note": "False of the code (negation proved end to end, and for every processor with an empty leaf 0xB: C59_violated_always); holds without x2APIC or without leaf 0xB."
  },
  {
   "property": "C60",
   "status": "partial",
   "theorems": [
    "Verif.Props.C60_valid_registers_partial",
    "Verif.Props.C60_all_descriptors_partial",
    "Verif.Props.C60_violated",
    "Verif.Props.C60_violated_always"
   ],
   "note": "False of the code (negation proved); holds when all registers are valid. C60_violated_always says for all answers what is computed."
  },
  {
   "property": "C61",
   "status": "partial",
   "theorems": [
    "Verif.Props.C61_documented_partial",
    "Verif.Props.C61_undocumented",
    "Verif.Props.C61_violated"
   ],
   "note": "False exactly for 0x82 and 0xD2 (negation proved); holds for all other documented descriptors; undocumented ones other than 0x39-0x3E change nothing."
  },
  {
   "property": "C62",
   "status": "partial",
   "theorems": [
    "Verif.Props.C62_vendor_partial",
    "Verif.Props.C62_violated"
   ],
   "note": "False for Hygon Dhyana (negation proved); no microarchitecture is reported for a foreign vendor."
  },
  {
   "property": "C63",
   "status": "proved",
   "theorems": [
    "Verif.Props.C63_only_existing_leaves"
   ],
   "note": ""
  },
  {
   "property": "C27",
   "status": "proved",
   "theorems": [
    "Verif.Props.C27_avx_needs_os",
    "Verif.Props.C27_avx512_needs_os",
    "Verif.Props.C27_unreadable_registers"
   ],
   "note": ""
  },
  {
   "property": "C28",
   "status": "partial",
   "theorems": [
    "Verif.Props.C28_avx10",
    "Verif.Props.C28_avx10_leaf7_partial",
    "Verif.Props.C27_avx512_needs_os",
    "Verif.Props.C28_violated",
    "Verif.Props.C28_made_up_iff"
   ],
   "note": "AVX10.2 implies AVX10.1 and AVX-512 features imply the full state; but AVX10.2 reads leaf 0x24 when only leaf 7 is known to exist (negation proved, and exactly when it matters)."
  },
  {
   "property": "C64",
   "status": "partial",
   "theorems": [
    "Verif.Props.C64_exact_partial",
    "Verif.Props.C64_no_leaf1",
    "Verif.Props.C64_fxsave_emmx",
    "Verif.Props.C64_prefetch",
    "Verif.Props.C64_padlock",
    "Verif.Props.C64_daz_geode",
    "Verif.Props.C64_only_existing_leaves_partial"
   ],
   "note": "All 97 flags but VAES, VPCLMULQDQ, AMX (C65) and AVX10.2 (C28), where the code is wrong."
  },
  {
   "property": "C65",
   "status": "partial",
   "theorems": [
    "Verif.Props.C65_as_advertised_partial",
    "Verif.Props.C65_violated",
    "Verif.Props.C65_exact"
   ],
   "note": "False of the code (negation proved; exactly when: C65_exact); holds where AVX, AVX-512 and tile state are enabled together."
  },
  {
   "property": "C66",
   "status": "proved",
   "theorems": [
    "Verif.Props.C66_functions",
    "Verif.Props.C66_no_unset_flag"
   ],
   "note": ""
  },
  {
   "property": "C31",
   "status": "proved",
   "theorems": [
    "Verif.Props.C31_memory"
   ],
   "note": ""
  },
  {
   "property": "C32",
   "status": "partial",
   "theorems": [
    "Verif.Props.C32_spacing",
    "Verif.Props.C32_tidy_partial",
    "Verif.Props.C32_violated",
    "Verif.Props.C69_exact"
   ],
   "note": "No leading or doubled space for any input; no trailing space if NUL-terminated, or if less than 48 is returned (C69_exact); false for 48 characters without NUL (negation proved)."
  },
  {
   "property": "C33",
   "status": "proved",
   "theorems": [
    "Verif.Props.C33_package_name",
    "Verif.Props.C33_from_cpuid"
   ],
   "note": ""
  },
  {
   "property": "C67",
   "status": "partial",
   "theorems": [
    "Verif.Props.C67_sample_partial",
    "Verif.Props.C67_start_always",
    "Verif.Props.C67_anywhere_always",
    "Verif.Props.C67_violated"
   ],
   "note": "False of the code (negation proved); Eng must occur before Sample. Strings that start with the words of a sample, or have them after any words of C175 and no at sign, are always discarded."
  },
  {
   "property": "C68",
   "status": "partial",
   "theorems": [
    "Verif.Props.C68_noise_partial",
    "Verif.Props.C68_violated",
    "Verif.Props.C69_exact"
   ],
   "note": "Holds for NUL-terminated strings, or if less than 48 is returned (C69_exact), and words without a dash; otherwise false (negation proved)."
  },
  {
   "property": "C69",
   "status": "partial",
   "theorems": [
    "Verif.Props.C69_length_partial",
    "Verif.Props.C69_violated",
    "Verif.Props.C69_exact"
   ],
   "note": "Holds for NUL-terminated strings; false in general (negation proved), exactly when 48 is returned (C69_exact)."
  },
  {
   "property": "C35",
   "status": "proved",
   "theorems": [
    "Verif.Props.C35_read",
    "Verif.Props.C35_write",
    "Verif.Props.C35_copy",
    "Verif.Props.C35_rebuild"
   ],
   "note": ""
  },
  {
   "property": "C40",
   "status": "proved",
   "theorems": [
    "Verif.Props.C40_part",
    "Verif.Props.C40_implementer",
    "Verif.Props.C40_variant",
    "Verif.Props.C40_revision"
   ],
   "note": "Revision numbers above 15 are cut to four bits."
  },
  {
   "property": "C41",
   "status": "proved",
   "theorems": [
    "Verif.Props.C41_features_exact",
    "Verif.Props.C41_values_are_trimmed"
   ],
   "note": ""
  },
  {
   "property": "C42",
   "status": "partial",
   "theorems": [
    "Verif.Props.C42_stored_partial",
    "Verif.Props.C42_violated_overrun",
    "Verif.Props.C42_violated_by_file",
    "Verif.Props.C42_violated_unterminated"
   ],
   "note": "Holds for values shorter than the buffer; false otherwise (negation proved)."
  },
  {
   "property": "C43",
   "status": "partial",
   "theorems": [
    "Verif.Props.C43_symmetric",
    "Verif.Props.C43_exclusive_partial",
    "Verif.Props.C43_not_equal_iff",
    "Verif.Props.C43_violated"
   ],
   "note": "Symmetry and identity hold; both predicates can be true for known different registers (negation proved)."
  },
  {
   "property": "C70",
   "status": "partial",
   "theorems": [
    "Verif.Props.C70_architecture_partial",
    "Verif.Props.C70_malformed_touches_only_architecture",
    "Verif.Props.C70_exact",
    "Verif.Props.C70_violated"
   ],
   "note": "Proper values are exact; malformed ones still rewrite the architecture field (negation proved, and what it becomes for all malformed values)."
  },
  {
   "property": "C71",
   "status": "partial",
   "theorems": [
    "Verif.Props.C71_cache_number_partial",
    "Verif.Props.C71_exact",
    "Verif.Props.C71_violated"
   ],
   "note": "Decimal values are exact and malformed ones ignored; zero and odd line lengths are stored (negation proved)."
  },
  {
   "property": "C72",
   "status": "partial",
   "theorems": [
    "Verif.Props.C72_memory_safe_with_spare_byte",
    "Verif.Props.C72_memory_safe_partial",
    "Verif.Props.C42_violated_by_file"
   ],
   "note": "For all files with one spare byte per text buffer; at exact sizes for files without the two boundary lengths (otherwise false, negation proved)."
  },
  {
   "property": "C73",
   "status": "proved",
   "theorems": [
    "Verif.Props.C73_kernel_text"
   ],
   "note": ""
  },
  {
   "property": "C74",
   "status": "partial",
   "theorems": [
    "Verif.Props.C74_little_for_big_partial",
    "Verif.Props.C74_violated"
   ],
   "note": "All big cores but Kryo 280 Gold, for which it is false (negation proved)."
  },
  {
   "property": "C75",
   "status": "proved",
   "theorems": [
    "Verif.Props.C75_little_scores_lower",
    "Verif.Props.C75_score_by_part",
    "Verif.Props.C75_classes"
   ],
   "note": ""
  },
  {
   "property": "C36",
   "status": "proved",
   "theorems": [
    "Verif.Props.C36_documented_order",
    "Verif.Props.C36_total_order",
    "Verif.Props.C36_sorting_deterministic"
   ],
   "note": ""
  },
  {
   "property": "C37",
   "status": "partial",
   "theorems": [
    "Verif.Props.C37_all_or_nothing",
    "Verif.Props.C37_success_iff_partial",
    "Verif.Props.C37_first_member_ignored_broken",
    "Verif.Props.C37_uninitialised_read_broken"
   ],
   "note": "Shape and all-or-nothing hold for every table; details of the first member of a new group are ignored and uninitialised sizes are read if more processors are usable than counted (both negations proved)."
  },
  {
   "property": "C38",
   "status": "proved",
   "theorems": [
    "Verif.Props.C38_sequential_scan",
    "Verif.Props.C38_deterministic"
   ],
   "note": ""
  },
  {
   "property": "C39",
   "status": "proved",
   "theorems": [
    "Verif.Props.C39_representatives",
    "Verif.Props.C39_kernel_clusters",
    "Verif.Props.C39_without_topology"
   ],
   "note": "For tables whose usable processors are all counted by the caller; see C37 and C77 for what happens otherwise."
  },
  {
   "property": "C78",
   "status": "proved",
   "theorems": [
    "Verif.Props.C78_reported_kept",
    "Verif.Props.C78_complete_unchanged"
   ],
   "note": ""
  },
  {
   "property": "C79",
   "status": "partial",
   "theorems": [
    "Verif.Props.C79_table_agrees_partial",
    "Verif.Props.C79_violated",
    "Verif.Props.C79_heuristic_agrees",
    "Verif.Props.C79_scan_exact"
   ],
   "note": "Holds for the table of chipsets and the big.LITTLE heuristic where they check; false for the sequential scan (negation proved; exactly when)."
  },
  {
   "property": "C80",
   "status": "partial",
   "theorems": [
    "Verif.Props.C80_table_used",
    "Verif.Props.C80_unknown_chipset",
    "Verif.Props.C80_table_consistent_partial",
    "Verif.Props.C80_violated"
   ],
   "note": "Fitting entries are used; all entries but that of MT6592 are consistent, which can never fit (negation proved for every table)."
  },
  {
   "property": "C81",
   "status": "partial",
   "theorems": [
    "Verif.Props.C81_big_little_partial",
    "Verif.Props.C81_violated",
    "Verif.Props.C81_used_iff",
    "Verif.Props.C81_violated_always"
   ],
   "note": "The result is as documented whenever the heuristic applies; exactly when it applies is proved, and that it never does if two or more processors of the described cluster are identified."
  },
  {
   "property": "C82",
   "status": "proved",
   "theorems": [
    "Verif.Props.C82_sequential_midr",
    "Verif.Props.C82_completed_by_scan"
   ],
   "note": ""
  },
  {
   "property": "C76",
   "status": "partial",
   "theorems": [
    "Verif.Props.C76_uarchs_partial",
    "Verif.Props.C76_uarch_index",
    "Verif.Props.C76_listed_once_partial",
    "Verif.Props.C76_listed_once_exact",
    "Verif.Props.C76_violated"
   ],
   "note": "The list is the run-length encoding of the processors and indices lead to the own entry; listed once exactly if the cores of one microarchitecture are adjacent; false in general (negation proved)."
  },
  {
   "property": "C77",
   "status": "partial",
   "theorems": [
    "Verif.Props.C85_usable_iff_mapped",
    "Verif.Props.C92_published_are_usable_partial",
    "Verif.Props.C77_violated",
    "Verif.Props.C77_ranges_broken"
   ],
   "note": "Holds if every usable processor is listed; false in general (negation proved)."
  },
  {
   "property": "C83",
   "status": "proved",
   "theorems": [
    "Verif.Props.C83_ranges_partition"
   ],
   "note": "For systems where /proc/cpuinfo lists every usable processor (the others are C77)."
  },
  {
   "property": "C84",
   "status": "proved",
   "theorems": [
    "Verif.Props.C84_range_iff_link",
    "Verif.Props.C84_links_resolve"
   ],
   "note": "For systems where /proc/cpuinfo lists every usable processor (the others are C77)."
  },
  {
   "property": "C85",
   "status": "proved",
   "theorems": [
    "Verif.Props.C85_maps_inverse",
    "Verif.Props.C85_usable_iff_mapped"
   ],
   "note": "For systems where /proc/cpuinfo lists every usable processor (the others are C77)."
  },
  {
   "property": "C86",
   "status": "proved",
   "theorems": [
    "Verif.Props.C86_cluster_is_homogeneous",
    "Verif.Props.C86_uarch_from_midr"
   ],
   "note": "For systems where /proc/cpuinfo lists every usable processor (the others are C77)."
  },
  {
   "property": "C87",
   "status": "partial",
   "theorems": [
    "Verif.Props.C87_l1_partial",
    "Verif.Props.C87_l1_from_numbers",
    "Verif.Props.C87_violated"
   ],
   "note": "Geometry proved in all cases; the range is empty for all caches from /proc/cpuinfo numbers (negation proved)."
  },
  {
   "property": "C88",
   "status": "partial",
   "theorems": [
    "Verif.Props.C88_l2",
    "Verif.Props.C88_l2_ranges",
    "Verif.Props.C88_l3_links",
    "Verif.Props.C88_shared_l3",
    "Verif.Props.C88_cluster_l3_partial",
    "Verif.Props.C88_l3_exact",
    "Verif.Props.C88_l3_right_iff",
    "Verif.Props.C88_violated"
   ],
   "note": "L2 for equal architecture versions; L3 links for all sizes: every processor with an L3 cache has a link exactly if all sizes are equal or no later one equals the first; false in general (negation proved)."
  },
  {
   "property": "C89",
   "status": "partial",
   "theorems": [
    "Verif.Props.C89_no_fault_partial",
    "Verif.Props.C89_violated_no_processor",
    "Verif.Props.C89_violated_no_processor_always",
    "Verif.Props.C89_violated_versions"
   ],
   "note": "Holds with a usable processor, all listed, one architecture version; whenever no usable processor is listed the first element of an empty table is used; false for mixed versions (negation proved). C158 says exactly when detection is undefined if the processors of a cluster get the same caches."
  },
  {
   "property": "C90",
   "status": "proved",
   "theorems": [
    "Verif.Props.C90_fastest_first"
   ],
   "note": "For systems where /proc/cpuinfo lists every usable processor (the others are C77)."
  },
  {
   "property": "C91",
   "status": "partial",
   "theorems": [
    "Verif.Props.C91_midr_partial",
    "Verif.Props.C91_violated"
   ],
   "note": "Holds when clusters are homogeneous; false with package-wide sibling lists (negation proved)."
  },
  {
   "property": "C92",
   "status": "partial",
   "theorems": [
    "Verif.Props.C92_published_are_usable_partial",
    "Verif.Props.C92_exact"
   ],
   "note": "Needs that /proc/cpuinfo lists every usable processor; C92_exact proves that the published processors are the usable ones then and only then, and C77_violated shows what happens otherwise."
  },
  {
   "property": "C50",
   "status": "partial",
   "theorems": [
    "Verif.Props.C50_counts_partial",
    "Verif.Props.C94_tables",
    "Verif.Props.C50_violated"
   ],
   "note": "Holds unless x86 has an even number of processors; then it is false for every such number (negation proved)."
  },
  {
   "property": "C54",
   "status": "partial",
   "theorems": [
    "Verif.Props.C54_written_partial",
    "Verif.Props.C54_no_overrun",
    "Verif.Props.C54_violated"
   ],
   "note": "Holds unless the line is exactly 1024 bytes long (negation proved)."
  },
  {
   "property": "C93",
   "status": "partial",
   "theorems": [
    "Verif.Props.C93_written_partial",
    "Verif.Props.C93_no_overrun",
    "Verif.Props.C93_violated"
   ],
   "note": "Holds except for exact lengths of 1024 bytes (negation proved)."
  },
  {
   "property": "C94",
   "status": "proved",
   "theorems": [
    "Verif.Props.C94_no_fault",
    "Verif.Props.C94_tables",
    "Verif.Props.C94_sizes"
   ],
   "note": "All counts, both architectures, every allocation outcome."
  },
  {
   "property": "C51",
   "status": "partial",
   "theorems": [
    "Verif.Props.C51_mach_partial",
    "Verif.Props.C51_freebsd_partial",
    "Verif.Props.C51_violated_core",
    "Verif.Props.C51_violated_pointer",
    "Verif.Props.C51_violated_division",
    "Verif.Props.C51_violated_cache",
    "Verif.Props.C51_violated_freebsd",
    "Verif.Props.C51_violated_freebsd_pointer",
    "Verif.Props.C51_mach_exact",
    "Verif.Props.C51_freebsd_exact",
    "Verif.Props.C51_violated_mach_always",
    "Verif.Props.C51_violated_freebsd_always",
    "Verif.Props.C51_violated_mach_fields",
    "Verif.Props.C51_violated_freebsd_fields"
   ],
   "note": "Proved for all counts that divide evenly, and that the tables are consistent for no others (C51_…_exact); for every count that does not divide, which published link leads behind its table (C51_violated_…_always). With APIC ID fields that do not fit 32 bits detection is undefined (C51_violated_…_fields)."
  },
  {
   "property": "C52",
   "status": "partial",
   "theorems": [
    "Verif.Props.C52_mach_exact",
    "Verif.Props.C52_freebsd_exact",
    "Verif.Props.C52_violated_mach_always",
    "Verif.Props.C52_violated_freebsd_always",
    "Verif.Props.C52_mach_partial",
    "Verif.Props.C52_freebsd_partial",
    "Verif.Props.C52_violated_mach"
   ],
   "note": "the code violates the claim; exact for every successful detection: it holds if and only if CPUID describes both L1 caches or neither (on Mach also if more threads share an L1 than there are); otherwise the getter always faults"
  },
  {
   "property": "C95",
   "status": "proved",
   "theorems": [
    "Verif.Props.C95_mach",
    "Verif.Props.C95_freebsd",
    "Verif.Props.C95_mach_partial",
    "Verif.Props.C95_freebsd_partial"
   ],
   "note": "C95_mach and C95_freebsd hold of every successful detection, whether or not the counts divide; the two theorems named partial add, for counts that divide evenly, that detection is defined and no table is empty."
  },
  {
   "property": "C96",
   "status": "partial",
   "theorems": [
    "Verif.Props.C96_mach_exact",
    "Verif.Props.C96_freebsd_exact",
    "Verif.Props.C96_mach_partial",
    "Verif.Props.C96_freebsd_partial",
    "Verif.Props.C96_violated"
   ],
   "note": "the code violates the claim; IDs differ; each is the processor's own if and only if there is one package or the cores of a package fill the core field; even machines whose fields have room"
  },
  {
   "property": "C97",
   "status": "proved",
   "theorems": [
    "Verif.Props.C97_freebsd"
   ],
   "note": "Every text and every pair of answers."
  },
  {
   "property": "C48",
   "status": "partial",
   "theorems": [
    "Verif.Props.C48_riscv_links_partial",
    "Verif.Props.C48_violated_interleaved",
    "Verif.Props.C48_violated_core_start",
    "Verif.Props.C48_violated_cluster_start",
    "Verif.Props.C48_violated_processor_start",
    "Verif.Props.C48_riscv_links_exact",
    "Verif.Props.C48_violated_always"
   ],
   "note": "For stable sorts it is stated exactly where every link leads for groups of any shape; the links are right exactly if no groups are interleaved, wrong on every machine with interleaved groups. Ranges proved without holes (core ranges: without SMT; cluster ranges: one package); negations proved otherwise."
  },
  {
   "property": "C49",
   "status": "proved",
   "theorems": [
    "Verif.Props.C49_riscv_isa"
   ],
   "note": "Every hwcap value."
  },
  {
   "property": "C98",
   "status": "proved",
   "theorems": [
    "Verif.Props.C98_riscv_reading_in_bounds"
   ],
   "note": "Up to the sort; what follows is C100 and C102."
  },
  {
   "property": "C99",
   "status": "partial",
   "theorems": [
    "Verif.Props.C99_riscv_initializes_partial",
    "Verif.Props.C99_violated_missing_list"
   ],
   "note": "Success proved if all present processors are described and the sort is stable; failure proved for every machine with a missing list."
  },
  {
   "property": "C100",
   "status": "partial",
   "theorems": [
    "Verif.Props.C100_riscv_groups",
    "Verif.Props.C100_violated_unstable_sort"
   ],
   "note": "Characterises the outcome for every order; negation proved for orders that begin with a processor that does not lead its groups."
  },
  {
   "property": "C101",
   "status": "proved",
   "theorems": [
    "Verif.Props.C101_riscv_current"
   ],
   "note": "For every initialization that publishes."
  },
  {
   "property": "C102",
   "status": "partial",
   "theorems": [
    "Verif.Props.C98_riscv_reading_in_bounds",
    "Verif.Props.C102_violated_inconsistent_lists",
    "Verif.Props.C102_riscv_exact",
    "Verif.Props.C102_own_named_partial"
   ],
   "note": "Reading is safe for all contents; the transfer is not (negation proved). For all ascending lists and stable sorts it is stated exactly when initialization fails, publishes or goes out of bounds; lists that name their own processor are harmless."
  },
  {
   "property": "C103",
   "status": "proved",
   "theorems": [
    "Verif.Props.C103_riscv_core_details"
   ],
   "note": "For every initialization that publishes."
  },
  {
   "property": "C44",
   "status": "proved",
   "theorems": [
    "Verif.Props.C44_consistent",
    "Verif.Props.C44_decoded_core",
    "Verif.Props.C44_published"
   ],
   "note": "All cases of the decoder; published caches for machines of one architecture version."
  },
  {
   "property": "C104",
   "status": "partial",
   "theorems": [
    "Verif.Props.C104_hierarchy",
    "Verif.Props.C104_bound_partial",
    "Verif.Props.C104_bound_sharp",
    "Verif.Props.C104_fixed_bound_partial",
    "Verif.Props.C104_detected",
    "Verif.Props.C104_violated",
    "Verif.Props.C104_exact",
    "Verif.Props.C104_violated_unknown"
   ],
   "note": "Bound proved for all core types but ThunderX and clusters up to the size each bound assumes; negation proved outside, and exactly which core types and cluster sizes exceed their bound."
  },
  {
   "property": "C105",
   "status": "proved",
   "theorems": [
    "Verif.Props.C105_vendor_of_uarch",
    "Verif.Props.C105_vendor_of_implementer",
    "Verif.Props.C105_fields",
    "Verif.Props.C105_builds_agree",
    "Verif.Props.C105_register_tests"
   ],
   "note": "All MIDR values and builds."
  },
  {
   "property": "C55",
   "status": "proved",
   "theorems": [
    "Verif.Props.C55_basis",
    "Verif.Props.C55_answers",
    "Verif.Props.C55_vector_length",
    "Verif.Props.C55_core_types"
   ],
   "note": "all 48 queries of 64-bit ARM; hypothesis Answers: getauxval exists"
  },
  {
   "property": "C106",
   "status": "proved",
   "theorems": [
    "Verif.Props.C106_answers",
    "Verif.Props.C106_implications",
    "Verif.Props.C106_below_v7",
    "Verif.Props.C106_core_types"
   ],
   "note": "all 48 queries of 32-bit ARM; WCID and FPSID registers and __ARM_ARCH are parameters"
  },
  {
   "property": "C107",
   "status": "partial",
   "theorems": [
    "Verif.Props.C107_sources_partial",
    "Verif.Props.C107_violated"
   ],
   "note": "holds for glibc and Android; violated for other C libraries"
  },
  {
   "property": "C108",
   "status": "partial",
   "theorems": [
    "Verif.Props.C108_same_core",
    "Verif.Props.C108_one_core_partial",
    "Verif.Props.C108_violated",
    "Verif.Props.C108_exact",
    "Verif.Props.C108_kernel_decides",
    "Verif.Props.C108_violated_mixed"
   ],
   "note": "holds exactly if the answers for all described processors agree (always for queries other than half precision, rounding multiplication and dot products); negation proved for mixed machines"
  },
  {
   "property": "C45",
   "status": "proved",
   "theorems": [
    "Verif.Props.C45_valid",
    "Verif.Props.C115_android"
   ],
   "note": "Linux and Android; every Hardware string, properties, number of cores and frequency"
  },
  {
   "property": "C46",
   "status": "partial",
   "theorems": [
    "Verif.Props.C46_names",
    "Verif.Props.C46_lossless_partial",
    "Verif.Props.C46_violated",
    "Verif.Props.C46_exact"
   ],
   "note": "never truncated and exact for all well-formed chipsets; names are equal exactly if the chipsets are, or both have model 0 and the same series, where the suffix is not printed"
  },
  {
   "property": "C47",
   "status": "partial",
   "theorems": [
    "Verif.Props.C47_violated",
    "Verif.Props.C47_partial"
   ],
   "note": "negation proved; the rest of the signature is exact"
  },
  {
   "property": "C109",
   "status": "partial",
   "theorems": [
    "Verif.Props.C109_patterns",
    "Verif.Props.C109_partial",
    "Verif.Props.C109_violated_kirin",
    "Verif.Props.C109_violated_exynos"
   ],
   "note": "21 signatures exact; for Kirin and Samsung Exynos the language actually accepted is characterised and the negation proved"
  },
  {
   "property": "C110",
   "status": "proved",
   "theorems": [
    "Verif.Props.C110_reads"
   ],
   "note": "all signatures and decoders; NoZero: the platform text has no zero, as every text of a buffer"
  },
  {
   "property": "C111",
   "status": "proved",
   "theorems": [
    "Verif.Props.C111_decoders",
    "Verif.Props.C111_linux"
   ],
   "note": "all seven decoders; SamsungExynosActual, KirinActual and LcActual describe what these three signatures accept (see C47, C109)"
  },
  {
   "property": "C112",
   "status": "partial",
   "theorems": [
    "Verif.Props.C112_corrections",
    "Verif.Props.C112_cores_partial",
    "Verif.Props.C112_violated"
   ],
   "note": "exact; the consequence about core counts holds except for MSM8216 and MSM with suffix, negation proved there"
  },
  {
   "property": "C113",
   "status": "partial",
   "theorems": [
    "Verif.Props.C113_raspberry_partial",
    "Verif.Props.C113_violated"
   ],
   "note": "exact for revisions of 5 to 8 hexadecimal digits; negation proved for other Broadcom chips and unknown fields"
  },
  {
   "property": "C115",
   "status": "partial",
   "theorems": [
    "Verif.Props.C115_android",
    "Verif.Props.C115_source",
    "Verif.Props.C115_longest_partial",
    "Verif.Props.C115_violated_model",
    "Verif.Props.C115_violated_mixed"
   ],
   "note": "vendor, series and model proved; the suffix is the longest of its series if of any two one continues the other; negation proved for the suffix otherwise"
  },
  {
   "property": "C116",
   "status": "partial",
   "theorems": [
    "Verif.Props.C116_violated"
   ],
   "note": "negation proved: no number of cores gives a model with the frequency the code passes"
  },
  {
   "property": "C117",
   "status": "partial",
   "theorems": [
    "Verif.Props.C117_package_name",
    "Verif.Props.C117_package_name_android",
    "Verif.Props.C117_hardware_line",
    "Verif.Props.C117_raspberry",
    "Verif.Props.C117_violated",
    "Verif.Props.C117_violated_always"
   ],
   "note": "for every initialization that publishes; negation proved without Revision line"
  },
  {
   "property": "C118",
   "status": "proved",
   "theorems": [
    "Verif.Props.C118_names",
    "Verif.Props.C118_only_32"
   ],
   "note": "all rows of all five tables, both builds"
  },
  {
   "property": "C119",
   "status": "proved",
   "theorems": [
    "Verif.Props.C119_flag_last",
    "Verif.Props.C119_index_queries",
    "Verif.Props.C119_table_queries",
    "Verif.Props.C119_never_outside",
    "Verif.Props.C119_every_execution"
   ],
   "note": "every successful detection, no hypothesis on the kernel files"
  },
  {
   "property": "C120",
   "status": "proved",
   "theorems": [
    "Verif.Props.C120_current",
    "Verif.Props.C120_unknown_cpu"
   ],
   "note": "hypotheses SortsProcessors (qsort sorts) and AllListed (see C77)"
  },
  {
   "property": "C53",
   "status": "proved",
   "theorems": [
    "Verif.Props.C53_bits",
    "Verif.Props.C53_index",
    "Verif.Props.C53_numbering"
   ],
   "note": "every mask below 2^64, every list of group sizes"
  },
  {
   "property": "C121",
   "status": "partial",
   "theorems": [
    "Verif.Props.C121_no_fault_partial",
    "Verif.Props.C121_counts",
    "Verif.Props.C121_links_resolve",
    "Verif.Props.C121_violated"
   ],
   "note": "hypotheses WinReports (masks within the groups, at least one record), WinNarrow, WinRoom (fields within 32 bits); negation proved for an answer without packages"
  },
  {
   "property": "C122",
   "status": "proved",
   "theorems": [
    "Verif.Props.C122_processors"
   ],
   "note": "hypothesis WinDisjoint: no processor in two records of a kind"
  },
  {
   "property": "C123",
   "status": "proved",
   "theorems": [
    "Verif.Props.C123_apic",
    "Verif.Props.C123_apic_unique",
    "Verif.Props.C123_increasing"
   ],
   "note": "LowFields (adjacent fields), WinGrouped (cores of a package follow one another); uniqueness needs WinFieldsFit, increase also WinInOrder"
  },
  {
   "property": "C124",
   "status": "proved",
   "theorems": [
    "Verif.Props.C124_core",
    "Verif.Props.C124_package",
    "Verif.Props.C124_core_id"
   ],
   "note": "WinDisjoint and WinComplete"
  },
  {
   "property": "C125",
   "status": "partial",
   "theorems": [
    "Verif.Props.C125_one_package_partial",
    "Verif.Props.C125_violated"
   ],
   "note": "proved for one package; negation proved for every machine with more"
  },
  {
   "property": "C126",
   "status": "partial",
   "theorems": [
    "Verif.Props.C126_distinct_partial",
    "Verif.Props.C126_violated"
   ],
   "note": "proved if every processor is in a core record; negation proved for every machine where one is not"
  },
  {
   "property": "C127",
   "status": "proved",
   "theorems": [
    "Verif.Props.C127_caches",
    "Verif.Props.C127_absent_level",
    "Verif.Props.C127_max_cache_size"
   ],
   "note": ""
  },
  {
   "property": "C128",
   "status": "proved",
   "theorems": [
    "Verif.Props.C128_flag_last",
    "Verif.Props.C128_queries",
    "Verif.Props.C128_uarch_and_current",
    "Verif.Props.C128_every_execution"
   ],
   "note": "every successful detection, no hypothesis on the answers of Windows"
  },
  {
   "property": "C129",
   "status": "partial",
   "theorems": [
    "Verif.Props.C129_defined_partial",
    "Verif.Props.C129_defined_iff",
    "Verif.Props.C129_violated_threads",
    "Verif.Props.C129_violated_packages",
    "Verif.Props.C129_violated_line"
   ],
   "note": "the code violates the claim; exact for all counts: defined if and only if threads are a multiple of cores, no more cores are left over than each package has, and the line size is usable; undefined proved for every other machine"
  },
  {
   "property": "C130",
   "status": "partial",
   "theorems": [
    "Verif.Props.C130_topology",
    "Verif.Props.C130_topology_partial",
    "Verif.Props.C130_violated",
    "Verif.Props.C130_violated_always"
   ],
   "note": "the code violates the claim; exact for all counts: cores are divided among packages if and only if packages divide cores, processors if and only if packages divide threads; otherwise the last one always links behind the table"
  },
  {
   "property": "C131",
   "status": "partial",
   "theorems": [
    "Verif.Props.C131_clusters",
    "Verif.Props.C131_processors_iff",
    "Verif.Props.C131_packages_iff",
    "Verif.Props.C131_violated_threads",
    "Verif.Props.C131_violated_packages"
   ],
   "note": "all counts; ranges of processors exactly with one thread per core, of clusters exactly with one package; negations proved otherwise"
  },
  {
   "property": "C132",
   "status": "proved",
   "theorems": [
    "Verif.Props.C132_documented",
    "Verif.Props.C132_every_count",
    "Verif.Props.C132_published"
   ],
   "note": "the published cores for all counts"
  },
  {
   "property": "C133",
   "status": "partial",
   "theorems": [
    "Verif.Props.C133_first_level",
    "Verif.Props.C133_shared_iff",
    "Verif.Props.C133_max_size",
    "Verif.Props.C133_violated_threads"
   ],
   "note": "all counts; shared ranges exactly with one thread per core, negation proved otherwise"
  },
  {
   "property": "C134",
   "status": "proved",
   "theorems": [
    "Verif.Props.C134_features",
    "Verif.Props.C134_sve_length",
    "Verif.Props.C134_detected"
   ],
   "note": "all 48 queries"
  },
  {
   "property": "C135",
   "status": "proved",
   "theorems": [
    "Verif.Props.C135_documented",
    "Verif.Props.C135_brand",
    "Verif.Props.C135_fits",
    "Verif.Props.C135_iphone",
    "Verif.Props.C135_others",
    "Verif.Props.C135_other_ipads",
    "Verif.Props.C135_published"
   ],
   "note": "published names for all counts"
  },
  {
   "property": "C136",
   "status": "partial",
   "theorems": [
    "Verif.Props.C136_flag_last",
    "Verif.Props.C136_queries",
    "Verif.Props.C136_first_level_partial",
    "Verif.Props.C136_violated",
    "Verif.Props.C136_current",
    "Verif.Props.C136_every_execution"
   ],
   "note": "every successful detection; first level if both or neither size is reported, negation proved otherwise"
  },
  {
   "property": "C137",
   "status": "partial",
   "theorems": [
    "Verif.Props.C137_no_fault_partial",
    "Verif.Props.C137_counts",
    "Verif.Props.C137_links_resolve",
    "Verif.Props.C137_violated_no_core",
    "Verif.Props.C137_violated_cache_level",
    "Verif.Props.C137_violated_division",
    "Verif.Props.C137_violated_cache_mask",
    "Verif.Props.C137_violated_empty_core",
    "Verif.Props.C137_violated_second_answer",
    "Verif.Props.C137_violated_result"
   ],
   "note": "hypothesis ArmWinReports; negations proved outside"
  },
  {
   "property": "C138",
   "status": "partial",
   "theorems": [
    "Verif.Props.C138_processors",
    "Verif.Props.C138_core",
    "Verif.Props.C138_cluster",
    "Verif.Props.C138_package",
    "Verif.Props.C138_violated_smt",
    "Verif.Props.C138_violated_core_id",
    "Verif.Props.C138_violated_cluster_id"
   ],
   "note": "links and ranges proved under ArmWinDisjoint; negation proved for the ids within cores and packages"
  },
  {
   "property": "C139",
   "status": "partial",
   "theorems": [
    "Verif.Props.C139_caches",
    "Verif.Props.C139_links",
    "Verif.Props.C139_max_cache_size",
    "Verif.Props.C139_violated_no_groups",
    "Verif.Props.C139_violated_fully_associative"
   ],
   "note": "sets*ways*line only where the sizes divide; negations proved for records without groups and fully associative caches"
  },
  {
   "property": "C140",
   "status": "partial",
   "theorems": [
    "Verif.Props.C140_cores",
    "Verif.Props.C140_kinds_partial",
    "Verif.Props.C140_violated_midr",
    "Verif.Props.C140_violated_unknown"
   ],
   "note": "kind, cores and processors proved; negation proved for the MIDR and for unknown kinds"
  },
  {
   "property": "C141",
   "status": "partial",
   "theorems": [
    "Verif.Props.C141_name_partial",
    "Verif.Props.C141_ascii",
    "Verif.Props.C141_unknown",
    "Verif.Props.C141_violated_bytes",
    "Verif.Props.C141_violated_cut",
    "Verif.Props.C141_violated_memory"
   ],
   "note": "every text that fits; every ASCII text; negation proved for texts that do not fit in UTF-8 or are cut inside a character"
  },
  {
   "property": "C142",
   "status": "partial",
   "theorems": [
    "Verif.Props.C142_features_partial",
    "Verif.Props.C142_no_false_yes",
    "Verif.Props.C142_violated_32bit"
   ],
   "note": "all 48 queries; exact in 64-bit processes, negation proved in 32-bit processes"
  },
  {
   "property": "C143",
   "status": "partial",
   "theorems": [
    "Verif.Props.C143_flag_last",
    "Verif.Props.C143_queries",
    "Verif.Props.C143_current",
    "Verif.Props.C143_violated_current_kind",
    "Verif.Props.C143_violated_success",
    "Verif.Props.C143_every_execution"
   ],
   "note": "every successful detection, no hypothesis on the answers of Windows; negations proved for the current kind where the kind is unknown, and for a detection without memory for the kinds of cores, which counts as successful"
  },
  {
   "property": "C144",
   "status": "partial",
   "theorems": [
    "Verif.Props.C144_sites",
    "Verif.Props.C144_double_free",
    "Verif.Props.C144_x86_freebsd",
    "Verif.Props.C144_arm_mach",
    "Verif.Props.C144_emscripten",
    "Verif.Props.C144_riscv_linux",
    "Verif.Props.C144_x86_linux_partial",
    "Verif.Props.C144_violated_x86_linux",
    "Verif.Props.C144_arm_linux_partial",
    "Verif.Props.C144_violated_arm_linux",
    "Verif.Props.C144_x86_mach_partial",
    "Verif.Props.C144_violated_x86_mach",
    "Verif.Props.C144_x86_windows_partial",
    "Verif.Props.C144_violated_x86_windows",
    "Verif.Props.C144_arm_windows_partial",
    "Verif.Props.C144_violated_arm_windows_registry",
    "Verif.Props.C144_violated_arm_windows_result",
    "Verif.Props.C144_violated_arm_windows_null"
   ],
   "note": "every combination of failures; complete on x86 FreeBSD, ARM Apple, Emscripten and RISC-V; exact leaks proved on the others"
  },
  {
   "property": "C145",
   "status": "proved",
   "theorems": [
    "Verif.Props.C145_released"
   ],
   "note": "small files, multi-line files, CPU lists, hwcap from the C library and procfs, hwprobe, log lines"
  },
  {
   "property": "C146",
   "status": "partial",
   "theorems": [
    "Verif.Props.C146_x86_packages_partial",
    "Verif.Props.C146_x86_cores_partial",
    "Verif.Props.C146_arm_processors",
    "Verif.Props.C146_arm_caches",
    "Verif.Props.C146_ends",
    "Verif.Props.C146_violated_shorter",
    "Verif.Props.C146_violated_zero_size"
   ],
   "note": "ARM complete but for records of size 0; x86 if the answer has the size asked for first, negation proved otherwise"
  },
  {
   "property": "C147",
   "status": "proved",
   "theorems": [
    "Verif.Props.C147_identity",
    "Verif.Props.C147_identity_exists",
    "Verif.Props.C147_linux",
    "Verif.Props.C147_uniform",
    "Verif.Props.C147_windows",
    "Verif.Props.C147_example"
   ],
   "note": "Mach and FreeBSD: the tables are those of the topology found (C51, C52); Linux under the same hypotheses as C17"
  },
  {
   "property": "C148",
   "status": "partial",
   "theorems": [
    "Verif.Props.C148_distinct",
    "Verif.Props.C148_as_declared",
    "Verif.Props.C148_uarch_x86_apple",
    "Verif.Props.C148_uarch_arm",
    "Verif.Props.C148_vendor_arm_partial",
    "Verif.Props.C148_vendor_x86_partial",
    "Verif.Props.C148_line_tells",
    "Verif.Props.C148_violated_marvell",
    "Verif.Props.C148_violated_others"
   ],
   "note": "all microarchitectures; vendors without Marvell (32-bit ARM), SiFive and old 32-bit x86 vendors, negations proved"
  },
  {
   "property": "C149",
   "status": "partial",
   "theorems": [
    "Verif.Props.C149_members",
    "Verif.Props.C149_linux_cores",
    "Verif.Props.C149_linux_clusters_partial",
    "Verif.Props.C149_violated"
   ],
   "note": "clusters: if the last-level cache is shared by the threads of a core; negation proved otherwise"
  },
  {
   "property": "C150",
   "status": "proved",
   "theorems": [
    "Verif.Props.C150_size",
    "Verif.Props.C150_report_tells",
    "Verif.Props.C150_fully_associative"
   ],
   "note": "the last for caches whose size is the product of their parameters (C25)"
  },
  {
   "property": "C151",
   "status": "proved",
   "theorems": [
    "Verif.Props.C151_ends",
    "Verif.Props.C151_true",
    "Verif.Props.C151_complete",
    "Verif.Props.C151_once"
   ],
   "note": "order: basic leaves below 0x80000000"
  },
  {
   "property": "C152",
   "status": "partial",
   "theorems": [
    "Verif.Props.C152_script_partial",
    "Verif.Props.C152_violated"
   ],
   "note": "sub-leaves with two decimal digits; the others become 0, proved"
  },
  {
   "property": "C153",
   "status": "partial",
   "theorems": [
    "Verif.Props.C153_same_detection_partial",
    "Verif.Props.C153_violated_amd",
    "Verif.Props.C153_violated_amd_caches",
    "Verif.Props.C153_violated_via",
    "Verif.Props.C153_isa_exact"
   ],
   "note": "without caches of AMD processors with topology extensions and VIA's flags, negations proved"
  },
  {
   "property": "C154",
   "status": "proved",
   "theorems": [
    "Verif.Props.C154_leaf4_in_turn"
   ],
   "note": ""
  },
  {
   "property": "C155",
   "status": "proved",
   "theorems": [
    "Verif.Props.C155_memory",
    "Verif.Props.C155_descriptors",
    "Verif.Props.C155_readers"
   ],
   "note": "callbacks that open files are not modelled"
  },
  {
   "property": "C156",
   "status": "proved",
   "theorems": [
    "Verif.Props.C156_properties"
   ],
   "note": "mock build; on a device the system call is trusted"
  },
  {
   "property": "C157",
   "status": "proved",
   "theorems": [
    "Verif.Props.C157_processors",
    "Verif.Props.C157_map",
    "Verif.Props.C157_clusters",
    "Verif.Props.C157_uarchs",
    "Verif.Props.C157_complete_iff",
    "Verif.Props.C157_published_usable"
   ],
   "note": "for every detection that publishes; L2 and L3 tables are not covered"
  },
  {
   "property": "C159",
   "status": "partial",
   "theorems": [
    "Verif.Props.C159_sets_partial",
    "Verif.Props.C159_power_cluster_partial",
    "Verif.Props.C159_published_partial",
    "Verif.Props.C159_violated_thunderx"
   ],
   "note": "false for ThunderX in 64-bit builds other than Android: its L1 instruction cache is given 312 sets (C159_violated_thunderx); clusters of fewer than 4096 cores"
  },
  {
   "property": "C158",
   "status": "partial",
   "theorems": [
    "Verif.Props.C158_heuristic_undefined_iff",
    "Verif.Props.C158_undefined_iff",
    "Verif.Props.C158_defined_partial",
    "Verif.Props.C158_one_version",
    "Verif.Props.C158_known_uarchs",
    "Verif.Props.C158_violated_offline",
    "Verif.Props.C158_violated_unlisted_leader"
   ],
   "note": "characterised exactly when the processors of a cluster get the same caches; false when the heuristic is told fewer processors than are usable (C158_violated_offline) and when the first processor of a cluster of unknown cores is offline (C158_violated_unlisted_leader)"
  },
  {
   "property": "C160",
   "status": "proved",
   "theorems": [
    "Verif.Props.C160_lines",
    "Verif.Props.C160_numbering",
    "Verif.Props.C160_uarch_line",
    "Verif.Props.C160_core_line",
    "Verif.Props.C160_cluster_line",
    "Verif.Props.C160_processor_line",
    "Verif.Props.C160_cpu_info",
    "Verif.Props.C160_report_line",
    "Verif.Props.C160_cache_info"
   ],
   "note": "package names without newlines; 32-bit fields"
  },
  {
   "property": "C161",
   "status": "partial",
   "theorems": [
    "Verif.Props.C161_uarch_iff",
    "Verif.Props.C161_unique",
    "Verif.Props.C161_unknown_iff",
    "Verif.Props.C161_violated_declared"
   ],
   "note": "decoding is characterised for all registers; three core types declared in the header are never reported (negation proved)"
  },
  {
   "property": "C162",
   "status": "partial",
   "theorems": [
    "Verif.Props.C162_sound_partial",
    "Verif.Props.C162_complete_partial",
    "Verif.Props.C162_unique",
    "Verif.Props.C162_unknown_iff",
    "Verif.Props.C162_violated"
   ],
   "note": "decoding is characterised for all signatures with zero reserved fields; the ranges of models that are missed are listed and proved to be reported as unknown (negation proved)"
  },
  {
   "property": "C163",
   "status": "partial",
   "theorems": [
    "Verif.Props.C163_x86",
    "Verif.Props.C163_x86_queries",
    "Verif.Props.C163_arm",
    "Verif.Props.C163_arm64",
    "Verif.Props.C163_sve_length",
    "Verif.Props.C163_arm64_others",
    "Verif.Props.C163_violated_arm64",
    "Verif.Props.C163_riscv"
   ],
   "note": "every line printed is right for all answers; on 64-bit ARM the answers of five SME queries are not printed (negation proved)"
  },
  {
   "property": "C164",
   "status": "partial",
   "theorems": [
    "Verif.Props.C164_roundtrip_partial",
    "Verif.Props.C164_readers",
    "Verif.Props.C164_exact",
    "Verif.Props.C164_violated_zero_digit",
    "Verif.Props.C164_files_partial",
    "Verif.Props.C164_violated_missing"
   ],
   "note": "proved for all devices whose files have only tabs, line ends, printable ASCII and zero bytes not before octal digits, and exactly these bytes survive; negations proved for the other bytes, for zero bytes before digits, and for the files that are not written"
  },
  {
   "property": "C165",
   "status": "partial",
   "theorems": [
    "Verif.Props.C165_properties_partial",
    "Verif.Props.C165_detection",
    "Verif.Props.C165_violated_bracket",
    "Verif.Props.C165_bracket_exact",
    "Verif.Props.C165_files_partial",
    "Verif.Props.C165_files32_partial",
    "Verif.Props.C165_processors",
    "Verif.Props.C165_violated_missing",
    "Verif.Props.C165_dump"
   ],
   "note": "proved for all devices whose properties have no closing bracket and whose texts are plain ASCII; negations proved for closing brackets, the missing lists of cluster members and the missing kernel_max"
  },
  {
   "property": "C166",
   "status": "proved",
   "theorems": [
    "Verif.Props.C166_arm_linux",
    "Verif.Props.C166_arm_linux_failed",
    "Verif.Props.C166_arm_mach",
    "Verif.Props.C166_arm_windows",
    "Verif.Props.C166_riscv",
    "Verif.Props.C166_x86",
    "Verif.Props.C166_x86_failed",
    "Verif.Props.C166_arm_linux_weak",
    "Verif.Props.C166_arm_mach_weak",
    "Verif.Props.C166_arm_windows_weak",
    "Verif.Props.C166_riscv_weak",
    "Verif.Props.C166_x86_weak"
   ],
   "note": "proved for all executions in a sequentially consistent memory with one step per read and write; that no query says yes without reason also for memories as weak as can be without values out of thin air (C166_…_weak); that the accesses are unsynchronized in the C source (formally a data race) is outside the model"
  },
  {
   "property": "C167",
   "status": "partial",
   "theorems": [
    "Verif.Props.C167_cpuinfo_partial",
    "Verif.Props.C167_violated_line_end",
    "Verif.Props.C167_violated_garbage",
    "Verif.Props.C167_clog_exact",
    "Verif.Props.C167_violated_stack",
    "Verif.Props.C167_violated_heap"
   ],
   "note": "The claim is false: exact results are proved for src/log.c (no read outside the buffers, no line end), and for clog when exactly a short message is printed as it should be, what else is printed, and that every long message is undefined."
  },
  {
   "property": "C168",
   "status": "partial",
   "theorems": [
    "Verif.Props.C168_written",
    "Verif.Props.C168_accepted",
    "Verif.Props.C168_fatal_ends",
    "Verif.Props.C168_less_is_part",
    "Verif.Props.C168_android",
    "Verif.Props.C168_violated_tag"
   ],
   "note": "Proved for all settings and sequences of calls, except for the tag on Android, where the negation is proved. Messages of exactly 1024 bytes are C54."
  },
  {
   "property": "C169",
   "status": "partial",
   "theorems": [
    "Verif.Props.C169_processors",
    "Verif.Props.C169_cores_partial",
    "Verif.Props.C169_bad_cache",
    "Verif.Props.C169_violated_empty_core"
   ],
   "note": "Proved for all answers of Windows, except that a cluster may have no package, where the negation is proved."
  },
  {
   "property": "C170",
   "status": "partial",
   "theorems": [
    "Verif.Props.C170_lines",
    "Verif.Props.C170_read_back",
    "Verif.Props.C170_replay32",
    "Verif.Props.C170_replay64_exact",
    "Verif.Props.C170_violated_hwcap2",
    "Verif.Props.C170_errors",
    "Verif.Props.C170_violated_newline"
   ],
   "note": "Proved for 32-bit ARM; on 64-bit ARM C170_replay64_exact says exactly for which devices the dump suffices, negation proved for the others. The vector length of SVE is no part of the dump."
  },
  {
   "property": "C171",
   "status": "partial",
   "theorems": [
    "Verif.Props.C171_linux_exact",
    "Verif.Props.C171_windows_exact",
    "Verif.Props.C171_visual_studio",
    "Verif.Props.C171_warned_exact",
    "Verif.Props.C171_apple",
    "Verif.Props.C171_freebsd_exact",
    "Verif.Props.C171_cygwin_exact",
    "Verif.Props.C171_violated_universal",
    "Verif.Props.C171_violated_emscripten",
    "Verif.Props.C171_violated_warned",
    "Verif.Props.C171_violated_windows",
    "Verif.Props.C171_violated_silent"
   ],
   "note": "Exact for Linux, Android, Windows, FreeBSD, Cygwin and MSYS for all names of processors; proved for single architectures of Apple; negations proved where builds do not link. Link means: every called function is in a compiled file."
  },
  {
   "property": "C172",
   "status": "partial",
   "theorems": [
    "Verif.Props.C172_bazel",
    "Verif.Props.C172_bazel_decided",
    "Verif.Props.C172_bazel_targets",
    "Verif.Props.C172_ndk_exact",
    "Verif.Props.C172_violated_ndk_debug",
    "Verif.Props.C172_confu_exact",
    "Verif.Props.C172_violated_confu"
   ],
   "note": "Proved for Bazel; exact for ndk-build and confu, where the full claim is false (negations proved): src/log.c and files of some targets are not built."
  },
  {
   "property": "C173",
   "status": "proved",
   "theorems": [
    "Verif.Props.C173_brand",
    "Verif.Props.C173_package"
   ],
   "note": "For the form of the brand string given; other forms are covered by C31-C33 and C67-C69 only."
  },
  {
   "property": "C174",
   "status": "partial",
   "theorems": [
    "Verif.Props.C174_brand_partial",
    "Verif.Props.C174_digits_exact",
    "Verif.Props.C174_violated"
   ],
   "note": "False of the code (negation proved): of the numbers of cores in digits only 12-Core and 16-Core are erased; exact otherwise."
  },
  {
   "property": "C175",
   "status": "proved",
   "theorems": [
    "Verif.Props.C175_words",
    "Verif.Props.C175_distinct"
   ],
   "note": "For brand strings without '@', parentheses and words with a meaning; those with '@' in C173, with Eng Sample in C67."
  }
 ]
}