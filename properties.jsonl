{"id": "C01", "title": "CPU-list files parse the same however the kernel splits the reads", "statement": "Reading a sysfs CPU list (such as /sys/devices/system/cpu/possible) reports, in order, exactly the ranges of its comma-separated entries and succeeds exactly when every entry is well-formed, no matter how many bytes each read() returns, provided every entry is shorter than the internal read buffer. A malformed entry does not stop the later entries from being reported.", "quantifier": "every file content whose entries are shorter than the buffer, every error-free sequence of short reads", "why_tests_cant": "The number of ways a kernel may split a file into reads is exponential in its length; a test only exercises the splits its mock happens to produce (the bundled mock always fills the buffer).", "anchors": ["src/linux/cpulist.c: cpuinfo_linux_parse_cpulist, parse_entry, parse_number, is_whitespace"]}
{"id": "C02", "title": "CPU-list round trip", "statement": "For any list of inclusive processor ranges a-b with a <= b < 2^32-1, parsing the text the kernel prints for it (\"a\" or \"a-b\" joined by commas, with a final newline) reports exactly the half-open ranges [a, b+1) in order and succeeds.", "quantifier": "every non-empty list of ranges with bounds below 2^32-1, every read schedule", "why_tests_cant": "Infinitely many lists and numeric widths; tests cover a handful of literals.", "anchors": ["src/linux/cpulist.c: cpuinfo_linux_parse_cpulist, parse_entry"]}
{"id": "C03", "title": "Over-long CPU-list entries must not be lost silently", "statement": "A CPU-list parse that returns success has reported every entry of the file. (The code breaks this when an entry is at least as long as the read buffer: the entry is truncated, the rest of the file is dropped and success is returned.)", "quantifier": "every file content, every read schedule", "why_tests_cant": "Needs an entry that exactly fills the 256-byte buffer; ordinary machines never produce one, so ordinary tests never see the loss.", "anchors": ["src/linux/cpulist.c: cpuinfo_linux_parse_cpulist (buffer refill)"]}
{"id": "C04", "title": "Detecting present/possible processors marks exactly the listed processors", "statement": "After detecting present (or possible) processors into a table of N entries, an entry's present (possible) bit is newly set exactly for the listed processor numbers below N, all other bits and entries are unchanged, and no entry at or beyond N is accessed.", "quantifier": "every CPU-list file, every table size, every initial content of the table", "why_tests_cant": "Listed numbers may exceed the table; out-of-bounds behaviour depends on the relation of two independent unbounded inputs.", "anchors": ["src/linux/processors.c: cpuinfo_linux_detect_possible_processors, cpuinfo_linux_detect_present_processors, detect_processor_parser"]}
{"id": "C05", "title": "Maximum possible/present processor stays within the kernel limit", "statement": "The reported maximum possible (present) processor number is either the failure value 2^32-1 or is strictly below the given processor-count limit, and when the list is read successfully and is within the limit it is the largest processor number in the list.", "quantifier": "every CPU-list file, every limit >= 1", "why_tests_cant": "Relates the largest element of an unbounded list to an independent bound.", "anchors": ["src/linux/processors.c: cpuinfo_linux_get_max_possible_processor, cpuinfo_linux_get_max_present_processor, max_processor_number_parser"]}
{"id": "C06", "title": "Line-oriented files are delivered line by line for every read split", "statement": "Reading a multi-line file such as /proc/cpuinfo hands every line, in order and without its newline and with consecutive line numbers from 1, to the line handler, however the reads are split, provided every line is shorter than the buffer; it stops at the first line the handler rejects and then reports failure.", "quantifier": "every file content with lines shorter than the buffer, every read schedule, every handler", "why_tests_cant": "Same exponential number of read splits; off-by-one refill errors appear only at specific alignments of line ends and buffer ends.", "anchors": ["src/linux/multiline.c: cpuinfo_linux_parse_multiline_file"]}
{"id": "C07", "title": "A line longer than the buffer must not hide the rest of the file", "statement": "A successful multi-line parse has delivered the complete file content. (Broken: once a line fills the buffer, the remaining file is dropped and success is reported.)", "quantifier": "every file content, every buffer size, every read schedule", "why_tests_cant": "Requires a /proc/cpuinfo line of at least 1024 (ARM) or 2048 (x86) bytes, e.g. a long flags/Features line.", "anchors": ["src/linux/multiline.c: cpuinfo_linux_parse_multiline_file"]}
{"id": "C08", "title": "Small files are handed over whole or not at all", "statement": "Reading a small file with an N-byte buffer calls the handler exactly once with exactly the complete file content when the file is shorter than N bytes, returns the handler's verdict, and fails without calling the handler when the file has N or more bytes, for every split of the reads; a read error fails without calling the handler.", "quantifier": "every file content, every buffer size, every read schedule including errors", "why_tests_cant": "Partial reads and boundary sizes (N-1, N, N+1) combine; tests only use one-shot mock reads.", "anchors": ["src/linux/smallfile.c: cpuinfo_linux_parse_small_file"]}
{"id": "C09", "title": "Decimal sysfs values round-trip", "statement": "For every 32-bit value v, a sysfs file holding its decimal digits (optionally followed by a newline) is read as v; files that are empty or do not begin with a digit are rejected. The detected processor-count limit is kernel_max+1 whenever that fits 32 bits.", "quantifier": "every 32-bit value and every file content", "why_tests_cant": "2^32 values; wrap-around only at the last one.", "anchors": ["src/linux/processors.c: uint32_parser, parse_number, cpuinfo_linux_get_max_processors_count"]}
{"id": "C10", "title": "Sibling lists are clamped to the table", "statement": "When reading a processor's sibling list, every sibling range reported to the topology code lies inside the processor table, and the union of reported ranges is exactly the set of listed processors below the table size.", "quantifier": "every sibling list file, every table size, every processor", "why_tests_cant": "Combines unbounded list content with an independent table size.", "anchors": ["src/linux/processors.c: siblings_parser, cpuinfo_linux_detect_core_siblings, cpuinfo_linux_detect_thread_siblings, cpuinfo_linux_detect_cluster_cpus, cpuinfo_linux_detect_core_cpus, cpuinfo_linux_detect_package_cpus"]}
{"id": "C11", "title": "x86 /proc/cpuinfo: every in-range processor gets its APIC ID", "statement": "Parsing a /proc/cpuinfo text made of per-processor blocks (a processor line followed by any other lines and an apicid line) records for every listed processor number below the table size that it was listed and its APIC ID, and changes nothing else; numbers at or beyond the table size change nothing.", "quantifier": "every sequence of processor/APIC-ID pairs and unrelated lines, every table size", "why_tests_cant": "Sequences are unbounded, and order and out-of-range numbers interact through parser state.", "anchors": ["src/x86/linux/cpuinfo.c: cpuinfo_x86_linux_parse_proc_cpuinfo, parse_line, parse_apic_id, parse_processor_number"]}
{"id": "C12", "title": "Processor numbers in /proc/cpuinfo are plain decimal", "statement": "A processor value containing a non-digit character is not read as though that character were a digit. (Broken for ':' on both x86 and ARM, where it counts as digit ten.)", "quantifier": "every processor line value", "why_tests_cant": "Only one of 246 non-digit bytes triggers the off-by-one digit bound.", "anchors": ["src/x86/linux/cpuinfo.c: parse_processor_number", "src/arm/linux/cpuinfo.c: parse_processor_number"]}
{"id": "C13", "title": "Initialization runs exactly once under every schedule", "statement": "However many threads call cpuinfo_initialize() and however they interleave, detection runs at most once; every call that returns does so after detection finished, and all calls return the same verdict for the lifetime of the process (deinitialize included).", "quantifier": "every number of threads, every interleaving of initialize/deinitialize/query steps", "why_tests_cant": "Schedules are unbounded; races do not reproduce in unit tests.", "anchors": ["src/init.c: cpuinfo_initialize, cpuinfo_deinitialize"]}
{"id": "C14", "title": "A reader that sees 'initialized' sees the complete tables", "statement": "Because the flag is set only after all tables and counts are stored (and a barrier), any thread whose query passes the initialization check reads the final tables; a query before that point is a fatal error rather than a partial answer.", "quantifier": "every interleaving of one initializing thread and any number of querying threads (sequentially consistent memory)", "why_tests_cant": "Needs a query to land in the window between two stores.", "anchors": ["src/x86/linux/init.c: commit block", "src/api.c: getters", "src/init.c"]}
{"id": "C15", "title": "Index getters are total and bounded", "statement": "After initialization, asking for processor/core/cluster/package/uarch/cache number i returns element i exactly when i is below the corresponding count, and a null result otherwise; the counts agree with the tables.", "quantifier": "every initialized state, every 32-bit index", "why_tests_cant": "2^32 indices times every table size.", "anchors": ["src/api.c: cpuinfo_get_processor, cpuinfo_get_core, cpuinfo_get_cluster, cpuinfo_get_package, cpuinfo_get_uarch, cpuinfo_get_l1i_cache ... cpuinfo_get_l4_cache"]}
{"id": "C16", "title": "Current-processor queries never leave the tables", "statement": "Asking for the current processor, core or microarchitecture index yields an element of the published tables belonging to the CPU the OS reports, or null / 0 / the caller's default when the OS call fails or reports a CPU outside the table.", "quantifier": "every published table, every OS answer", "why_tests_cant": "CPU hot-plug can report any number; tests run on a fixed machine.", "anchors": ["src/api.c: cpuinfo_get_current_processor, cpuinfo_get_current_core, cpuinfo_get_current_uarch_index, cpuinfo_get_current_uarch_index_with_default"]}
{"id": "C17", "title": "x86: processors are partitioned into cores, clusters and packages", "statement": "After x86/Linux detection, the processor ranges of the cores (and of clusters and packages) are non-empty, contiguous, pairwise disjoint and cover all logical processors in order; the published counts equal the numbers of ranges.", "quantifier": "every set of usable processors with distinct APIC IDs, every decoded topology with package ids distinct from the all-ones sentinel", "why_tests_cant": "Any number of processors and any APIC numbering; tests replay a few machines.", "anchors": ["src/x86/linux/init.c: cpuinfo_x86_linux_init, cpuinfo_x86_count_objects"]}
{"id": "C18", "title": "x86: two processors share a core/cluster/package exactly when their APIC IDs say so", "statement": "Two logical processors point to the same core (package, cluster) exactly when their APIC IDs agree on the bits outside the SMT (SMT and core, SMT/core/last-level-cache) fields.", "quantifier": "every pair of usable processors, every APIC assignment and bit layout of contiguous low fields", "why_tests_cant": "Quantifies over all pairs and all APIC layouts.", "anchors": ["src/x86/linux/init.c: cpuinfo_x86_linux_init"]}
{"id": "C19", "title": "x86: links agree with ranges", "statement": "Every processor lies in the processor range of the core, cluster, package and caches it links to; a core's range lies in its cluster's and package's ranges; core/cluster ranges of packages are correct index ranges; the id of a processor in its core is its offset in the core.", "quantifier": "every x86/Linux detection result", "why_tests_cant": "Ties together seven counters advanced in one loop; each interleaving of 'new core / same core' events is a different path.", "anchors": ["src/x86/linux/init.c: cpuinfo_x86_linux_init (main loop)"]}
{"id": "C20", "title": "x86: Linux CPU number lookup is inverse to the published numbering", "statement": "For every usable Linux CPU number n, the processor and core found for n are those whose linux_id is n; unusable numbers map to null.", "quantifier": "every set of usable processors and every order of APIC IDs", "why_tests_cant": "The table is written through a permutation produced by sorting.", "anchors": ["src/x86/linux/init.c: linux_cpu_to_processor_map, linux_cpu_to_core_map"]}
{"id": "C21", "title": "x86: cache sharing follows the APIC mask", "statement": "For every cache level present, each processor links to a cache whose processor range contains it, the ranges partition the processors, the published count equals the number of caches, and two processors share a cache exactly when their APIC IDs agree above the level's sharing bits; a level with size zero links to nothing.", "quantifier": "every set of usable processors, every cache description", "why_tests_cant": "As C17/C18, for five levels with independent masks.", "anchors": ["src/x86/linux/init.c: cpuinfo_x86_linux_init, cpuinfo_x86_count_objects"]}
{"id": "C22", "title": "x86: an all-ones APIC ID must not corrupt memory", "statement": "Detection never indexes a table before its first element. (Broken when the first usable processor's masked APIC id is 0xFFFFFFFF, which collides with the 'no previous id' sentinel.)", "quantifier": "every set of usable processors and APIC IDs", "why_tests_cant": "A single value out of 2^32 at one position.", "anchors": ["src/x86/linux/init.c: last_core_id, last_l1i_id sentinels"]}
{"id": "C23", "title": "x86: bit fields of the extended topology leaf are disjoint", "statement": "After decoding CPUID leaf 0xB, the SMT field and the core field are the bit ranges the leaf describes: SMT covers the bits below the first shift, core the bits from there up to the second shift. (Broken: the shift counts are cumulative but the code treats them as field lengths.)", "quantifier": "every sequence of leaf-0xB answers", "why_tests_cant": "Depends on sub-leaf order and values supplied by firmware.", "anchors": ["src/x86/topology.c: cpuinfo_x86_detect_topology"]}
{"id": "C24", "title": "x86: legacy topology decoding", "statement": "On the pre-x2APIC paths the SMT field starts at bit 0, the core field starts where the SMT field ends, and together they are wide enough for the reported number of logical processors; no shift by 32 or more results. (Broken on Intel when the core field is wider than the logical-processor field.)", "quantifier": "every CPUID leaf 1/4/0x80000008 answer, every vendor", "why_tests_cant": "Needs inconsistent CPUID answers as produced by some hypervisors.", "anchors": ["src/x86/topology.c: cpuinfo_x86_detect_topology", "src/cpuinfo/utils.h: bit_length"]}
{"id": "C25", "title": "x86: deterministic cache parameters are decoded faithfully", "statement": "For each sub-leaf of CPUID leaf 4 (and AMD leaf 0x8000001D) of a supported type and level, exactly one cache level is filled, with size = ways*partitions*line*sets of the leaf's fields (exactly, when it fits 32 bits), the flags of the leaf and enough sharing bits for the number of sharers; unknown types or levels change nothing; enumeration ends exactly at the first null sub-leaf.", "quantifier": "every 4-tuple of register values, every prior cache state", "why_tests_cant": "2^128 register values.", "anchors": ["src/x86/cache/deterministic.c", "src/x86/cache/init.c", "src/cpuinfo/utils.h: bit_length"]}
{"id": "C26", "title": "x86: descriptor table geometry", "statement": "For every CPUID leaf-2 descriptor byte, vendor, family and model, any cache entry it fills satisfies size = associativity * sets * partitions * line_size. (Broken for descriptor 0xD2, whose size is mistyped.)", "quantifier": "every descriptor byte, every vendor, family and model, every prior cache state", "why_tests_cant": "256 descriptors times model-dependent cases; the existing tests check only CPUs in the mock set.", "anchors": ["src/x86/cache/descriptor.c: cpuinfo_x86_decode_cache_descriptor"]}
{"id": "C27", "title": "x86: AVX-class features are reported only with OS support", "statement": "cpuinfo reports AVX, FMA, F16C, AVX2, XOP/FMA4 and all AVX-512 families only if the CPU advertises them and the OS enabled the corresponding register state (OSXSAVE with the needed XCR0 bits valid and set).", "quantifier": "every combination of CPUID and XCR0 values", "why_tests_cant": "Reports depend on 10 registers of 32 bits and one of 64 bits.", "anchors": ["src/x86/isa.c: cpuinfo_x86_detect_isa"]}
{"id": "C28", "title": "x86: feature dependency implications", "statement": "Reported AVX10.2 implies AVX10.1; and every reported AVX-512 extension implies that the OS enabled the full AVX-512 state; features needing a CPUID leaf beyond the maximum are never reported.", "quantifier": "every combination of CPUID values", "why_tests_cant": "Relational over many independent bits.", "anchors": ["src/x86/isa.c: cpuinfo_x86_detect_isa"]}
{"id": "C29", "title": "x86: vendor identification is exact", "statement": "A vendor is reported exactly when the 12-byte vendor string equals one of that vendor's known strings; any other string is 'unknown'.", "quantifier": "every 12-byte string", "why_tests_cant": "2^96 strings.", "anchors": ["src/x86/vendor.c: cpuinfo_x86_decode_vendor"]}
{"id": "C30", "title": "x86: family/model/stepping decode", "statement": "Base/extended family and model are combined into the documented display family and model for every signature, and the fields are within their documented ranges. (Broken: the extended fields are always added, also where the manuals say they do not apply.)", "quantifier": "every 32-bit signature", "why_tests_cant": "2^32 signatures.", "anchors": ["src/x86/info.c: cpuinfo_x86_decode_model_info"]}
{"id": "C31", "title": "Brand string normalization stays inside its buffer", "statement": "For every 48-byte brand string, normalization reads and writes only within the 48-byte buffers and the result is a NUL-terminated string of at most 47 characters, or fills all 48 bytes only if the input did.", "quantifier": "every 48-byte string", "why_tests_cant": "256^48 inputs; in-place token moves.", "anchors": ["src/x86/name.c: cpuinfo_x86_normalize_brand_string, transform_token"]}
{"id": "C32", "title": "Normalized brand strings are tidy", "statement": "The normalized brand string has no leading, trailing or doubled spaces and is idempotent in spacing.", "quantifier": "every 48-byte string", "why_tests_cant": "256^48 inputs.", "anchors": ["src/x86/name.c: cpuinfo_x86_normalize_brand_string"]}
{"id": "C33", "title": "Package names are bounded and prefixed", "statement": "The package name is always NUL-terminated within 48 bytes; for a known vendor and non-empty brand it is the vendor name, a space and the brand truncated to fit, and the returned offset points at the brand part.", "quantifier": "every vendor and brand string", "why_tests_cant": "Truncation boundary depends on both lengths.", "anchors": ["src/x86/name.c: cpuinfo_x86_format_package_name"]}
{"id": "C34", "title": "The maximum cache size is that of the last level present", "statement": "cpuinfo_get_max_cache_size() is the size of the highest-numbered data/unified cache level the processor has, and 0 when it has none.", "quantifier": "every combination of present/absent cache levels", "why_tests_cant": "Relational specification over all combinations; also feeds sizing in callers.", "anchors": ["src/cache.c: cpuinfo_compute_max_cache_size"]}
{"id": "C35", "title": "ARM: MIDR fields are independent and round-trip", "statement": "Setting implementer, variant, architecture, part or revision changes exactly that field of the MIDR; reading it back returns the value (masked to the field); setting all five reconstructs the register.", "quantifier": "every 32-bit MIDR and every field value", "why_tests_cant": "2^64 combinations.", "anchors": ["src/arm/midr.h: midr_set_*, midr_get_*, midr_copy_*"]}
{"id": "C36", "title": "ARM: the processor ordering is a total order", "statement": "The comparison used to sort processors is a consistent total order (antisymmetric, transitive, and zero only for the same processor), so sorting is deterministic; valid processors come first, then faster core types, then higher frequency, then cluster.", "quantifier": "every pair and triple of processor records", "why_tests_cant": "An inconsistent comparator makes qsort undefined; needs all triples.", "anchors": ["src/arm/linux/init.c: cmp_arm_linux_processor", "src/arm/midr.h: midr_score_core"]}
{"id": "C37", "title": "ARM: cluster heuristic is all-or-nothing and produces the documented shape", "statement": "The count-based cluster heuristic either leaves every processor unchanged and reports failure, or assigns every usable processor to consecutive clusters of the documented sizes (4+4+2, 4+4, 4+2) led by their first member.", "quantifier": "every table of processors with any flags, MIDRs and frequencies", "why_tests_cant": "Depends on positions of unusable processors between usable ones.", "anchors": ["src/arm/linux/clusters.c: cpuinfo_arm_linux_detect_core_clusters_by_heuristic"]}
{"id": "C38", "title": "ARM: sequential cluster scan", "statement": "The fallback scan gives every usable processor without a cluster a leader that is a usable processor with index not above its own, starts a new cluster exactly where identity, frequency or pre-assigned cluster forces it, and never changes processors that already had a cluster.", "quantifier": "every table of processors", "why_tests_cant": "Unbounded tables with arbitrary mixes of known and unknown attributes.", "anchors": ["src/arm/linux/clusters.c: cpuinfo_arm_linux_detect_core_clusters_by_sequential_scan"]}
{"id": "C39", "title": "ARM: cluster leaders are representatives", "statement": "After cluster detection every usable processor's leader is a usable processor that leads itself, two processors have the same leader iff they are in the same cluster, and per-cluster counts add up to the number of usable processors.", "quantifier": "every table of processors and sibling lists", "why_tests_cant": "Unbounded tables; the fix-point argument over leader chains.", "anchors": ["src/arm/linux/init.c: cluster_siblings_parser, leader propagation", "src/arm/linux/clusters.c: cpuinfo_arm_linux_count_cluster_processors"]}
{"id": "C40", "title": "ARM /proc/cpuinfo: field parsers are exact", "statement": "CPU part/implementer/variant values of the form 0xH..H of permitted length set exactly that MIDR field to the hexadecimal value; any malformed value leaves the processor unchanged; revision accepts exactly decimal strings.", "quantifier": "every value text", "why_tests_cant": "Unbounded texts; malformed ones must have no partial effect.", "anchors": ["src/arm/linux/cpuinfo.c: parse_cpu_part, parse_cpu_implementer, parse_cpu_variant, parse_cpu_revision"]}
{"id": "C41", "title": "ARM /proc/cpuinfo: Features are exactly the listed known words", "statement": "After parsing a Features line, a feature bit is set exactly if its word occurs as a space-separated token (or was set before); unknown words have no effect.", "quantifier": "every Features line", "why_tests_cant": "Unbounded lines; prefixes of words must not match.", "anchors": ["src/arm/linux/cpuinfo.c: parse_features"]}
{"id": "C42", "title": "ARM /proc/cpuinfo: Hardware/Revision never overrun their buffers", "statement": "Storing the Hardware and Revision strings writes only inside the fixed buffers and leaves them NUL-terminated. (Broken: a 64-byte Hardware or 9-byte Revision value writes one byte past the end; a longer one leaves the string unterminated.)", "quantifier": "every value text", "why_tests_cant": "Only exact boundary lengths show it; ASAN-less tests pass.", "anchors": ["src/arm/linux/cpuinfo.c: parse_line"]}
{"id": "C43", "title": "ARM: processor identity comparison", "statement": "The 'same core type' and 'different core type' predicates used for clustering are symmetric and never both true; processors with fully known equal identity are never 'different'.", "quantifier": "every pair of processor records", "why_tests_cant": "All flag combinations times all MIDRs.", "anchors": ["src/arm/linux/api.h: cpuinfo_arm_linux_processor_equals, cpuinfo_arm_linux_processor_not_equals"]}
{"id": "C44", "title": "ARM: decoded cache geometry is consistent", "statement": "For every known microarchitecture and chipset, decoded caches satisfy sets*associativity*line_size = size with non-zero divisor, so no division by zero occurs and no remainder is lost.", "quantifier": "every microarchitecture, core count, cluster id, chipset and architecture version", "why_tests_cant": "The table has over fifty cases with nested chipset-specific alternatives and a size scaled by the number of cores.", "anchors": ["src/arm/cache.c: cpuinfo_arm_decode_cache"]}
{"id": "C45", "title": "ARM: chipset vendor always matches the series", "statement": "Whatever the Hardware string, the decoded chipset is either unknown/unknown or has a known series and exactly the vendor that owns that series, with a suffix that fits its buffer.", "quantifier": "every Hardware string, core count and frequency", "why_tests_cant": "Thousands of pattern combinations on unbounded strings.", "anchors": ["src/arm/linux/chipset.c: cpuinfo_arm_linux_decode_chipset_from_proc_cpuinfo_hardware, match_*"]}
{"id": "C46", "title": "ARM: chipset names are never truncated", "statement": "The printed chipset name of any decoded chipset fits the 48-byte name buffer with its terminator, so printing is lossless: vendor, series, model and suffix can be read off it.", "quantifier": "every vendor, series, model and suffix", "why_tests_cant": "Requires the maximum over all combinations.", "anchors": ["src/arm/linux/chipset.c: cpuinfo_arm_chipset_to_string"]}
{"id": "C47", "title": "ARM: Leadcore suffix is preserved", "statement": "A Leadcore platform string with a suffix letter decodes to a chipset with that suffix. (Broken: the suffix is overwritten.)", "quantifier": "every matching platform string", "why_tests_cant": "Only strings with suffix letters show it.", "anchors": ["src/arm/linux/chipset.c: match_lc"]}
{"id": "C48", "title": "RISC-V: topology links follow sibling lists", "statement": "Every processor is linked to the core, cluster and package whose leader its sibling lists name. (Holds for contiguous lists, broken for interleaved lists such as 0,2 / 1,3.)", "quantifier": "every family of sibling lists", "why_tests_cant": "Interleavings are exponential in processor count.", "anchors": ["src/riscv/linux/init.c: cpuinfo_riscv_linux_init, core_cpus_parser, cluster_cpus_parser, package_cpus_parser"]}
{"id": "C49", "title": "RISC-V: ISA bits", "statement": "Each reported RISC-V extension equals the corresponding hardware-capability bit.", "quantifier": "every hwcap value", "why_tests_cant": "2^32 values.", "anchors": ["src/riscv/linux/riscv-isa.c: cpuinfo_riscv_linux_decode_isa_from_hwcap"]}
{"id": "C50", "title": "Emscripten: every published element is populated", "statement": "All indices below a published count refer to allocated, populated elements. (Broken: core and L1 counts are published as the logical-processor count even when only half as many cores exist.)", "quantifier": "every number of logical processors", "why_tests_cant": "Depends on parity and architecture flag.", "anchors": ["src/emscripten/init.c: cpuinfo_emscripten_init"]}
{"id": "C51", "title": "Mach/FreeBSD: uniform topology is a partition", "statement": "When threads, cores and packages divide evenly, the ranges assigned by division are a partition with matching links, and all indices are in bounds. (Broken when they do not divide evenly: links point past the tables.)", "quantifier": "every triple of thread/core/package counts", "why_tests_cant": "Unbounded counts; divisibility relation.", "anchors": ["src/x86/mach/init.c: cpuinfo_x86_mach_init", "src/x86/freebsd/init.c: cpuinfo_x86_freebsd_init"]}
{"id": "C52", "title": "Mach x86: cache count matches cache table", "statement": "A cache level's published count is non-zero only if the table exists. (Broken on Mach/FreeBSD x86 when exactly one of L1I/L1D is reported: both counts are published.)", "quantifier": "every cache description", "why_tests_cant": "Needs a CPU reporting only one L1.", "anchors": ["src/x86/mach/init.c: cpuinfo_x86_mach_init"]}
{"id": "C53", "title": "Windows: affinity masks are visited exactly once per set bit", "statement": "Iterating a processor group's affinity mask visits exactly the set bits in increasing order, and processor numbering by (group, bit) is injective.", "quantifier": "every 64-bit mask and every list of group sizes", "why_tests_cant": "2^64 masks.", "anchors": ["src/x86/windows/init.c: low_index_from_kaffinity, cpuinfo_x86_windows_init"]}
{"id": "C54", "title": "Log lines are emitted complete", "statement": "A log call emits exactly prefix, formatted message and newline in one write. (Broken when their total length is exactly the 1024-byte buffer: the last character is replaced by a NUL byte.)", "quantifier": "every message text and log level", "why_tests_cant": "Only one exact length shows it.", "anchors": ["src/log.c: cpuinfo_vlog"]}
{"id": "C55", "title": "ARM64: ISA flags reflect kernel features", "statement": "Each reported ARM64 extension flag equals its documented condition on the kernel feature words and the core id; FP16/RDM/DOT overrides apply only to the listed cores.", "quantifier": "every pair of feature words and every MIDR, variant", "why_tests_cant": "2^96 combinations.", "anchors": ["src/arm/linux/aarch64-isa.c: cpuinfo_arm64_linux_decode_isa_from_proc_cpuinfo"]}
{"id": "C56", "title": "Per-processor sysfs file names always fit their buffers", "statement": "For every 32-bit processor number, the formatted name of each per-processor sysfs file, with its terminator, fits the fixed buffer it is formatted into, so no query fails because of the number's size.", "quantifier": "every processor number and file suffix", "why_tests_cant": "2^32 numbers; the buffer size comes from stringifying a macro name, not a number.", "anchors": ["src/linux/processors.c: PROCESSOR_CUR_FREQUENCY_FILENAME_SIZE, PACKAGE_ID_FILENAME_SIZE"]}
{"id": "C57", "title": "x86/Linux: detection without usable processors fails cleanly", "statement": "If the sysfs lists and /proc/cpuinfo leave no usable processor, detection reports failure and publishes nothing. (Broken: cpuinfo_processors[0] of an empty table is read.)", "quantifier": "every combination of sysfs and /proc/cpuinfo contents", "why_tests_cant": "Needs contradictory kernel files.", "anchors": ["src/x86/linux/init.c: cpuinfo_x86_linux_init"]}
{"id": "C58", "title": "x86/Linux: offline processors are not reported as siblings", "statement": "Every published processor has the APIC id /proc/cpuinfo gives for it, so a processor is only reported as sharing a core with processors of that core. (Broken: a present but offline processor is not in /proc/cpuinfo and is published with APIC id 0, as one more thread of the core with APIC id 0.)", "quantifier": "every set of possible, present and online processors", "why_tests_cant": "Needs a machine with offline processors.", "anchors": ["src/x86/linux/init.c: cpuinfo_x86_linux_init"]}
{"id": "C59", "title": "x86: an empty extended topology leaf leaves the legacy topology in force", "statement": "When CPUID leaf 0xB exists but lists no level (as under some hypervisors), processors are grouped into cores and packages as leaves 1 and 4 (or AMD's extended leaves) say. (Broken: all fields are erased, so every APIC id becomes a package of its own.)", "quantifier": "every CPUID answer", "why_tests_cant": "Needs a machine or hypervisor with x2APIC and an empty leaf 0xB.", "anchors": ["src/x86/topology.c: cpuinfo_x86_detect_topology"]}
{"id": "C60", "title": "x86: invalid descriptor registers contribute nothing", "statement": "Registers of a CPUID leaf-2 answer whose bit 31 is set hold no descriptors, so no cache is reported because of them. (Broken: their bytes are decoded like any other; bit 31 itself makes the top byte at least 0x80.)", "quantifier": "every CPUID leaf-2 answer", "why_tests_cant": "Needs hardware that reports an invalid register.", "anchors": ["src/x86/cache/init.c: cpuinfo_x86_detect_cache, cpuinfo_x86_decode_cache_descriptor"]}
{"id": "C61", "title": "x86: descriptors mean what Intel documents", "statement": "Every documented leaf-2 cache descriptor fills the documented level with the documented size, associativity and line size and nothing else; undocumented descriptors fill nothing. (Broken for 0x82, reported 4-way instead of 8-way, and 0xD2, whose size is mistyped; the undocumented 0x39-0x3E are decoded.)", "quantifier": "every descriptor byte, vendor, family and model and every prior state of the caches", "why_tests_cant": "Each descriptor needs its own generation of hardware.", "anchors": ["src/x86/cache/descriptor.c: cpuinfo_x86_decode_cache_descriptor"]}
{"id": "C62", "title": "x86: the microarchitecture belongs to the vendor", "statement": "A microarchitecture is reported only for processors of the vendor that makes it, and every processor signature of a supported design is recognized. (Broken: Hygon Dhyana is family 0x18 but the code looks for family 0, so it is never reported.)", "quantifier": "every vendor string and signature", "why_tests_cant": "2^32 signatures for each vendor.", "anchors": ["src/x86/uarch.c: cpuinfo_x86_decode_uarch"]}
{"id": "C63", "title": "x86: leaves beyond the advertised maxima have no influence", "statement": "Vendor, microarchitecture, signature, caches and topology depend only on the CPUID leaves that exist according to leaves 0 and 0x80000000; what the processor answers to higher leaves (Intel: the data of the highest basic leaf) has no influence.", "quantifier": "every two CPUID answer functions that agree on the existing leaves", "why_tests_cant": "Relates two arbitrary processors.", "anchors": ["src/x86/init.c: cpuinfo_x86_init_processor", "src/x86/cache/init.c: cpuinfo_x86_detect_cache", "src/x86/topology.c: cpuinfo_x86_detect_topology"]}
{"id": "C64", "title": "x86: every instruction-set flag is exact", "statement": "Each cpuinfo_isa flag is set exactly when a documented CPUID bit in an existing leaf advertises the feature and the operating system has enabled the register state the feature needs; without leaf 1 no flag is set.", "quantifier": "every CPUID answer, XCR0 and MXCSR mask, for 97 flags", "why_tests_cant": "A mistyped mask among 97 shows only on hardware that differs in the two bits.", "anchors": ["src/x86/isa.c: cpuinfo_x86_detect_isa", "src/x86/init.c: cpuinfo_x86_init_processor"]}
{"id": "C65", "title": "x86: VAES, VPCLMULQDQ and AMX are reported only with their register state", "statement": "VAES and VPCLMULQDQ, whose instructions use AVX registers, are reported only if the operating system enabled the AVX state; AMX only, and whenever, it enabled the tile state. (Broken: VAES and VPCLMULQDQ ignore the operating system; AMX looks at the AVX-512 state instead of the tile state.)", "quantifier": "every CPUID answer and XCR0", "why_tests_cant": "Needs an operating system that enables one state but not the other.", "anchors": ["src/x86/isa.c: cpuinfo_x86_detect_isa"]}
{"id": "C66", "title": "x86: cpuinfo_has_x86_* return the detected flag or the target's baseline", "statement": "Every cpuinfo_has_x86_* function returns its own detected flag, except that features guaranteed by the target ABI are constantly true and those the target cannot use constantly false; no function returns a flag the build never sets.", "quantifier": "all four x86 build targets and every flag table", "why_tests_cant": "One build sees one target; a copy-paste slip shows only where two flags differ.", "anchors": ["include/cpuinfo.h: cpuinfo_has_x86_*"]}
{"id": "C67", "title": "x86: brand strings are discarded only for engineering samples", "statement": "A brand string is discarded as that of an engineering sample only if the word Engineering or Eng stands right before the word Sample. (Broken: any later word Sample counts, because the mark left by Engineering is never cleared.)", "quantifier": "every 48-byte string", "why_tests_cant": "Needs a string with other words between the two; no test vector has one.", "anchors": ["src/x86/name.c: reset_context, transform_token"]}
{"id": "C68", "title": "x86: vendor names and filler words never appear in a normalized brand string", "statement": "No word of the normalized brand string is a vendor name or filler word such as CPU, Processor or APU. (Broken for 48 characters without NUL, cut to 47, and for words with a dash put together from two.)", "quantifier": "every 48-byte string", "why_tests_cant": "Words are removed one at a time in a buffer that earlier tokens have changed; a removed or moved word could complete another.", "anchors": ["src/x86/name.c: erase_matching, transform_token, cpuinfo_x86_normalize_brand_string"]}
{"id": "C69", "title": "x86: normalization returns the length of the string it stores", "statement": "The value returned by cpuinfo_x86_normalize_brand_string is the length of the stored string. (Broken when all 48 bytes are used: 48 is returned, 47 characters are stored.)", "quantifier": "every 48-byte string", "why_tests_cant": "Only a brand string without a terminating NUL shows it.", "anchors": ["src/x86/name.c: cpuinfo_x86_normalize_brand_string"]}
{"id": "C70", "title": "ARM /proc/cpuinfo: CPU architecture values", "statement": "A CPU architecture value that starts with a number sets the architecture version to that number and the architecture field of the MIDR to the documented code; any other value leaves the processor unchanged. (Broken: a malformed value still rewrites the architecture field.)", "quantifier": "every value text and processor record", "why_tests_cant": "Unbounded texts; the damage shows only if the field had been set before.", "anchors": ["src/arm/linux/cpuinfo.c: parse_cpu_architecture"]}
{"id": "C71", "title": "ARM /proc/cpuinfo: cache numbers", "statement": "A cache number of /proc/cpuinfo is stored and marked valid exactly if it is a decimal number that makes sense; values reported as ignored are ignored. (Broken: zero and line lengths that are no power of two are logged as ignored, then stored and marked valid.)", "quantifier": "every value text", "why_tests_cant": "Only kernels that print odd values show it.", "anchors": ["src/arm/linux/cpuinfo.c: parse_cache_number"]}
{"id": "C72", "title": "ARM /proc/cpuinfo: the parser stays inside its memory", "statement": "Parsing any /proc/cpuinfo content accesses only the processor table and the two text buffers. (Broken only by a Hardware value of exactly 64 or a Revision value of exactly 9 characters.)", "quantifier": "every file content, every split of the reads, every table size", "why_tests_cant": "Unbounded inputs; out-of-bounds accesses rarely crash a test.", "anchors": ["src/arm/linux/cpuinfo.c: parse_line, parse_features, cpuinfo_arm_linux_parse_proc_cpuinfo"]}
{"id": "C73", "title": "ARM /proc/cpuinfo: every listed processor gets its identity", "statement": "After parsing the text a 64-bit kernel prints, every listed processor below the limit has exactly the MIDR, architecture version and capability bits its block states; all other entries are unchanged, and the Hardware text is stored.", "quantifier": "every list of processors with distinct numbers, every feature list, every split of the reads", "why_tests_cant": "Unbounded texts; blocks may arrive in any order and split anywhere by read().", "anchors": ["src/arm/linux/cpuinfo.c: cpuinfo_arm_linux_parse_proc_cpuinfo"]}
{"id": "C74", "title": "ARM: LITTLE companions of big cores", "statement": "For every big core with a known LITTLE companion, any variant and revision gives the documented companion; every other core is its own companion. (Broken: Kryo 280 Gold is never recognised, because the mask clears bits its case label contains.)", "quantifier": "every 32-bit MIDR", "why_tests_cant": "Only devices with one undetected cluster of that core show it.", "anchors": ["src/arm/midr.h: midr_little_core_for_big"]}
{"id": "C75", "title": "ARM: LITTLE companions never sort before their big cores", "statement": "The core score used for sorting depends on implementer and part only, and the LITTLE companion of a big core never scores higher than the big core.", "quantifier": "every 32-bit MIDR, both instruction sets", "why_tests_cant": "2^32 registers; two independent tables must agree.", "anchors": ["src/arm/midr.h: midr_score_core, midr_little_core_for_big"]}
{"id": "C76", "title": "ARM: every microarchitecture is listed once", "statement": "The published list of microarchitectures names every microarchitecture once, with the number of processors and cores that have it, and the index of a processor leads to its own microarchitecture. (Broken: processors are sorted by core score and frequency, so a microarchitecture whose clusters are not adjacent is listed twice.)", "quantifier": "every processor table, every decoder of microarchitectures", "why_tests_cant": "Depends on the frequencies and MIDRs of all clusters together.", "anchors": ["src/arm/linux/init.c: cpuinfo_arm_linux_init", "src/linux/processors.c"]}
{"id": "C77", "title": "ARM: the published processors are the ones listed, possible and present", "statement": "The published processors are exactly the possible and present processors that /proc/cpuinfo lists. (Broken: the number of listed processors is published, but unlisted ones can sort first, so offline processors are published in place of online ones.)", "quantifier": "every combination of kernel lists and /proc/cpuinfo", "why_tests_cant": "Needs a device with offline processors and unknown core types.", "anchors": ["src/arm/linux/init.c: cpuinfo_arm_linux_init"]}
{"id": "C78", "title": "ARM: reported identities are kept", "statement": "Completing the identities of clusters keeps every identity /proc/cpuinfo reports completely: the leader of a cluster with a completely described member ends up with the identity of the first such member, and only cluster leaders change; the only exception is a single identity printed at the end of /proc/cpuinfo on a system with several clusters, which the kernel does not attribute to a processor.", "quantifier": "every processor table, every chipset, every number of processors", "why_tests_cant": "Four heuristics with fall-backs run one after the other; tests see single devices.", "anchors": ["src/arm/linux/midr.c: cpuinfo_arm_linux_detect_cluster_midr"]}
{"id": "C79", "title": "ARM: guesses never contradict what is known", "statement": "The identity guessed for a cluster agrees with every detail /proc/cpuinfo gives about its leader. (Broken: the sequential scan overwrites known implementer and part of a leader whose description is incomplete.)", "quantifier": "every processor table, every chipset", "why_tests_cant": "Needs a partly described cluster.", "anchors": ["src/arm/linux/midr.c: cpuinfo_arm_linux_detect_cluster_midr_by_chipset, cpuinfo_arm_linux_detect_cluster_midr_by_sequential_scan"]}
{"id": "C80", "title": "ARM: known chipsets get their documented cores", "statement": "If the table of chipsets has an entry that fits the clusters found and nothing reported speaks against it, every incompletely described system gets exactly the cores of the entry; every entry is consistent, so it can fit. (Broken: the entry of the octa-core MT6592 says 4 cores in clusters of 4+4 and never fits.)", "quantifier": "every processor table, every entry", "why_tests_cant": "Unbounded tables; an entry that never fits is silently skipped.", "anchors": ["src/arm/linux/midr.c: cluster_configs, cpuinfo_arm_linux_detect_cluster_midr_by_chipset"]}
{"id": "C81", "title": "ARM: the big.LITTLE heuristic", "statement": "On a system with two clusters of which one is identified, the other one gets the LITTLE companion of the identified core if it is the LITTLE one, and the identified core otherwise; the LITTLE cluster is the slower one, or the first one if frequencies are unknown. (Broken: the heuristic is given the number of identified processors instead of clusters and refuses clusters with two identified processors.)", "quantifier": "every processor table", "why_tests_cant": "Only partly described systems show it.", "anchors": ["src/arm/linux/midr.c: cpuinfo_arm_linux_detect_cluster_midr_by_big_little_heuristic"]}
{"id": "C82", "title": "ARM: sequential scan of identities", "statement": "The fall-back scan gives every incompletely described cluster leader the identity of the last completely described leader before it, or the given default if there is none, and changes nothing else.", "quantifier": "every processor table, every default", "why_tests_cant": "Unbounded tables.", "anchors": ["src/arm/linux/midr.c: cpuinfo_arm_linux_detect_cluster_midr_by_sequential_scan"]}
{"id": "C83", "title": "ARM: processor and core ranges partition the processors", "statement": "In the tables of an ARM system, the processor ranges of the clusters follow each other from 0 to the number of processors; so do their core ranges; every core has one processor and the package has all of them.", "quantifier": "every content of sysfs and /proc/cpuinfo that lists the usable processors, every decoder", "why_tests_cant": "Unbounded numbers of processors and clusters.", "anchors": ["src/arm/linux/init.c: cpuinfo_arm_linux_init"]}
{"id": "C84", "title": "ARM: links and ranges agree", "statement": "A processor (core) links to a cluster exactly when it is in the range of the cluster, all links lead to entries of their tables, and cores link to the single package.", "quantifier": "every detected ARM system", "why_tests_cant": "Relation of several tables of unbounded size.", "anchors": ["src/arm/linux/init.c: cpuinfo_arm_linux_init"]}
{"id": "C85", "title": "ARM: Linux CPU numbers map to their processors", "statement": "The map from Linux CPU numbers to processors is the inverse of the numbers in the processor table; the core map agrees; numbers of unusable processors map to null; a number is mapped exactly when the kernel files make the processor usable.", "quantifier": "every detected ARM system, every CPU number", "why_tests_cant": "cpuinfo_get_current_processor depends on it for every CPU number.", "anchors": ["src/arm/linux/init.c: cpuinfo_arm_linux_init", "src/api.c: cpuinfo_get_current_processor"]}
{"id": "C86", "title": "ARM: clusters are homogeneous", "statement": "All cores of a cluster have the vendor, microarchitecture, MIDR of the cluster, and these are what the decoder makes of the MIDR.", "quantifier": "every detected ARM system, every decoder", "why_tests_cant": "Unbounded tables.", "anchors": ["src/arm/linux/init.c: cpuinfo_arm_linux_init"]}
{"id": "C87", "title": "ARM: L1 caches belong to one processor each", "statement": "Every processor has L1 instruction and data caches of its own, whose range is that processor and whose geometry is that of the decoder, or the numbers of /proc/cpuinfo if given. (Broken: caches taken from the numbers have an empty range.)", "quantifier": "every detected ARM system, every decoder", "why_tests_cant": "Only old kernels report cache numbers.", "anchors": ["src/arm/linux/init.c: cpuinfo_arm_linux_init"]}
{"id": "C88", "title": "ARM: L2 and L3 caches", "statement": "With a shared L3 cache each processor has its own L2 cache; without L3 the processors of a cluster share one; the range of a cache holds exactly the processors that link to it; a cluster of a chip with an L3 cache has a link to it. (Broken: clusters whose L3 size differs from that of the first cluster share storage, and a cluster can lack its L3.)", "quantifier": "every detected ARM system, every decoder of caches", "why_tests_cant": "Depends on the cache sizes of all clusters together.", "anchors": ["src/arm/linux/init.c: cpuinfo_arm_linux_init"]}
{"id": "C89", "title": "ARM: detection has no undefined behaviour", "statement": "For every content of the kernel files ARM detection ends without reading or writing outside its tables. (Broken: without any usable processor it reads before its tables, and with processors of different architecture versions it forms a wild L2 pointer.)", "quantifier": "every content of sysfs and /proc/cpuinfo, every allocation outcome, every decoder", "why_tests_cant": "Needs unusual kernel files; out-of-bounds accesses may go unnoticed.", "anchors": ["src/arm/linux/init.c: cpuinfo_arm_linux_init"]}
{"id": "C90", "title": "ARM: fast cores come first", "statement": "Processors are published in order: cores with a higher score of their microarchitecture first, then by frequency, so that processors of the fastest clusters have the lowest indices.", "quantifier": "every detected ARM system", "why_tests_cant": "Depends on sorting tables of any size.", "anchors": ["src/arm/linux/init.c: cpuinfo_arm_linux_init", "src/arm/linux/init.c: cmp_arm_linux_processor"]}
{"id": "C91", "title": "ARM: the reported MIDR is published", "statement": "A core whose MIDR fields are all given in /proc/cpuinfo is published with exactly this MIDR. (Broken: sibling lists that span the package merge different cores into one cluster, and members take over the MIDR of the leader.)", "quantifier": "every detected ARM system", "why_tests_cant": "Needs kernels with package-wide sibling lists.", "anchors": ["src/arm/linux/init.c: cpuinfo_arm_linux_init", "src/arm/linux/midr.c: cpuinfo_arm_linux_detect_cluster_midr"]}
{"id": "C92", "title": "ARM: the published processors are those in the kernel lists", "statement": "When the sysfs files are well-formed, processor n is published exactly when the kernel supports it (kernel_max) and the lists of possible and present processors hold it, as far as there are such lists.", "quantifier": "every kernel_max and every pair of lists, every /proc/cpuinfo", "why_tests_cant": "Unbounded lists, and the text of /proc/cpuinfo must not interfere.", "anchors": ["src/arm/linux/init.c: cpuinfo_arm_linux_init", "src/linux/processors.c"]}
{"id": "C93", "title": "clog: messages are emitted complete", "statement": "A clog call emits exactly prefix, formatted message and newline in one write, for module names of any length, without leaving its buffers. (Broken when the total length, or that of a prefix that is copied to the heap, is exactly 1024 bytes: a character is replaced by a NUL byte.)", "quantifier": "every message, module name, level and prior content of the buffers", "why_tests_cant": "Only exact lengths show it.", "anchors": ["deps/clog/src/clog.c: clog_vlog_fatal"]}
{"id": "C94", "title": "Emscripten: links agree with ranges", "statement": "For every number of logical processors and both architectures initialization does nothing undefined, stores nothing if an allocation fails, sets the flag last, and the ranges of cores, clusters, package and caches partition the processors (and cores) in agreement with all links and SMT ids.", "quantifier": "every answer of emscripten_num_logical_cores, both architectures, every allocation outcome", "why_tests_cant": "Unbounded processor counts; depends on parity and size.", "anchors": ["src/emscripten/init.c: cpuinfo_emscripten_init"]}
{"id": "C95", "title": "Mach/FreeBSD: caches are those CPUID describes", "statement": "Whenever detection succeeds, whether or not the counts divide evenly: a cache level without a size in CPUID has no table; any other level has as many caches as fill the processors, each with the geometry of CPUID and shared by as many threads as the system reports (else: per core for L1 and for L2 under an L3, per package for the level above, all threads for L4), consecutive from processor 0 on; a level from the second on has no table only if the reported number of sharing threads exceeds that of the processors; and cpuinfo_get_max_cache_size is the size of the last level that has a table (instruction caches do not count).", "quantifier": "every triple of counts, every cache description, every hw.cacheconfig", "why_tests_cant": "Needs machines with every combination of levels.", "anchors": ["src/x86/mach/init.c: cpuinfo_x86_mach_init", "src/x86/freebsd/init.c: cpuinfo_x86_freebsd_init", "src/cache.c: cpuinfo_compute_max_cache_size"]}
{"id": "C96", "title": "Mach/FreeBSD: APIC IDs", "statement": "The reconstructed apic_id of every processor is its own: IDs differ, and thread, core and package fields are smt_id, core_id and package number. (Broken: the core field holds the machine-wide core number, masked, so that cores of a second package get foreign IDs unless packages hold a power of two of cores.)", "quantifier": "every triple of counts, every layout of the APIC ID", "why_tests_cant": "Needs multi-package machines with odd core counts.", "anchors": ["src/x86/mach/init.c: cpuinfo_x86_mach_init", "src/x86/freebsd/init.c: cpuinfo_x86_freebsd_init"]}
{"id": "C97", "title": "FreeBSD: counts come from the scheduler description", "statement": "The number of packages is the number of groups of level 2 with cache-level 0 in kern.sched.topology_spec, or of groups of level 1 if there are none; cores and threads per core are the sysctl values; there are at least as many cores as packages.", "quantifier": "every topology_spec text, every sysctl answer", "why_tests_cant": "Unbounded text.", "anchors": ["src/freebsd/topology.c: cpuinfo_freebsd_detect_topology"]}
{"id": "C98", "title": "RISC-V: reading the topology stays in bounds", "statement": "Whatever the sysfs files contain and however they are read, detecting the processors and reading their sibling lists never accesses the processor table out of bounds.", "quantifier": "every content of every file, every sequence of short reads and read errors", "why_tests_cant": "Unbounded texts; an out-of-bounds access need not crash.", "anchors": ["src/riscv/linux/init.c: cpuinfo_riscv_linux_init", "src/riscv/linux/init.c: core_cpus_parser, cluster_cpus_parser, package_cpus_parser", "src/linux/processors.c"]}
{"id": "C99", "title": "RISC-V: initialization succeeds on described machines", "statement": "Initialization succeeds on every machine whose online processors have consistent sibling lists. (Broken: one present processor without a list, for example because it is offline, makes it fail altogether.)", "quantifier": "every number of processors, every grouping, every allocation succeeding", "why_tests_cant": "Needs machines of every shape with processors taken offline.", "anchors": ["src/riscv/linux/init.c: cpuinfo_riscv_linux_init"]}
{"id": "C100", "title": "RISC-V: every core, cluster and package is published once", "statement": "For every order that sorting equal processors may leave, the processors are published in that order, and every core, cluster and package exactly once with the number of its processors, cores and clusters; there is one microarchitecture counting all. (Broken: an order whose first processor is not the first of its groups, which an unstable qsort may produce, leads to writes before the tables.)", "quantifier": "every machine description, every permutation that qsort may leave", "why_tests_cant": "Depends on the C library's sort; permutations are exponential.", "anchors": ["src/riscv/linux/init.c: cpuinfo_riscv_linux_init"]}
{"id": "C101", "title": "RISC-V: current processor and core", "statement": "On CPU i cpuinfo_get_current_processor returns the processor with linux_id i, cpuinfo_get_current_core the core it is linked to and cpuinfo_get_current_uarch_index 0; on a CPU that is not present the first two return NULL.", "quantifier": "every machine description, every permutation that qsort may leave, every CPU number", "why_tests_cant": "Needs execution on every CPU of every machine.", "anchors": ["src/riscv/linux/init.c: cpuinfo_riscv_linux_init", "src/api.c: cpuinfo_get_current_processor, cpuinfo_get_current_core, cpuinfo_get_current_uarch_index"]}
{"id": "C102", "title": "RISC-V: contradictory sibling lists are harmless", "statement": "Initialization fails or publishes, but does not access memory out of bounds, for every content of the sysfs files. (Broken: a list that leaves out the processor it belongs to leads to a write before the table of cores.)", "quantifier": "every content of every file", "why_tests_cant": "Needs faulty firmware or kernels.", "anchors": ["src/riscv/linux/init.c: cpuinfo_riscv_linux_init"]}
{"id": "C103", "title": "RISC-V: core details come from the core's first processor", "statement": "core_id and frequency of every published core are the numbers in the files of its first processor (0 without file); its vendor is SiFive exactly if riscv_hwprobe reports vendor 0x489 for that processor.", "quantifier": "every machine description, every probe answer, every permutation that qsort may leave", "why_tests_cant": "Needs machines with differing cores.", "anchors": ["src/riscv/linux/init.c: cpuinfo_riscv_linux_init", "src/riscv/linux/riscv-hw.c: cpuinfo_riscv_linux_decode_vendor_uarch_from_hwprobe", "src/riscv/uarch.c: cpuinfo_riscv_decode_vendor_uarch"]}
{"id": "C104", "title": "ARM: the largest cache size bounds the caches", "statement": "On ARM, decoded caches further from the core are not smaller, and cpuinfo_get_max_cache_size is at least the size of every cache published for cores of the first processor's type: a documented bound of the core type or the size detected. (Broken: on Cavium ThunderX a 16 MB L2 cache is published, but 4 MB reported; clusters larger than the core type's design exceed the bound, too.)", "quantifier": "every MIDR, chipset and number of cores of a cluster, every machine description", "why_tests_cant": "Needs every core type with every cluster size.", "anchors": ["src/arm/cache.c: cpuinfo_arm_decode_cache, cpuinfo_arm_compute_max_cache_size", "src/cache.c: cpuinfo_compute_max_cache_size", "src/api.c: cpuinfo_get_max_cache_size"]}
{"id": "C105", "title": "ARM: decoding of vendor and core type", "statement": "Vendor and microarchitecture decoded from MIDR fit together and to the implementer; revision and architecture do not matter, the variant only where one part number stands for several core types; 32-bit and 64-bit builds do not contradict each other; and the register tests that other decisions use agree with the decoded core type.", "quantifier": "every 32-bit MIDR value, every build", "why_tests_cant": "2^32 values for every build; two independent sets of tables that must agree.", "anchors": ["src/arm/uarch.c: cpuinfo_arm_decode_vendor_uarch", "src/arm/midr.h"]}
{"id": "C106", "title": "ARM: 32-bit instruction set queries are consistent", "statement": "On 32-bit ARM Linux each cpuinfo_has_arm_* query answers yes exactly under its condition on the kernel's feature words, the architecture line, the core and the chipset; a reported feature comes with the features it includes (ARMv8 > v7mp > v7 > v6k > v6 > v5e, NEON > VFPv3-D32 and ARMv7, VFPv4 > VFPv3-FP16, Thumb 2 > Thumb, dot products and FP16 arithmetics > ARMv8, ...).", "quantifier": "every pair of feature words, MIDR, architecture line, chipset and build", "why_tests_cant": "2^96 combinations for every build; independent core tables.", "anchors": ["src/arm/linux/aarch32-isa.c: cpuinfo_arm_linux_decode_isa_from_proc_cpuinfo", "include/cpuinfo.h: cpuinfo_has_arm_*"]}
{"id": "C107", "title": "ARM: a 32-bit program is told what the kernel reports", "statement": "On 32-bit ARM the feature words are those of getauxval, else of /proc/self/auxv, else what all processors list in /proc/cpuinfo. (Broken: with another C library than glibc and Android's, e.g. musl, nothing is read at all, and NEON, VFP and division are denied although the kernel reports them.)", "quantifier": "every C library, every content and read schedule of /proc/self/auxv, every /proc/cpuinfo", "why_tests_cant": "Needs several C libraries and kernels.", "anchors": ["src/arm/linux/init.c: cpuinfo_arm_linux_init", "src/arm/linux/hwcap.c"]}
{"id": "C108", "title": "ARM: reported instructions exist on every processor", "statement": "Optional instructions reported because of the core's identity exist on all processors, whatever the order in which processors are numbered. (Broken: only the last identified processor is asked; a Cortex-A76 after a Cortex-A55 r0 makes dot products reported, in the other order not.)", "quantifier": "every machine description and order of processors", "why_tests_cant": "Needs machines with every mix of cores.", "anchors": ["src/arm/linux/init.c: cpuinfo_arm_linux_init (last_midr)", "src/arm/linux/aarch64-isa.c"]}
{"id": "C109", "title": "ARM: chipset signatures accept exactly their patterns", "statement": "Each signature check accepts exactly the strings of the pattern documented above it, with exactly that vendor, series, model and suffix. (Broken: 'kirinX950' is taken as Kirin 950, 'samsung exynos7420' is rejected although the pattern is case-insensitive, and 'Samsung Exynos98101' is taken as Exynos 9810.)", "quantifier": "every string, every number of cores and frequency", "why_tests_cant": "Unbounded strings; tests hold the strings of known devices only.", "anchors": ["src/arm/linux/chipset.c: match_*"]}
{"id": "C110", "title": "ARM: chipset decoding never reads outside its strings", "statement": "No signature check and no decoder reads a character before the start or at or after the end of the string it was given, for any contents of the Hardware string and of Android's properties.", "quantifier": "every string, every number of cores and frequency", "why_tests_cant": "Needs every truncation of every signature at a page end.", "anchors": ["src/arm/linux/chipset.c: match_*, cpuinfo_arm_linux_decode_chipset_from_proc_cpuinfo_hardware, cpuinfo_arm_android_decode_chipset_from_*"]}
{"id": "C111", "title": "ARM: the first fitting signature decides the chipset", "statement": "Each decoder returns what the first fitting pattern of its list says and unknown if none fits; in the Hardware string the leftmost word at which a word pattern fits decides. The vendor is never changed afterwards.", "quantifier": "every string, every number of cores and frequency", "why_tests_cant": "Depends on the order of some 25 overlapping patterns over unbounded strings.", "anchors": ["src/arm/linux/chipset.c: cpuinfo_arm_linux_decode_chipset_from_proc_cpuinfo_hardware, cpuinfo_arm_android_decode_chipset_from_*, cpuinfo_arm_linux_decode_chipset"]}
{"id": "C112", "title": "ARM: misreported chipsets are corrected as documented", "statement": "The chipset is corrected exactly as the comments say: renamed models, models told apart by the number of cores, and suffixes; afterwards a model told apart by the number of cores is reported with that number of cores only. (Broken: MSM8216 and MSM8916MSM8916 with eight cores become the four-core MSM8916.)", "quantifier": "every well-formed chipset, number of cores and frequency", "why_tests_cant": "Every model with every number of cores.", "anchors": ["src/arm/linux/chipset.c: cpuinfo_arm_fixup_chipset"]}
{"id": "C113", "title": "ARM: the Raspberry Pi revision decides the Broadcom model", "statement": "With a Broadcom Hardware string and a Revision string of five to eight hexadecimal digits, the model is that of the processor field (bits 12 to 15). (Broken: the revision is trusted for Broadcom chips that are on no Raspberry Pi - BCM4708 with revision 00000000 becomes BCM2835 - and an unknown field, e.g. 4 of Raspberry Pi 5, leaves BCM2835.)", "quantifier": "every Hardware and Revision string", "why_tests_cant": "2^32 revision codes in several lengths.", "anchors": ["src/arm/linux/chipset.c: cpuinfo_arm_fixup_raspberry_pi_chipset, cpuinfo_arm_linux_decode_chipset"]}
{"id": "C115", "title": "ARM: Android's properties are combined as documented", "statement": "The chipset on Android is unknown if two sources name different vendors, what the sources agree on if they agree, and else has series and model of the most trusted source of the vendor; vendor, series and model always come from one source. The result, suffix included, is what some source says. (Broken: MSM8974AB and MSM8998 give MSM8998AB; MSM8974AB, MSM8974T and MSM8974 give MSM8974TB.)", "quantifier": "every contents of the Hardware string and the six properties, every number of cores", "why_tests_cant": "Seven unbounded strings that may contradict each other in every way.", "anchors": ["src/arm/linux/chipset.c: cpuinfo_arm_android_decode_chipset"]}
{"id": "C116", "title": "ARM: chipsets are told apart by frequency", "statement": "Chipsets that report the same name are told apart by their frequency where the comments list one. (Broken: detection passes 0 as frequency, so WMT never gets a model.)", "quantifier": "every number of cores", "why_tests_cant": "Needs the devices.", "anchors": ["src/arm/linux/chipset.c: match_wmt, match_and_parse_broadcom", "src/arm/linux/init.c: cpuinfo_arm_linux_init"]}
{"id": "C117", "title": "ARM: the package is named after the chipset", "statement": "cpuinfo_get_package(0)->name is, after every successful initialization, a terminated text of at most 47 characters: the name of the chipset that the last Hardware line (and for Broadcom the last Revision line) of /proc/cpuinfo says, corrected for the number of processors; on Android that of the combined properties. (Broken: without Revision line the name of a Broadcom package depends on uninitialised memory.)", "quantifier": "every machine description, every contents of /proc/cpuinfo, every split of the reads", "why_tests_cant": "Unbounded texts; the contents of uninitialised memory.", "anchors": ["src/arm/linux/init.c: cpuinfo_arm_linux_init", "src/arm/linux/cpuinfo.c: cpuinfo_arm_linux_parse_proc_cpuinfo", "src/arm/linux/chipset.c: cpuinfo_arm_chipset_to_string"]}
{"id": "C118", "title": "ARM: listed platforms have their documented names", "statement": "Every platform of the tables of special cases is decoded, in every build that has it, to a chipset of exactly the name its comment states, whatever the number of cores and the frequency; the platforms of chipsets without 64-bit cores are not recognised by 64-bit builds.", "quantifier": "all platforms of the five tables, every number of cores and frequency", "why_tests_cant": "An earlier pattern could take a listed platform; depends on cores and frequency.", "anchors": ["src/arm/linux/chipset.c: special_hardware_map_entries, tegra_hardware_map_entries, special_board_map_entries, special_platform_map_entries, amlogic_map_entries"]}
{"id": "C119", "title": "ARM Linux: queries after initialization answer from the tables", "statement": "After every successful initialization on ARM Linux, whatever the kernel files contain, each index query returns element i of its table and null beyond its end, each counter is the length of its table, table queries return the tables (null for an empty L2 or L3 table, and L4), the package record counts all processors, cores and clusters, and no query ends fatally or reads outside a table, whatever CPU number the kernel reports. The initialised flag is stored last, so queries of other threads see complete tables or are fatal.", "quantifier": "every machine description and contents of the kernel files, every index, every CPU number, every interleaving of threads", "why_tests_cant": "Counters, tables and maps are computed in different loops; agreement on all inputs and all interleavings cannot be sampled.", "anchors": ["src/arm/linux/init.c: cpuinfo_arm_linux_init", "src/api.c", "src/cache.c: cpuinfo_get_max_cache_size"]}
{"id": "C120", "title": "ARM Linux: current processor, core and microarchitecture", "statement": "On ARM Linux cpuinfo_get_current_processor returns the published processor whose Linux number the kernel reports, cpuinfo_get_current_core the core it links to, and cpuinfo_get_current_uarch_index(_with_default) the index of the published microarchitecture this core has; an unknown number gives null, and the index is always that of a published microarchitecture or, beyond the largest Linux number, the caller's default.", "quantifier": "every machine description whose /proc/cpuinfo lists all usable processors, every reported CPU number", "why_tests_cant": "Needs threads on every CPU of every machine.", "anchors": ["src/api.c: cpuinfo_get_current_processor, cpuinfo_get_current_core, cpuinfo_get_current_uarch_index, cpuinfo_get_current_uarch_index_with_default", "src/arm/linux/init.c: cpuinfo_arm_linux_init"]}
{"id": "C121", "title": "Windows: detection has no undefined behaviour and reports what Windows lists", "statement": "On x86 Windows initialization never accesses memory outside its tables, and publishes as many processors as the processor groups allow for, as many cores as core records, as many packages and clusters as package records; every link leads into its table. (Broken: an answer without package records makes it write to an empty table.)", "quantifier": "every answer of Windows (group sizes, records, masks), every CPUID topology whose fields fit 32 bits, every allocation failure", "why_tests_cant": "Needs every machine; masks and groups in every combination.", "anchors": ["src/x86/windows/init.c: cpuinfo_x86_windows_init"]}
{"id": "C122", "title": "Windows: every logical processor gets its thread, core, package, group and number", "statement": "The k-th processor of a core record is published at the index \"processors of earlier groups plus number in the group\" with SMT id k, the record's core, the package whose record contains it, and its Windows group and number.", "quantifier": "every answer of Windows in which no processor is in two records of a kind", "why_tests_cant": "Unbounded numbers of groups and masks.", "anchors": ["src/x86/windows/init.c: cpuinfo_x86_windows_init"]}
{"id": "C123", "title": "Windows: reconstructed APIC ids", "statement": "The APIC id built for a processor has the thread's rank in the SMT field, the core's distance from the first core of its package in the core field, and the package's number above; ids are different for different processors and, if Windows lists things in order, increase with the index.", "quantifier": "every answer of Windows with grouped cores, every CPUID topology with adjacent fields from bit 0", "why_tests_cant": "Bit fields of all widths; loops with state across records.", "anchors": ["src/x86/windows/init.c: cpuinfo_x86_windows_init"]}
{"id": "C124", "title": "Windows: ranges of cores and packages", "statement": "processor_start, processor_count of cores and packages, core_start and core_count of packages, and core_id describe exactly the processors and cores Windows listed (as ranges whenever these are consecutive).", "quantifier": "every complete answer of Windows", "why_tests_cant": "Counting down loops that overwrite starts; all shapes of machines.", "anchors": ["src/x86/windows/init.c: cpuinfo_x86_windows_init"]}
{"id": "C125", "title": "Windows: processors and cores are linked to the cluster of their package", "statement": "Each processor and core links to the cluster that its package lists, and that cluster counts it. (Broken on every machine with two packages: the cluster pointer is never set, so all link to cluster 0 and the other clusters are empty.)", "quantifier": "every answer of Windows", "why_tests_cant": "Needs machines with several packages.", "anchors": ["src/x86/windows/init.c: cpuinfo_x86_windows_init"]}
{"id": "C126", "title": "Windows: no logical processor is listed twice", "statement": "Different entries of cpuinfo_get_processors have different (windows_group_id, windows_processor_id). (Broken when groups allow for processors that are not there: their entries are all zero, like processor 0 of group 0.)", "quantifier": "every answer of Windows", "why_tests_cant": "Needs machines with processors that can be added while running.", "anchors": ["src/x86/windows/init.c: cpuinfo_x86_windows_init"]}
{"id": "C127", "title": "Windows: caches are shared as the APIC ids say", "statement": "For each cache level of non-zero size the caches' ranges partition the processors, a cache's range holds exactly the processors linked to it, and two processors share a cache exactly when their APIC ids agree above the sharing bits (neighbours always, any two if the ids increase); an absent level has no caches; the maximum cache size is that of the last level.", "quantifier": "every answer of Windows, every CPUID description of the caches", "why_tests_cant": "All combinations of sharing bits and topologies.", "anchors": ["src/x86/windows/init.c: cpuinfo_x86_windows_init", "src/cache.c: cpuinfo_compute_max_cache_size"]}
{"id": "C128", "title": "Windows: queries after initialization answer from the tables", "statement": "After every successful initialization on x86 Windows, whatever Windows answered, index queries return element i of their table and null beyond its end, counters are the lengths of the tables, the single microarchitecture record counts all processors and cores, and the current processor and core are null. The initialised flag is stored last, so queries of other threads see complete tables or are fatal.", "quantifier": "every answer of Windows, every index, every interleaving of threads", "why_tests_cant": "Interleavings and machines cannot be sampled.", "anchors": ["src/x86/windows/init.c: cpuinfo_x86_windows_init", "src/api.c"]}
{"id": "C129", "title": "ARM on Apple systems: initialization has no undefined behaviour", "statement": "Initialization of cpuinfo on ARM Macs, iPhones and iPads never divides by zero nor accesses memory outside its tables, whatever sysctl answers, and publishes tables unless an allocation fails. (Broken when the number of threads is no multiple of the number of cores, e.g. hw.logicalcpu_max is not answered; with more packages than cores; and when a cache is reported but hw.cachelinesize is not a 32-bit number.)", "quantifier": "every answer of every sysctl, every allocation failure", "why_tests_cant": "Needs systems that answer in unusual ways; division by zero depends on combinations.", "anchors": ["src/arm/mach/init.c: cpuinfo_arm_mach_init", "src/mach/topology.c: cpuinfo_mach_detect_topology"]}
{"id": "C130", "title": "ARM on Apple systems: processors, cores and packages form a hierarchy", "statement": "The numbers of processors, cores and packages are those sysctl gives; processors are divided without gap or overlap among cores and packages, cores among packages, the links agree with the ranges, smt_id and core_id are positions. (Broken when the cores do not divide evenly among packages: the last cores link behind the table.)", "quantifier": "every answer of sysctl", "why_tests_cant": "Unbounded counts.", "anchors": ["src/arm/mach/init.c: cpuinfo_arm_mach_init"]}
{"id": "C131", "title": "ARM on Apple systems: clusters are the runs of cores of one kind", "statement": "Cores are divided among clusters; the cores of a cluster have its microarchitecture, different clusters have different ones; cluster_id is the position; processors are in the cluster of their core; the list of microarchitectures gives each cluster's kind and number of cores; the processors are divided among the clusters and the clusters among the packages. (The last two are broken with several threads per core or several packages.)", "quantifier": "every answer of sysctl, every CPU family", "why_tests_cant": "Unbounded counts; hardware that does not exist yet.", "anchors": ["src/arm/mach/init.c: cpuinfo_arm_mach_init"]}
{"id": "C132", "title": "ARM on Apple systems: big cores come first, small ones last", "statement": "For each CPU family and number of cores that the source documents the cores get the documented kinds in order; for any number of cores the last four of a family with two kinds are small (in A11 all but the first two); unknown families have unknown kinds.", "quantifier": "every CPU family, every number of cores", "why_tests_cant": "Unbounded number of cores.", "anchors": ["src/arm/mach/init.c: decode_uarch"]}
{"id": "C133", "title": "ARM on Apple systems: caches have the reported sizes", "statement": "Each processor has its own first-level caches, all share one cache of a reported second or third level, levels that are not reported have no caches and no links; sets, ways and line make up the reported size; the maximal cache size is that of the last level. (The range of a shared cache is the number of cores, so it is broken with several threads per core.)", "quantifier": "every answer of sysctl", "why_tests_cant": "All combinations of sizes.", "anchors": ["src/arm/mach/init.c: cpuinfo_arm_mach_init", "src/cache.c: cpuinfo_compute_max_cache_size"]}
{"id": "C134", "title": "ARM on Apple systems: each feature query answers as the system does", "statement": "Each cpuinfo_has_arm_* query answers yes exactly when all Apple 64-bit processors have the feature, or sysctl gives a non-zero 32-bit answer for it, or the CPU family is known to have it.", "quantifier": "every answer of every sysctl, every CPU family, every query", "why_tests_cant": "Answers of systems and chips not available to tests.", "anchors": ["src/arm/mach/init.c: cpuinfo_arm_mach_init", "include/cpuinfo.h"]}
{"id": "C135", "title": "ARM on Apple systems: the package is named after the chip", "statement": "The name of a package is the system's brand string (at most 47 bytes); without one, the documented devices get the documented chips, each iPhone m,n gets A(m+1), and unknown devices get no name. Names always fit their field.", "quantifier": "every brand string and machine identifier", "why_tests_cant": "Unbounded strings.", "anchors": ["src/arm/mach/init.c: decode_package_name"]}
{"id": "C136", "title": "ARM on Apple systems: queries after initialization answer from the tables", "statement": "After every successful initialization, whatever the system answered, index queries return element i of their table and null beyond its end, counters are the lengths of the tables; the current processor and core are null, the current kind of core is 0 or the default; the flag is stored last. (Broken when only one of the two first-level sizes is reported: the other kind of cache is counted, and asking for one reads through a null pointer.)", "quantifier": "every answer of sysctl, every index, every interleaving of threads", "why_tests_cant": "Interleavings and machines cannot be sampled.", "anchors": ["src/arm/mach/init.c: cpuinfo_arm_mach_init", "src/api.c"]}
{"id": "C137", "title": "ARM on Windows: initialization is safe and complete", "statement": "Initialization reads and writes only inside of its tables; it fails only without memory or without a convertible name; it publishes as many processors, cores, packages and caches as Windows reports, and every link leads into its table. (Broken by processors without a core record, cache records of other levels, without line size, without ways or with foreign processors, an empty first core record, and a second answer with more records; without memory for the kinds of cores nothing is published but the result is success.)", "quantifier": "every consistent set of records, overlapping or not", "why_tests_cant": "Machines with several groups, and answers that change between two calls, are not available to tests.", "anchors": ["src/arm/windows/init-by-logical-sys-info.c: cpu_info_init_by_logical_sys_info", "src/arm/windows/init-by-logical-sys-info.c: read_all_logical_processor_info_of_relation", "src/arm/windows/init-by-logical-sys-info.c: connect_packages_cores_clusters_by_processors"]}
{"id": "C138", "title": "ARM on Windows: processors, cores, clusters and packages are those of the records", "statement": "Each processor links to the core, the cluster and the package whose records list it, and has its Windows group and number; cores, clusters and packages start at the lowest of their processors, count them, and, where these are consecutive, their ranges hold exactly them. (Broken: smt_id is always 0, core_id is counted over all packages, cluster_id is always 0.)", "quantifier": "every machine whose records do not overlap", "why_tests_cant": "Masks and group sizes have no bound that tests could cover.", "anchors": ["src/arm/windows/init-by-logical-sys-info.c: parse_relation_processor_info", "src/arm/windows/init-by-logical-sys-info.c: connect_packages_cores_clusters_by_processors"]}
{"id": "C139", "title": "ARM on Windows: caches are those of the records", "statement": "Element j of the table of a cache level is record j of this level, with its size, ways, line size and processors; a processor links to the caches whose records list it; the maximal cache size is that of the last level of the first processor. (Broken for records without groups and for fully associative caches.)", "quantifier": "every machine whose records do not overlap, every level", "why_tests_cant": "Cache layouts have no bound that tests could cover.", "anchors": ["src/arm/windows/init-by-logical-sys-info.c: parse_relation_cache_info", "src/arm/windows/init-by-logical-sys-info.c: store_cache_info_per_processor", "src/cache.c: cpuinfo_compute_max_cache_size"]}
{"id": "C140", "title": "ARM on Windows: kinds of cores", "statement": "One kind of core is published, that of the MIDR in the registry, with all cores and all processors. (Broken: its MIDR is 0; if the kind is unknown, no kind is published.)", "quantifier": "every machine", "why_tests_cant": "Chips not available to tests.", "anchors": ["src/arm/windows/init-by-logical-sys-info.c: cpu_info_init_by_logical_sys_info", "src/arm/windows/init.c: get_core_info_from_midr"]}
{"id": "C141", "title": "ARM on Windows: the package is named as in the registry", "statement": "The name of each package is the UTF-8 form of the processor name in the registry if it fits the field, and the first 47 characters of an ASCII name; without a registry entry it is Unknown. (Broken: for a name that does not fit in UTF-8, or is cut within a character, or cannot be copied, the whole initialization fails.)", "quantifier": "every Unicode text", "why_tests_cant": "Unbounded texts in three encodings' ranges.", "anchors": ["src/arm/windows/init.c: get_system_info_from_registry", "src/arm/windows/init.c: wcsndup", "src/arm/windows/init-by-logical-sys-info.c: connect_packages_cores_clusters_by_processors"]}
{"id": "C142", "title": "ARM on Windows: each feature query answers as Windows does", "statement": "In a 64-bit process each cpuinfo_has_arm_* query answers yes exactly when all ARMv8-A processors have the feature or Windows reports it (FP16 arithmetic and RDM along with dot products); no query says yes to what is not reported. (Broken in 32-bit processes: ARMv7, NEON and others are denied.)", "quantifier": "every answer of IsProcessorFeaturePresent, every query, both architectures", "why_tests_cant": "Processors not available to tests.", "anchors": ["src/arm/windows/init.c: set_cpuinfo_isa_fields", "include/cpuinfo.h"]}
{"id": "C143", "title": "ARM on Windows: queries after initialization answer from the tables", "statement": "After every successful initialization, whatever Windows answered, index queries return element i of their table and null beyond the count, the counts fit the tables, cache levels are consecutive parts of one array; the flag is stored last. (Broken: with an unknown kind of core, the current kind is number 0 of none; without memory for the kinds of cores initialization succeeds with no processors.)", "quantifier": "every answer of Windows, every index, every interleaving of threads", "why_tests_cant": "Interleavings and machines cannot be sampled.", "anchors": ["src/arm/windows/init-by-logical-sys-info.c: cpu_info_init_by_logical_sys_info", "src/arm/windows/init.c: cpuinfo_arm_windows_init", "src/api.c"]}
{"id": "C144", "title": "Initialization owns its memory properly", "statement": "Whatever allocation, system call or parse fails, initialization frees only what it allocated, and each block once; after a failure no block stays allocated and nothing is published; after success exactly the published tables stay allocated; it succeeds exactly if nothing it needs failed. (Broken: x86 and ARM Linux lose a table if /proc/cpuinfo cannot be parsed; Apple x86 loses its tables if a cache table cannot be allocated; x86 Windows always loses a buffer, ARM Windows three blocks of the registry code; ARM Windows frees null and reports success without memory.)", "quantifier": "every combination of failures and of cache levels, in the initialization functions of nine platforms", "why_tests_cant": "Failures of single allocations cannot be provoked by tests of the API; combinations are too many.", "anchors": ["src/x86/linux/init.c: cpuinfo_x86_linux_init", "src/x86/mach/init.c: cpuinfo_x86_mach_init", "src/x86/freebsd/init.c: cpuinfo_x86_freebsd_init", "src/freebsd/topology.c: cpuinfo_freebsd_detect_topology", "src/x86/windows/init.c: cpuinfo_x86_windows_init", "src/arm/linux/init.c: cpuinfo_arm_linux_init", "src/arm/mach/init.c: cpuinfo_arm_mach_init", "src/arm/windows/init-by-logical-sys-info.c: cpu_info_init_by_logical_sys_info", "src/arm/windows/init.c: get_system_info_from_registry", "src/emscripten/init.c: cpuinfo_emscripten_init", "src/riscv/linux/init.c: cpuinfo_riscv_linux_init"]}
{"id": "C145", "title": "Helpers release files, libraries, sets and buffers", "statement": "The helpers that read files, look up the C library, ask the kernel about RISC-V or format a log line release whatever they acquired, once, in every run.", "quantifier": "every combination of failures", "why_tests_cant": "Leaks of descriptors in failing runs are not observable by unit tests.", "anchors": ["src/linux/smallfile.c: cpuinfo_linux_parse_small_file", "src/linux/multiline.c: cpuinfo_linux_parse_multiline_file", "src/linux/cpulist.c: cpuinfo_linux_parse_cpulist", "src/arm/linux/hwcap.c: cpuinfo_arm_linux_hwcap_from_getauxval", "src/arm/linux/hwcap.c: cpuinfo_arm_linux_hwcap_from_procfs", "src/riscv/linux/riscv-hw.c: cpuinfo_riscv_linux_decode_vendor_uarch_from_hwprobe", "src/log.c"]}
{"id": "C146", "title": "The records of Windows are read as Windows wrote them", "statement": "The loops over SYSTEM_LOGICAL_PROCESSOR_INFORMATION_EX records read exactly the records of the answer, in order, whatever their sizes, numbers of groups and kinds, with 32-bit and 64-bit masks, without reading memory that was not written, and end. (Broken on x86 when the second answer is shorter than the first; broken everywhere by a record of size 0.)", "quantifier": "every sequence of records, every previous content of the buffer", "why_tests_cant": "Record sizes, group counts and answers that change between two calls are not under the control of tests.", "anchors": ["src/x86/windows/init.c: cpuinfo_x86_windows_init", "src/arm/windows/init-by-logical-sys-info.c: read_all_logical_processor_info_of_relation"]}
{"id": "C147", "title": "x86 cores, clusters and packages say whose they are", "statement": "On x86 (Linux, Android, macOS, FreeBSD, Windows) every published core and cluster carries the vendor whose string is in CPUID leaf 0, the CPUID value of leaf 1 and the microarchitecture this decodes to, and every published package the name made of the vendor and the brand string; none is left zeroed, also with several packages, uneven packages and unusable processors.", "quantifier": "every CPUID answer, every processor list from the system, every successful detection", "why_tests_cant": "The fields are written only when the walk over APIC ids meets a new core, cluster or package; which indices are met depends on ids that a test machine does not vary.", "anchors": ["src/x86/linux/init.c: cpuinfo_x86_linux_init", "src/x86/mach/init.c: cpuinfo_x86_mach_init", "src/x86/freebsd/init.c: cpuinfo_x86_freebsd_init", "src/x86/windows/init.c: cpuinfo_x86_windows_init", "src/x86/init.c: cpuinfo_x86_init_processor"]}
{"id": "C148", "title": "cpu-info prints every core by name", "statement": "The cpu-info tool prints every vendor and microarchitecture that detection can report by the name of its enumerator, different ones by different names; what has no name is printed as a number, and every line tells vendor and microarchitecture unambiguously. (Broken for Marvell on 32-bit ARM, SiFive on RISC-V and nine vendors of 32-bit x86, which have no name.)", "quantifier": "every value detection can report, every MIDR, every vendor string", "why_tests_cant": "A name that is missing for one of 119 microarchitectures is only seen on that processor.", "anchors": ["tools/cpu-info.c: vendor_to_string, uarch_to_string, main", "include/cpuinfo.h: enum cpuinfo_vendor, enum cpuinfo_uarch"]}
{"id": "C149", "title": "The ranges cpu-info prints are the processors", "statement": "In every line of a core or cluster that cpu-info prints, what stands in parentheses denotes, read as a CPU list, exactly the processors linked to this core or cluster, and exactly the cores of the cluster. (Broken for clusters without cores, C19: printed as 0-4294967295.)", "quantifier": "every machine detected on x86 Linux, every core and cluster", "why_tests_cant": "The text depends on counts and sums that wrap around; test machines have no empty ranges.", "anchors": ["tools/cpu-info.c: main"]}
{"id": "C150", "title": "What cache-info prints tells the cache", "statement": "The size that cache-info prints with its unit is exactly the size of the cache; equal lines come from equal caches (number, size, ways, sets, partitions, line size, sharing, flags); `fully associative' is printed exactly for caches with one set.", "quantifier": "every cache", "why_tests_cant": "Sizes that are no multiple of a unit and products that wrap around are not met on test machines.", "anchors": ["tools/cache-info.c: report_cache"]}
{"id": "C151", "title": "A CPUID dump is true, complete and without repetitions", "statement": "Every line that cpuid-dump prints is the answer of the processor for the leaf and sub-leaf of the line, of a leaf it has; all leaves are printed, and the listed sub-leaves of the leaves 4, 7, 0xB, 0x12, 0x14, 0x17 and 0x24; lines are in strictly increasing order; the tool ends exactly if the lists of sub-leaves end.", "quantifier": "every processor (any CPUID answers)", "why_tests_cant": "Loops whose bound comes from the processor; a test sees one processor.", "anchors": ["tools/cpuid-dump.c: main"]}
{"id": "C152", "title": "The script reads the dump as it was printed", "statement": "parse-x86-cpuid-dump.py makes exactly one table entry of each line of a dump, in order, with the leaf, sub-leaf and registers of the line, whatever bytes are in vendor and brand texts. (Broken for sub-leaves with a digit A-F, which become sub-leaf 0.)", "quantifier": "every dump of every processor", "why_tests_cant": "No test log has ten or more sub-leaves or odd bytes in names.", "anchors": ["scripts/parse-x86-cpuid-dump.py", "tools/cpuid-dump.c"]}
{"id": "C153", "title": "Detection on a dump is detection on the processor", "statement": "If a processor is dumped, the dump read by the script and given to the mock build, detection computes the same vendor, microarchitecture, topology, caches, package name and instruction set flags as on the processor. (Broken for the caches of AMD processors with topology extensions and for VIA's own flags, which the tool does not print.)", "quantifier": "every processor with at most ten cache and topology sub-leaves", "why_tests_cant": "It relates three programs over all processors; logs exist for six.", "anchors": ["tools/cpuid-dump.c", "scripts/parse-x86-cpuid-dump.py", "src/x86/mockcpuid.c", "src/x86/init.c", "src/x86/isa.c", "src/x86/name.c"]}
{"id": "C154", "title": "Leaf 4 in the mock build", "statement": "In the mock build successive cpuid(4) give the entries of leaf 4 in their order in the table and zeros from then on; a call for another leaf starts over.", "quantifier": "every table, every number of calls", "why_tests_cant": "The counter is hidden state; the library itself does not use this path.", "anchors": ["src/x86/mockcpuid.c: cpuinfo_mock_get_cpuid"]}
{"id": "C155", "title": "The mock file system is a file system", "statement": "No sequence of calls to the mock file system reads outside the files; descriptors give the content of the file in order, independent of each other, and EBADF, ENOENT, ENFILE or EACCES where there is nothing to read; the readers of the library find in it what they find in the same files of an operating system, and leave all files closed.", "quantifier": "every set of files, every sequence of calls, every capacity", "why_tests_cant": "The mock is what tests rely on; an error in it makes tests pass or fail for the wrong reason.", "anchors": ["src/linux/mockfile.c", "src/linux/smallfile.c", "src/linux/multiline.c", "src/linux/cpulist.c"]}
{"id": "C156", "title": "Android properties arrive under their own name", "statement": "Each of the six names used for chipset detection is the value of the Android property of exactly this name, cut to 92 bytes, and empty if there is no such property.", "quantifier": "every list of properties, every previous content of memory", "why_tests_cant": "strncpy leaves no zero at the end of long values; prefixes of names are easily confused.", "anchors": ["src/arm/android/properties.c: cpuinfo_arm_android_parse_properties"]}
{"id": "C157", "title": "ARM: what offline processors do to the published tables", "statement": "When /proc/cpuinfo does not list all possible and present processors, as many processors (and cores and L1 caches) are published as are listed; each is possible and present, none twice; the map from Linux numbers has exactly these and null elsewhere; the published processors of a cluster are those in its range, a cluster without published processors has an empty entry, and only the range of the last published cluster can exceed the table; the list of microarchitectures counts all possible and present processors. The map is complete, and the list of microarchitectures agrees with the cores, exactly if all are listed.", "quantifier": "every combination of kernel lists, /proc/cpuinfo and files for which detection publishes", "why_tests_cant": "Needs devices with offline processors in every combination of clusters and frequencies.", "anchors": ["src/arm/linux/init.c: cpuinfo_arm_linux_init", "src/arm/linux/clusters.c"]}
{"id": "C159", "title": "ARM: the numbers of sets of the reported caches", "statement": "The number of sets of every L1 cache that is decoded for an ARM core is a power of two, and that of every L2 and L3 cache is a power of two, or a power of two for every core of the cluster; so in a cluster of 1, 2, 4 or 8 cores the index of a line is always a bit field of the address. Published L2 and L3 caches are of this kind.", "quantifier": "every microarchitecture, MIDR, chipset, cluster and architecture version; every detection that publishes", "why_tests_cant": "The table is a function of the microarchitecture, the chipset, the cluster and its size; each combination needs its own device.", "anchors": ["src/arm/cache.c: cpuinfo_arm_decode_cache", "src/arm/linux/init.c: cpuinfo_arm_linux_init"]}
{"id": "C158", "title": "ARM: detection is defined although processors are offline", "statement": "When /proc/cpuinfo lists at least one usable processor and the processors of a cluster get the same caches (for instance because the table has caches for all their microarchitectures, or because one architecture version is given), detection has no undefined behaviour however many processors are offline, and publishes if all allocations succeed. Exactly: it is undefined just if the number of listed processors is one that the cluster heuristic knows, more are usable, the lists of siblings give clusters to another number of processors than are listed, and the first processors fit the groups of four.", "quantifier": "every combination of kernel lists, /proc/cpuinfo, files, sort and allocation results", "why_tests_cant": "Undefined reads leave no trace in a test that happens to find a harmless value on the stack; the combinations of offline processors and missing files are unbounded.", "anchors": ["src/arm/linux/init.c: cpuinfo_arm_linux_init", "src/arm/linux/clusters.c: cpuinfo_arm_linux_detect_core_clusters_by_heuristic"]}
{"id": "C160", "title": "The output of cpu-info and cache-info determines what was printed", "statement": "Every element of a list that cpu-info prints takes exactly one line. Two machines for which cpu-info prints the same text have the same packages (on Android: the same SoC name), microarchitectures, cores, clusters and processors in all fields that are printed, even if vendors or microarchitectures are unknown; two machines for which cache-info prints the same text have the same maximum cache size and agree on every level: no cache, or the same number of caches and the same first cache.", "quantifier": "all tables of all lengths, all names without newlines", "why_tests_cant": "Ambiguities of concatenated texts show up for pairs of machines, one of which a test does not have.", "anchors": ["tools/cpu-info.c: main", "tools/cache-info.c: main"]}
{"id": "C161", "title": "ARM: a core is reported as the type its ID register says", "statement": "For every main ID register, 32-bit and 64-bit builds report a known microarchitecture exactly if implementer and part (for Cortex-A55 and Samsung's cores also the variant, for Qualcomm's part 0x00F also VFPv4) are those that the manuals give for a core of this type; all other registers are reported as unknown. Every ARM core type declared in the header is reported for the cores of this type. (The last is broken for Cortex-A520, Cortex-A720 and Cortex-X4.)", "quantifier": "every value of the ID register, both builds", "why_tests_cant": "There are 2^32 registers; test devices have a few dozen of them.", "anchors": ["src/arm/uarch.c: cpuinfo_arm_decode_vendor_uarch", "include/cpuinfo.h: enum cpuinfo_uarch"]}
{"id": "C162", "title": "x86: a processor is reported with the microarchitecture of its family and model", "statement": "For every vendor and every signature of leaf 1 whose reserved fields are zero, a known microarchitecture is reported only for processors whose display family and model have it, and is reported for all such processors; processors that run only 32-bit code are known to 32-bit builds only. (Broken for Intel NNP-I, most models of the ranges of Carrizo and Stoney Ridge, Dali, Fenghuang, Mendocino, MI300A and Hygon Dhyana, which are all reported as unknown.)", "quantifier": "every vendor, every 32-bit signature, both builds", "why_tests_cant": "There are 2^32 signatures per vendor; the test machines are a few dozen.", "anchors": ["src/x86/uarch.c: cpuinfo_x86_decode_uarch", "src/x86/info.c: cpuinfo_x86_decode_model_info"]}
{"id": "C163", "title": "isa-info prints the answers of the queries", "statement": "Whatever the queries answer, isa-info prints for each instruction set query of the architecture (64-bit builds may leave out queries with the same answer on all machines, or that follow from others printed) a line with the name of the extension and yes or no, the line says yes exactly if the query answers true, and there is no second line for the same name that says otherwise; the SVE length printed is the one that the query returns. (Broken on 64-bit ARM: no line is printed for five of the SME queries.)", "quantifier": "all answers of the queries, all architectures", "why_tests_cant": "A test on one machine sees one answer per query; two names that are swapped agree on most machines.", "anchors": ["tools/isa-info.c: main", "include/cpuinfo.h: cpuinfo_has_x86_*, cpuinfo_has_arm_*, cpuinfo_has_riscv_*"]}
{"id": "C164", "title": "A dumped device is read back in the mock build", "statement": "The header that scripts/arm-linux-filesystem-dump.py writes for a device, compiled and given to cpuinfo_mock_filesystem, gives the readers of the library in the mock build the same contents for the same paths as on the device, for every content of the files. (Broken: bytes other than tabs, line ends and printable ASCII are written without the backslash of their escape sequence; a zero byte before an octal digit takes the digit into its escape sequence, in the worst case with a size beyond the literal; the lists of the processors of a cluster, which detection reads first, and processors from number 16 on are not written.)", "quantifier": "all devices (which files exist, all contents), all paths", "why_tests_cant": "A test dumps the devices at hand, whose files are short ASCII texts; that quoting is inverted by the C compiler for all contents is about all texts.", "anchors": ["scripts/arm-linux-filesystem-dump.py: c_escape, dump_system_file, main", "src/linux/mockfile.c: cpuinfo_mock_filesystem", "include/cpuinfo-mock.h: struct cpuinfo_mock_file", "src/arm/linux/init.c: cpuinfo_arm_linux_init"]}
{"id": "C165", "title": "A dumped Android device is read back in the mock build", "statement": "The arrays that scripts/android-device-dump.py writes for an Android device, compiled for 64-bit or 32-bit ARM and given to the mock build, give the library the same properties and, for the same paths, the same files as on the device (in 32-bit builds for a 64-bit device, /proc/cpuinfo as a 32-bit process sees it), for every content of the files and every list of properties. (Broken: a property with a closing bracket in its value stops the script or is taken for two; the lists of the processors of a cluster are not written; without kernel_max only processor 0 is written; C164's bytes that do not survive.)", "quantifier": "all devices (properties, which files exist, all contents, kernel_max), both builds", "why_tests_cant": "The script is run once per device by hand and its output is committed; no test compares it with the device, and the properties of one device do not show which values break the parser.", "anchors": ["scripts/android-device-dump.py: c_escape, adb_getprop, add_mock_file, dump_device_file, main", "tools/cpuinfo-dump.c: main", "src/arm/android/properties.c: cpuinfo_android_property_get", "src/linux/mockfile.c: cpuinfo_mock_filesystem"]}
{"id": "C166", "title": "Feature queries are safe to call while initialization is running", "statement": "The functions cpuinfo_has_* do not wait for initialization and may be called by any thread at any time. Whatever the interleaving of their reads with the writes of the initialization, a query never says yes to a feature that detection does not report in the end; a query that begins after some call of cpuinfo_initialize has returned gives the final answer; and once a query has said yes to anyone, every later call of it says yes. If initialization gives up before the instruction set is detected, every answer is that of a processor without the features.", "quantifier": "all executions of any number of threads, all machines and answers of the operating system; ARM on Linux (32 and 64 bits), Apple and Windows, RISC-V and x86", "why_tests_cant": "A race between a query and the write of a flag depends on the schedule; no test controls it, and a detection that first sets and later clears a flag behaves correctly in every test that asks after initialization.", "anchors": ["include/cpuinfo.h: cpuinfo_has_*", "src/arm/linux/aarch64-isa.c: cpuinfo_arm64_linux_decode_isa_from_proc_cpuinfo", "src/arm/linux/aarch32-isa.c: cpuinfo_arm_linux_decode_isa_from_proc_cpuinfo", "src/arm/mach/init.c: cpuinfo_arm_mach_init", "src/arm/windows/init.c: set_cpuinfo_isa_fields", "src/riscv/linux/riscv-isa.c: cpuinfo_riscv_linux_decode_isa_from_hwcap", "src/x86/init.c: cpuinfo_x86_init_processor", "src/init.c: cpuinfo_initialize"]}
{"id": "C167", "title": "Hexagon: log messages are printed as they are", "statement": "On Hexagon a log message appears as its prefix, its text and a line end, and printing it reads no byte outside the buffer. (Broken: the message is printed up to a NUL byte instead of by its length. src/log.c never stores a line end, and loses the last character if prefix and text have 1023 bytes. deps/clog stores the line end over the terminator: short messages are followed by what the stack happens to hold, and each message of more than 1024 bytes is read beyond the end of its buffer.)", "quantifier": "every level, module and text without NUL bytes, all prior contents of stack and heap", "why_tests_cant": "Depends on memory that nobody has written; a test sees the right message whenever the next byte on the stack is zero.", "anchors": ["src/log.c: cpuinfo_vlog", "deps/clog/src/clog.c: clog_vlog_fatal"]}
{"id": "C168", "title": "The log level decides which messages are shown, and nothing else", "statement": "Built with a log level, the library shows exactly the messages of at least that severity, in the order of the calls, notes and debug messages on the standard output and the others on standard error; a fatal error ends the process at every level, even if its message cannot be shown. On Android the messages are found under the name of the library. (Broken: their tag is XNNPACK.)", "quantifier": "every setting CMake accepts, every sequence of log calls, all texts and prior contents of memory", "why_tests_cant": "The level is chosen when the library is built; a test runs one build, and cannot go on after a fatal error.", "anchors": ["src/cpuinfo/log.h: cpuinfo_log_debug, cpuinfo_log_fatal", "src/log.c: cpuinfo_vlog_debug, cpuinfo_module", "CMakeLists.txt: CPUINFO_LOG_LEVEL"]}
{"id": "C169", "title": "ARM Windows: links between published tables are within them, whatever Windows answers", "statement": "On ARM Windows, whatever records the system returns and even if two answers differ: if detection succeeds, every published processor leads to a core, cluster and package below the published counts and to caches within the array; every core leads to a cluster and a package; every cluster leads to a package. (Broken: a core record without processors is published as a cluster without package.) Cache records without line size, associativity or a known level are never published.", "quantifier": "every answer of Windows, including overlapping, incomplete and contradictory records, and every chip", "why_tests_cant": "Real systems answer consistently; a test cannot make Windows return odd records, let alone all of them.", "anchors": ["src/arm/windows/init-by-logical-sys-info.c: cpu_info_init_by_logical_sys_info, connect_packages_cores_clusters_by_processors, parse_relation_cache_info"]}
{"id": "C170", "title": "auxv-dump prints all that is needed to detect the instruction set elsewhere", "statement": "If auxv-dump succeeds, its text gives the hardware capability words of the device, readable in one way only, and a mocked build given these words detects the instruction set of the device. (Broken on 64-bit ARM: AT_HWCAP2 is not printed, so SVE2, BF16, I8MM and SME are lost.) If it fails, it prints no words and ends with a failure status and a complete error message. (Broken: one message has no line end.)", "quantifier": "all values of both words, both architectures, all processor tables and chipsets, all error texts", "why_tests_cant": "A test on one device sees one pair of words; that no other device has the same dump is about all pairs.", "anchors": ["tools/auxv-dump.c: main", "src/arm/linux/hwcap.c: cpuinfo_set_hwcap, cpuinfo_set_hwcap2, cpuinfo_arm_linux_hwcap_from_getauxval"]}
{"id": "C171", "title": "CMake builds what cpuinfo_initialize needs", "statement": "If CMake configures a build without a warning, the library contains the detection that cpuinfo_initialize calls on this target and every file this detection needs, so that programs link and initialization can succeed; if CMake warns that initialization will always fail, programs still link. (Broken: under Emscripten with CMake 3.14 or later, for universal binaries of Apple, for ARM Windows under the name aarch64 and for ARM64EC, and for x86 and ARM Linux under names like amd64 and arm, programs do not link; on FreeBSD with ARM initialization always fails without a warning.)", "quantifier": "every name of a processor and system, every setting of the variables CMake reads, every target of the compiler", "why_tests_cant": "A test runs in one build, which was linked; that other builds link is not visible to it.", "anchors": ["CMakeLists.txt: CPUINFO_SRCS, CPUINFO_TARGET_PROCESSOR, CPUINFO_SUPPORTED_PLATFORM", "src/init.c: cpuinfo_initialize"]}
{"id": "C172", "title": "Bazel, ndk-build and confu build what cpuinfo_initialize needs", "statement": "Whichever build system of the repository is used, if it configures a build for a target then the files it compiles contain every function that they call, so that a program that calls cpuinfo_initialize can be linked; Bazel takes exactly one set of files or stops. (Broken: jni/Android.mk and configure.py leave out src/log.c, so debug builds of ndk-build and builds of confu at the default log level cannot be linked; configure.py also leaves out files of RISC-V, of ARM macOS and of FreeBSD and Windows, jni/Android.mk those of riscv64 and armeabi.)", "quantifier": "every --cpu and platform of Bazel; every ABI and NDK_DEBUG of ndk-build; every target and --log of confu", "why_tests_cant": "A test runs in one build, which was linked; that other builds link is not visible to it.", "anchors": ["BUILD.bazel: cpuinfo_impl, config_setting", "jni/Android.mk: LOCAL_SRC_FILES", "configure.py: main", "src/cpuinfo/log.h: cpuinfo_log_*"]}
{"id": "C173", "title": "x86: every Intel Core processor is named by its number", "statement": "For every number of an Intel Core processor (\"i\", a digit, a dash, two digits, then digits and upper-case letters) and every text after '@', the brand string \"Intel(R) Core(TM) <number> CPU @ <text>\" that fits in 48 bytes makes cpuinfo_get_package(i)->name the string \"Intel Core <number>\", not cut, without the frequency, whether the brand string is NUL-terminated or fills the 48 bytes.", "quantifier": "all numbers and all texts after '@' that fit, all other CPUID contents", "why_tests_cant": "Tests list brand strings of some processors that existed when the tests were written; the claim is about all numbers, also of processors to come.", "anchors": ["src/x86/name.c: cpuinfo_x86_normalize_brand_string", "src/x86/name.c: transform_token", "src/x86/name.c: cpuinfo_x86_format_package_name"]}
{"id": "C174", "title": "x86: every AMD Ryzen processor is named by its series and number", "statement": "For every series (a digit or Threadripper) and number (a digit, then digits and upper-case letters) of an AMD Ryzen processor and every way to write the number of cores, the brand string \"AMD Ryzen <series> <number> <cores> Processor\", spaces after it or not, makes cpuinfo_get_package(i)->name the string \"AMD Ryzen <series> <number>\". (Broken: a number of cores in digits stays in the name unless it is 12 or 16.)", "quantifier": "all series, numbers, numbers of cores and trailing spaces that fit in 48 bytes", "why_tests_cant": "Tests list the brand strings of four processors; the claim is about all of them, and fails for \"8-Core\", which no test has.", "anchors": ["src/x86/name.c: cpuinfo_x86_normalize_brand_string", "src/x86/name.c: transform_token", "test/name/brand-string.cc: ryzen"]}
{"id": "C175", "title": "x86: the words of a brand string are kept whole and in order", "statement": "A NUL-terminated brand string of ordinary words, of ordinary words with the trademark sign tm after a digit or upper-case letter or with AMD- in front, and of words that say nothing about the model (such as CPU, Processor, Intel), with any number of spaces at the end, gives a name that consists of exactly the ordinary words, without these signs, unchanged, in their order, with single spaces between them; so two such brand strings give the same name only if their words say the same. Ordinary is a word that is not in the lists of words with a meaning, is no single upper-case letter, no V with a digit, not zeros, not a frequency, and has no dash at either end.", "quantifier": "all lists of words that fit in 47 characters, all numbers of trailing spaces", "why_tests_cant": "Tests give brand strings of known processors; names of unknown processors and of hypervisors are arbitrary words.", "anchors": ["src/x86/name.c: cpuinfo_x86_normalize_brand_string", "src/x86/name.c: transform_token"]}
