# Formal model of pytorch/cpuinfo in Lean 4

The C sources in `/repo` are read as text; nothing is compiled or executed.
`lean/Verif` holds the model, small separate specifications and the theorems.

## Layout

| Path | Content |
| --- | --- |
| `lean/Verif/Base.lean` | bytes, byte-string literals, 32-bit wrap-around helpers |
| `lean/Verif/Model/*.lean` | executable model, one definition per C function, each citing file and lines |
| `lean/Verif/Spec/*.lean` | specifications written without reference to the model's helpers |
| `lean/Verif/Proof/*.lean` | helper lemmas |
| `lean/Verif/Props/*.lean` | the property theorems, each with a concrete non-vacuity example beside it |

Property identifiers `C01…` are those of `properties.jsonl`; `MANIFEST.json` maps
each of them to theorem names.

## Modelling conventions

* C `char` data is a `List Nat` of byte values (`Byte`).  Theorems quantify over all
  naturals, a superset of 0..255.
* `uint32_t` is `BitVec 32` where bit operations matter and `Nat` with an explicit
  `% 2^32` where only arithmetic wrap-around matters.
* `read(2)` is an adversarial schedule: the i-th call asks the schedule for a wish and
  returns between 1 and min(capacity, remaining) bytes, or an error; 0 bytes only at end
  of file or for capacity 0.  Theorems quantify over all schedules.
* Mutation through pointers becomes returning the new value.  Undefined behaviour
  (out-of-bounds access, shift by >= 32, division by zero) is a separate outcome
  (`none`/`ub`), never silently totalised.
* CPUID, XGETBV, sysctl, getcpu, getauxval answers are parameters of the model.
* `qsort` is any function returning a sorted permutation (hypothesis on the result), not
  a particular algorithm.
* `pthread_once` is modelled by its POSIX contract as a transition system.
* Memory is sequentially consistent in the concurrency models.
* Allocation failure is one of the outcomes where it matters, otherwise assumed away and
  said so at the definition.

## Plan per property

| Id | What is modelled | How it is proved |
| --- | --- | --- |
| C01 | cpulist reader loop over read schedules, entry parser | loop invariant: pending buffer ++ remaining file = suffix of file; result equals split-on-comma specification |
| C02 | same + decimal printer (spec) | round trip by induction over the list, digits lemma |
| C03 | same | negation by concrete witness (256-byte entry); partial = C01; `C03_exact` for all files by induction on the reads |
| C04 | flag table as list, parser callback folded | pointwise characterisation by induction over ranges |
| C05 | max-number fold, clamp | fold-max induction |
| C06 | multiline reader loop with arbitrary handler state | same invariant as C01 with split on newline |
| C07 | same | negation by witness (generic in buffer size); `C07_exact` for all files by induction on the reads |
| C08 | small-file reader | induction over schedule |
| C09 | uint32 parser, kernel_max+1 | digits round trip, wrap witness |
| C10 | siblings clamp | set extensionality |
| C11 | x86 /proc/cpuinfo line parser state machine | induction over blocks, composition with C06 |
| C12 | processor-number parser | negation by witness; exactness for values without ':' |
| C13, C14 | transition system with threads, once control, table stores | inductive invariant over all reachable states |
| C15, C16 | API getters over published tables | case analysis; C15 joined with the per-platform commit theorems |
| C17–C22 | x86/Linux init: counting pass, build loop with seven counters | loop invariant over the processed prefix; sortedness gives run = class |
| C23, C24 | topology.c over CPUID answers | bit-field lemmas; negation witnesses for the two bugs |
| C25 | leaf 4 / 0x8000001D decode | bit-vector field algebra, bit_length lemma |
| C26 | generated table from descriptor.c | finite table check in the kernel, lifted to all prior states |
| C27, C28 | isa.c as a function of registers | case analysis on gating bits |
| C29, C30 | vendor.c, info.c | exactness over 96-bit / 32-bit inputs |
| C31, C32 | name.c normalizer with explicit bounds-checked buffer | invariant over token loop |
| C33 | format_package_name | list lemmas |
| C34 | cache.c | case analysis |
| C35 | midr.h | bit-vector extensionality |
| C36 | comparator | lexicographic order lemma |
| C37, C38, C39 | clusters.c and leader propagation of init.c | loop invariants |
| C40–C42 | arm/linux/cpuinfo.c parsers | parser specs; witnesses for the buffer overrun |
| C43 | processor_equals / not_equals | case analysis |
| C44 | arm/cache.c | case analysis over table rows |
| C48, C49 | riscv init linking loop, hwcap | invariant for contiguous lists + witness; `RiscvExact`: where every link leads for groups of any shape |
| C102 | riscv init from contradictory lists | `RiscvLists`: fails, publishes or goes out of bounds, exactly when |
| C50 | emscripten counts | witness + partial |
| C51, C52 | division-based topology | arithmetic; witnesses |
| C53 | affinity iteration | bit lemma `m & (m-1)` |
| C54 | log buffer | case analysis, witness |
| C55 | aarch64-isa.c | exact conditions |
| C56 | file name formats of src/linux/processors.c | length of printed numbers |
| C57, C58 | x86/Linux init | negation by witness; machine-level characterisation of the published processors |
| C59–C62 | topology, cache descriptors, microarchitecture decoding | exact decoding theorems, negations by witness |
| C63–C66 | x86 instruction-set flags and queries | exact condition per flag; register state enabled by the operating system |
| C67–C69 | x86 brand strings | invariants of the token loop, negations by witness |
| C70–C75 | ARM /proc/cpuinfo fields and MIDR predicates | parser specifications, bit-field lemmas |
| C78–C82 | arm/linux/midr.c | loop invariants over the processor table |
| C76, C77, C83–C92 | the whole of arm/linux/init.c | one pass at a time: gathered table, clusters, sorted table, publication; a record (`Whole`) collects what holds of a finished run |
| C93 | deps/clog/src/clog.c | as C54 |
| C94 | src/emscripten/init.c | closed form of the tables, division lemmas |
| C95–C97 | Mach and FreeBSD caches, APIC IDs, counts | closed form of the tables; arithmetic of bit fields |
| C98–C103 | riscv/linux reading, groups, order, details | loop invariants over the shared table for all list texts; transfer as function of the order; witnesses |
| C104–C105 | arm/uarch.c, cache.c core types and bounds | tables as lists of rows; every decoded core is a row; elimination rule for the cache cases |
| C55, C106–C108 | arm/linux/aarch64-isa.c, aarch32-isa.c, hwcap.c, the ISA part of arm/linux/init.c, cpuinfo_has_arm_* | bits of masks; basis of the decision as a relation, with existence and uniqueness; one condition per query |
| C45–C47, C109–C118 | arm/linux/chipset.c, the package name of arm/linux/init.c | patterns as concatenations of texts, numbers and suffixes; every signature decides its pattern; first fitting pattern; corrections as a relation; name read back; combination of the seven Android sources |
| C119, C120 | ARM Linux commit block and the queries after it | sizes of all tables and maps through the loops of `publish` (invariant `Sizes`), then the evaluation lemmas of C15/C16; C120 on top of C76, C84, C85 |
| C121–C128 | src/x86/windows/init.c from the answers of Windows to the published tables | closed form of the processor table after both record loops; tables as first/count of a key; caches as runs (shared with x86 Linux); sizes through all loops for the queries |
| C129–C133 | ARM on Apple systems: tables | closed form of every loop for all counts with which it is defined (`Fits`; `Split`: the kinds of cores are one or two runs); inversion of a successful run shows that these are all; violations general, not only samples |
| C134, C135 | ARM on Apple systems: features and names | case analysis on all queries; documented tables by evaluation of the whole table; numerals by induction over digits |
| C136 | ARM on Apple systems: queries | sizes of tables for every success, then C13–C15 |
| C137–C140 | ARM on Windows: tables | each pass over records as a fold with an invariant per processor (key of the last record that lists it), closed form of the backward loops over processors and cores; violations general where they concern consistent answers, witnesses otherwise |
| C141 | ARM on Windows: name | UTF-16 and UTF-8 of every scalar value, a UTF-8 reader as specification, induction over the text |
| C142, C143 | ARM on Windows: features, queries | case analysis; lengths of tables kept by every pass whatever Windows answers, then C13–C15 |
| C144, C145 | Initialization functions as programs over allocations, tests, jumps and frees, one step per call in the source | All paths: `every_run` shows that a list of runs computed by the kernel covers every environment; the claims are then checked on the whole list |
| C146 | Byte-level encoding of records (from winnt.h), cells that may be unwritten | Round trip: induction over the sequence of encoded records with arbitrary memory before and behind |
| C147 | Tables of labels written beside those of detection | Invariant: what counts a processor is labelled, and every published object counts one (C17); all indices written (others) |
| C148–C150 | Printed lines as bytes; enumerators as in the header; CPU list notation of `Spec.CpuList` | Finite tables by kernel evaluation, all MIDRs by cases on the tables; injectivity of texts by cutting numbers at the first byte that is no digit |
| C151–C156 | Dump lines as bytes, the script as a parser, the table as CPUID answers; descriptors as what is still to be read | Induction over the loops with wrap-around; composition of print, parse and lookup; invariant over all sequences of calls; refinement of the readers |
| C157 | The publishing loops over a prefix of the sorted usable processors | Loop invariant of C83–C92 for any prefix; leaders from cluster detection that ended, without assuming that all are counted |
| C159 | `cpuinfo_arm_decode_cache` | Set counts of each row of the table as powers of two, times the cores where the size grows with the cluster; carried to the published tables by C93–C95 |
| C158 | `cpuinfo_arm_linux_init`, heuristic of `clusters.c` | The invariant of the last loop again, over the listed number of positions of the sorted table of all usable processors; undefined reads of the heuristic traced to the rank of the first processor past the number it is told |
| C160 | `main` of `cpu-info.c` and `cache-info.c` | Lines are cut at their only newline, sections at the first byte that is no tab; every line is injective (C148, C150) |
| C161 | `cpuinfo_arm_decode_vendor_uarch` | A table by core type (`Spec/ArmCores`), written from the numbers in the manuals and in the kernel's lists, agrees with the nested `switch`es for all registers; fields by C105 |
| C162 | `cpuinfo_x86_decode_uarch` on `cpuinfo_x86_decode_model_info` | A table by microarchitecture with ranges of display models (`Spec/X86Cores`) agrees with the nested `switch`es: evaluation in the kernel over all 256 models of each family that occurs, other families by cases |
| C163 | tools/isa-info.c | The printed text has the line of a name with an answer iff the query answers so; the names are a list written independently of the tool's order and sections |
| C164 | scripts/arm-linux-filesystem-dump.py | Tokens, string literals and initialisers of the part of C that the header uses are specified as an automaton and a grammar; the header of every device with escapable contents is read back to the same files; exactly the contents of plain bytes survive |
| C165 | scripts/android-device-dump.py, tools/cpuinfo-dump.c | getprop's output is specified as a text and parsed back for all lists of properties without closing brackets; the arrays are read back with the grammar of C164 |
| C166 | include/cpuinfo.h `cpuinfo_has_*`, the instruction set detection of all platforms | the writes of each platform in program order, shown to add up to the detected structure and never to clear a flag; an invariant over all interleavings of calls, writes and reads |
| C167 | `cpuinfo_vlog`, `clog_vlog_*` on Hexagon | closed form of the printed buffer; first NUL byte |
| C168 | log.h, levels and outputs of log.c, CMake setting | induction over the calls of a run; the finite table of settings and levels |
| C169 | src/arm/windows/init-by-logical-sys-info.c | invariants of the reading loops; what the connecting loops need of each processor and core |
| C170 | tools/auxv-dump.c, mocked words of src/arm/linux/hwcap.c | induction over the digits; bit by bit comparison of the detected instruction sets |
| C171 | CMakeLists.txt, the choice of detection in src/init.c, calls between source files | the files as a function of kinds of names; finite check over kinds and targets, all strings by case analysis |
| C172 | BUILD.bazel, jni/Android.mk, configure.py, messages by level in all source files | the files by setting; whole finite tables, all strings of `--cpu` by matching |
| C173 | src/x86/name.c | symbolic run of the loops on a buffer with unknown words |
| C174 | src/x86/name.c | each word becomes a word or spaces; run of the loops over such words |
| C175 | src/x86/name.c | functional specification by words; induction over the list of words |

## What is modelled

| Source | Model | Left out |
| --- | --- | --- |
| src/linux/cpulist.c, smallfile.c, multiline.c | `CpuList`, `SmallFile`, `Multiline`, `Read` | `open`/`close`, log messages |
| src/linux/processors.c | `Processors` | file names (their lengths are modelled, C56) |
| src/init.c, src/api.c | `Once`, `Api` | deprecated one-line wrappers |
| src/x86/linux/cpuinfo.c, init.c | `X86Cpuinfo`, `X86Init` | vendor, uarch, cpuid and names of the tables are in `X86Labels` |
| src/x86/topology.c, init.c, info.c, vendor.c, uarch.c | `X86Topology`, `X86Processor`, `X86Cpuid` | the unused `apic_id` of the topology |
| src/x86/cache/*.c | `X86Cache` | TLBs, trace cache, prefetch size (no query reads them) |
| src/x86/isa.c, x86 part of include/cpuinfo.h | `X86Isa` | NaCl builds |
| src/x86/name.c | `X86Name` | the debug log of tokens |
| src/arm/midr.h | `ArmMidr` | – |
| src/arm/linux/cpuinfo.c, clusters.c, midr.c, init.c | `ArmCpuinfo`, `ArmClusters`, `ArmClusterMidr`, `ArmInit` | log messages; chipset, microarchitecture and cache decoders are parameters of `ArmInit` |
| src/log.c, src/cpuinfo/log.h, deps/clog/src/clog.c | `Log`, `LogHexagon`, `LogLevels` | what `__android_log_vprint` does with a message; `vsnprintf` is specified, its text is a parameter |
| src/emscripten/init.c | `Platform`, `Emscripten` | vendor and uarch fields; `emscripten_num_logical_cores` is a parameter |
| src/x86/mach/init.c, src/mach/topology.c, src/x86/freebsd/init.c, src/freebsd/topology.c | `Uniform` | vendor, uarch, cpuid and names of the tables are in `X86Labels`; CPUID and `sysctlbyname` are parameters; not for iPhone |
| src/riscv/linux/init.c, riscv-hw.c, riscv-isa.c, src/riscv/uarch.c | `Riscv` | the three parsers are one definition with a level; `riscv_hwprobe`, `getauxval` and `qsort` are parameters (any permutation, or stable where said); names; log output |
| src/arm/uarch.c, src/arm/cache.c | `ArmUarch`, `ArmCache` | the build is a parameter (`Target`); log output |
| src/arm/linux/aarch64-isa.c, aarch32-isa.c, hwcap.c; src/arm/linux/init.c:195-308; include/cpuinfo.h:1657-2134 | `ArmIsa` | `getauxval`, `prctl`, the WCID and FPSID registers and `__ARM_ARCH` are parameters |
| src/arm/linux/chipset.c | `ArmChipsetTables`, `ArmChipsetMatch`, `ArmChipsetDecode`, `ArmPackage` | the tables were copied as data; log messages; strings are lists, a read outside is the outcome `outside`; `CPUINFO_ARCH_ARM` is the parameter `arm32` |
| src/arm/linux/init.c:835-864 (commit block) | `ArmApi` | memory barriers (see `Once`) |
| src/x86/windows/init.c | `Windows` | the walk over the records by `Size` is in `WinBuffer`, vendor, uarch, cpuid and names in `X86Labels`, releasing memory in `Memory`; `InitOnceExecuteOnce` is a once primitive as in `Once` |
| src/arm/mach/init.c (whole file), src/mach/topology.c (without the cache configuration, which this file does not use) | `Model/ArmMach` | logging; `sysctlbyname` is a parameter (success, size and value of each answer); 32-bit wrap-around of products of counts (they are bounded by the number of threads, which is below 2^31); freeing |
| src/arm/windows/init.c | `ArmWin`, `Wide` | registry access (values are parameters), memory release; `IsProcessorFeaturePresent` is a parameter |
| src/arm/windows/init-by-logical-sys-info.c | `ArmWin` | walk over the buffer by `Size` (records are lists), memory release; `WideCharToMultiByte` after its documentation (`Wide`) |
| allocation, `goto cleanup`, publication and `free` in all `init.c` files, `freebsd/topology.c`, `log.c`, `smallfile.c`, `multiline.c`, `cpulist.c`, `hwcap.c`, `riscv-hw.c` | `Memory` | contents of blocks; loops over records are one step; stack blocks |
| record loops of `x86/windows/init.c:184-313` and `arm/windows/init-by-logical-sys-info.c:450-546`, at byte level | `WinBuffer` | addresses that wrap around; layout of winnt.h is trusted |
| fields `vendor`, `uarch`, `cpuid`, `name` in the four x86 `init.c` | `X86Labels` | the loops are run beside those of `X86Init`, `Uniform`, `Windows`, whose state they read |
| tools/cpu-info.c, tools/cache-info.c | `Tools`, `ToolsMain` | failed initialization, exit codes; `printf` |
| tools/cpuid-dump.c, scripts/parse-x86-cpuid-dump.py, src/x86/mockcpuid.c | `CpuidDump` | file handling of the script, the log output; which bytes end a line for `splitlines` is a parameter |
| src/linux/mockfile.c, src/arm/android/properties.c | `Mock` | redirection to the operating system before the mock is set up; callbacks that open files |
| tools/isa-info.c | `IsaInfo` | failed initialization; `printf` |
| scripts/arm-linux-filesystem-dump.py | `FileDump` | errors other than missing files; the copy of /proc/cpuinfo to test/cpuinfo; trigraphs in the compiler |
| scripts/android-device-dump.py, tools/cpuinfo-dump.c | `AndroidDump` | `adb`; the preprocessor lines (the text left for each build is modelled); copies of dmesg and build.prop; errors of `read` |
| tools/auxv-dump.c, mocked part of src/arm/linux/hwcap.c | `AuxvDump` | `dlopen`, `dlsym`, `dlerror`, `getauxval` and `printf` |
| CMakeLists.txt:61-245, src/init.c:23-66, calls between files of src | `Build` | test and mock targets; false values of CMake other than the empty text; headers and system libraries |
| BUILD.bazel:20-164 and 230-492, jni/Android.mk, configure.py:11-77, severest message of each file | `BuildOther` | mock builds, tests and tools; rules of `select` other than specialization |
| `cpuinfo_has_*` during initialization | `IsaRace` | one step is one read or write, memory is sequentially consistent (`C166_…_weak`: any memory without values out of thin air); `svelen` |

Each model file says in its header and at the definitions where it simplifies.  Variables the C code
reads before writing them are parameters (`junk`) or undefined behaviour, as said at the definition.

## Findings

The code violates these claims; each negation is a theorem with a concrete witness, most of them run
through the whole model from the text of the files to the published tables.

| Theorem | What happens |
| --- | --- |
| `C03_violated` | a successful parse of a CPU list can lose entries after an entry of 256 bytes |
| `C07_violated` | a successful parse of a text file can lose lines after a line as long as the buffer |
| `C12_violated`, `C12_violated_in_file` | `processor : 1:` is read as processor 20 (in general: `C12_exact`, `C12_violated_always`) |
| `C19_cluster_core_range_violated` | a cluster without cores if the last-level cache has fewer sharing bits than SMT |
| `C22_violated` | the all-ones APIC id makes x86 detection write outside a table (exactly when: `C22_exact`, `C22_machine_exact`) |
| `C23_violated`, `C24_violated`, `C59_violated` | packages merged (exactly which: `C23_exact`); SMT width wraps and is used as a shift count (exactly when: `C24_fields_exact`, and then always: `C24_violated_always`); four cores become four packages (always: `C59_violated_always`) |
| `C26_violated`, `C61_violated` | cache descriptors 0xD2 (2014 for 1024) and 0x82 (ways) |
| `C28_violated`, `C65_violated` | AVX10.2 read from a leaf that does not exist; VAES, VPCLMULQDQ and AMX without operating system support (exactly when: `C65_exact`) |
| `C30_violated`, `C62_violated`, `C60_violated` | extended family added for all families (exactly when it matters: `C30_exact`); Dhyana never recognised; invalid descriptor registers decoded (always: `C60_violated_always`) |
| `C32_violated`, `C67_violated`–`C69_violated` | brand strings: trailing space, words that are not adjacent, length 48 for 47 characters (exactly when: `C69_exact`) |
| `C37_…_broken` (two) | cluster heuristic ignores the first member of a group; reads uninitialised elements |
| `C42_violated_…` (three) | Hardware and Revision values: write past the buffer, missing terminator |
| `C43_violated` | two processors count as equal and as not equal |
| `C57_violated`, `C58_violated` | x86: empty table read; offline processors published with APIC id 0 (always: `C57_violated_always`, `C58_violated_always`; exactly when: `C58_exact`) |
| `C70_violated`, `C71_violated` | rejected fields of ARM /proc/cpuinfo are stored all the same (exactly what: `C70_exact`, `C71_exact`) |
| `C74_violated` | Kryo 280 Gold can never match its case label |
| `C76_violated` (exactly when: `C76_listed_once_exact`), `C77_violated`, `C77_ranges_broken` | ARM: a microarchitecture listed twice; offline processors published instead of online ones; ranges beyond the table |
| `C79_violated`–`C81_violated` | ARM identities: scan contradicts what is known (exactly when: `C79_scan_exact`); MT6592 entry can never fit; big.LITTLE heuristic refused (exactly when: `C81_used_iff`, `C81_violated_always`) |
| `C87_violated`, `C88_violated` (exactly when: `C88_l3_right_iff`; which: `C88_l3_exact`) | ARM caches: empty L1 range; cluster without its L3 |
| `C89_violated_…` (three; `…_no_processor_always` for all inputs), `C91_violated` | ARM: empty table read; wild L2 pointer; different cores merged into one cluster |
| `C54_violated`, `C93_violated` | a log line of exactly 1024 bytes loses its last character to a NUL byte |
| `C50_violated` | Emscripten on x86: core and L1 counts twice the number of cores; index getters run past the L1 tables |
| `C51_violated_core`, `…_pointer`, `…_division`, `…_cache`, `…_freebsd`, `…_freebsd_pointer` | Mach and FreeBSD on x86: counts that do not divide evenly give links behind the ends of tables, wild pointers or division by zero; `C51_violated_mach_always`, `C51_violated_freebsd_always` say for all counts which links, and `C51_mach_exact`, `C51_freebsd_exact` that exactly the dividing counts give consistent tables; `C51_violated_mach_fields`, `C51_violated_freebsd_fields`: APIC ID fields that do not fit 32 bits are shifted by 32 bits or more, which is undefined |
| `C52_violated_mach`, `C52_violated_mach_always`, `C52_violated_freebsd_always` | Mach on x86 (and FreeBSD alike): with only one L1 cache described both are counted, and the getter of the other reads through a null table |
| `C96_violated` (`C96_mach_exact`, `C96_freebsd_exact`: exactly with several packages whose cores do not fill the field) | Mach and FreeBSD on x86: the core field of the reconstructed APIC ID is the machine-wide core number |
| `C48_violated_…` (four) | RISC-V: interleaved threads linked to the wrong core; starts of ranges are Linux processor numbers instead of indices |
| `C99_violated_missing_list` | RISC-V: one present processor without a sibling list (offline) makes initialization fail |
| `C100_violated_unstable_sort`, `C102_violated_inconsistent_lists` | RISC-V: an unstable sort of equal processors, or lists of which none names the first processor (exactly then: `C102_riscv_exact`), lead to writes before the tables |
| `C104_violated`, `C104_bound_sharp` | ARM: cpuinfo_get_max_cache_size is 4 MB on ThunderX, whose published L2 cache is of 16 MB; large clusters of other core types exceed their bounds (exactly when: `C104_exact`, `C104_violated_unknown`) |
| `C107_violated` | 32-bit ARM with a C library other than glibc and Android's: the feature words stay 0 and NEON, VFP, division are denied |
| `C108_violated` | ARM: instruction set decided by the last processor: dot products reported for Cortex-A55 r0 + Cortex-A76, not in the other order (exactly when: `C108_exact`, `C108_violated_mixed`) |
| `C46_violated`, `C47_violated` | chipset names: without model the suffix is not printed; the Leadcore suffix is lost (exactly when: `C46_exact`) |
| `C109_violated_kirin`, `C109_violated_exynos` | chipset signatures: "kirinX950" is accepted; "samsung exynos7420" is rejected, "Samsung Exynos98101" accepted |
| `C112_violated` | MSM8216 and "MSM8916MSM8916" with eight cores are reported as the four-core MSM8916; correcting twice changes the result |
| `C113_violated` | any Broadcom chip with a suitable Revision is reported as a Raspberry Pi chip; processor code 4 leaves BCM2835 |
| `C115_violated_model`, `C115_violated_mixed` | Android: suffixes are passed on between different models and overwritten in part, giving chipsets no source names |
| `C116_violated` | the frequency is always passed as 0: WMT never gets a model |
| `C117_violated`, `C117_violated_always` | Broadcom without Revision line: the package name depends on uninitialised memory |
| `C121_violated` | x86 Windows: an answer without package records leads to a write into an empty table |
| `C125_violated` | x86 Windows: with several packages all processors and cores link to cluster 0, the clusters of the other packages are empty |
| `C126_violated` | x86 Windows: processors that can be added later are published as copies of processor 0 of group 0 |
| `C129_violated_threads`, `C129_violated_packages`, `C129_violated_line` | ARM Mach: division by zero or read outside a table when threads are no multiple of cores, when more cores are left over than each package has (so with more packages than cores), or with a cache but no 32-bit cache line size |
| `C130_violated`, `C130_violated_always` | ARM Mach: whenever packages do not divide cores, e.g. three cores in two packages, the last core links behind the packages |
| `C131_violated_threads`, `C131_violated_packages` | ARM Mach: clusters count cores as processors; every package claims all clusters |
| `C133_violated_threads` | ARM Mach: shared caches' ranges count cores instead of processors |
| `C136_violated` | ARM Mach: only one first-level size reported: the other kind is counted with a null table, index query faults |
| `C137_violated_no_core`, `_cache_level`, `_division`, `_cache_mask`, `_empty_core`, `_second_answer` | ARM Windows: undefined behaviour for a processor without core record, a cache record of level 4 or a unified first level, zero line size or ways, a foreign processor in a cache mask, an empty first core record, a longer second answer |
| `C138_violated_smt`, `_core_id`, `_cluster_id` | ARM Windows: smt_id and cluster_id always 0, core_id counted over all packages |
| `C139_violated_no_groups`, `_fully_associative` | ARM Windows: cache records with GroupCount 0 give an empty range at 4294967295; fully associative caches get 255 ways |
| `C140_violated_midr`, `C140_violated_unknown`, `C143_violated_current_kind` | ARM Windows: MIDR of the kind is 0; with an unknown kind no kind is published, but the current kind is number 0 |
| `C141_violated_bytes`, `_cut`, `_memory` | ARM Windows: a name over 47 bytes in UTF-8, or cut inside a surrogate pair, makes initialization fail |
| `C142_violated_32bit` | ARM Windows, 32-bit: ARMv7, NEON, VFP, Thumb-2 always denied |
| `C137_violated_result`, `C143_violated_success`, `C144_violated_arm_windows_result` | ARM Windows: without memory for the kinds of cores everything is freed and nothing published, but initialization counts as successful |
| `C144_violated_x86_linux`, `_arm_linux`, `_x86_mach`, `_x86_windows`, `_arm_windows_registry` | Leaks: the table of Linux processors if /proc/cpuinfo cannot be parsed; all tables on Apple x86 if a cache table cannot be allocated; the buffer of records on x86 Windows, always; three blocks of the registry code on ARM Windows |
| `C144_violated_arm_windows_null` | ARM Windows: `HeapFree` of a null pointer after early failures |
| `C146_violated_shorter`, `C146_violated_zero_size` | Windows: x86 takes unwritten memory for a record if the second answer is shorter than the first; a record of size 0 is read forever |
| `C148_violated_marvell`, `C148_violated_others`, `C149_violated` | cpu-info has no name for Marvell, SiFive and old x86 vendors and then prints a known microarchitecture as a number, too; a cluster without cores is printed as cores 0-4294967295 |
| `C152_violated`, `C153_violated_amd`, `C153_violated_via` | the script reads sub-leaf 0A as 0; cpuid-dump prints only the first cache of AMD processors with topology extensions and none of VIA's leaves, so that mock builds detect other caches and flags (which flags exactly: `C153_isa_exact`) |
| `C159_violated_thunderx` | ARM: the L1 instruction cache of ThunderX is given as 78 KB in 4 ways of 64-byte lines, which makes 312 sets |
| `C158_violated_offline` | ARM: with two of eight processors of one kind offline and no lists of siblings the cluster heuristic is told six, and reads `cluster_sizes[2]`, which was never written |
| `C158_violated_unlisted_leader` | ARM: with CPU 0 offline and cores that are not in the table of caches, CPU 0 gets no L2 cache but its cluster mates do, and are linked to element `UINT32_MAX` of the L2 table |
| `C161_violated_declared` | ARM: Cortex-A520, Cortex-A720 and Cortex-X4 are declared in the header, but never reported |
| `C162_violated` | x86: Ice Lake NNP-I, models 61h-64h, 66h-6Fh, 71h-7Fh of AMD family 15h, Dali (family 17h, models 20h-2Fh), Fenghuang (50h-5Fh), Mendocino (A0h-AFh), MI300A (family 19h, models 90h-9Fh) are reported as unknown although their microarchitectures have enumerators.  The assignment of these ranges is from the vendors' documents, not from /repo |
| `C163_violated_arm64` | isa-info on 64-bit ARM prints no line for five of the SME queries |
| `C164_exact`, `C164_violated_zero_digit`, `C164_violated_missing` | The dump script loses the backslash of hexadecimal escapes, lets octal digits join the escape of a zero byte, and writes neither `topology/cluster_cpus_list`, which ARM detection reads first, nor processors from number 16 on |
| `C165_violated_bracket`, `C165_violated_missing` | The Android dump script breaks on property values with `]` (exactly then: `C165_bracket_exact`), does not write `topology/cluster_cpus_list`, and without kernel_max writes only processor 0 |
| `C167_violated_garbage`, `C167_violated_stack`, `C167_violated_heap`, `C167_violated_line_end` | deps/clog/src/clog.c on Hexagon: the line end replaces the terminator of a text that is then printed with `%s`, so that uninitialized stack is printed, or memory behind the buffer is read; src/log.c on Hexagon never ends a line |
| `C168_violated_tag` | src/log.c on Android: all messages carry the tag XNNPACK, the name of another library |
| `C169_violated_empty_core` | src/arm/windows/init-by-logical-sys-info.c: a core record without processors after the others is published as a cluster with a null package, as a core of the cluster of processor 0 |
| `C170_violated_hwcap2`, `C170_violated_newline` | tools/auxv-dump.c: AT_HWCAP2 is missing on 64-bit ARM (exactly when it matters: `C170_replay64_exact`); one error message lacks the line end |
| `C171_violated_emscripten`, `…_universal`, `…_windows`, `…_warned`, `…_silent` | CMakeLists.txt leaves out the file that src/init.c calls: on Emscripten with CMake 3.14 or later (always), for one half of every universal binary of Apple (always), on Windows under the name aarch64 and for ARM64EC, on Linux under names it warns about; on FreeBSD with ARM or RISC-V it does not warn that initialization always fails |
| `C172_violated_ndk_debug`, `C172_violated_confu` | jni/Android.mk and configure.py do not build src/log.c, so programs cannot be linked in debug builds of ndk-build and in builds of confu unless `--log none` is given; configure.py also lacks riscv/linux/riscv-hw.c and riscv/uarch.c |
| `C174_violated` | "AMD Ryzen 7 3700X 8-Core Processor" is named "AMD Ryzen 7 3700X 8-Core": numbers of cores in digits are erased only for 12 and 16 |

Seen, but not stated as theorems: ARM detection on Apple systems gives an M1 Pro (8 Firestorm and 2 Icestorm cores) 6 and 4, because the last four cores are taken to be small (follows from C132_every_count); one warning has an inverted condition.

## How the theorems were tested

`seeded/LOG.jsonl` has one record per edit of a model definition in a scratch copy: the edit, the claim
it breaks, the theorems that no longer prove, and the theorems added or tightened when everything still
proved.

## Trusted base

* Lean 4.33 kernel; axioms at most `propext`, `Classical.choice`, `Quot.sound`
  (checked with `#print axioms`).  No own axioms, no `sorry`, no `native_decide`, no
  `bv_decide`.
* The reading of the C code: each definition cites the lines it models.
* libc/OS contracts listed under "Modelling conventions".
