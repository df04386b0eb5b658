import Verif.Model.ToolsMain
import Verif.Model.X86Isa
import Verif.Model.ArmIsa
import Verif.Model.Riscv

/-!
# Model of tools/isa-info.c

What the tool prints when initialization has succeeded, for the answers of the queries of
include/cpuinfo.h.
-/

set_option autoImplicit false

namespace Verif.IsaInfo

open Verif.ArmChipset (decimal)
open X86Cpuid (Feature Target hasX86)
open ArmIsa (Query)

/-- What is printed: a heading, `printf("\t<label>: %s\n", q() ? "yes" : "no")` with the answer of the
query, or `printf("\tSVE max length: %d\n", …)`, tools/isa-info.c:180. -/
inductive Item
  | heading (text : Bytes)
  | answer (label : Bytes) (yes : Bool)
  | number (label : Bytes) (value : Nat)
deriving DecidableEq, Repr

def Item.line : Item → Bytes
  | .heading text => text ++ b!":\n"
  | .answer label yes => [9] ++ label ++ b!": " ++ (if yes then b!"yes" else b!"no") ++ [10]
  | .number label value => [9] ++ label ++ b!": " ++ decimal value ++ [10]

/-- A heading with the labels and queries below it. -/
abbrev Section (α : Type) := Bytes × List (Bytes × α)

def sections {α : Type} (q : α → Bool) (l : List (Section α)) : List Item :=
  l.flatMap fun s => .heading s.1 :: s.2.map fun x => .answer x.1 (q x.2)

/-- tools/isa-info.c:14-116; the lines within `#if CPUINFO_ARCH_X86` are printed by 32-bit builds
only. -/
def x86Sections (x86_32 : Bool) : List (Section Feature) :=
  [(b!"Scalar instructions",
    (if x86_32 then [(b!"x87 FPU", .fpu), (b!"CMOV", .cmov)] else []) ++
    [(b!"LAHF/SAHF", .lahfSahf), (b!"LZCNT", .lzcnt), (b!"POPCNT", .popcnt), (b!"TBM", .tbm),
     (b!"BMI", .bmi), (b!"BMI2", .bmi2), (b!"ADCX/ADOX", .adx)]),
   (b!"Memory instructions",
    [(b!"MOVBE", .movbe), (b!"PREFETCH", .prefetch), (b!"PREFETCHW", .prefetchw),
     (b!"PREFETCHWT1", .prefetchwt1), (b!"CLZERO", .clzero)]),
   (b!"SIMD extensions",
    [(b!"MMX", .mmx), (b!"MMX+", .mmxPlus), (b!"3dnow!", .threeDNow), (b!"3dnow!+", .threeDNowPlus),
     (b!"3dnow! Geode", .threeDNowGeode), (b!"DAZ", .daz), (b!"SSE", .sse), (b!"SSE2", .sse2),
     (b!"SSE3", .sse3), (b!"SSSE3", .ssse3), (b!"SSE4.1", .sse4_1), (b!"SSE4.2", .sse4_2),
     (b!"SSE4a", .sse4a), (b!"Misaligned SSE", .misalignedSse), (b!"AVX", .avx), (b!"FMA3", .fma3),
     (b!"FMA4", .fma4), (b!"XOP", .xop), (b!"F16C", .f16c), (b!"AVX2", .avx2),
     (b!"AVX512F", .avx512f), (b!"AVX512PF", .avx512pf), (b!"AVX512ER", .avx512er),
     (b!"AVX512CD", .avx512cd), (b!"AVX512DQ", .avx512dq), (b!"AVX512BW", .avx512bw),
     (b!"AVX512VL", .avx512vl), (b!"AVX512IFMA", .avx512ifma), (b!"AVX512VBMI", .avx512vbmi),
     (b!"AVX512VBMI2", .avx512vbmi2), (b!"AVX512BITALG", .avx512bitalg),
     (b!"AVX512VPOPCNTDQ", .avx512vpopcntdq), (b!"AVX512VNNI", .avx512vnni),
     (b!"AVX512BF16", .avx512bf16), (b!"AVX512FP16", .avx512fp16),
     (b!"AVX512VP2INTERSECT", .avx512vp2intersect), (b!"AVX512_4VNNIW", .avx512_4vnniw),
     (b!"AVX512_4FMAPS", .avx512_4fmaps), (b!"AVX10_1", .avx10_1), (b!"AVX10_2", .avx10_2),
     (b!"AMX_BF16", .amxBf16), (b!"AMX_TILE", .amxTile), (b!"AMX_INT8", .amxInt8),
     (b!"AMX_FP16", .amxFp16), (b!"AVXVNNI", .avxvnni), (b!"AVX_VNNI_INT8", .avxVnniInt8),
     (b!"AVX_VNNI_INT16", .avxVnniInt16), (b!"AVX_NE_CONVERT", .avxNeConvert)]),
   (b!"Multi-threading extensions",
    [(b!"MONITOR/MWAIT", .mwait), (b!"MONITORX/MWAITX", .mwaitx)] ++
    (if x86_32 then [(b!"CMPXCHG8B", .cmpxchg8b)] else []) ++
    [(b!"CMPXCHG16B", .cmpxchg16b), (b!"HLE", .hle), (b!"RTM", .rtm), (b!"XTEST", .xtest),
     (b!"RDPID", .rdpid)]),
   (b!"Cryptography extensions",
    [(b!"AES", .aes), (b!"VAES", .vaes), (b!"PCLMULQDQ", .pclmulqdq), (b!"VPCLMULQDQ", .vpclmulqdq),
     (b!"GFNI", .gfni), (b!"RDRAND", .rdrand), (b!"RDSEED", .rdseed), (b!"SHA", .sha)]),
   (b!"Profiling instructions",
    (if x86_32 then [(b!"RDTSC", .rdtsc)] else []) ++
    [(b!"RDTSCP", .rdtscp), (b!"MPX", .mpx)]),
   (b!"System instructions",
    [(b!"CLWB", .clwb), (b!"FXSAVE/FXSTOR", .fxsave), (b!"XSAVE/XSTOR", .xsave)])]

/-- tools/isa-info.c:121-159. -/
def armSections : List (Section Query) :=
  [(b!"Instruction sets",
    [(b!"Thumb", .thumb), (b!"Thumb 2", .thumb2), (b!"ARMv5E", .v5e), (b!"ARMv6", .v6),
     (b!"ARMv6-K", .v6k), (b!"ARMv7", .v7), (b!"ARMv7 MP", .v7mp), (b!"ARMv8", .v8),
     (b!"IDIV", .idiv)]),
   (b!"Floating-Point support",
    [(b!"VFPv2", .vfpv2), (b!"VFPv3", .vfpv3), (b!"VFPv3+D32", .vfpv3D32),
     (b!"VFPv3+FP16", .vfpv3Fp16), (b!"VFPv3+FP16+D32", .vfpv3Fp16D32), (b!"VFPv4", .vfpv4),
     (b!"VFPv4+D32", .vfpv4D32), (b!"VJCVT", .jscvt)]),
   (b!"SIMD extensions",
    [(b!"WMMX", .wmmx), (b!"WMMX 2", .wmmx2), (b!"NEON", .neon), (b!"NEON-FP16", .neonFp16),
     (b!"NEON-FMA", .neonFma), (b!"NEON VQRDMLAH/VQRDMLSH", .neonRdm),
     (b!"NEON FP16 arithmetics", .neonFp16Arith), (b!"NEON complex", .fcma),
     (b!"NEON VSDOT/VUDOT", .neonDot), (b!"NEON VFMLAL/VFMLSL", .fhm)]),
   (b!"Cryptography extensions",
    [(b!"AES", .aes), (b!"SHA1", .sha1), (b!"SHA2", .sha2), (b!"PMULL", .pmull),
     (b!"CRC32", .crc32)])]

/-- tools/isa-info.c:162-177. -/
def arm64First : List (Section Query) :=
  [(b!"Instruction sets",
    [(b!"ARM v8.1 atomics", .atomics), (b!"ARM v8.1 SQRDMLxH", .neonRdm),
     (b!"ARM v8.2 FP16 arithmetics", .fp16Arith), (b!"ARM v8.2 FHM", .fhm), (b!"ARM v8.2 BF16", .bf16),
     (b!"ARM v8.2 Int8 dot product", .neonDot),
     (b!"ARM v8.2 Int8 matrix multiplication", .i8mm), (b!"ARM v8.3 JS conversion", .jscvt),
     (b!"ARM v8.3 complex", .fcma)]),
   (b!"SIMD extensions",
    [(b!"ARM SVE", .sve), (b!"ARM SVE 2", .sve2), (b!"ARM SME", .sme), (b!"ARM SME 2", .sme2)])]

/-- tools/isa-info.c:182-187. -/
def arm64Last : List (Section Query) :=
  [(b!"Cryptography extensions",
    [(b!"AES", .aes), (b!"SHA1", .sha1), (b!"SHA2", .sha2), (b!"PMULL", .pmull),
     (b!"CRC32", .crc32)])]

/-- The queries that are printed on RISC-V. -/
inductive RiscvQuery
  | i | m | a | f | d | c | v
deriving DecidableEq, Repr

/-- The function called for each, include/cpuinfo.h:2171-2237. -/
def riscvAsk : RiscvQuery → Riscv.Isa → Bool
  | .i => Riscv.hasI
  | .m => Riscv.hasM
  | .a => Riscv.hasA
  | .f => Riscv.hasF
  | .d => Riscv.hasD
  | .c => Riscv.hasC
  | .v => Riscv.hasV

/-- tools/isa-info.c:190-197. -/
def riscvSections : List (Section RiscvQuery) :=
  [(b!"Instruction sets",
    [(b!"Base Integer", .i), (b!"Integer Multiply/Divide", .m), (b!"Atomics", .a),
     (b!"Single-Precision Floating-Point", .f), (b!"Double-Precision Floating-Point", .d),
     (b!"Compressed", .c), (b!"Vector", .v)])]

/-- The machine with `cpuinfo_isa` as initialization leaves it. -/
inductive Machine
  | x86 (t : Target) (isa : Feature → Bool)
  | arm (isa : ArmIsa.Isa)
  | arm64 (isa : ArmIsa.Isa)
  | riscv (isa : Riscv.Isa)

/-- The items printed, tools/isa-info.c:12-198.  (All queries of x86 that are printed exist, see
`C163_x86_queries`.) -/
def items : Machine → List Item
  | .x86 t isa => sections (fun f => (hasX86 t isa f).getD false) (x86Sections t.x86_32)
  | .arm isa => sections (ArmIsa.has .arm isa) armSections
  | .arm64 isa => sections (ArmIsa.has .arm64 isa) arm64First ++
      [.heading b!"ARM SVE Capabilities", .number b!"SVE max length" (ArmIsa.maxSveLength .arm64 isa)] ++
      sections (ArmIsa.has .arm64 isa) arm64Last
  | .riscv isa => sections (fun q => riscvAsk q isa) riscvSections

/-- The output of the tool. -/
def isaInfo (m : Machine) : Bytes := ((items m).map Item.line).flatten

end Verif.IsaInfo
