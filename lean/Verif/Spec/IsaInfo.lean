import Verif.Model.X86Isa
import Verif.Model.ArmIsa
import Verif.Model.Riscv

/-!
# What a reader of isa-info's output looks for

The names of the instruction sets, by query.
-/
set_option autoImplicit false

namespace Verif.IsaInfo
open X86Cpuid (Feature)
open ArmIsa (Query)

/-- The text has this line. -/
def HasLine (text line : Bytes) : Prop :=
  ∃ before after, text = before ++ line ++ 10 :: after ∧ (before = [] ∨ before.getLast? = some 10)

/-- A line of the list of features. -/
def entry (name value : Bytes) : Bytes := 9 :: (name ++ b!": " ++ value)

/-- The names of x86 instruction sets, in the order of `struct cpuinfo_x86_isa`; `none` for fields
without a query. -/
def x86Name : Feature → Option Bytes
  | .rdtsc => some b!"RDTSC"
  | .rdtscp => some b!"RDTSCP"
  | .rdpid => some b!"RDPID"
  | .sysenter | .syscall | .msr | .clflush | .clflushopt | .emmx => none
  | .clzero => some b!"CLZERO"
  | .mwait => some b!"MONITOR/MWAIT"
  | .mwaitx => some b!"MONITORX/MWAITX"
  | .fxsave => some b!"FXSAVE/FXSTOR"
  | .xsave => some b!"XSAVE/XSTOR"
  | .fpu => some b!"x87 FPU"
  | .mmx => some b!"MMX"
  | .mmxPlus => some b!"MMX+"
  | .threeDNow => some b!"3dnow!"
  | .threeDNowPlus => some b!"3dnow!+"
  | .threeDNowGeode => some b!"3dnow! Geode"
  | .prefetch => some b!"PREFETCH"
  | .prefetchw => some b!"PREFETCHW"
  | .prefetchwt1 => some b!"PREFETCHWT1"
  | .daz => some b!"DAZ"
  | .sse => some b!"SSE"
  | .sse2 => some b!"SSE2"
  | .sse3 => some b!"SSE3"
  | .ssse3 => some b!"SSSE3"
  | .sse4_1 => some b!"SSE4.1"
  | .sse4_2 => some b!"SSE4.2"
  | .sse4a => some b!"SSE4a"
  | .misalignedSse => some b!"Misaligned SSE"
  | .avx => some b!"AVX"
  | .avxvnni => some b!"AVXVNNI"
  | .fma3 => some b!"FMA3"
  | .fma4 => some b!"FMA4"
  | .xop => some b!"XOP"
  | .f16c => some b!"F16C"
  | .avx2 => some b!"AVX2"
  | .avx512f => some b!"AVX512F"
  | .avx512pf => some b!"AVX512PF"
  | .avx512er => some b!"AVX512ER"
  | .avx512cd => some b!"AVX512CD"
  | .avx512dq => some b!"AVX512DQ"
  | .avx512bw => some b!"AVX512BW"
  | .avx512vl => some b!"AVX512VL"
  | .avx512ifma => some b!"AVX512IFMA"
  | .avx512vbmi => some b!"AVX512VBMI"
  | .avx512vbmi2 => some b!"AVX512VBMI2"
  | .avx512bitalg => some b!"AVX512BITALG"
  | .avx512vpopcntdq => some b!"AVX512VPOPCNTDQ"
  | .avx512vnni => some b!"AVX512VNNI"
  | .avx512bf16 => some b!"AVX512BF16"
  | .avx512fp16 => some b!"AVX512FP16"
  | .avx512vp2intersect => some b!"AVX512VP2INTERSECT"
  | .avx512_4vnniw => some b!"AVX512_4VNNIW"
  | .avx512_4fmaps => some b!"AVX512_4FMAPS"
  | .avx10_1 => some b!"AVX10_1"
  | .avx10_2 => some b!"AVX10_2"
  | .amxBf16 => some b!"AMX_BF16"
  | .amxTile => some b!"AMX_TILE"
  | .amxInt8 => some b!"AMX_INT8"
  | .amxFp16 => some b!"AMX_FP16"
  | .avxVnniInt8 => some b!"AVX_VNNI_INT8"
  | .avxVnniInt16 => some b!"AVX_VNNI_INT16"
  | .avxNeConvert => some b!"AVX_NE_CONVERT"
  | .hle => some b!"HLE"
  | .rtm => some b!"RTM"
  | .xtest => some b!"XTEST"
  | .mpx => some b!"MPX"
  | .cmov => some b!"CMOV"
  | .cmpxchg8b => some b!"CMPXCHG8B"
  | .cmpxchg16b => some b!"CMPXCHG16B"
  | .clwb => some b!"CLWB"
  | .movbe => some b!"MOVBE"
  | .lahfSahf => some b!"LAHF/SAHF"
  | .fsGsBase => none
  | .lzcnt => some b!"LZCNT"
  | .popcnt => some b!"POPCNT"
  | .tbm => some b!"TBM"
  | .bmi => some b!"BMI"
  | .bmi2 => some b!"BMI2"
  | .adx => some b!"ADCX/ADOX"
  | .aes => some b!"AES"
  | .vaes => some b!"VAES"
  | .pclmulqdq => some b!"PCLMULQDQ"
  | .vpclmulqdq => some b!"VPCLMULQDQ"
  | .gfni => some b!"GFNI"
  | .rdrand => some b!"RDRAND"
  | .rdseed => some b!"RDSEED"
  | .sha => some b!"SHA"
  | .rng | .ace | .ace2 | .phe | .pmm | .lwp => none

/-- Part of all 64-bit processors; printed by 32-bit builds only. -/
def AlwaysIn64 (f : Feature) : Prop := f = .fpu ∨ f = .cmov ∨ f = .cmpxchg8b ∨ f = .rdtsc

/-- The names of instruction sets of 32-bit ARM; `none` if isa-info does not print the query. -/
def armName : Query → Option Bytes
  | .thumb => some b!"Thumb"
  | .thumb2 => some b!"Thumb 2"
  | .v5e => some b!"ARMv5E"
  | .v6 => some b!"ARMv6"
  | .v6k => some b!"ARMv6-K"
  | .v7 => some b!"ARMv7"
  | .v7mp => some b!"ARMv7 MP"
  | .v8 => some b!"ARMv8"
  | .idiv => some b!"IDIV"
  | .vfpv2 => some b!"VFPv2"
  | .vfpv3 => some b!"VFPv3"
  | .vfpv3D32 => some b!"VFPv3+D32"
  | .vfpv3Fp16 => some b!"VFPv3+FP16"
  | .vfpv3Fp16D32 => some b!"VFPv3+FP16+D32"
  | .vfpv4 => some b!"VFPv4"
  | .vfpv4D32 => some b!"VFPv4+D32"
  | .wmmx => some b!"WMMX"
  | .wmmx2 => some b!"WMMX 2"
  | .neon => some b!"NEON"
  | .neonFp16 => some b!"NEON-FP16"
  | .neonFma => some b!"NEON-FMA"
  | .neonRdm => some b!"NEON VQRDMLAH/VQRDMLSH"
  | .neonFp16Arith => some b!"NEON FP16 arithmetics"
  | .neonDot => some b!"NEON VSDOT/VUDOT"
  | .fhm => some b!"NEON VFMLAL/VFMLSL"
  | .fcma => some b!"NEON complex"
  | .jscvt => some b!"VJCVT"
  | .aes => some b!"AES"
  | .sha1 => some b!"SHA1"
  | .sha2 => some b!"SHA2"
  | .pmull => some b!"PMULL"
  | .crc32 => some b!"CRC32"
  | _ => none

/-- The names of instruction sets of 64-bit ARM; `none` if isa-info does not print the query. -/
def arm64Name : Query → Option Bytes
  | .atomics => some b!"ARM v8.1 atomics"
  | .neonRdm => some b!"ARM v8.1 SQRDMLxH"
  | .fp16Arith => some b!"ARM v8.2 FP16 arithmetics"
  | .fhm => some b!"ARM v8.2 FHM"
  | .bf16 => some b!"ARM v8.2 BF16"
  | .neonDot => some b!"ARM v8.2 Int8 dot product"
  | .i8mm => some b!"ARM v8.2 Int8 matrix multiplication"
  | .jscvt => some b!"ARM v8.3 JS conversion"
  | .fcma => some b!"ARM v8.3 complex"
  | .sve => some b!"ARM SVE"
  | .sve2 => some b!"ARM SVE 2"
  | .sme => some b!"ARM SME"
  | .sme2 => some b!"ARM SME 2"
  | .aes => some b!"AES"
  | .sha1 => some b!"SHA1"
  | .sha2 => some b!"SHA2"
  | .pmull => some b!"PMULL"
  | .crc32 => some b!"CRC32"
  | _ => none

/-- The standard extensions of RISC-V that isa-info prints. -/
def riscvNames : List (Bytes × (Riscv.Isa → Bool)) :=
  [(b!"Base Integer", fun x => x.i), (b!"Integer Multiply/Divide", fun x => x.m),
   (b!"Atomics", fun x => x.a), (b!"Single-Precision Floating-Point", fun x => x.f),
   (b!"Double-Precision Floating-Point", fun x => x.d), (b!"Compressed", fun x => x.c),
   (b!"Vector", fun x => x.v)]

end Verif.IsaInfo
