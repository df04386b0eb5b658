import Verif.Model.ArmInit

/-!
# Model of src/arm/linux/aarch64-isa.c, aarch32-isa.c, hwcap.c, of the part of src/arm/linux/init.c
# that calls them, and of the `cpuinfo_has_arm_*` functions of include/cpuinfo.h

Simplifications: log messages and mock builds are left out.  `getauxval`, `prctl` and the two
coprocessor registers are parameters.
-/

set_option autoImplicit false

namespace Verif.ArmIsa
open ArmMidr ArmCpuinfo ArmClusters ArmChipset ArmInit
open X86Init (bitmaskAll)

/-- `struct cpuinfo_arm_isa`, include/cpuinfo.h:1657-1717, with the fields of both builds. -/
structure Isa where
  thumb : Bool := false
  thumb2 : Bool := false
  thumbee : Bool := false
  jazelle : Bool := false
  armv5e : Bool := false
  armv6 : Bool := false
  armv6k : Bool := false
  armv7 : Bool := false
  armv7mp : Bool := false
  armv8 : Bool := false
  idiv : Bool := false
  vfpv2 : Bool := false
  vfpv3 : Bool := false
  d32 : Bool := false
  fp16 : Bool := false
  fma : Bool := false
  wmmx : Bool := false
  wmmx2 : Bool := false
  neon : Bool := false
  atomics : Bool := false
  bf16 : Bool := false
  sve : Bool := false
  sve2 : Bool := false
  i8mm : Bool := false
  sme : Bool := false
  sme2 : Bool := false
  sme2p1 : Bool := false
  smeI16I32 : Bool := false
  smeBi32I32 : Bool := false
  smeB16B16 : Bool := false
  smeF16F16 : Bool := false
  svelen : Nat := 0
  rdm : Bool := false
  fp16arith : Bool := false
  dot : Bool := false
  jscvt : Bool := false
  fcma : Bool := false
  fhm : Bool := false
  aes : Bool := false
  sha1 : Bool := false
  sha2 : Bool := false
  pmull : Bool := false
  crc32 : Bool := false
deriving DecidableEq, Repr

/-- `if (features & mask) isa->x = true`: a condition of C. -/
def on (features mask : Nat) : Bool := features &&& mask != 0

/-- The cores with FP16 arithmetics and RDM, src/arm/linux/aarch64-isa.c:56-75. -/
def fp16Cores64 : List Nat :=
  [0x4100D050, 0x4100D060, 0x4100D0A0, 0x4100D0B0, 0x4100D0C0, 0x4100D0D0, 0x4100D0E0, 0x4100D400,
   0x4100D490, 0x4100D4F0, 0x4800D400, 0x51008020, 0x51008030, 0x51008040, 0x51008050, 0x53000030,
   0x53000040]

/-- The cores with dot products, src/arm/linux/aarch64-isa.c:103-118. -/
def dotCores64 : List Nat :=
  [0x4100D060, 0x4100D0B0, 0x4100D0C0, 0x4100D0D0, 0x4100D0E0, 0x4100D400, 0x4100D490, 0x4100D4A0,
   0x4100D4F0, 0x4800D400, 0x51008040, 0x51008050, 0x53000030, 0x53000040]

/-- `chipset->series == cpuinfo_arm_chipset_series_samsung_exynos && chipset->model == 9810`,
src/arm/linux/aarch64-isa.c:50, aarch32-isa.c:85. -/
def exynos9810 (c : Chipset) : Bool := c.series == .samsungExynos && c.model == 9810

/-- FP16 arithmetics, src/arm/linux/aarch64-isa.c:50-93. -/
def fp16arith64 (features midr : Nat) (chipset : Chipset) : Bool :=
  if exynos9810 chipset then false
  else if midr &&& coreMask ∈ fp16Cores64 then true
  else features &&& 0x00000600 == 0x00000600

/-- RDM, src/arm/linux/aarch64-isa.c:50-93. -/
def rdm64 (features midr : Nat) (chipset : Chipset) : Bool :=
  if exynos9810 chipset then false
  else if midr &&& coreMask ∈ fp16Cores64 then true
  else on features 0x00001000

/-- Dot products, src/arm/linux/aarch64-isa.c:103-131. -/
def dot64 (features midr : Nat) : Bool :=
  if midr &&& coreMask ∈ dotCores64 then true
  else if midr &&& coreMask = 0x4100D050 then getVariant midr ≥ 1
  else if midr &&& coreMask = 0x4100D0A0 then getVariant midr ≥ 2
  else on features 0x00100000

/-- The vector length, src/arm/linux/aarch64-isa.c:186-194; `ret` is what `prctl` returns. -/
def svelen (ret : Int) : Nat := if ret < 0 then 0 else ret.toNat &&& 0xffff

/-- `cpuinfo_arm64_linux_decode_isa_from_proc_cpuinfo`, src/arm/linux/aarch64-isa.c:8-195.  The
fields are false before, and every field is set at one place. -/
def decode64 (features features2 midr : Nat) (chipset : Chipset) (ret : Int) : Isa :=
  { aes := on features 0x00000008
    pmull := on features 0x00000010
    sha1 := on features 0x00000020
    sha2 := on features 0x00000040
    crc32 := on features 0x00000080
    atomics := on features 0x00000100
    fp16arith := fp16arith64 features midr chipset
    rdm := rdm64 features midr chipset
    i8mm := on features2 0x00002000
    dot := dot64 features midr
    jscvt := on features 0x00002000
    fcma := on features 0x00004000
    sve := on features 0x00400000
    sve2 := on features2 0x00000002
    sme := on features2 0x00800000
    sme2 := on features2 0x0000002000000000
    sme2p1 := on features2 0x0000004000000000
    smeI16I32 := on features2 0x0000008000000000
    smeBi32I32 := on features2 0x0000010000000000
    smeB16B16 := on features2 0x0000020000000000
    smeF16F16 := on features2 0x0000040000000000
    bf16 := on features2 (0x00004000 ||| 0x00001000)
    fhm := on features 0x00800000
    svelen := svelen ret }

/-- The cores with FP16 arithmetics and RDM, src/arm/linux/aarch32-isa.c:91-121. -/
def fp16Cores32 : List Nat :=
  [0x4100D050, 0x4100D0A0, 0x4100D0B0, 0x4100D0C0, 0x4100D0D0, 0x4100D0E0, 0x4100D400, 0x4100D410,
   0x4100D440, 0x4100D460, 0x4100D470, 0x4100D480, 0x4100D490, 0x4100D4D0, 0x4100D4E0, 0x4100D4F0,
   0x4800D400, 0x51008020, 0x51008030, 0x51008040, 0x51008050, 0x53000030, 0x53000040]

/-- The cores with dot products, src/arm/linux/aarch32-isa.c:155-179. -/
def dotCores32 : List Nat :=
  [0x4100D0B0, 0x4100D0C0, 0x4100D0D0, 0x4100D0E0, 0x4100D400, 0x4100D410, 0x4100D440, 0x4100D460,
   0x4100D470, 0x4100D480, 0x4100D490, 0x4100D4D0, 0x4100D4E0, 0x4100D4F0, 0x4800D400, 0x51008040,
   0x51008050, 0x53000030, 0x53000040]

/-- The chipsets on which dot products fail, src/arm/linux/aarch32-isa.c:146-153. -/
def dotFails (c : Chipset) : Bool :=
  c.series == .spreadtrumSc && c.model == 9863 || c.series == .unisocT && c.model == 310 ||
  c.series == .unisocUms && c.model == 312

/-- FP16 arithmetics and RDM, src/arm/linux/aarch32-isa.c:85-124. -/
def fp16arith32 (midr : Nat) (chipset : Chipset) : Bool :=
  if exynos9810 chipset then false else decide (midr &&& coreMask ∈ fp16Cores32)

/-- Dot products, src/arm/linux/aarch32-isa.c:146-190. -/
def dot32 (midr : Nat) (chipset : Chipset) : Bool :=
  if dotFails chipset then false
  else if midr &&& coreMask ∈ dotCores32 then true
  else if midr &&& coreMask = 0x4100D050 then getVariant midr ≥ 1
  else if midr &&& coreMask = 0x4100D0A0 then getVariant midr ≥ 2
  else false

/-- ARMv8, src/arm/linux/aarch32-isa.c:42-190. -/
def armv8Isa (midr : Nat) (chipset : Chipset) : Isa :=
  { armv5e := true, armv6 := true, armv6k := true, armv7 := true, armv7mp := true, armv8 := true
    thumb := true, thumb2 := true, idiv := true, vfpv3 := true, d32 := true, fp16 := true
    fma := true, neon := true
    fp16arith := fp16arith32 midr chipset
    rdm := fp16arith32 midr chipset
    dot := dot32 midr chipset }

/-- What a 32-bit build depends on besides the features: `__ARM_ARCH` and the registers read by
`read_wcid` and `read_fpsid`, src/arm/linux/cp.h. -/
structure Target32 where
  armArch : Nat
  wcid : Nat
  fpsid : Nat

/-- `CPUINFO_ARM_LINUX_FEATURE_VFPV3 | …VFPV3D16 | …VFPD32 | …VFPV4 | …NEON`,
src/arm/linux/aarch32-isa.c:312-314. -/
def vfpv3Mask : Nat := 0x00002000 ||| 0x00004000 ||| 0x00080000 ||| 0x00010000 ||| 0x00001000

/-- The architecture version used below version 8, src/arm/linux/aarch32-isa.c:194-214. -/
def oldVersion (features midr version : Nat) : Nat :=
  let version := if version = 7 ∧ isArm11 midr then 6 else version
  if version < 7 ∧ on features (vfpv3Mask ||| 0x00040000 ||| 0x00020000) then 7 else version

/-- `(features & CPUINFO_ARM_LINUX_FEATURE_IDIV) == CPUINFO_ARM_LINUX_FEATURE_IDIV`. -/
def hasIdiv (features : Nat) : Bool := features &&& 0x00060000 == 0x00060000

/-- ARMv7 with MP, src/arm/linux/aarch32-isa.c:222-255. -/
def armv7mpOld (features midr version : Nat) : Bool :=
  if version ≥ 7 then
    if midr &&& coreMask ∈ [0x4100C050, 0x4100C090, 0x510002D0, 0x510004D0, 0x510006F0] then true
    else hasIdiv features
  else false

/-- `isa->wmmx` (`least` is 0x10) and `isa->wmmx2` (`least` is 0x20),
src/arm/linux/aarch32-isa.c:257-279. -/
def wmmxOld (t : Target32) (features least : Nat) : Bool :=
  if on features 0x00000200 then
    if t.armArch < 8 then decide ((t.wcid >>> 8) &&& 0xFF ≥ least) else false
  else false

/-- Thumb, src/arm/linux/aarch32-isa.c:281-291. -/
def thumbOld (features archFlags : Nat) : Bool := on features 0x00000004 || on archFlags 1

/-- The floating point units, src/arm/linux/aarch32-isa.c:306-336: (VFPv2, VFPv3, 32 registers). -/
def vfpOld (t : Target32) (features version : Nat) : Bool × Bool × Bool :=
  if on features (0x00000040 ||| vfpv3Mask) then
    if version ≥ 7 ∨ on features vfpv3Mask then
      (false, true, on features (0x00080000 ||| 0x00001000))
    else if t.armArch ≥ 7 then (false, true, false)
    else ((t.fpsid >>> 16) &&& 0x7F ≥ 0x01, false, false)
  else (false, false, false)

/-- ARMv7 and lower, src/arm/linux/aarch32-isa.c:191-353, for the version of `oldVersion`. -/
def oldIsa (t : Target32) (features midr version archFlags : Nat) : Isa :=
  { armv5e := decide (version ≥ 6) || on features 0x00000080 || on archFlags 2
    armv6 := version ≥ 6
    armv6k := version ≥ 7
    armv7 := version ≥ 7
    armv7mp := armv7mpOld features midr version
    wmmx := wmmxOld t features 0x10
    wmmx2 := wmmxOld t features 0x20
    thumb := thumbOld features archFlags
    thumb2 := thumbOld features archFlags && (decide (version ≥ 7) || isArm1156 midr)
    thumbee := on features 0x00000800
    jazelle := on features 0x00000100 || on archFlags 4
    idiv := hasIdiv features || isKrait midr
    vfpv2 := (vfpOld t features version).1
    vfpv3 := (vfpOld t features version).2.1
    d32 := (vfpOld t features version).2.2
    neon := on features 0x00001000
    fp16 := on features 0x00010000 || isCortexA9 midr || isScorpion midr
    fma := on features 0x00010000 }

/-- `cpuinfo_arm_linux_decode_isa_from_proc_cpuinfo`, src/arm/linux/aarch32-isa.c:25-370.  The
fields are false before, and every field is set at one place of either branch. -/
def decode32 (t : Target32) (features features2 midr version archFlags : Nat) (chipset : Chipset) :
    Isa :=
  let version := if version < 8 ∧ on features2 (1 ||| 2 ||| 4 ||| 8 ||| 16) then 8 else version
  let isa := if version ≥ 8 then armv8Isa midr chipset
    else oldIsa t features midr (oldVersion features midr version) archFlags
  { isa with
    aes := on features2 1
    pmull := on features2 2
    sha1 := on features2 4
    sha2 := on features2 8
    crc32 := on features2 16 }

/-- The C libraries the code distinguishes, src/arm/linux/hwcap.c:44-79 (`glibc`: 2.16 or later). -/
inductive Libc where
  | android
  | glibc
  | other
deriving DecidableEq, Repr

/-- What detection of the instruction set reads besides the processor table. -/
structure Source where
  libc : Libc
  /-- `getauxval` of `AT_HWCAP` and `AT_HWCAP2`; on 32-bit Android `none` if it cannot be found in
  libc.so. -/
  auxval : Option (Nat × Nat)
  /-- `/proc/self/auxv`. -/
  auxv : File
  target : Target32
  /-- The answer of `prctl(PR_SVE_GET_VL)`. -/
  vectorLength : Int

/-- The little-endian number in four bytes. -/
def word32 (b : Bytes) : Nat := b.foldr (fun x n => x + 256 * n) 0

/-- The loop over `/proc/self/auxv`, src/arm/linux/hwcap.c:97-122, reading entries of 8 bytes; `none`
only when the fuel runs out. -/
def auxvLoop (sched : Sched) : Nat → Nat → Bytes → Nat × Nat → Option (Option (Nat × Nat))
  | 0, _, _, _ => none
  | fuel + 1, i, rest, hwcaps =>
    match sysRead (sched i) 8 rest with
    | none => some none
    | some (got, rest') =>
      if got = [] then some (some hwcaps)
      else if got.length = 8 then
        auxvLoop sched fuel (i + 1) rest' (
          if word32 (got.take 4) = 16 then (word32 (got.drop 4), hwcaps.2)
          else if word32 (got.take 4) = 26 then (hwcaps.1, word32 (got.drop 4))
          else hwcaps)
      else some none

/-- `cpuinfo_arm_linux_hwcap_from_procfs`, src/arm/linux/hwcap.c:83-137. -/
def hwcapFromProcfs (file : File) : Option (Option (Nat × Nat)) :=
  match file.1 with
  | none => some none
  | some content => auxvLoop file.2 (content.length + 1) 0 content (0, 0)

/-- `cpuinfo_arm_linux_hwcap_from_getauxval` of 32-bit ARM, src/arm/linux/hwcap.c:44-79; an
`unsigned long` has 32 bits. -/
def hwcapFromGetauxval (s : Source) : Option (Nat × Nat) :=
  match s.libc with
  | .android => s.auxval.map fun v => (v.1 % U32, v.2 % U32)
  | .glibc => s.auxval.map fun v => (v.1 % U32, v.2 % U32)
  | .other => none

/-- "take the intersection", src/arm/linux/init.c:268-285, on the rest of the table; the last
argument is `none` as long as `processors_with_features == 0`. -/
def intersect : List Proc → Option (Nat × Nat) → Nat × Nat
  | [], acc => acc.getD (0, 0)
  | p :: ps, acc =>
    if bitmaskAll p.flags (flagValid ||| validFeatures) then
      match acc with
      | none => intersect ps (some (p.features, p.features2))
      | some f => intersect ps (some (f.1 &&& p.features, f.2 &&& p.features2))
    else intersect ps acc

/-- The feature words of 32-bit ARM, src/arm/linux/init.c:246-292. -/
def features32 (s : Source) (t : List Proc) : Option (Nat × Nat) :=
  match s.libc with
  | .android =>
    match hwcapFromGetauxval s with
    | some f => some f
    | none => do
      match ← hwcapFromProcfs s.auxv with
      | some f => return f
      | none => return intersect t none
  | _ => some ((hwcapFromGetauxval s).getD (0, 0))

/-- `last_midr`, src/arm/linux/init.c:196-233. -/
def lastMidr (t : List Proc) : Nat :=
  t.foldl (fun m p => if valid p && bitmaskAll p.flags validMidr then p.midr else m) 0

/-- `last_architecture_version` and `last_architecture_flags`, src/arm/linux/init.c:201-229. -/
def lastArchitecture (t : List Proc) : Nat × Nat :=
  t.foldl (fun a p => if valid p && bitmaskAll p.flags validArchitecture then
    (p.architectureVersion, p.architectureFlags) else a) (0, 0)

/-- `cpuinfo_isa` after src/arm/linux/init.c:195-308, from the gathered table and the chipset.  On
64-bit systems `getauxval` always exists. -/
def detectIsa (a : Arch) (s : Source) (t : List Proc) (chipset : Chipset) : Option Isa :=
  match a with
  | .arm => do
    let f ← features32 s t
    return decode32 s.target f.1 f.2 (lastMidr t) (lastArchitecture t).1 (lastArchitecture t).2
      chipset
  | .arm64 =>
    let v := s.auxval.getD (0, 0)
    some (decode64 (v.1 % U32) (v.2 % 2 ^ 64) (lastMidr t) chipset s.vectorLength)

/-- The instruction set a whole run leaves in `cpuinfo_isa`, src/arm/linux/init.c:121-308. -/
def linuxIsa (e : Env) (s : Source) : Option (Option Isa) := do
  match ← gather e with
  | none => return none
  | some (t, hw, rev) =>
    return some (← detectIsa e.config.arch s t (e.dec.chipset hw rev (countListed t)))

/-- The queries `cpuinfo_has_arm_*`, include/cpuinfo.h:1722-2134. -/
inductive Query where
  | thumb | thumb2 | v5e | v6 | v6k | v7 | v7mp | v8 | idiv | vfpv2 | vfpv3 | vfpv3D32 | vfpv3Fp16
  | vfpv3Fp16D32 | vfpv4 | vfpv4D32 | fp16Arith | bf16 | wmmx | wmmx2 | neon | neonFp16 | neonFma
  | neonV8 | atomics | neonRdm | neonFp16Arith | fhm | neonDot | neonBf16 | jscvt | fcma | i8mm | aes
  | sha1 | sha2 | pmull | crc32 | sve | sveBf16 | sve2 | sme | sme2 | sme2p1 | smeI16I32 | smeBi32I32
  | smeB16B16 | smeF16F16
deriving DecidableEq, Repr

/-- The answers of 64-bit builds, include/cpuinfo.h:1722-2134. -/
def has64 (i : Isa) : Query → Bool
  | .thumb | .thumb2 | .v5e | .v6 | .v6k | .v7 | .v7mp | .vfpv2 | .wmmx | .wmmx2 => false
  | .v8 | .idiv | .vfpv3 | .vfpv3D32 | .vfpv3Fp16 | .vfpv3Fp16D32 | .vfpv4 | .vfpv4D32 | .neon
  | .neonFp16 | .neonFma | .neonV8 => true
  | .fp16Arith => i.fp16arith
  | .bf16 => i.bf16
  | .atomics => i.atomics
  | .neonRdm => i.rdm
  | .neonFp16Arith => i.fp16arith
  | .fhm => i.fhm
  | .neonDot => i.dot
  | .neonBf16 => i.bf16
  | .jscvt => i.jscvt
  | .fcma => i.fcma
  | .i8mm => i.i8mm
  | .aes => i.aes
  | .sha1 => i.sha1
  | .sha2 => i.sha2
  | .pmull => i.pmull
  | .crc32 => i.crc32
  | .sve => i.sve
  | .sveBf16 => i.sve && i.bf16
  | .sve2 => i.sve2
  | .sme => i.sme
  | .sme2 => i.sme2
  | .sme2p1 => i.sme2p1
  | .smeI16I32 => i.smeI16I32
  | .smeBi32I32 => i.smeBi32I32
  | .smeB16B16 => i.smeB16B16
  | .smeF16F16 => i.smeF16F16

/-- The answers of 32-bit builds, include/cpuinfo.h:1722-2134. -/
def has32 (i : Isa) : Query → Bool
  | .thumb => i.thumb
  | .thumb2 => i.thumb2
  | .v5e => i.armv5e
  | .v6 => i.armv6
  | .v6k => i.armv6k
  | .v7 => i.armv7
  | .v7mp => i.armv7mp
  | .v8 => i.armv8
  | .idiv => i.idiv
  | .vfpv2 => i.vfpv2
  | .vfpv3 => i.vfpv3
  | .vfpv3D32 => i.vfpv3 && i.d32
  | .vfpv3Fp16 => i.vfpv3 && i.fp16
  | .vfpv3Fp16D32 => i.vfpv3 && i.fp16 && i.d32
  | .vfpv4 => i.vfpv3 && i.fma
  | .vfpv4D32 => i.vfpv3 && i.fma && i.d32
  | .fp16Arith => i.fp16arith
  | .wmmx => i.wmmx
  | .wmmx2 => i.wmmx2
  | .neon => i.neon
  | .neonFp16 => i.neon && i.fp16
  | .neonFma => i.neon && i.fma
  | .neonV8 => i.neon && i.armv8
  | .neonRdm => i.rdm
  | .neonFp16Arith => i.neon && i.fp16arith
  | .fhm => i.fhm
  | .neonDot => i.dot
  | .jscvt => i.jscvt
  | .fcma => i.fcma
  | .aes => i.aes
  | .sha1 => i.sha1
  | .sha2 => i.sha2
  | .pmull => i.pmull
  | .crc32 => i.crc32
  | .bf16 | .atomics | .neonBf16 | .i8mm | .sve | .sveBf16 | .sve2 | .sme | .sme2 | .sme2p1
  | .smeI16I32 | .smeBi32I32 | .smeB16B16 | .smeF16F16 => false

/-- `cpuinfo_has_arm_*` after initialization. -/
def has : Arch → Isa → Query → Bool
  | .arm => has32
  | .arm64 => has64

/-- `cpuinfo_get_max_arm_sve_length`, include/cpuinfo.h:2070-2076. -/
def maxSveLength : Arch → Isa → Nat
  | .arm64, i => i.svelen * 8 % U32
  | .arm, _ => 0

end Verif.ArmIsa
