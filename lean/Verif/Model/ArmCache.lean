import Verif.Model.ArmInit
import Verif.Model.ArmUarch

/-!
# Model of src/arm/cache.c

`cpuinfo_arm_decode_cache` and the fixed bounds of `cpuinfo_arm_compute_max_cache_size`.  Each case
of the big `switch` is a function that returns the four caches; `decode` picks one and computes the
numbers of sets.  `uint32_t` products are reduced modulo `U32`; `none` is a division by zero.  The
caller hands over zeroed caches (`calloc` for L1, `= {0}` for L2 and L3, src/arm/linux/init.c:551-563
and 661-662).
-/

set_option autoImplicit false

namespace Verif.ArmCache
open ArmMidr ArmChipset ArmInit ArmUarch
open X86Init (Cache zeroCache)

/-- What decides the conditional compilation of src/arm/cache.c: 32-bit builds for ARMv6 and older,
ARMv7-A (`__ARM_ARCH_7A__`) and ARMv8-A (`__ARM_ARCH_8A__`), 64-bit builds for Android and others. -/
inductive Target where
  | armOld
  | armV7
  | armV8
  | arm64
  | arm64Android
deriving DecidableEq, Repr

/-- The instruction set of a build. -/
def Target.arch : Target → Arch
  | .armOld | .armV7 | .armV8 => .arm
  | .arm64 | .arm64Android => .arm64

/-- `(struct cpuinfo_cache){.size = …, .associativity = …, .line_size = …, .flags = …}`. -/
def cache (size associativity lineSize : Nat) (flags : Nat := 0) : Cache :=
  { size := size % U32, associativity, sets := 0, partitions := 0, lineSize, flags,
    processorStart := 0, processorCount := 0 }

/-- `CPUINFO_CACHE_INCLUSIVE`, include/cpuinfo.h:108. -/
def inclusive : Nat := 2

/-- Kibibytes. -/
def k (n : Nat) : Nat := n * 1024

/-- XScale, src/arm/cache.c:22-60: by `part >> 8`; other values leave the caches as they are. -/
def xscale (midr : Nat) : Caches :=
  match getPart midr >>> 8 with
  | 2 => ⟨cache (k 16) 32 32, cache (k 16) 4 64, zeroCache, zeroCache⟩
  | 4 => ⟨cache (k 32) 32 32, cache (k 32) 32 32, zeroCache, zeroCache⟩
  | 6 => ⟨cache (k 32) 4 32, cache (k 32) 4 32, cache (k 256) 8 32, zeroCache⟩
  | _ => ⟨zeroCache, zeroCache, zeroCache, zeroCache⟩

/-- ARM11, src/arm/cache.c:61-64. -/
def arm11 : Caches := ⟨cache (k 16) 4 32, cache (k 16) 4 32, zeroCache, zeroCache⟩

/-- Cortex-A5, src/arm/cache.c:68-131. -/
def cortexA5 : Caches := ⟨cache (k 32) 2 32, cache (k 32) 4 32, cache (k 256) 8 32, zeroCache⟩

/-- Cortex-A7, src/arm/cache.c:132-204. -/
def cortexA7 (cores : Nat) : Caches :=
  ⟨cache (k 32) 2 32, cache (k 32) 4 64, cache (k 128 * cores) 8 64, zeroCache⟩

/-- Cortex-A8, src/arm/cache.c:205-252. -/
def cortexA8 (chipset : Chipset) : Caches :=
  ⟨cache (k 32) 4 64, cache (k 32) 4 64,
   cache (match chipset.vendor with | .samsung => k 512 | _ => k 256) 8 64, zeroCache⟩

/-- Cortex-A9, src/arm/cache.c:253-305. -/
def cortexA9 : Caches := ⟨cache (k 32) 4 32, cache (k 32) 4 32, cache (k 1024) 16 32, zeroCache⟩

/-- Cortex-A15, src/arm/cache.c:306-356. -/
def cortexA15 (cores : Nat) : Caches :=
  ⟨cache (k 32) 2 64, cache (k 32) 2 64, cache (cores * k 512) 16 64, zeroCache⟩

/-- Cortex-A17, src/arm/cache.c:357-396. -/
def cortexA17 (cores : Nat) : Caches :=
  ⟨cache (k 32) 4 64, cache (k 32) 4 64, cache (cores * k 512) 16 64, zeroCache⟩

/-- Cortex-A35, src/arm/cache.c:398-455. -/
def cortexA35 : Caches := ⟨cache (k 16) 2 64, cache (k 16) 4 64, cache (k 256) 8 64, zeroCache⟩

/-- The L2 size of Qualcomm's "silver" Cortex-A53, src/arm/cache.c:527-566. -/
def a53SilverL2 (chipset : Chipset) (clusterId : Nat) : Nat :=
  match chipset.series with
  | .qualcommMsm => if chipset.model = 8998 then k 1024 else k 512
  | .qualcommSnapdragon =>
    match chipset.model with
    | 630 => if clusterId = 0 then k 1024 else k 512
    | 636 => k 1024
    | 660 => k 1024
    | _ => k 512
  | _ => k 512

/-- L1 and L2 sizes of other Cortex-A53, src/arm/cache.c:579-691. -/
def a53Sizes (chipset : Chipset) (clusterId : Nat) : Nat × Nat :=
  match chipset.series with
  | .qualcommMsm =>
    (k 32,
     match chipset.model with
     | 8937 | 8940 | 8953 => if clusterId = 0 then k 1024 else k 512
     | 8952 => if clusterId ≠ 0 then k 256 else k 512
     | _ => k 512)
  | .qualcommApq => (k 32, k 512)
  | .qualcommSnapdragon => (k 32, if chipset.model = 450 ∧ clusterId = 0 then k 1024 else k 512)
  | .hisiliconHi => (k 32, k 512)
  | .hisiliconKirin => (k 32, match chipset.model with | 970 => k 1024 | _ => k 512)
  | .mediatekMt => match chipset.model with | 8173 => (k 32, k 512) | _ => (k 16, k 256)
  | .rockchipRk =>
    (k 32, match chipset.model with | 3368 => if clusterId = 0 then k 512 else k 256 | _ => k 256)
  | .broadcomBcm => (k 16, match chipset.model with | 2837 => k 512 | _ => k 256)
  | .samsungExynos => (k 32, k 256)
  | _ => (k 16, k 256)

/-- Cortex-A53, src/arm/cache.c:456-696. -/
def cortexA53 (midr : Nat) (chipset : Chipset) (clusterId : Nat) : Caches :=
  if isQualcommA53Silver midr then
    ⟨cache (k 32) 2 64, cache (k 32) 4 64, cache (a53SilverL2 chipset clusterId) 16 64, zeroCache⟩
  else
    ⟨cache (a53Sizes chipset clusterId).1 2 64, cache (a53Sizes chipset clusterId).1 4 64,
     cache (a53Sizes chipset clusterId).2 16 64, zeroCache⟩

/-- Cortex-A55, src/arm/cache.c:697-831. -/
def cortexA55 (midr : Nat) (chipset : Chipset) : Caches :=
  if isQualcommA55Silver midr then
    ⟨cache (k 32) 4 64, cache (k 32) 4 64, cache (k 128) 4 64,
     cache (match chipset.series with
       | .qualcommSnapdragon => if chipset.model = 845 then k 2048 else k 1024
       | _ => k 1024) 16 64⟩
  else if chipset.series = .samsungExynos then
    ⟨cache (k 32) 4 64, cache (k 32) 4 64, cache (k 512) 16 64, zeroCache⟩
  else
    ⟨cache (k 32) 4 64, cache (k 32) 4 64, cache (k 128) 4 64,
     cache (match chipset.series with
       | .hisiliconKirin => if chipset.model = 980 then k 4096 else k 1024
       | _ => k 1024) 16 64⟩

/-- Cortex-A57, src/arm/cache.c:832-881. -/
def cortexA57 (cores : Nat) : Caches :=
  ⟨cache (k 48) 3 64, cache (k 32) 2 64, cache (cores * k 512) 16 64 inclusive, zeroCache⟩

/-- Cortex-A65, src/arm/cache.c:882-937. -/
def cortexA65 : Caches :=
  ⟨cache (k 32) 4 64, cache (k 32) 4 64, cache (k 128) 4 64 inclusive, cache (k 512) 16 64⟩

/-- Cortex-A72, src/arm/cache.c:938-1014. -/
def cortexA72 (chipset : Chipset) : Caches :=
  ⟨cache (k 48) 3 64, cache (k 32) 2 64,
   cache (match chipset.series with | .hisiliconKirin => k 2048 | _ => k 1024) 16 64 inclusive,
   zeroCache⟩

/-- L1 data and L2 sizes of Cortex-A73, src/arm/cache.c:1072-1098. -/
def a73Sizes (midr : Nat) (chipset : Chipset) : Nat × Nat :=
  match chipset.series with
  | .hisiliconKirin => (k 64, k 2048)
  | .mediatekMt => (k 64, k 1024)
  | _ =>
    match midr with
    | 0x51AF8001 => (k 64, k 2048)
    | 0x51AF8002 => (k 64, k 1024)
    | _ => (k 32, k 512)

/-- Cortex-A73, src/arm/cache.c:1015-1109. -/
def cortexA73 (midr : Nat) (chipset : Chipset) : Caches :=
  ⟨cache (k 64) 4 64,
   cache (a73Sizes midr chipset).1 ((a73Sizes midr chipset).1 >>> 12) 64,
   cache (a73Sizes midr chipset).2 16 64 inclusive, zeroCache⟩

/-- Cortex-A75, src/arm/cache.c:1110-1166. -/
def cortexA75 (chipset : Chipset) : Caches :=
  ⟨cache (k 64) 4 64, cache (k 64) 16 64, cache (k 256) 8 64,
   cache (match chipset.series with
     | .qualcommSnapdragon => if chipset.model = 845 then k 2048 else k 1024
     | _ => k 1024) 16 64⟩

/-- L2 and L3 sizes of Cortex-A76, src/arm/cache.c:1216-1228. -/
def a76Sizes (chipset : Chipset) : Nat × Nat :=
  match chipset.series with
  | .hisiliconKirin => if chipset.model = 980 then (k 512, k 4096) else (k 256, k 1024)
  | _ => (k 256, k 1024)

/-- Cortex-A76, src/arm/cache.c:1167-1251. -/
def cortexA76 (chipset : Chipset) : Caches :=
  ⟨cache (k 64) 4 64, cache (k 64) 4 64, cache (a76Sizes chipset).1 8 64 inclusive,
   cache (a76Sizes chipset).2 16 64⟩

/-- Cortex-A77, src/arm/cache.c:1252-1309. -/
def cortexA77 : Caches :=
  ⟨cache (k 64) 4 64, cache (k 64) 4 64, cache (k 256) 8 64 inclusive, cache (k 1024) 16 64⟩

/-- Neoverse N1, V1, N2 and V2, src/arm/cache.c:1310-1370. -/
def neoverse (uarch midr : Nat) : Caches :=
  ⟨cache (k 64) 4 64, cache (k 64) 4 64,
   cache ((if uarch = Uarch.neoverseV2 ∨ isAmpereAltra midr then 1024 else 256) * 1024) 8 64 inclusive,
   cache (0 * 1024) 16 64⟩

/-- Scorpion, src/arm/cache.c:1372-1397. -/
def scorpion (cores : Nat) : Caches :=
  ⟨cache (k 32) 4 32, cache (k 32) 4 32, cache (cores * k 256) 4 128, zeroCache⟩

/-- Krait, src/arm/cache.c:1398-1419. -/
def krait (cores : Nat) : Caches :=
  ⟨cache (k 16) 4 64, cache (k 16) 4 64, cache (cores * k 512) 8 128, zeroCache⟩

/-- Kryo, src/arm/cache.c:1421-1446. -/
def kryo (midr : Nat) : Caches :=
  ⟨cache (k 32) 4 64, cache (k 24) 3 64,
   cache (if isKryoSilver midr then k 512 else k 1024) 8 128, zeroCache⟩

/-- Denver and Denver 2, src/arm/cache.c:1447-1465. -/
def denver : Caches := ⟨cache (k 128) 4 64, cache (k 64) 4 64, cache (k 2048) 16 64, zeroCache⟩

/-- Exynos M1 and M2, src/arm/cache.c:1466-1496. -/
def exynosM1 : Caches := ⟨cache (k 64) 4 128, cache (k 32) 8 64, cache (k 2048) 16 64, zeroCache⟩

/-- Exynos M3, src/arm/cache.c:1497-1543. -/
def exynosM3 : Caches :=
  ⟨cache (k 64) 4 128, cache (k 64) 8 64, cache (k 512) 16 64, cache (k 4096) 16 64⟩

/-- ThunderX, src/arm/cache.c:1545-1564. -/
def thunderx : Caches := ⟨cache (k 78) 4 64, cache (k 32) 4 64, cache (k 16384) 8 64, zeroCache⟩

/-- TaiShan v110, src/arm/cache.c:1565-1615. -/
def taishanV110 (cores : Nat) : Caches :=
  ⟨cache (k 64) 4 128, cache (k 64) 4 128, cache (k 512) 8 128 inclusive,
   cache (cores * k 1024) 16 128⟩

/-- Any other microarchitecture, src/arm/cache.c:1617-1637. -/
def generic (cores archVersion : Nat) : Caches :=
  if archVersion ≥ 8 then
    ⟨cache (k 32) 4 64, cache (k 32) 4 64, cache (cores * k 256) 8 64, zeroCache⟩
  else
    ⟨cache (k 16) 4 32, cache (k 16) 4 32,
     if archVersion ≥ 7 then cache (cores * k 128) 8 32 else zeroCache, zeroCache⟩

/-- The cases of 32-bit builds for ARMv6 and older, src/arm/cache.c:21-67. -/
def oldCases (uarch midr : Nat) : Option Caches :=
  if uarch = Uarch.xscale then some (xscale midr)
  else if uarch = Uarch.arm11 then some arm11
  else none

/-- The cases of 32-bit builds before ARMv8, src/arm/cache.c:67-397 and 1371-1420. -/
def cases32 (uarch cores : Nat) (chipset : Chipset) : Option Caches :=
  if uarch = Uarch.cortexA5 then some cortexA5
  else if uarch = Uarch.cortexA7 then some (cortexA7 cores)
  else if uarch = Uarch.cortexA8 then some (cortexA8 chipset)
  else if uarch = Uarch.cortexA9 then some cortexA9
  else if uarch = Uarch.cortexA15 then some (cortexA15 cores)
  else if uarch = Uarch.cortexA17 then some (cortexA17 cores)
  else if uarch = Uarch.scorpion then some (scorpion cores)
  else if uarch = Uarch.krait then some (krait cores)
  else none

/-- The cases of 64-bit builds other than Android, src/arm/cache.c:1544-1616. -/
def cases64 (uarch cores : Nat) : Option Caches :=
  if uarch = Uarch.thunderx then some thunderx
  else if uarch = Uarch.taishanV110 then some (taishanV110 cores)
  else none

/-- The cases of all builds, src/arm/cache.c:398-1370 and 1421-1543. -/
def casesAll (uarch cores midr : Nat) (chipset : Chipset) (clusterId : Nat) : Option Caches :=
  if uarch = Uarch.cortexA35 then some cortexA35
  else if uarch = Uarch.cortexA53 then some (cortexA53 midr chipset clusterId)
  else if uarch = Uarch.cortexA55r0 ∨ uarch = Uarch.cortexA55 then some (cortexA55 midr chipset)
  else if uarch = Uarch.cortexA57 then some (cortexA57 cores)
  else if uarch = Uarch.cortexA65 then some cortexA65
  else if uarch = Uarch.cortexA72 then some (cortexA72 chipset)
  else if uarch = Uarch.cortexA73 then some (cortexA73 midr chipset)
  else if uarch = Uarch.cortexA75 then some (cortexA75 chipset)
  else if uarch = Uarch.cortexA76 then some (cortexA76 chipset)
  else if uarch = Uarch.cortexA77 then some cortexA77
  else if uarch = Uarch.neoverseN1 ∨ uarch = Uarch.neoverseV1 ∨ uarch = Uarch.neoverseN2 ∨
      uarch = Uarch.neoverseV2 then some (neoverse uarch midr)
  else if uarch = Uarch.kryo then some (kryo midr)
  else if uarch = Uarch.denver ∨ uarch = Uarch.denver2 then some denver
  else if uarch = Uarch.exynosM1 ∨ uarch = Uarch.exynosM2 then some exynosM1
  else if uarch = Uarch.exynosM3 then some exynosM3
  else none

/-- The cases of a build before `default`. -/
def known (t : Target) (uarch cores midr : Nat) (chipset : Chipset) (clusterId : Nat) :
    Option Caches :=
  (match t with
  | .armOld => (oldCases uarch midr).or (cases32 uarch cores chipset)
  | .armV7 => cases32 uarch cores chipset
  | .arm64 => cases64 uarch cores
  | .armV8 | .arm64Android => none).or (casesAll uarch cores midr chipset clusterId)

/-- `c->sets = c->size / (c->associativity * c->line_size); c->partitions = 1;`. -/
def withSets (c : Cache) : Option Cache :=
  if (c.associativity * c.lineSize) % U32 = 0 then none
  else some { c with sets := c.size / ((c.associativity * c.lineSize) % U32), partitions := 1 }

/-- The numbers of sets, src/arm/cache.c:1639-1650. -/
def finish (c : Caches) : Option Caches := do
  let l1i ← withSets c.l1i
  let l1d ← withSets c.l1d
  if c.l2.size = 0 then return { c with l1i, l1d }
  let l2 ← withSets c.l2
  if c.l3.size = 0 then return { c with l1i, l1d, l2 }
  let l3 ← withSets c.l3
  return ⟨l1i, l1d, l2, l3⟩

/-- `cpuinfo_arm_decode_cache`, src/arm/cache.c:9-1651. -/
def decode (t : Target) (uarch cores midr : Nat) (chipset : Chipset) (clusterId archVersion : Nat) :
    Option Caches :=
  finish ((known t uarch cores midr chipset clusterId).getD (generic cores archVersion))

/-- The bounds of `cpuinfo_arm_compute_max_cache_size`, src/arm/cache.c:1653-1786; `none`: the caches
found are used (src/cache.c:6-17). -/
def maxCacheSize (uarch : Nat) : Option Nat :=
  if uarch ∈ [Uarch.xscale, Uarch.arm11, Uarch.scorpion, Uarch.krait, Uarch.kryo, Uarch.exynosM1,
      Uarch.exynosM2, Uarch.exynosM3] then none
  else if uarch = Uarch.cortexA5 then some (k 512)
  else if uarch ∈ [Uarch.cortexA7, Uarch.cortexA8, Uarch.cortexA9] then some (k 1024)
  else if uarch ∈ [Uarch.cortexA12, Uarch.cortexA17] then some (k 8192)
  else if uarch = Uarch.cortexA15 then some (k 4096)
  else if uarch = Uarch.cortexA35 then some (k 1024)
  else if uarch ∈ [Uarch.cortexA53, Uarch.cortexA57] then some (k 2048)
  else if uarch = Uarch.cortexA72 then some (k 4096)
  else if uarch = Uarch.cortexA73 then some (k 8192)
  else some (k 4096)

/-- The decoders of a build, around any chipset decoder.  `ArmInit.Decoders.caches` has no outcome
for a division by zero; that none happens for the arguments detection passes is part of C44. -/
def decoders (t : Target) (chipset : Bytes → Bytes → Nat → Chipset) : Decoders :=
  { chipset
    vendorUarch := ArmUarch.decode t.arch
    caches := fun uarch cores midr chipset clusterId version =>
      (decode t uarch cores midr chipset clusterId version).getD
        ⟨zeroCache, zeroCache, zeroCache, zeroCache⟩
    maxCacheSize }

end Verif.ArmCache
