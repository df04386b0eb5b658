import Verif.Model.Uniform
import Verif.Model.ArmChipsetDecode
import Verif.Model.ArmIsa

/-!
# Model of src/arm/mach/init.c, with src/mach/topology.c

Detection on Apple's systems with ARM processors.  The structure `cpuinfo_arm_isa` has the fields that
are set here (atomics, bf16, i8mm, sme, sme2) in 64-bit builds only, so this is the 64-bit build.

The answers of `sysctl` and `sysctlbyname` are parameters; an answer is taken not to change between the
query of its size and the query of its value, nor between packages.  `none` is undefined behaviour:
division by zero, an access outside a table, or a pointer more than one element past the end of a
table.

Simplifications: vendor (always Apple), frequency and MIDR (never set) are left out; log messages are
left out; products of an index and a quotient stay below the number of threads or cores (at most
2^31 - 1) and are not reduced modulo 2^32.  Bytes of the stack that `alloca` returns are not modelled:
strings that the system returns are taken to be terminated.
-/

set_option autoImplicit false

namespace Verif.ArmMach
open X86Init (Cache CacheDesc computeMaxCacheSize)
open Platform (Processor zeroProcessor zeroCache put)
open Uniform (div? mod? ptr? orFail linkedSize MachTopology sysctlInt)
open ArmClusters (forRange)
open ArmChipset (decimal)
open ArmIsa (Isa)

/-- The values of `hw.cpufamily`.  The first five are from Apple's mach/machine.h, the last four from
src/arm/mach/init.c:17-29. -/
def cyclone : Nat := 0x37a09642
@[inherit_doc cyclone] def typhoon : Nat := 0x2c91a47e
@[inherit_doc cyclone] def twister : Nat := 0x92fb37c8
@[inherit_doc cyclone] def hurricane : Nat := 0x67ceee93
@[inherit_doc cyclone] def monsoonMistral : Nat := 0xe81e7ef6
@[inherit_doc cyclone] def vortexTempest : Nat := 0x07d34b9f
@[inherit_doc cyclone] def lightningThunder : Nat := 0x462504d2
@[inherit_doc cyclone] def firestormIcestorm : Nat := 0x1b588bb3
@[inherit_doc cyclone] def avalancheBlizzard : Nat := 0xda33d83d

/-- The microarchitectures that are distinguished, include/cpuinfo.h. -/
inductive Uarch
  | unknown | cyclone | typhoon | twister | hurricane | monsoon | mistral | vortex | tempest
  | lightning | thunder | firestorm | icestorm | avalanche | blizzard
deriving DecidableEq, Repr

/-- `decode_uarch`, src/arm/mach/init.c:69-103. -/
def decodeUarch (family index count : Nat) : Uarch :=
  if family = cyclone then .cyclone
  else if family = typhoon then .typhoon
  else if family = twister then .twister
  else if family = hurricane then .hurricane
  else if family = monsoonMistral then if index < 2 then .monsoon else .mistral
  else if family = vortexTempest then if index + 4 < count then .vortex else .tempest
  else if family = lightningThunder then if index + 4 < count then .lightning else .thunder
  else if family = firestormIcestorm then if index + 4 < count then .firestorm else .icestorm
  else if family = avalancheBlizzard then if index + 4 < count then .avalanche else .blizzard
  else .unknown

/-- The answers of the two system calls of `get_sys_info` and `get_sys_info_by_name`: the size, `none`
if the first call fails; the value, `none` if the second call fails. -/
structure Answer where
  size : Option Nat
  value : Option Nat
deriving DecidableEq, Repr

/-- `get_sys_info`, `get_sys_info_by_name`, src/arm/mach/init.c:40-67. -/
def Answer.get (a : Answer) : Nat :=
  match a.size with
  | none => 0
  | some size => if size = 4 then a.value.getD 0 % U32 else 0

/-! ### Names of packages -/

/-- `isspace` in the C locale. -/
def isSpace (c : Byte) : Bool := c = 32 || (9 ≤ c && c ≤ 13)

/-- A decimal digit. -/
def isDigit (c : Byte) : Bool := 48 ≤ c && c ≤ 57

/-- An optional sign: is it a minus, and what follows. -/
def scanSign : Bytes → Bool × Bytes
  | 43 :: r => (false, r)
  | 45 :: r => (true, r)
  | r => (false, r)

/-- The conversion `%u` of `sscanf`: white space is skipped, a sign is accepted.  As in Apple's
libc the number is read by `strtoumax`, which stops at 2^64 - 1, and is then truncated to 32 bits. -/
def scanU32 (s : Bytes) : Option (Nat × Bytes) :=
  let p := scanSign (s.dropWhile isSpace)
  let ds := p.2.takeWhile isDigit
  if ds = [] then none
  else
    let v := min (ds.foldl (fun n d => n * 10 + (d - 48)) 0) (2 ^ 64 - 1)
    some ((if p.1 then 2 ^ 64 - v else v) % U32, p.2.dropWhile isDigit)

/-- `sscanf(machine_name, "%9[^,0123456789]%u,%u", name, &major, &minor)`,
src/arm/mach/init.c:137; `none` unless all three conversions succeed. -/
def scanMachine (s : Bytes) : Option (Bytes × Nat × Nat) := do
  let name := (s.take 9).takeWhile fun c => !(c = 44 || isDigit c)
  if name = [] then none
  let (major, r) ← scanU32 (s.drop name.length)
  match r with
  | 44 :: r =>
    let (minor, _) ← scanU32 r
    return (name, major, minor)
  | _ => none

/-- Number and suffix of the chip, src/arm/mach/init.c:142-241. -/
def chipOf (name : Bytes) (major minor : Nat) : Nat × Bytes :=
  if name = b!"iPhone" then ((major + 1) % U32, [])
  else if name = b!"iPad" then
    if major = 2 then (major + 3, [])
    else if major = 3 then (if minor ≤ 3 then 5 else 6, b!"X")
    else if major = 4 then (major + 3, [])
    else if major = 5 then (major + 3, if minor ≤ 2 then [] else b!"X")
    else if major = 6 then (major + 3, if minor ≤ 8 then b!"X" else [])
    else if major = 7 then (major + 3, if minor ≤ 4 then b!"X" else [])
    else (0, [])
  else if name = b!"iPod" then
    if major = 5 then (5, [])
    else if major = 7 then (8, [])
    else (0, [])
  else (0, [])

/-- `CPUINFO_PACKAGE_NAME_MAX`, include/cpuinfo.h. -/
def nameMax : Nat := 48

/-- `decode_package_name_from_hw_machine`, src/arm/mach/init.c:121-247: the name that is printed, if
any.  A suffix `'\0'` ends the string.  `snprintf` keeps at most 47 bytes. -/
def nameFromMachine (machine : Option Bytes) : Option Bytes := do
  let machine ← machine
  let (name, major, minor) ← scanMachine machine
  let (chip, suffix) := chipOf name major minor
  if chip ≠ 0 then some ((b!"Apple A" ++ decimal chip ++ suffix).take (nameMax - 1)) else none

/-- The name of a package, src/arm/mach/init.c:104-119 and 297-298; the name is empty before.
`brand` is `none` if either call fails. -/
def packageName (brand machine : Option Bytes) : Bytes :=
  match brand with
  | some b => b.take (nameMax - 1)
  | none => (nameFromMachine machine).getD []

/-! ### Instruction set extensions -/

/-- The answers for `hw.optional.arm.FEAT_*` and for `hw.optional.armv8_2_fhm`. -/
structure Features where
  lse : Answer
  rdm : Answer
  fp16 : Answer
  fhm : Answer
  fhmLegacy : Answer
  bf16 : Answer
  fcma : Answer
  jscvt : Answer
  dotProd : Answer
  i8mm : Answer
  sme : Answer
  sme2 : Answer
deriving DecidableEq, Repr

/-- The families of the `switch` statements, e.g. src/arm/mach/init.c:314-319. -/
def since2017 (family : Nat) : Bool :=
  family = monsoonMistral || family = vortexTempest || family = lightningThunder ||
    family = firestormIcestorm

/-- The families of the `switch` statements, e.g. src/arm/mach/init.c:365-368. -/
def since2019 (family : Nat) : Bool := family = lightningThunder || family = firestormIcestorm

/-- One feature: set it if the system says so, else if the family is known to have it,
e.g. src/arm/mach/init.c:308-321. -/
def feature (a : Answer) (fallback : Bool) (set : Isa → Isa) (isa : Isa) : Isa :=
  if a.get ≠ 0 then set isa else if fallback then set isa else isa

/-- The initial value of `cpuinfo_isa`, src/arm/mach/init.c:32-38. -/
def isaInitial : Isa := { aes := true, sha1 := true, sha2 := true, pmull := true, crc32 := true }

/-- `cpuinfo_isa` after src/arm/mach/init.c:308-430. -/
def isaOf (family : Nat) (f : Features) : Isa :=
  let isa := feature f.lse (since2017 family) (fun i => { i with atomics := true }) isaInitial
  let isa := feature f.rdm (since2017 family) (fun i => { i with rdm := true }) isa
  let isa := feature f.fp16 (since2017 family) (fun i => { i with fp16arith := true }) isa
  let isa := feature f.fhm (f.fhmLegacy.get ≠ 0 || since2019 family)
    (fun i => { i with fhm := true }) isa
  let isa := feature f.bf16 false (fun i => { i with bf16 := true }) isa
  let isa := feature f.fcma (since2019 family) (fun i => { i with fcma := true }) isa
  let isa := feature f.jscvt (since2019 family) (fun i => { i with jscvt := true }) isa
  let isa := feature f.dotProd (since2019 family) (fun i => { i with dot := true }) isa
  let isa := feature f.i8mm false (fun i => { i with i8mm := true }) isa
  let isa := feature f.sme false (fun i => { i with sme := true }) isa
  feature f.sme2 false (fun i => { i with sme2 := true }) isa

/-! ### Tables -/

/-- `struct cpuinfo_core`, include/cpuinfo.h, without the vendor, which is Apple for every core and
cluster (src/arm/mach/init.c:439, 488). -/
structure Core where
  processorStart : Nat
  processorCount : Nat
  coreId : Nat
  cluster : Option Nat
  package : Option Nat
  uarch : Uarch
deriving DecidableEq, Repr

/-- `struct cpuinfo_cluster`, include/cpuinfo.h. -/
structure Cluster where
  processorStart : Nat
  processorCount : Nat
  coreStart : Nat
  coreCount : Nat
  clusterId : Nat
  package : Option Nat
  uarch : Uarch
deriving DecidableEq, Repr

/-- `struct cpuinfo_package`, include/cpuinfo.h. -/
structure Package where
  name : Bytes
  processorStart : Nat
  processorCount : Nat
  coreStart : Nat
  coreCount : Nat
  clusterStart : Nat
  clusterCount : Nat
deriving DecidableEq, Repr

/-- `struct cpuinfo_uarch_info`, include/cpuinfo.h. -/
structure UarchInfo where
  uarch : Uarch
  processorCount : Nat
  coreCount : Nat
deriving DecidableEq, Repr

/-- Zeroed entries, as `calloc` returns them. -/
def zeroCore : Core := ⟨0, 0, 0, none, none, .unknown⟩
@[inherit_doc zeroCore] def zeroCluster : Cluster := ⟨0, 0, 0, 0, 0, none, .unknown⟩
@[inherit_doc zeroCore] def zeroPackage : Package := ⟨[], 0, 0, 0, 0, 0, 0⟩
@[inherit_doc zeroCore] def zeroUarch : UarchInfo := ⟨.unknown, 0, 0⟩

/-- The element types of the published tables.  Processors have no APIC ID and no fourth level here;
both fields keep their zeros. -/
def Elem : Api.Kind → Type
  | .processor => Processor
  | .core => Core
  | .cluster => Cluster
  | .package => Package
  | .uarch => UarchInfo
  | .cache _ => Cache

/-- `cpuinfo_mach_detect_topology`, src/mach/topology.c:12-69, without `threads_per_cache`, which is
not used here.  `iphone`: `TARGET_OS_IPHONE`, where the number of packages is not asked for. -/
def topology (iphone : Bool) (cores threads packages : Option Int) : MachTopology :=
  let c := sysctlInt cores 1
  { packages := if iphone then 1 else sysctlInt packages 1
    cores := c, threads := sysctlInt threads c, threadsPerCache := [] }

/-- src/arm/mach/init.c:290-299. -/
def packageLoop (n tpp cpp : Nat) (name : Bytes) (packages : List Package) : Option (List Package) :=
  forRange (fun i ps => put ps i ⟨name, i * tpp, tpp, i * cpp, cpp, 0, 0⟩) n 0 packages

/-- `i == 0 || cores[i].uarch != cores[i - 1].uarch`, src/arm/mach/init.c:474. -/
def begins (i : Nat) (cores : List Core) : Option Bool :=
  if i = 0 then some true
  else do
    let c ← cores[i]?
    let p ← cores[i - 1]?
    return c.uarch ≠ p.uarch

/-- src/arm/mach/init.c:432-445: the cores, and the number of clusters. -/
def coreLoop (family : Nat) (m : MachTopology) (tpc cpp : Nat) (cores : List Core) :
    Option (List Core × Nat) :=
  forRange (fun i (s : List Core × Nat) => do
    let id ← mod? i cpp
    let k ← ptr? m.packages (i / cpp)
    let cores ← put s.1 i ⟨i * tpc, tpc, id, none, some k, decodeUarch family i m.cores⟩
    let n ← if i ≠ 0 then (begins i cores).map fun b => if b then s.2 + 1 else s.2 else some s.2
    return (cores, n)) m.cores 0 (cores, 1)

/-- src/arm/mach/init.c:446-454. -/
def processorLoop (m : MachTopology) (tpc tpp : Nat) (processors : List Processor) :
    Option (List Processor) :=
  forRange (fun i ps => do
    let smtId ← mod? i tpc
    let coreId ← div? i tpc
    let packageId ← div? i tpp
    let core ← ptr? m.cores coreId
    let package ← ptr? m.packages packageId
    let p ← ps[i]?
    put ps i { p with smtId, core := some core, package := some package }) m.threads 0 processors

/-- The variables of the loop over cores that makes clusters. -/
structure ClusterState where
  idx : Nat
  uarchs : List UarchInfo
  clusters : List Cluster
  cores : List Core
deriving DecidableEq, Repr

/-- One round of src/arm/mach/init.c:473-498. -/
def clusterStep (tpc i : Nat) (s : ClusterState) : Option ClusterState := do
  let c ← s.cores[i]?
  if ← begins i s.cores then
    let idx := (s.idx + 1) % U32
    let uarchs ← put s.uarchs idx ⟨c.uarch, 1, 1⟩
    let clusters ← put s.clusters idx ⟨i * tpc, 1, i, 1, idx, c.package, c.uarch⟩
    let cores ← put s.cores i { c with cluster := some idx }
    return ⟨idx, uarchs, clusters, cores⟩
  else
    let u ← s.uarchs[s.idx]?
    let uarchs ← put s.uarchs s.idx
      { u with processorCount := u.processorCount + 1, coreCount := u.coreCount + 1 }
    let l ← s.clusters[s.idx]?
    let clusters ← put s.clusters s.idx
      { l with processorCount := l.processorCount + 1, coreCount := l.coreCount + 1 }
    let cores ← put s.cores i { c with cluster := some s.idx }
    return ⟨s.idx, uarchs, clusters, cores⟩

/-- src/arm/mach/init.c:472-498. -/
def clusterLoop (tpc n cores : Nat) (cs : List Core) : Option ClusterState :=
  forRange (clusterStep tpc) cores 0
    ⟨U32MAX, List.replicate n zeroUarch, List.replicate n zeroCluster, cs⟩

/-- src/arm/mach/init.c:500-503. -/
def clusterLinkLoop (threads tpc : Nat) (cores : List Core) (processors : List Processor) :
    Option (List Processor) :=
  forRange (fun i ps => do
    let coreId ← div? i tpc
    let c ← cores[coreId]?
    let p ← ps[i]?
    put ps i { p with cluster := c.cluster }) threads 0 processors

/-- src/arm/mach/init.c:505-508. -/
def packageClusterLoop (n clusters : Nat) (packages : List Package) : Option (List Package) :=
  forRange (fun i ps => do
    let p ← ps[i]?
    put ps i { p with clusterStart := 0, clusterCount := clusters }) n 0 packages

/-- The tables of the topology. -/
structure Tables where
  processors : List Processor
  cores : List Core
  clusters : List Cluster
  packages : List Package
  uarchs : List UarchInfo
  numClusters : Nat
deriving DecidableEq, Repr

/-- src/arm/mach/init.c:286-299 and 432-508, for the family `family`; `allocOk`: the two allocations of
lines 456-471 succeed (`some none` otherwise). -/
def tables (family : Nat) (m : MachTopology) (name : Bytes) (allocOk : Bool) :
    Option (Option Tables) := do
  let tpc ← div? m.threads m.cores
  let tpp ← div? m.threads m.packages
  let cpp ← div? m.cores m.packages
  let packages ← packageLoop m.packages tpp cpp name (List.replicate m.packages zeroPackage)
  let (cores, n) ← coreLoop family m tpc cpp (List.replicate m.cores zeroCore)
  let processors ← processorLoop m tpc tpp (List.replicate m.threads zeroProcessor)
  if allocOk then
    let s ← clusterLoop tpc n m.cores cores
    let processors ← clusterLinkLoop m.threads tpc s.cores processors
    let packages ← packageClusterLoop m.packages n packages
    return some ⟨processors, s.cores, s.clusters, packages, s.uarchs, n⟩
  else return none

/-! ### Caches -/

/-- The sizes in bytes that the system reports, src/arm/mach/init.c:510-514. -/
structure CacheSizes where
  line : Nat
  l1d : Nat
  l1i : Nat
  l2 : Nat
  l3 : Nat
deriving DecidableEq, Repr

/-- Entry `c` of a table of caches, e.g. src/arm/mach/init.c:554-565. -/
def cacheEntry (size assoc line per c : Nat) : Option Cache :=
  (div? size (assoc * line % U32)).map fun sets =>
    { size, associativity := assoc, sets, partitions := 1, lineSize := line, flags := 0
      processorStart := c * per, processorCount := per }

/-- Fill a table of `count` caches and link the processors, e.g. src/arm/mach/init.c:554-568; `index t`
is the number of the cache of thread `t`. -/
def fill (size assoc line per count threads : Nat) (index : Nat → Nat)
    (link : Processor → Nat → Processor) (processors : List Processor) :
    Option (List Cache × List Processor) := do
  let table ← forRange (fun c t => do
    let x ← cacheEntry size assoc line per c
    put t c x) count 0 (List.replicate count zeroCache)
  let processors ← forRange (fun t ps => do
    let k ← ptr? count (index t)
    let p ← ps[t]?
    put ps t (link p k)) threads 0 processors
  return (table, processors)

/-- One level: nothing if its size is 0; `some none` if the allocation fails. -/
def level (alloc : Bool) (size assoc line per count threads : Nat) (index : Nat → Nat)
    (link : Processor → Nat → Processor) (processors : List Processor) :
    Option (Option (Option (List Cache) × List Processor)) :=
  if size ≠ 0 then
    if alloc then
      (fill size assoc line per count threads index link processors).map fun r => some (some r.1, r.2)
    else some none
  else some (some (none, processors))

/-- The tables of caches, and the processors linked to them. -/
structure Caches where
  processors : List Processor
  l1i : Option (List Cache)
  l1d : Option (List Cache)
  l2 : Option (List Cache)
  l3 : Option (List Cache)
deriving DecidableEq, Repr

/-- src/arm/mach/init.c:515-647.  The first level has a cache for each thread (the quotient by
`threads_per_l1 = 1` is written as the number itself), the others have one. -/
def caches (z : CacheSizes) (m : MachTopology) (alloc : Nat → Bool) (processors : List Processor) :
    Option (Option Caches) :=
  orFail (level (alloc 5) z.l1i 4 z.line 1 m.threads m.threads id
    (fun p k => { p with l1i := some k }) processors) fun r1 =>
  orFail (level (alloc 6) z.l1d 4 z.line 1 m.threads m.threads id
    (fun p k => { p with l1d := some k }) r1.2) fun r2 =>
  orFail (level (alloc 7) z.l2 8 z.line m.cores 1 m.threads (fun _ => 0)
    (fun p k => { p with l2 := some k }) r2.2) fun r3 =>
  orFail (level (alloc 8) z.l3 16 z.line m.cores 1 m.threads (fun _ => 0)
    (fun p k => { p with l3 := some k }) r3.2) fun r4 =>
  some (some ⟨r4.2, r1.1, r2.1, r3.1, r4.1⟩)

/-- The counter of both first-level tables, src/arm/mach/init.c:521-527. -/
def l1Count (z : CacheSizes) (m : MachTopology) : Nat := if z.l1i ≠ 0 ∨ z.l1d ≠ 0 then m.threads else 0

/-- The counter of a table of the other levels, e.g. src/arm/mach/init.c:529-535. -/
def oneIf (size : Nat) : Nat := if size ≠ 0 then 1 else 0

/-- `cpuinfo_compute_max_cache_size(&processors[0])`, src/cache.c:6-17, where no processor has a
fourth level. -/
def maxCacheSize (c : Caches) : Option Nat := do
  let p ← c.processors[0]?
  let l3 ← linkedSize c.l3 p.l3
  let l2 ← linkedSize c.l2 p.l2
  let l1d ← linkedSize c.l1d p.l1d
  return computeMaxCacheSize none l3 l2 l1d

/-- The stores of src/arm/mach/init.c:649-673 in program order. -/
def commit (z : CacheSizes) (m : MachTopology) (t : Tables) (c : Caches) (maxSize : Nat) :
    List (Api.Store Elem) :=
  [ .table .processor (some c.processors),
    .table .core (some t.cores),
    .table .cluster (some t.clusters),
    .table .package (some t.packages),
    .table .uarch (some t.uarchs),
    .table (.cache .l1i) c.l1i,
    .table (.cache .l1d) c.l1d,
    .table (.cache .l2) c.l2,
    .table (.cache .l3) c.l3,
    .count .processor m.threads,
    .count .core m.cores,
    .count .cluster t.numClusters,
    .count .package m.packages,
    .count .uarch t.numClusters,
    .count (.cache .l1i) (l1Count z m),
    .count (.cache .l1d) (l1Count z m),
    .count (.cache .l2) (oneIf z.l2),
    .count (.cache .l3) (oneIf z.l3),
    .maxCacheSize maxSize,
    .flag true ]

/-- What detection asks the system for. -/
structure Env where
  iphone : Bool
  cores : Option Int
  threads : Option Int
  packages : Option Int
  brand : Option Bytes
  machine : Option Bytes
  family : Answer
  features : Features
  line : Answer
  l1d : Answer
  l1i : Answer
  l2 : Answer
  l3 : Answer
  alloc : Nat → Bool

/-- The numbers of packages, cores and threads. -/
def Env.topology (e : Env) : MachTopology := ArmMach.topology e.iphone e.cores e.threads e.packages

/-- The sizes of the caches, src/arm/mach/init.c:510-514. -/
def Env.sizes (e : Env) : CacheSizes := ⟨e.line.get, e.l1d.get, e.l1i.get, e.l2.get, e.l3.get⟩

/-- What detection does: the features it sets (none, if an early allocation fails), and the stores to
the variables of src/api.c. -/
structure Outcome where
  isa : Option Isa
  stores : List (Api.Store Elem)

/-- `cpuinfo_arm_mach_init`, src/arm/mach/init.c:249-692. -/
def init (e : Env) : Option Outcome :=
  if e.alloc 0 ∧ e.alloc 1 ∧ e.alloc 2 then do
    let m := e.topology
    let isa := isaOf e.family.get e.features
    let t ← tables e.family.get m (packageName e.brand e.machine) (e.alloc 3 ∧ e.alloc 4)
    match t with
    | none => return ⟨some isa, []⟩
    | some t =>
      let c ← caches e.sizes m e.alloc t.processors
      match c with
      | none => return ⟨some isa, []⟩
      | some c =>
        let maxSize ← maxCacheSize c
        return ⟨some isa, commit e.sizes m t c maxSize⟩
  else some ⟨none, []⟩

end Verif.ArmMach
