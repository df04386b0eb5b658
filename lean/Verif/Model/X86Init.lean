import Verif.Model.Processors
import Verif.Model.X86Cpuinfo

/-!
# Model of src/x86/linux/init.c

Pointers into a table are modelled as indices.  Conventions:
* a `none` result of a step is undefined behaviour (access outside a table, shift by 32 or more);
* indices that start at `UINT32_MAX` wrap as in C (`inc32`); the other counters (`smt_id`,
  `core_id`, `cluster_id`, `processor_count`, …) are plain naturals, a simplification: they never
  exceed the number of table entries, which is a `uint32_t`;
* the eight "levels" handled by one pass over the processors (core/cluster/package in one group,
  and the five caches) touch disjoint data, so each is modelled as its own pass;
* the constant fields `vendor`, `uarch`, `cpuid` and the package `name` are left out here.
-/

set_option autoImplicit false

namespace Verif.X86Init
open X86Cpuinfo (LinuxProc)

/-- `struct cpuinfo_x86_topology`, src/x86/api.h (without `apic_id`). -/
structure Topology where
  threadOffset : Nat
  threadLength : Nat
  coreOffset : Nat
  coreLength : Nat
deriving DecidableEq, Repr

/-- `struct cpuinfo_x86_cache`, src/x86/api.h. -/
structure CacheDesc where
  size : Nat
  associativity : Nat
  sets : Nat
  partitions : Nat
  lineSize : Nat
  flags : Nat
  apicBits : Nat
deriving DecidableEq, Repr

/-- The part of `struct cpuinfo_x86_processor` that detection of the topology uses,
src/x86/api.h. -/
structure X86Processor where
  topology : Topology
  l1i : CacheDesc
  l1d : CacheDesc
  l2 : CacheDesc
  l3 : CacheDesc
  l4 : CacheDesc
deriving DecidableEq, Repr

/-- `struct cpuinfo_processor`, include/cpuinfo.h (cache links are kept in `CacheLevel.links`). -/
structure Processor where
  smtId : Nat
  core : Nat
  cluster : Nat
  package : Nat
  linuxId : Nat
  apicId : Nat
deriving DecidableEq, Repr

/-- `struct cpuinfo_core`, include/cpuinfo.h. -/
structure Core where
  processorStart : Nat
  processorCount : Nat
  coreId : Nat
  cluster : Nat
  package : Nat
deriving DecidableEq, Repr

/-- `struct cpuinfo_cluster`, include/cpuinfo.h. -/
structure Cluster where
  processorStart : Nat
  processorCount : Nat
  coreStart : Nat
  coreCount : Nat
  clusterId : Nat
  package : Nat
deriving DecidableEq, Repr

/-- `struct cpuinfo_package`, include/cpuinfo.h. -/
structure Package where
  processorStart : Nat
  processorCount : Nat
  coreStart : Nat
  coreCount : Nat
  clusterStart : Nat
  clusterCount : Nat
deriving DecidableEq, Repr

/-- `struct cpuinfo_cache`, include/cpuinfo.h. -/
structure Cache where
  size : Nat
  associativity : Nat
  sets : Nat
  partitions : Nat
  lineSize : Nat
  flags : Nat
  processorStart : Nat
  processorCount : Nat
deriving DecidableEq, Repr

/-- The zeroed entries `calloc` returns. -/
def zeroProcessor : Processor := ⟨0, 0, 0, 0, 0, 0⟩
/-- See `zeroProcessor`. -/
def zeroCore : Core := ⟨0, 0, 0, 0, 0⟩
/-- See `zeroProcessor`. -/
def zeroCluster : Cluster := ⟨0, 0, 0, 0, 0, 0⟩
/-- See `zeroProcessor`. -/
def zeroPackage : Package := ⟨0, 0, 0, 0, 0, 0⟩
/-- See `zeroProcessor`. -/
def zeroCache : Cache := ⟨0, 0, 0, 0, 0, 0, 0, 0⟩

/-- `CPUINFO_LINUX_FLAG_PRESENT`, src/linux/api.h. -/
def flagPresent : Nat := 0x1
/-- `CPUINFO_LINUX_FLAG_POSSIBLE`, src/linux/api.h. -/
def flagPossible : Nat := 0x2
/-- `CPUINFO_LINUX_FLAG_VALID`, src/linux/api.h. -/
def flagValid : Nat := 0x1000

/-- `bitmask_all`, src/x86/linux/init.c:17-19. -/
def bitmaskAll (bits mask : Nat) : Bool := bits &&& mask == mask

/-- `bit_mask`, src/x86/linux/init.c:13-15; a shift by 32 or more is undefined. -/
def bitMask (bits : Nat) : Option Nat := if bits < 32 then some (2 ^ bits - 1) else none

/-- C `<<` on `uint32_t`. -/
def shl32 (x n : Nat) : Option Nat := if n < 32 then some (x * 2 ^ n % U32) else none

/-- C `~` on `uint32_t`. -/
def not32 (x : Nat) : Nat := U32MAX ^^^ x

/-- C `++` on `uint32_t`. -/
def inc32 (x : Nat) : Nat := (x + 1) % U32

/-- Read-modify-write of a table entry; `none` outside the table. -/
def modify? {α : Type} (t : List α) (i : Nat) (f : α → α) : Option (List α) :=
  match t[i]? with
  | none => none
  | some x => some (t.set i (f x))

/-- `modify?` under a condition. -/
def modifyIf? {α : Type} (b : Bool) (t : List α) (i : Nat) (f : α → α) : Option (List α) :=
  if b then modify? t i f else some t

/-- The APIC masks of core, cluster and package. -/
structure Masks where
  core : Nat
  cluster : Nat
  package : Nat
deriving DecidableEq, Repr

/-- The masks computed at src/x86/linux/init.c:60-65 and again at 379-384. -/
def masks (t : Topology) (llcBits : Nat) : Option Masks := do
  let thread ← (← bitMask t.threadLength) |> (shl32 · t.threadOffset)
  let core := not32 thread
  let coreBits ← (← bitMask t.coreLength) |> (shl32 · t.coreOffset)
  let package := core &&& not32 coreBits
  let llc ← bitMask llcBits
  return { core, package, cluster := package ||| not32 llc }

/-- `llc_apic_bits`, src/x86/linux/init.c:247-256. -/
def llcApicBits (x : X86Processor) : Nat :=
  if x.l4.size ≠ 0 then x.l4.apicBits
  else if x.l3.size ≠ 0 then x.l3.apicBits
  else if x.l2.size ≠ 0 then x.l2.apicBits
  else if x.l1d.size ≠ 0 then x.l1d.apicBits
  else 0

/-- One counter of `cpuinfo_x86_count_objects`, src/x86/linux/init.c:67-144: the number of times
the masked APIC id changes along the usable processors. -/
def countLoop (validMask keyMask : Nat) : List LinuxProc → (last count : Nat) → Nat
  | [], _, count => count
  | p :: ps, last, count =>
    if bitmaskAll p.flags validMask then
      let id := p.apicId &&& keyMask
      if id ≠ last then countLoop validMask keyMask ps id (inc32 count)
      else countLoop validMask keyMask ps last count
    else countLoop validMask keyMask ps last count

/-- `countLoop` with the initial values of src/x86/linux/init.c:67-71. -/
def countObjects (validMask keyMask : Nat) (ps : List LinuxProc) : Nat :=
  countLoop validMask keyMask ps U32MAX 0

/-- The variables of the build loop, src/x86/linux/init.c:386-393, and the tables it fills. -/
structure State where
  processorIndex : Nat
  coreIndex : Nat
  clusterIndex : Nat
  packageIndex : Nat
  clusterId : Nat
  coreId : Nat
  smtId : Nat
  lastCore : Nat
  lastCluster : Nat
  lastPackage : Nat
  processors : List Processor
  cores : List Core
  clusters : List Cluster
  packages : List Package
  processorMap : List (Option Nat)
  coreMap : List (Option Nat)
deriving DecidableEq, Repr

/-- One usable processor in the build loop, src/x86/linux/init.c:396-485. -/
def buildStep (m : Masks) (s : State) (p : LinuxProc) : Option State := do
  let processorIndex := inc32 s.processorIndex
  let coreKey := p.apicId &&& m.core
  let newCore := coreKey != s.lastCore
  let coreIndex := if newCore then inc32 s.coreIndex else s.coreIndex
  let smtId := if newCore then 0 else s.smtId + 1
  let clusterKey := p.apicId &&& m.cluster
  let newCluster := clusterKey != s.lastCluster
  let clusterIndex := if newCluster then inc32 s.clusterIndex else s.clusterIndex
  let packageKey := p.apicId &&& m.package
  let newPackage := packageKey != s.lastPackage
  let packageIndex := if newPackage then inc32 s.packageIndex else s.packageIndex
  let coreId := if newPackage then 0 else if newCore then s.coreId + 1 else s.coreId
  let clusterId := if newPackage then 0 else if newCluster then s.clusterId + 1 else s.clusterId
  -- 424-429
  let processors ← modify? s.processors processorIndex fun _ =>
    { smtId, core := coreIndex, cluster := clusterIndex, package := packageIndex,
      linuxId := p.linuxId, apicId := p.apicId }
  -- 431-449
  let cores ← modify? s.cores coreIndex fun c =>
    if newCore then
      { processorStart := processorIndex, processorCount := 1, coreId,
        cluster := clusterIndex, package := packageIndex }
    else { c with processorCount := c.processorCount + 1 }
  let clusters ← modifyIf? newCore s.clusters clusterIndex fun c =>
    { c with coreCount := c.coreCount + 1 }
  let packages ← modifyIf? newCore s.packages packageIndex fun q =>
    { q with coreCount := q.coreCount + 1 }
  -- 451-467
  let clusters ← modify? clusters clusterIndex fun c =>
    if newCluster then
      { c with processorStart := processorIndex, processorCount := 1, coreStart := coreIndex,
               clusterId, package := packageIndex }
    else { c with processorCount := c.processorCount + 1 }
  let packages ← modifyIf? newCluster packages packageIndex fun q =>
    { q with clusterCount := q.clusterCount + 1 }
  -- 469-482
  let packages ← modify? packages packageIndex fun q =>
    if newPackage then
      { q with processorStart := processorIndex, processorCount := 1, coreStart := coreIndex,
               clusterStart := clusterIndex }
    else { q with processorCount := q.processorCount + 1 }
  -- 484-485
  let processorMap ← modify? s.processorMap p.linuxId fun _ => some processorIndex
  let coreMap ← modify? s.coreMap p.linuxId fun _ => some coreIndex
  return { processorIndex, coreIndex, clusterIndex, packageIndex, clusterId, coreId, smtId,
           lastCore := coreKey, lastCluster := clusterKey, lastPackage := packageKey,
           processors, cores, clusters, packages, processorMap, coreMap }

/-- The build loop, src/x86/linux/init.c:394-485 and 617-618: skips unusable entries. -/
def buildLoop (m : Masks) : List LinuxProc → State → Option State
  | [], s => some s
  | p :: ps, s =>
    if bitmaskAll p.flags flagValid then (buildStep m s p).bind (buildLoop m ps)
    else buildLoop m ps s

/-- The variables of one cache level in the build loop. -/
structure CacheState where
  processorIndex : Nat
  index : Nat
  last : Nat
  table : List Cache
  links : List (Option Nat)
deriving DecidableEq, Repr

/-- One cache level for the processor at array position `i`, src/x86/linux/init.c:487-512 (and
513-616 for the other levels).  Simplification: the first assignment of
`processors[i].cache.l1i` (line 489) is overwritten at line 508 and left out. -/
def cacheStep (d : CacheDesc) (i : Nat) (s : CacheState) (p : LinuxProc) : Option CacheState := do
  let processorIndex := inc32 s.processorIndex
  if d.size ≠ 0 then
    let id := p.apicId &&& not32 (← bitMask d.apicBits)
    let isNew := id != s.last
    let index := if isNew then inc32 s.index else s.index
    let table ← modify? s.table index fun c =>
      if isNew then
        { size := d.size, associativity := d.associativity, sets := d.sets,
          partitions := d.partitions, lineSize := d.lineSize, flags := d.flags,
          processorStart := processorIndex, processorCount := 1 }
      else { c with processorCount := c.processorCount + 1 }
    let links ← modify? s.links i fun _ => some index
    return { processorIndex, index, last := id, table, links }
  else
    return { s with processorIndex, last := U32MAX }

/-- The pass over all array entries for one cache level. -/
def cacheLoop (d : CacheDesc) : Nat → List LinuxProc → CacheState → Option CacheState
  | _, [], s => some s
  | i, p :: ps, s =>
    if bitmaskAll p.flags flagValid then (cacheStep d i s p).bind (cacheLoop d (i + 1) ps)
    else cacheLoop d (i + 1) ps s

/-- A published cache level: `cpuinfo_cache[level]`, `cpuinfo_cache_count[level]` and the column
`cpuinfo_processors[i].cache.level`. -/
structure CacheLevel where
  count : Nat
  table : List Cache
  links : List (Option Nat)
deriving DecidableEq, Repr

/-- The number of caches of one level, src/x86/linux/init.c:100-134. -/
def cacheCount (d : CacheDesc) (validMask : Nat) (ps : List LinuxProc) : Option Nat :=
  if d.size ≠ 0 then (bitMask d.apicBits).map fun b => countObjects validMask (not32 b) ps
  else some 0

/-- Count, allocate and fill one cache level: src/x86/linux/init.c:100-134, 328-377, 487-616.
`none`: undefined behaviour; `some none`: allocation failure. -/
def buildCache (alloc : Bool) (d : CacheDesc) (validMask processorsCount : Nat)
    (ps : List LinuxProc) : Option (Option CacheLevel) := do
  let count ← cacheCount d validMask ps
  if count ≠ 0 ∧ ¬ alloc then return none
  let s ← cacheLoop d 0 ps
    { processorIndex := U32MAX, index := U32MAX, last := U32MAX,
      table := List.replicate count zeroCache,
      links := List.replicate processorsCount none }
  return some { count, table := s.table, links := s.links }

/-- What detection publishes in the global variables of src/api.c,
src/x86/linux/init.c:620-655. -/
structure Published where
  processors : List Processor
  cores : List Core
  clusters : List Cluster
  packages : List Package
  l1i : CacheLevel
  l1d : CacheLevel
  l2 : CacheLevel
  l3 : CacheLevel
  l4 : CacheLevel
  processorsCount : Nat
  coresCount : Nat
  clustersCount : Nat
  packagesCount : Nat
  maxCacheSize : Nat
  linuxCpuMax : Nat
  processorMap : List (Option Nat)
  coreMap : List (Option Nat)
deriving DecidableEq, Repr

/-- `cpuinfo_compute_max_cache_size`, src/cache.c:6-17, on the sizes behind the non-null links. -/
def computeMaxCacheSize (l4 l3 l2 l1d : Option Nat) : Nat :=
  match l4 with
  | some s => s
  | none =>
    match l3 with
    | some s => s
    | none =>
      match l2 with
      | some s => s
      | none =>
        match l1d with
        | some s => s
        | none => 0

/-- The size of the cache that processor `i` links to: `none` if a link leads outside its table,
`some none` for a null link. -/
def linkedSize (l : CacheLevel) (i : Nat) : Option (Option Nat) :=
  match l.links[i]? with
  | none => none
  | some none => some none
  | some (some j) => (l.table[j]?).map fun c => some c.size

/-- `cmp`, src/x86/linux/init.c:25-27. -/
def cmp32 (a b : Nat) : Int := (if a > b then 1 else 0) - (if a < b then 1 else 0)

/-- `cmp_x86_linux_processor`, src/x86/linux/init.c:29-44: the order given to `qsort`. -/
def cmpProcessor (a b : LinuxProc) : Int :=
  let usableA := bitmaskAll a.flags flagValid
  let usableB := bitmaskAll b.flags flagValid
  if usableA != usableB then (if usableB then 1 else 0) - (if usableA then 1 else 0)
  else cmp32 a.apicId b.apicId

/-- The part of `cpuinfo_x86_linux_init` after sorting, src/x86/linux/init.c:238-655.  `ps` is the
sorted array, `alloc i` tells whether the i-th `calloc` succeeds.  `none`: undefined behaviour;
`some none`: initialization failed and nothing is published. -/
def build (alloc : Nat → Bool) (x : X86Processor) (validMask processorsCount : Nat)
    (ps : List LinuxProc) : Option (Option Published) := do
  if ¬ alloc 1 then return none
  let m ← masks x.topology (llcApicBits x)
  let coresCount := countObjects validMask m.core ps
  let clustersCount := countObjects validMask m.cluster ps
  let packagesCount := countObjects validMask m.package ps
  if ¬ (alloc 2 ∧ alloc 3 ∧ alloc 4 ∧ alloc 5 ∧ alloc 6) then return none
  let l1i ← buildCache (alloc 7) x.l1i validMask processorsCount ps
  let l1d ← buildCache (alloc 8) x.l1d validMask processorsCount ps
  let l2 ← buildCache (alloc 9) x.l2 validMask processorsCount ps
  let l3 ← buildCache (alloc 10) x.l3 validMask processorsCount ps
  let l4 ← buildCache (alloc 11) x.l4 validMask processorsCount ps
  match l1i, l1d, l2, l3, l4 with
  | some l1i, some l1d, some l2, some l3, some l4 =>
    let s ← buildLoop m ps
      { processorIndex := U32MAX, coreIndex := U32MAX, clusterIndex := U32MAX,
        packageIndex := U32MAX, clusterId := 0, coreId := 0, smtId := 0,
        lastCore := U32MAX, lastCluster := U32MAX, lastPackage := U32MAX,
        processors := List.replicate processorsCount zeroProcessor,
        cores := List.replicate coresCount zeroCore,
        clusters := List.replicate clustersCount zeroCluster,
        packages := List.replicate packagesCount zeroPackage,
        processorMap := List.replicate ps.length none,
        coreMap := List.replicate ps.length none }
    return some
      { processors := s.processors, cores := s.cores, clusters := s.clusters,
        packages := s.packages, l1i, l1d, l2, l3, l4, processorsCount, coresCount, clustersCount,
        packagesCount,
        maxCacheSize := computeMaxCacheSize (← linkedSize l4 0) (← linkedSize l3 0)
          (← linkedSize l2 0) (← linkedSize l1d 0),
        linuxCpuMax := ps.length, processorMap := s.processorMap, coreMap := s.coreMap }
  | _, _, _, _, _ => return none

/-- Everything detection reads.  The sysfs lists are opened twice each, so each read has its own
content (`none`: the file cannot be opened) and its own read schedule.  `sort` is `qsort`, `alloc`
the outcomes of `calloc`. -/
structure Env where
  kernelMax : Option Bytes × Sched
  possibleMax : Option Bytes × Sched
  presentMax : Option Bytes × Sched
  possible : Option Bytes × Sched
  present : Option Bytes × Sched
  cpuinfo : Option Bytes × Sched
  cpu : X86Processor
  sort : List LinuxProc → List LinuxProc
  alloc : Nat → Bool

/-- Store the flag words back into the array of structs (the detectors work with a stride). -/
def withFlags : List LinuxProc → List Nat → List LinuxProc
  | p :: ps, f :: fs => { p with flags := f } :: withFlags ps fs
  | _, _ => []

/-- The number of table entries and the mask of usable processors, src/x86/linux/init.c:161-181:
`(x86_linux_processors_count, valid_processor_mask, possible is known, present is known)`. -/
def tableShape (maxCount maxPossible maxPresent : Nat) : Nat × Nat × Bool × Bool :=
  let possibleCount := (1 + maxPossible) % U32
  let presentCount := (1 + maxPresent) % U32
  let (n, mask) := if presentCount ≠ 0 then (min maxCount presentCount, flagPresent)
    else (maxCount, X86Cpuinfo.flagProcCpuinfo)
  let (n, mask) := if possibleCount ≠ 0 then (min n possibleCount, mask ||| flagPossible)
    else (n, mask)
  (n, mask, possibleCount != 0, presentCount != 0)

/-- A detector pass over the array when `known`, src/x86/linux/init.c:192-206. -/
def detect (known : Bool) (file : Option Bytes × Sched) (n flag : Nat) (t : List LinuxProc) :
    Option (List LinuxProc) :=
  if known then do
    let (flags, _) ← Processors.detectProcessors file.1 file.2 n flag (t.map (·.flags))
    return withFlags t (← flags)
  else some t

/-- Mark usable entries, src/x86/linux/init.c:213-217. -/
def markValid (mask : Nat) (t : List LinuxProc) : List LinuxProc :=
  t.map fun p => if bitmaskAll p.flags mask then { p with flags := p.flags ||| flagValid } else p

/-- Number usable entries, src/x86/linux/init.c:225-231, starting at position `i`. -/
def assignIds : Nat → List LinuxProc → List LinuxProc
  | _, [] => []
  | i, p :: ps =>
    (if bitmaskAll p.flags flagValid then { p with linuxId := i } else p) :: assignIds (i + 1) ps

/-- The number of usable entries, `processors_count`, src/x86/linux/init.c:225-231. -/
def countValid (t : List LinuxProc) : Nat :=
  (t.filter fun p => bitmaskAll p.flags flagValid).length

/-- `cpuinfo_x86_linux_init` up to the sort, src/x86/linux/init.c:161-231: the table with marked
and numbered processors, and the mask of usable processors.  `some none`: failure. -/
def gather (e : Env) : Option (Option (List LinuxProc × Nat)) := do
  let maxCount ← Processors.maxProcessorsCount e.kernelMax.1 e.kernelMax.2
  let maxPossible ← Processors.maxProcessor e.possibleMax.1 e.possibleMax.2 maxCount
  let maxPresent ← Processors.maxProcessor e.presentMax.1 e.presentMax.2 maxCount
  let (n, mask, possibleKnown, presentKnown) := tableShape maxCount maxPossible maxPresent
  if ¬ e.alloc 0 then return none
  let t ← detect possibleKnown e.possible n flagPossible (List.replicate n ⟨0, 0, 0⟩)
  let t ← detect presentKnown e.present n flagPresent t
  let (st, ok) ← X86Cpuinfo.parseProcCpuinfo e.cpuinfo.1 e.cpuinfo.2 n t
  let st ← st
  if ¬ ok then return none
  return some (assignIds 0 (markValid mask st.table), mask)

/-- `cpuinfo_x86_linux_init`, src/x86/linux/init.c:147-678.  Simplification: releasing memory on
failure is not modelled. -/
def linuxInit (e : Env) : Option (Option Published) := do
  match ← gather e with
  | none => return none
  | some (t, mask) => build e.alloc e.cpu mask (countValid t) (e.sort t)

end Verif.X86Init
