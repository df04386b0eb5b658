import Verif.Model.ArmClusterMidr
import Verif.Model.ArmChipsetDecode

/-!
# Model of src/arm/linux/init.c

The whole of `cpuinfo_arm_linux_init` from the kernel files to the published tables.  Conventions as
in `Verif.Model.X86Init`: pointers into a table are indices, `none` is undefined behaviour (access
outside a table, or a pointer formed outside a table), `some none` is a failed initialization.

The decoders of chipset, microarchitecture and caches (src/arm/linux/chipset.c, src/arm/uarch.c,
src/arm/cache.c) are parameters here, collected in `Decoders`; whatever is proved holds for all of
them.  Simplifications: log messages, releasing memory and the instruction set flags (modelled
separately) are left out; counters that cannot exceed the number of table entries are plain
naturals, except those that start at `UINT32_MAX`.
-/

set_option autoImplicit false

namespace Verif.ArmInit
open ArmMidr ArmCpuinfo ArmClusters ArmClusterMidr ArmChipset
open X86Init (modify? bitmaskAll inc32 Cache zeroCache computeMaxCacheSize)

/-- The four caches `cpuinfo_arm_decode_cache` fills in. -/
structure Caches where
  l1i : Cache
  l1d : Cache
  l2 : Cache
  l3 : Cache
deriving DecidableEq, Repr

/-- The decoders the code calls. -/
structure Decoders where
  /-- `cpuinfo_arm_linux_decode_chipset` / `cpuinfo_arm_android_decode_chipset`: from the Hardware
  and Revision buffers and the number of processors. -/
  chipset : Bytes → Bytes → Nat → Chipset
  /-- `cpuinfo_arm_decode_vendor_uarch`: from the MIDR and (32-bit ARM) VFPv4. -/
  vendorUarch : Nat → Bool → Nat × Nat
  /-- `cpuinfo_arm_decode_cache`: from microarchitecture, cores of the cluster, MIDR, chipset,
  cluster number and architecture version. -/
  caches : (uarch clusterCores midr : Nat) → Chipset → (clusterId archVersion : Nat) → Caches
  /-- `cpuinfo_arm_compute_max_cache_size`, src/arm/cache.c:1653-1786: the fixed bound of a
  microarchitecture, or `none` for those whose detected caches are used. -/
  maxCacheSize : Nat → Option Nat

/-- `struct cpuinfo_processor`, include/cpuinfo.h; there is one package. -/
structure Processor where
  smtId : Nat
  core : Nat
  cluster : Nat
  linuxId : Nat
  l1i : Nat
  l1d : Nat
  l2 : Option Nat
  l3 : Option Nat
deriving DecidableEq, Repr

/-- `struct cpuinfo_core`, include/cpuinfo.h. -/
structure Core where
  processorStart : Nat
  processorCount : Nat
  coreId : Nat
  cluster : Nat
  vendor : Nat
  uarch : Nat
  midr : Nat
deriving DecidableEq, Repr

/-- `struct cpuinfo_cluster`, include/cpuinfo.h. -/
structure Cluster where
  processorStart : Nat
  processorCount : Nat
  coreStart : Nat
  coreCount : Nat
  clusterId : Nat
  vendor : Nat
  uarch : Nat
  midr : Nat
deriving DecidableEq, Repr

/-- `struct cpuinfo_uarch_info`, include/cpuinfo.h. -/
structure Uarch where
  uarch : Nat
  midr : Nat
  processorCount : Nat
  coreCount : Nat
deriving DecidableEq, Repr

/-- The zeroed entries `calloc` returns. -/
def zeroProcessor : Processor := ⟨0, 0, 0, 0, 0, 0, none, none⟩
@[inherit_doc zeroProcessor] def zeroCore : Core := ⟨0, 0, 0, 0, 0, 0, 0⟩
@[inherit_doc zeroProcessor] def zeroCluster : Cluster := ⟨0, 0, 0, 0, 0, 0, 0, 0⟩
@[inherit_doc zeroProcessor] def zeroUarch : Uarch := ⟨0, 0, 0, 0⟩

/-- Everything detection reads.  `hardware` and `revision` are the uninitialised buffers,
`junk` and `junk'` the uninitialised locals of the two cluster detectors. -/
structure Env where
  config : Config
  kernelMax : File
  possibleMax : File
  presentMax : File
  possible : File
  present : File
  cpuinfo : File
  maxFrequency : Nat → File
  minFrequency : Nat → File
  packageId : Nat → File
  clusterCpus : Nat → File
  coreSiblings : Nat → File
  hardware : Bytes
  revision : Bytes
  junk : Attrs
  junk' : Attrs
  dec : Decoders
  sort : List Proc → List Proc
  alloc : Nat → Bool

/-- The number of table entries and the mask of usable processors, src/arm/linux/init.c:125-140:
`(arm_linux_processors_count, valid_processor_mask, possible is known, present is known)`. -/
def tableShape (maxCount maxPossible maxPresent : Nat) : Nat × Nat × Bool × Bool :=
  let possibleCount := (1 + maxPossible) % U32
  let presentCount := (1 + maxPresent) % U32
  let (n, mask) := if presentCount ≠ 0 then (min maxCount presentCount, flagPresent)
    else (maxCount, 0)
  let (n, mask) := if possibleCount ≠ 0 then (min n possibleCount, mask ||| flagPossible)
    else (n, mask)
  (n, mask, possibleCount != 0, presentCount != 0)

/-- Store flag words into the table (the detectors work with a stride). -/
def withFlags : List Proc → List Nat → List Proc
  | p :: ps, f :: fs => { p with flags := f } :: withFlags ps fs
  | _, _ => []

/-- A detector pass over the table when `known`, src/arm/linux/init.c:150-165. -/
def detect (known : Bool) (file : File) (n flag : Nat) (t : List Proc) : Option (List Proc) :=
  if known then do
    let (flags, _) ← Processors.detectProcessors file.1 file.2 n flag (t.map (·.flags))
    return withFlags t (← flags)
  else some t

/-- Mark usable entries, src/arm/linux/init.c:187-193. -/
def markValid (mask : Nat) (t : List Proc) : List Proc :=
  t.map fun p => if bitmaskAll p.flags mask then mark flagValid p else p

/-- `arm_linux_processors[i].system_processor_id = i`, src/arm/linux/init.c:199-200, from
position `i`. -/
def assignIds : Nat → List Proc → List Proc
  | _, [] => []
  | i, p :: ps => { p with systemProcessorId := i } :: assignIds (i + 1) ps

/-- `valid_processors`, src/arm/linux/init.c:195-208: usable processors with
`CPUINFO_ARM_LINUX_VALID_PROCESSOR`. -/
def countListed (t : List Proc) : Nat :=
  (t.filter fun p => valid p && has p validProcessor).length

/-- `cpuinfo_arm_linux_init` up to the chipset, src/arm/linux/init.c:121-240: the table with marked
and numbered processors and the Hardware and Revision buffers. -/
def gather (e : Env) : Option (Option (List Proc × Bytes × Bytes)) := do
  let maxCount ← Processors.maxProcessorsCount e.kernelMax.1 e.kernelMax.2
  let maxPossible ← Processors.maxProcessor e.possibleMax.1 e.possibleMax.2 maxCount
  let maxPresent ← Processors.maxProcessor e.presentMax.1 e.presentMax.2 maxCount
  let (n, mask, possibleKnown, presentKnown) := tableShape maxCount maxPossible maxPresent
  if ¬ possibleKnown ∧ ¬ presentKnown then return none
  if ¬ e.alloc 0 then return none
  let t ← detect possibleKnown e.possible n flagPossible (List.replicate n Proc.zero)
  let t ← detect presentKnown e.present n flagPresent t
  let (st, ok) ← parseProcCpuinfo e.config.arch e.cpuinfo.1 e.cpuinfo.2 e.hardware e.revision n t
  let st ← st
  if ¬ ok then return none
  return some (assignIds 0 (markValid mask st.table), st.hardware, st.revision)

/-- One iteration of "Detect min/max frequency and package ID", src/arm/linux/init.c:311-330. -/
def frequencyStep (e : Env) (i : Nat) (t : List Proc) : Option (List Proc) := do
  let p ← t[i]?
  if ¬ valid p then return t
  let mx ← Processors.processorFrequency (e.maxFrequency i).1 (e.maxFrequency i).2
  let p := if mx ≠ 0 then mark flagMaxFrequency { p with maxFrequency := mx } else p
  let mn ← Processors.processorFrequency (e.minFrequency i).1 (e.minFrequency i).2
  let p := if mn ≠ 0 then mark flagMinFrequency { p with minFrequency := mn } else p
  match ← Processors.processorId (e.packageId i).1 (e.packageId i).2 with
  | some id => return t.set i (mark flagPackageId { p with packageId := id })
  | none => return t.set i p

/-- `CPUINFO_ARM_LINUX_FEATURE_VFPV4` of 32-bit ARM, src/arm/linux/api.h. -/
def featureVfpv4 : Nat := 0x00010000

/-- Members take over what the leader has, src/arm/linux/init.c:453-461. -/
def followLeader (l p : Proc) : Proc :=
  { p with
    flags := p.flags ||| (l.flags &&& (validMidr ||| flagMaxFrequency))
    midr := l.midr
    vendor := l.vendor
    uarch := l.uarch
    maxFrequency := l.maxFrequency }

/-- One iteration of "Initialize core vendor, uarch, MIDR, and frequency",
src/arm/linux/init.c:436-464. -/
def uarchStep (e : Env) (i : Nat) (t : List Proc) : Option (List Proc) := do
  let p ← t[i]?
  if ¬ valid p then return t
  if p.packageLeaderId = i then
    let vfpv4 := match e.config.arch with
      | .arm => has { p with flags := p.features } featureVfpv4
      | .arm64 => false
    let (vendor, uarch) := e.dec.vendorUarch p.midr vfpv4
    modify? t i fun p => { p with vendor, uarch }
  else
    let l ← t[p.packageLeaderId]?
    modify? t i (followLeader l)

/-- Count microarchitectures and number the processors, src/arm/linux/init.c:493-503, on the rest of
the table; `last` is meaningful once `count` is not 0. -/
def countUarchs : (count last : Nat) → List Proc → Nat × List Proc
  | count, _, [] => (count, [])
  | count, last, p :: ps =>
    if valid p then
      let new := count = 0 ∨ p.uarch ≠ last
      let count := if new then count + 1 else count
      let last := if new then p.uarch else last
      let r := countUarchs count last ps
      (r.1, { p with uarchIndex := count - 1 } :: r.2)
    else
      let r := countUarchs count last ps
      (r.1, p :: r.2)

/-- The table of microarchitectures, src/arm/linux/init.c:601-615, on the rest of the processors. -/
def fillUarchs : (index last : Nat) → List Proc → List Uarch → Option (List Uarch)
  | _, _, [], us => some us
  | index, last, p :: ps, us =>
    if valid p then do
      let new := index = 0 ∨ p.uarch ≠ last
      let us ← if new then modify? us index fun _ => ⟨p.uarch, p.midr, 0, 0⟩ else some us
      let index := if new then index + 1 else index
      let last := if new then p.uarch else last
      let us ← modify? us (index - 1) fun u =>
        { u with processorCount := u.processorCount + 1, coreCount := u.coreCount + 1 }
      fillUarchs index last ps us
    else fillUarchs index last ps us

/-- The variables of the first publishing loop, src/arm/linux/init.c:617-619. -/
structure State where
  clusterId : Nat
  clusters : List Cluster
  processors : List Processor
  cores : List Core
  processorMap : List (Option Nat)
  coreMap : List (Option Nat)
  uarchMap : Option (List Nat)
  l1i : List Cache
  l1d : List Cache
  l2Count : Nat
  l3Count : Nat
  bigL3Size : Nat
  sharedL3 : Bool

/-- Whether the entry leads its cluster, src/arm/linux/init.c:622. -/
def isLeader (p : Proc) : Bool := p.packageLeaderId == p.systemProcessorId

/-- The clusters table entry of a leader at position `i`, src/arm/linux/init.c:624-634. -/
def clusterEntry (i clusterId : Nat) (p : Proc) : Cluster :=
  { processorStart := i, processorCount := p.packageProcessorCount
    coreStart := i, coreCount := p.packageProcessorCount
    clusterId, vendor := p.vendor, uarch := p.uarch, midr := p.midr }

/-- The clusters table after position `i`, src/arm/linux/init.c:622-635. -/
def openCluster (i clusterId : Nat) (p : Proc) (clusters : List Cluster) : Option (List Cluster) :=
  if isLeader p then modify? clusters clusterId fun _ => clusterEntry i clusterId p
  else some clusters

/-- `linux_cpu_to_uarch_index_map[system_processor_id] = uarch_index` if there is such a map,
src/arm/linux/init.c:656-659. -/
def recordUarch (p : Proc) : Option (List Nat) → Option (Option (List Nat))
  | none => some none
  | some m => (modify? m p.systemProcessorId fun _ => p.uarchIndex).map some

/-- The caches decoded for a processor, src/arm/linux/init.c:661-672 and 761-772. -/
def cachesOf (d : Decoders) (chipset : Chipset) (clusterId : Nat) (p : Proc) : Caches :=
  d.caches p.uarch p.packageProcessorCount p.midr chipset clusterId p.architectureVersion

/-- `l1i[i]`, src/arm/linux/init.c:673-684: decoded, with the processor range, unless 32-bit
/proc/cpuinfo gives the cache numbers. -/
def l1iEntry (a : Arch) (i : Nat) (c : Cache) (p : Proc) : Cache :=
  if a = .arm ∧ bitmaskAll p.flags 0x0F000000 then
    { size := p.cache.iSize, associativity := p.cache.iAssoc, sets := p.cache.iSets
      partitions := 1, lineSize := p.cache.iLine, flags := 0
      processorStart := 0, processorCount := 0 }
  else { c with processorStart := i, processorCount := 1 }

/-- `l1d[i]`, src/arm/linux/init.c:673-694. -/
def l1dEntry (a : Arch) (i : Nat) (c : Cache) (p : Proc) : Cache :=
  if a = .arm ∧ bitmaskAll p.flags 0xF0000000 then
    { size := p.cache.dSize, associativity := p.cache.dAssoc, sets := p.cache.dSets
      partitions := 1, lineSize := p.cache.dLine, flags := 0
      processorStart := 0, processorCount := 0 }
  else { c with processorStart := i, processorCount := 1 }

/-- The counters of L2 and L3 caches, src/arm/linux/init.c:696-729. -/
def countCaches (c : Caches) (clusterId : Nat) (leader : Bool) (s : State) : State :=
  if c.l3.size ≠ 0 then
    let s := { s with l2Count := s.l2Count + 1 }
    if leader then
      if clusterId = 0 then { s with bigL3Size := c.l3.size, l3Count := 1 }
      else if c.l3.size ≠ s.bigL3Size then { s with sharedL3 := false, l3Count := s.l3Count + 1 }
      else s
    else s
  else
    let s := { s with sharedL3 := false }
    if c.l2.size ≠ 0 ∧ leader then { s with l2Count := s.l2Count + 1 } else s

/-- One iteration of the first publishing loop, src/arm/linux/init.c:621-730, for the processor `p`
at position `i`.  Forming the pointer `clusters + cluster_id` outside the table is undefined. -/
def publishStep (a : Arch) (d : Decoders) (chipset : Chipset) (i : Nat) (p : Proc) (s : State) :
    Option State := do
  let clusterId := if isLeader p then inc32 s.clusterId else s.clusterId
  let clusters ← openCluster i clusterId p s.clusters
  if ¬ clusterId < clusters.length then none
  let processors ← modify? s.processors i fun q =>
    { q with smtId := 0, core := i, cluster := clusterId, linuxId := p.systemProcessorId,
             l1i := i, l1d := i }
  let processorMap ← modify? s.processorMap p.systemProcessorId fun _ => some i
  let cores ← modify? s.cores i fun _ =>
    { processorStart := i, processorCount := 1, coreId := i, cluster := clusterId,
      vendor := p.vendor, uarch := p.uarch, midr := p.midr }
  let coreMap ← modify? s.coreMap p.systemProcessorId fun _ => some i
  let uarchMap ← recordUarch p s.uarchMap
  let c := cachesOf d chipset clusterId p
  let l1i ← modify? s.l1i i fun _ => l1iEntry a i c.l1i p
  let l1d ← modify? s.l1d i fun _ => l1dEntry a i c.l1d p
  return countCaches c clusterId (isLeader p)
    { s with clusterId, clusters, processors, cores, processorMap, coreMap, uarchMap, l1i, l1d }

/-- The first publishing loop from position `i`. -/
def publishLoop (a : Arch) (d : Decoders) (chipset : Chipset) :
    Nat → List Proc → State → Option State
  | _, [], s => some s
  | i, p :: ps, s => (publishStep a d chipset i p s).bind (publishLoop a d chipset (i + 1) ps)

/-- The variables of the second publishing loop, src/arm/linux/init.c:754-755. -/
structure CacheState where
  clusterId : Nat
  l2Index : Nat
  l3Index : Nat
  l2 : List Cache
  l3 : List Cache
  processors : List Processor

/-- A published L2 or L3 cache: the decoded geometry with one partition and a processor range. -/
def cacheEntry (c : Cache) (start count : Nat) : Cache :=
  { size := c.size, associativity := c.associativity, sets := c.sets, partitions := 1,
    lineSize := c.lineSize, flags := c.flags, processorStart := start, processorCount := count }

/-- The L3 table after a leader at position `i`, src/arm/linux/init.c:794-809. -/
def openL3 (leader : Bool) (l3Index l3Count start count : Nat) (c : Cache) (l3 : List Cache) :
    Option (List Cache) :=
  if leader ∧ l3Index < l3Count then modify? l3 l3Index fun _ => cacheEntry c start count
  else some l3

/-- The L2 table after position `i` of a cluster that shares an L2,
src/arm/linux/init.c:818-830. -/
def openL2 (leader : Bool) (l2Index start count : Nat) (c : Cache) (l2 : List Cache) :
    Option (List Cache) :=
  if leader then modify? l2 l2Index fun _ => cacheEntry c start count else some l2

/-- One iteration of the second publishing loop, src/arm/linux/init.c:756-833. -/
def cacheStep (d : Decoders) (chipset : Chipset) (validProcessors l3Count : Nat) (shared : Bool)
    (i : Nat) (p : Proc) (s : CacheState) : Option CacheState := do
  let clusterId := if isLeader p then inc32 s.clusterId else s.clusterId
  let c := cachesOf d chipset clusterId p
  if c.l3.size ≠ 0 then
    let l2Index := inc32 s.l2Index
    let l2 ← modify? s.l2 l2Index fun _ => cacheEntry c.l2 i 1
    let l3Index := if isLeader p then inc32 s.l3Index else s.l3Index
    let l3 ← openL3 (isLeader p) l3Index l3Count i
      (if shared then validProcessors else p.packageProcessorCount) c.l3 s.l3
    let processors ← modify? s.processors i fun q =>
      { q with
        l2 := some l2Index
        l3 := if shared then some 0 else if l3Index < l3Count then some l3Index else q.l3 }
    return { clusterId, l2Index, l3Index, l2, l3, processors }
  else if c.l2.size ≠ 0 then
    let l2Index := if isLeader p then inc32 s.l2Index else s.l2Index
    let l2 ← openL2 (isLeader p) l2Index i p.packageProcessorCount c.l2 s.l2
    if ¬ l2Index < l2.length then none
    let processors ← modify? s.processors i fun q => { q with l2 := some l2Index }
    return { s with clusterId, l2Index, l2, processors }
  else return { s with clusterId }

/-- The second publishing loop from position `i`. -/
def cacheLoop (d : Decoders) (chipset : Chipset) (validProcessors l3Count : Nat) (shared : Bool) :
    Nat → List Proc → CacheState → Option CacheState
  | _, [], s => some s
  | i, p :: ps, s =>
    (cacheStep d chipset validProcessors l3Count shared i p s).bind
      (cacheLoop d chipset validProcessors l3Count shared (i + 1) ps)

/-- What detection publishes, src/arm/linux/init.c:513-516 and 835-860.  Tables of caches that were
not allocated are empty. -/
structure Published where
  processors : List Processor
  cores : List Core
  clusters : List Cluster
  uarchs : List Uarch
  l1i : List Cache
  l1d : List Cache
  l2 : List Cache
  l3 : List Cache
  processorsCount : Nat
  coresCount : Nat
  clustersCount : Nat
  packagesCount : Nat
  uarchsCount : Nat
  l1iCount : Nat
  l1dCount : Nat
  l2Count : Nat
  l3Count : Nat
  /-- Written by `cpuinfo_arm_chipset_to_string`, src/arm/linux/init.c:513; `none`: a null pointer was
  printed. -/
  packageName : Option Bytes
  packageProcessorCount : Nat
  packageCoreCount : Nat
  packageClusterCount : Nat
  maxCacheSize : Nat
  linuxCpuMax : Nat
  processorMap : List (Option Nat)
  coreMap : List (Option Nat)
  uarchMap : Option (List Nat)
deriving DecidableEq, Repr

/-- The size of the cache behind a link; `none`: the link leads outside the table. -/
def linkedSize (l : Option Nat) (table : List Cache) : Option (Option Nat) :=
  match l with
  | none => some none
  | some j => (table[j]?).map fun c => some c.size

/-- `cpuinfo_arm_compute_max_cache_size(&processors[0])`, src/arm/linux/init.c:855,
src/arm/cache.c:1653-1786.  `none`: there is no `processors[0]`. -/
def maxCacheSize (d : Decoders) (processors : List Processor) (cores : List Core)
    (l1d l2 l3 : List Cache) : Option Nat := do
  let p ← processors[0]?
  let c ← cores[p.core]?
  match d.maxCacheSize c.uarch with
  | some n => return n
  | none =>
    let s3 ← linkedSize p.l3 l3
    let s2 ← linkedSize p.l2 l2
    let s1 ← linkedSize (some p.l1d) l1d
    return computeMaxCacheSize none s3 s2 s1

/-- Everything after sorting, src/arm/linux/init.c:493-860.  `t` is the sorted table,
`validProcessors` and `clusterCount` the counts determined before. -/
def publish (a : Arch) (d : Decoders) (alloc : Nat → Bool) (chipset : Chipset)
    (validProcessors clusterCount : Nat) (t : List Proc) : Option (Option Published) := do
  let (uarchsCount, t) := countUarchs 0 0 t
  if ¬ (alloc 1 ∧ alloc 2 ∧ alloc 3 ∧ alloc 4 ∧ alloc 5 ∧ alloc 6) then return none
  if uarchsCount > 1 ∧ ¬ alloc 7 then return none
  if ¬ (alloc 8 ∧ alloc 9) then return none
  let uarchs ← fillUarchs 0 0 t (List.replicate uarchsCount zeroUarch)
  if t.length < validProcessors then none
  let s ← publishLoop a d chipset 0 (t.take validProcessors)
    { clusterId := U32MAX
      clusters := List.replicate clusterCount zeroCluster
      processors := List.replicate validProcessors zeroProcessor
      cores := List.replicate validProcessors zeroCore
      processorMap := List.replicate t.length none
      coreMap := List.replicate t.length none
      uarchMap := if uarchsCount > 1 then some (List.replicate t.length 0) else none
      l1i := List.replicate validProcessors zeroCache
      l1d := List.replicate validProcessors zeroCache
      l2Count := 0, l3Count := 0, bigL3Size := 0, sharedL3 := true }
  if s.l2Count ≠ 0 ∧ ¬ alloc 10 then return none
  if s.l2Count ≠ 0 ∧ s.l3Count ≠ 0 ∧ ¬ alloc 11 then return none
  let r ← cacheLoop d chipset validProcessors s.l3Count s.sharedL3 0 (t.take validProcessors)
    { clusterId := U32MAX, l2Index := U32MAX, l3Index := U32MAX
      l2 := List.replicate s.l2Count zeroCache
      l3 := if s.l2Count ≠ 0 then List.replicate s.l3Count zeroCache else []
      processors := s.processors }
  return some
    { processors := r.processors, cores := s.cores, clusters := s.clusters, uarchs
      l1i := s.l1i, l1d := s.l1d, l2 := r.l2, l3 := r.l3
      processorsCount := validProcessors, coresCount := validProcessors
      clustersCount := clusterCount, packagesCount := 1, uarchsCount
      l1iCount := validProcessors, l1dCount := validProcessors
      l2Count := s.l2Count, l3Count := s.l3Count
      packageName := ArmChipset.toString chipset
      packageProcessorCount := validProcessors, packageCoreCount := validProcessors
      packageClusterCount := clusterCount
      maxCacheSize := ← maxCacheSize d r.processors s.cores s.l1d r.l2 r.l3
      linuxCpuMax := t.length, processorMap := s.processorMap, coreMap := s.coreMap
      uarchMap := s.uarchMap }

/-- From the gathered table to the table handed to `qsort` and the number of clusters,
src/arm/linux/init.c:311-464. -/
def analyse (e : Env) (chipset : Chipset) (t : List Proc) : Option (Nat × List Proc) := do
  let usable := countListed t
  let t ← forRange (frequencyStep e) t.length 0 t
  let t ← detectClusters e.config e.junk e.junk' e.clusterCpus e.coreSiblings usable t
  let (clusters, t) ← detectClusterMidr e.config.arch chipset usable t
  let t ← forRange (uarchStep e) t.length 0 t
  return (clusters, t)

/-- `cpuinfo_arm_linux_init`, src/arm/linux/init.c:107-888. -/
def linuxInit (e : Env) : Option (Option Published) := do
  match ← gather e with
  | none => return none
  | some (t, hardware, revision) =>
    let chipset := e.dec.chipset hardware revision (countListed t)
    let (clusters, t') ← analyse e chipset t
    publish e.config.arch e.dec e.alloc chipset (countListed t) clusters (e.sort t')

end Verif.ArmInit
