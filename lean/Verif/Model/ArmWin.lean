import Verif.Model.Api
import Verif.Model.ArmIsa
import Verif.Model.ArmUarch
import Verif.Model.Wide
import Verif.Model.Windows

/-!
# Model of src/arm/windows/init.c and src/arm/windows/init-by-logical-sys-info.c

The answers of the Windows functions are parameters (`Env`): the numbers of processors of the groups, the
records about packages, cores and caches, the values in the registry, the processor features.  Cores and
caches are queried twice, and the two answers are different parameters.  The walk over the buffer of records
by their `Size` is left out: the records are lists.  As the size of the buffer is a 32-bit number of bytes,
counting records does not overflow, and the counters are natural numbers.

Results of type `Option (Option α)`: `none` is undefined behaviour (an access outside a table or through a
null pointer, a division by zero), `some none` is a failure that is reported, after which nothing is
published.  Releasing memory and logging are not modelled.
-/

set_option autoImplicit false

namespace Verif.ArmWin
open Windows (GroupAffinity Info Visit visitGroup countLoop beforeLoop perGroup relationCore
  relationPackage)
open X86Init (Cache zeroCache modify? computeMaxCacheSize)

/-- `RelationCache` of winnt.h. -/
def relationCache : Nat := 2
/-- `CacheUnified` of winnt.h. -/
def typeUnified : Nat := 0
/-- `CacheInstruction` of winnt.h. -/
def typeInstruction : Nat := 1
/-- `CacheData` of winnt.h. -/
def typeData : Nat := 2

/-- `SYSTEM_LOGICAL_PROCESSOR_INFORMATION_EX` of winnt.h, for caches. -/
structure CacheInfo extends Info where
  level : Nat
  type : Nat
  associativity : Nat
  lineSize : Nat
  size : Nat
deriving DecidableEq, Repr

/-- `struct cpuinfo_processor`, include/cpuinfo.h.  `core` and the caches are pointers that may be null; a
cache is an index into the one array of all caches.  `package` and `cluster` are offsets, which
become pointers into tables in the end. -/
structure Processor where
  smtId : Nat
  core : Option Nat
  cluster : Nat
  package : Nat
  groupId : Nat
  processorId : Nat
  l1i : Option Nat
  l1d : Option Nat
  l2 : Option Nat
  l3 : Option Nat
deriving DecidableEq, Repr

/-- `struct cpuinfo_core`, include/cpuinfo.h; `cluster` and `package` are set for every published core. -/
structure Core where
  processorStart : Nat
  processorCount : Nat
  coreId : Nat
  cluster : Nat
  package : Nat
  vendor : Nat
  uarch : Nat
  frequency : Nat
deriving DecidableEq, Repr

/-- `struct cpuinfo_cluster`, include/cpuinfo.h; `package` is a pointer that may be null. -/
structure Cluster where
  processorStart : Nat
  processorCount : Nat
  coreStart : Nat
  coreCount : Nat
  clusterId : Nat
  package : Option Nat
  vendor : Nat
  uarch : Nat
  frequency : Nat
deriving DecidableEq, Repr

/-- `struct cpuinfo_package`, include/cpuinfo.h. -/
structure Package where
  name : Bytes
  processorStart : Nat
  processorCount : Nat
  coreStart : Nat
  coreCount : Nat
  clusterStart : Nat
  clusterCount : Nat
deriving DecidableEq, Repr

/-- `struct cpuinfo_uarch_info`, include/cpuinfo.h:728-742. -/
structure UarchInfo where
  uarch : Nat
  midr : Nat
  processorCount : Nat
  coreCount : Nat
deriving DecidableEq, Repr

/-- The zeroed entries `HeapAlloc` with `HEAP_ZERO_MEMORY` returns. -/
def zeroProcessor : Processor := ⟨0, none, 0, 0, 0, 0, none, none, none, none⟩
@[inherit_doc zeroProcessor] def zeroCore : Core := ⟨0, 0, 0, 0, 0, 0, 0, 0⟩
@[inherit_doc zeroProcessor] def zeroCluster : Cluster := ⟨0, 0, 0, 0, 0, none, 0, 0, 0⟩
@[inherit_doc zeroProcessor] def zeroPackage : Package := ⟨[], 0, 0, 0, 0, 0, 0⟩
@[inherit_doc zeroProcessor] def zeroUarch : UarchInfo := ⟨0, 0, 0, 0⟩

/-- Go on after a success; a failure and undefined behaviour stay. -/
def ifOk {α β : Type} (x : Option (Option α)) (f : α → Option (Option β)) : Option (Option β) :=
  match x with
  | none => none
  | some none => some none
  | some (some a) => f a

/-- A loop whose body may fail. -/
def loop {α σ : Type} (f : σ → α → Option (Option σ)) : List α → σ → Option (Option σ)
  | [], s => some (some s)
  | a :: as, s => ifOk (f s a) fun s => loop f as s

/-! ## The records -/

/-- `read_all_logical_processor_info_of_relation`,
src/arm/windows/init-by-logical-sys-info.c:494-548, on the answer of the query: the number of records of the
right kind and what they left; a failure where the number is 0. -/
def readRecords {ρ σ : Type} (kind : ρ → Bool) (parse : Nat → ρ → σ → Option (Option σ)) :
    List ρ → (id : Nat) → σ → Option (Option (Nat × σ))
  | [], id, s => some (some (id, s))
  | r :: rs, id, s =>
    if kind r then ifOk (parse id r s) fun s => readRecords kind parse rs (id + 1) s
    else readRecords kind parse rs id s

/-- The whole function, src/arm/windows/init-by-logical-sys-info.c:450-549, with the test of its result at
165, 178, 191, 243 and 250.  `none` for the answer: a query failed or there was no memory. -/
def readAll {ρ σ : Type} (kind : ρ → Bool) (parse : Nat → ρ → σ → Option (Option σ))
    (answer : Option (List ρ)) (s : σ) : Option (Option (Nat × σ)) :=
  match answer with
  | none => some none
  | some infos => ifOk (readRecords kind parse infos 0 s) fun r =>
      if r.1 = 0 then some none else some (some r)

/-- The processors of one `GroupMask`, src/arm/windows/init-by-logical-sys-info.c:560-568 and 707-715; the
group is used only if a bit is set. -/
def groupVisits (before : List Nat) (g : GroupAffinity) : Option (List Visit) :=
  if g.mask = 0 then some [] else visitGroup before g

/-- The processors of one mask in `parse_relation_processor_info`,
src/arm/windows/init-by-logical-sys-info.c:565-598. -/
def storeVisits {σ : Type} (n : Nat) (store : σ → Visit → Option σ) (vs : List Visit) (s : σ) :
    Option (Option σ) :=
  loop (fun s v => if n ≤ v.index then some none else (store s v).map some) vs s

/-- `parse_relation_processor_info`, src/arm/windows/init-by-logical-sys-info.c:551-601. -/
def parseProcessors {σ : Type} (before : List Nat) (n : Nat) (store : σ → Visit → Option σ)
    (info : Info) (s : σ) : Option (Option σ) :=
  loop (fun s g => (groupVisits before g).bind fun vs => storeVisits n store vs s) info.groups s

/-- `store_package_info_per_processor`, src/arm/windows/init-by-logical-sys-info.c:727-741. -/
def storePackage (id : Nat) (ps : List Processor) (v : Visit) : Option (List Processor) :=
  modify? ps v.index fun p =>
    { p with package := id, groupId := v.group % 65536, processorId := v.number % 65536 }

/-- `struct core_info_by_chip_name` and the name, src/arm/windows/windows-arm-init.h:7-19; only the first
entry of `uarchs` is used. -/
structure Chip where
  name : Option (List Nat)
  vendor : Nat
  uarch : Nat
  frequency : Nat
deriving DecidableEq, Repr

/-- The tables that the second pass over cores writes to. -/
structure CoreState where
  processors : List Processor
  cores : List Core
deriving DecidableEq, Repr

/-- `store_core_info_per_processor` with a table of cores,
src/arm/windows/init-by-logical-sys-info.c:750-768; `chip_info->uarchs` is an array and not null.  Without a
table nothing is stored. -/
def storeCore (chip : Chip) (id : Nat) (s : CoreState) (v : Visit) : Option CoreState := do
  let processors ← modify? s.processors v.index fun p => { p with core := some id, cluster := id }
  let cores ← modify? s.cores id fun c =>
    { c with coreId := id, uarch := chip.uarch, frequency := chip.frequency }
  return ⟨processors, cores⟩

/-! ## Caches -/

/-- The caches that are stored. -/
inductive Level
  | l1i | l1d | l2 | l3
deriving DecidableEq, Repr

/-- The `switch` over level and type, src/arm/windows/init-by-logical-sys-info.c:616-639, 664-691 and
781-804. -/
def levelOf (level type : Nat) : Option Level :=
  match level with
  | 1 => if type = typeInstruction then some .l1i else if type = typeData then some .l1d else none
  | 2 => some .l2
  | 3 => some .l3
  | _ => none

/-- `numbers_of_caches`, and the counters of `parse_relation_cache_info`,
src/arm/windows/init-by-logical-sys-info.c:124 and 609-612. -/
structure Numbers where
  l1i : Nat
  l1d : Nat
  l2 : Nat
  l3 : Nat
deriving DecidableEq, Repr

/-- Entry of the array. -/
def Numbers.get (n : Numbers) : Level → Nat
  | .l1i => n.l1i
  | .l1d => n.l1d
  | .l2 => n.l2
  | .l3 => n.l3

/-- `++` of an entry. -/
def Numbers.inc (n : Numbers) : Level → Numbers
  | .l1i => { n with l1i := n.l1i + 1 }
  | .l1d => { n with l1d := n.l1d + 1 }
  | .l2 => { n with l2 := n.l2 + 1 }
  | .l3 => { n with l3 := n.l3 + 1 }

/-- `l1i_base` … `l3_base`, src/arm/windows/init-by-logical-sys-info.c:642-645. -/
def Numbers.base (n : Numbers) : Level → Nat
  | .l1i => 0
  | .l1d => n.l1i
  | .l2 => n.l1i + n.l1d
  | .l3 => n.l1i + n.l1d + n.l2

/-- All of them. -/
def Numbers.total (n : Numbers) : Nat := n.l1i + n.l1d + n.l2 + n.l3

/-- The first pass of `parse_relation_cache_info`, src/arm/windows/init-by-logical-sys-info.c:615-641. -/
def countCache (r : CacheInfo) (n : Numbers) : Numbers :=
  match levelOf r.level r.type with
  | some k => n.inc k
  | none => n

/-- The array of caches after the reset, src/arm/windows/init-by-logical-sys-info.c:229 and 429-437; the
numbers of the levels together are at most the number of records. -/
def resetCaches (total : Nat) (n : Numbers) : List Cache :=
  (List.range total).map fun i =>
    if i < n.total then { zeroCache with processorStart := U32MAX } else zeroCache

/-- The tables that the second pass over caches writes to, with its counters. -/
structure CacheState where
  processors : List Processor
  caches : List Cache
  counters : Numbers
deriving DecidableEq, Repr

/-- The pointer to a cache in a processor, src/arm/windows/init-by-logical-sys-info.c:781-804. -/
def Processor.link (k : Level) (i : Nat) (p : Processor) : Processor :=
  match k with
  | .l1i => { p with l1i := some i }
  | .l1d => { p with l1d := some i }
  | .l2 => { p with l2 := some i }
  | .l3 => { p with l3 := some i }

/-- `store_cache_info_per_processor`, src/arm/windows/init-by-logical-sys-info.c:771-805, for cache number
`i` of the array. -/
def storeCache (k : Level) (i : Nat) (s : CacheState) (v : Visit) : Option CacheState := do
  let caches ← modify? s.caches i fun c =>
    { c with processorStart := if c.processorStart > v.index then v.index else c.processorStart
             processorCount := c.processorCount + 1 }
  let processors ← modify? s.processors v.index (Processor.link k i)
  return { s with processors, caches }

/-- The second pass of `parse_relation_cache_info`, src/arm/windows/init-by-logical-sys-info.c:642-724.  A
null `current_cache` is written to.  The index of a processor is not tested. -/
def parseCache (before : List Nat) (n : Numbers) (r : CacheInfo) (s : CacheState) : Option CacheState :=
  match levelOf r.level r.type with
  | none => none
  | some k =>
    let i := n.base k + s.counters.get k
    if r.lineSize = 0 ∨ r.associativity = 0 then none
    else do
      let caches ← modify? s.caches i fun c =>
        { c with size := r.size, lineSize := r.lineSize, associativity := r.associativity
                 partitions := 1, sets := r.size / r.lineSize / r.associativity
                 flags := if r.type = typeUnified then 1 else c.flags }
      r.groups.foldlM (fun s g => (groupVisits before g).bind fun vs => vs.foldlM (storeCache k i) s)
        { s with caches, counters := s.counters.inc k }

/-! ## Packages, clusters, cores -/

/-- The tables of cores, clusters and packages. -/
structure Tables where
  cores : List Core
  clusters : List Cluster
  packages : List Package
deriving DecidableEq, Repr

/-- Processor `i`, src/arm/windows/init-by-logical-sys-info.c:818-877; `name` is the converted chip
name.  The pointer to the core is used without a test. -/
def connectProcessor (processors : List Processor) (packages cores : Nat) (name : Option Bytes)
    (s : Tables) (i : Nat) : Option (Option Tables) :=
  match processors[i]? with
  | none => none
  | some p =>
    if packages ≤ p.package then some none
    else if cores ≤ p.cluster then some none
    else
      match name with
      | none => some none
      | some name => do
        let packages ← modify? s.packages p.package fun q =>
          { q with name, processorStart := i, processorCount := q.processorCount + 1 }
        let clusters ← modify? s.clusters p.cluster fun q =>
          { q with processorStart := i, processorCount := q.processorCount + 1 }
        let core ← p.core
        let cores ← modify? s.cores core fun q =>
          { q with processorStart := i, processorCount := q.processorCount + 1 }
        return some ⟨cores, clusters, packages⟩

/-- Core `i`, src/arm/windows/init-by-logical-sys-info.c:879-904. -/
def connectCore (processors : List Processor) (vendor : Nat) (s : Tables) (i : Nat) :
    Option Tables := do
  let c ← s.cores[i]?
  let p ← processors[c.processorStart]?
  let cores ← modify? s.cores i fun c => { c with package := p.package, cluster := p.cluster, vendor }
  let c ← cores[i]?
  let clusters ← modify? s.clusters p.cluster fun q =>
    { q with coreStart := i, coreCount := q.coreCount + 1, package := some p.package
             vendor := c.vendor, uarch := c.uarch, frequency := c.frequency }
  let packages ← modify? s.packages p.package fun q =>
    { q with coreStart := i, coreCount := q.coreCount + 1, clusterStart := i
             clusterCount := q.coreCount + 1 }
  return ⟨cores, clusters, packages⟩

/-- `connect_packages_cores_clusters_by_processors`,
src/arm/windows/init-by-logical-sys-info.c:807-906. -/
def connect (processors : List Processor) (n packages cores : Nat) (name : Option Bytes) (vendor : Nat)
    (s : Tables) : Option (Option Tables) :=
  ifOk (loop (connectProcessor processors packages cores name) (List.range n).reverse s) fun s =>
    ((List.range cores).reverse.foldlM (connectCore processors vendor) s).map some

/-! ## Kinds of cores -/

/-- `nr_of_uarchs`, src/arm/windows/init-by-logical-sys-info.c:275-281. -/
def countUarchs : (prev : Nat) → List Core → Nat
  | _, [] => 0
  | prev, c :: cs => if prev ≠ c.uarch then countUarchs c.uarch cs + 1 else countUarchs prev cs

/-- The variables of the second loop. -/
structure UarchState where
  prev : Nat
  index : Nat
  uarchs : List UarchInfo
deriving DecidableEq, Repr

/-- Core `i`, src/arm/windows/init-by-logical-sys-info.c:291-307; an index beyond the table is only
logged.  `cpuinfo_uarch_unknown` is 0. -/
def uarchStep (s : UarchState) (i : Nat) (c : Core) : Option UarchState :=
  if s.prev ≠ c.uarch then do
    let index := if i ≠ 0 then s.index + 1 else s.index
    let uarchs ← modify? s.uarchs index fun u =>
      { u with uarch := c.uarch, coreCount := 1, processorCount := c.processorCount }
    return ⟨c.uarch, index, uarchs⟩
  else if s.prev ≠ 0 then do
    let uarchs ← modify? s.uarchs s.index fun u =>
      { u with coreCount := u.coreCount + 1, processorCount := u.processorCount + c.processorCount }
    return { s with uarchs }
  else some s

/-- The loop, src/arm/windows/init-by-logical-sys-info.c:290-307. -/
def uarchLoop : (i : Nat) → List Core → UarchState → Option UarchState
  | _, [], s => some s
  | i, c :: cs, s => do uarchLoop (i + 1) cs (← uarchStep s i c)

/-! ## Detection -/

/-- What Windows answers.  The records are `none` if a query fails or there is no memory for them;
`cores1` and `caches1` are the answers to the first queries, `cores2` and `caches2` to the second ones.
`regName` is `none` if the registry has no name; `regMidr` and `regMhz` are 0 if it has no such value. -/
structure Env where
  groupCount : Nat
  maxCount : Nat → Nat
  packages : Option (List Info)
  cores1 : Option (List Info)
  caches1 : Option (List CacheInfo)
  caches2 : Option (List CacheInfo)
  cores2 : Option (List Info)
  regName : Option (List Nat)
  regMidr : Nat
  regMhz : Nat
  alloc : Nat → Bool

/-- What is published, src/arm/windows/init-by-logical-sys-info.c:309-334. -/
structure Published where
  processors : List Processor
  packages : List Package
  clusters : List Cluster
  cores : List Core
  uarchs : List UarchInfo
  caches : List Cache
  processorsCount : Nat
  packagesCount : Nat
  coresCount : Nat
  uarchsCount : Nat
  numbers : Numbers
  maxCacheSize : Nat
deriving DecidableEq, Repr

/-- The size of a linked cache; `some none` for a null pointer. -/
def linkedSize (caches : List Cache) : Option Nat → Option (Option Nat)
  | none => some none
  | some i => (caches[i]?).map fun c => some c.size

/-- Steps 6 and 7, src/arm/windows/init-by-logical-sys-info.c:273-334.  Where the kinds of cores find no
memory nothing is published, but the result is still the `true` of line 258: `some (some none)`. -/
def finish (alloc : Bool) (n packages cores : Nat) (numbers : Numbers) (ps : List Processor)
    (caches : List Cache) (t : Tables) : Option (Option (Option Published)) := do
  let used := t.cores.take cores
  let count := countUarchs 0 used
  if ¬ alloc then return some none
  let u ← uarchLoop 0 used ⟨0, 0, List.replicate count zeroUarch⟩
  let p ← ps[0]?
  let maxCacheSize := computeMaxCacheSize none (← linkedSize caches p.l3) (← linkedSize caches p.l2)
    (← linkedSize caches p.l1d)
  return some <| some
    { processors := ps, packages := t.packages, clusters := t.clusters, cores := t.cores
      uarchs := u.uarchs, caches, processorsCount := n, packagesCount := packages
      coresCount := cores, uarchsCount := count, numbers, maxCacheSize }

/-- Steps 4 and 5, src/arm/windows/init-by-logical-sys-info.c:238-271, and the rest; the three numbers are
those of the first queries. -/
def fill (e : Env) (chip : Chip) (before : List Nat) (n packages cores caches : Nat)
    (numbers : Numbers) (ps : List Processor) : Option (Option (Option Published)) :=
  ifOk (readAll (fun r : CacheInfo => r.relationship == relationCache)
    (fun _ r s => (parseCache before numbers r s).map some) e.caches2
    ⟨ps, resetCaches caches numbers, ⟨0, 0, 0, 0⟩⟩) fun c =>
  ifOk (readAll (fun r : Info => r.relationship == relationCore)
    (fun id => parseProcessors before n (storeCore chip id)) e.cores2
    ⟨c.2.processors, List.replicate cores zeroCore⟩) fun k =>
  ifOk (connect k.2.processors n packages k.1 (Wide.convertName chip.name) chip.vendor
    ⟨k.2.cores, List.replicate cores zeroCluster, List.replicate packages zeroPackage⟩) fun t =>
  finish (e.alloc 6) n packages k.1 numbers k.2.processors c.2.caches t

/-- `cpu_info_init_by_logical_sys_info`, src/arm/windows/init-by-logical-sys-info.c:113-373: `some none` if it
returns false, otherwise what it publishes, if anything. -/
def initByInfo (e : Env) (chip : Chip) : Option (Option (Option Published)) :=
  let per := perGroup e.groupCount e.maxCount
  let n := countLoop 0 per
  let before := beforeLoop 0 per
  if ¬ (e.alloc 0 ∧ e.alloc 1) then some none
  else
    ifOk (readAll (fun r : Info => r.relationship == relationPackage)
      (fun id => parseProcessors before n (storePackage id)) e.packages
      (List.replicate n zeroProcessor)) fun p =>
    ifOk (readAll (fun r : Info => r.relationship == relationCore)
      (fun _ => parseProcessors before n fun s _ => some s) e.cores1 p.2) fun c =>
    ifOk (readAll (fun r : CacheInfo => r.relationship == relationCache)
      (fun _ r s => some (some (countCache r s))) e.caches1 (⟨0, 0, 0, 0⟩ : Numbers)) fun k =>
    if ¬ (e.alloc 2 ∧ e.alloc 3 ∧ e.alloc 4 ∧ e.alloc 5) then some none
    else fill e chip before n p.1 c.1 k.1 k.2 p.2

/-- `woa_chip_unknown`, src/arm/windows/init.c:20. -/
def unknownChip : Chip :=
  ⟨some [0x55, 0x6E, 0x6B, 0x6E, 0x6F, 0x77, 0x6E], ArmUarch.Vendor.unknown, ArmUarch.Uarch.unknown, 0⟩

/-- `get_system_info_from_registry` and the choice of the unknown chip, src/arm/windows/init.c:28-31 and
137-190.  `frequency_mhz` is a 32-bit number, so that the product fits 64 bits. -/
def chipOf (a : ArmMidr.Arch) (e : Env) : Chip :=
  match e.regName with
  | none => unknownChip
  | some text =>
    if e.regMidr % U32 = 0 ∨ e.regMhz = 0 ∨ e.alloc 7 = false then unknownChip
    else
      { name := Wide.wcsndup (e.alloc 8) text (Wide.packageNameMax - 1)
        vendor := (ArmUarch.decode a (e.regMidr % U32) false).1
        uarch := (ArmUarch.decode a (e.regMidr % U32) false).2
        frequency := e.regMhz * 1000000 }

/-- What `IsProcessorFeaturePresent` answers, src/arm/windows/init.c:193-221. -/
structure Features where
  atomics : Bool
  dot : Bool
  crypto : Bool
  crc32 : Bool
deriving DecidableEq, Repr

/-- `set_cpuinfo_isa_fields`, src/arm/windows/init.c:192-222; both branches on the processor level are the
same. -/
def isaOf (f : Features) : ArmIsa.Isa :=
  { atomics := f.atomics
    dot := f.dot
    fp16arith := f.dot
    rdm := f.dot
    aes := f.crypto
    sha1 := f.crypto
    sha2 := f.crypto
    pmull := f.crypto
    crc32 := f.crc32 }

/-- The element types on ARM Windows. -/
def Elem : Api.Kind → Type
  | .processor => Processor
  | .core => Core
  | .cluster => Cluster
  | .package => Package
  | .uarch => UarchInfo
  | .cache _ => Cache

/-- The assignments of src/arm/windows/init-by-logical-sys-info.c:310-334 in program order.  The pointers to
the caches of a level point into the array of all caches, and a table is what lies behind the
pointer.  The counter of the fourth level is not assigned. -/
def commit (p : Published) : List (Api.Store Elem) :=
  [ .table .processor (some p.processors),
    .table .package (some p.packages),
    .table .cluster (some p.clusters),
    .table .core (some p.cores),
    .table .uarch (some p.uarchs),
    .count .processor p.processorsCount,
    .count .package p.packagesCount,
    .count .cluster p.coresCount,
    .count .core p.coresCount,
    .count .uarch p.uarchsCount,
    .count (.cache .l1i) p.numbers.l1i,
    .count (.cache .l1d) p.numbers.l1d,
    .count (.cache .l2) p.numbers.l2,
    .count (.cache .l3) p.numbers.l3,
    .table (.cache .l1i) (some p.caches),
    .table (.cache .l1d) (some (p.caches.drop (p.numbers.base .l1d))),
    .table (.cache .l2) (some (p.caches.drop (p.numbers.base .l2))),
    .table (.cache .l3) (some (p.caches.drop (p.numbers.base .l3))),
    .table (.cache .l4) (some (p.caches.drop p.numbers.total)),
    .maxCacheSize p.maxCacheSize ]

/-- `cpuinfo_arm_windows_init`, src/arm/windows/init.c:22-36: what it stores. -/
def init (a : ArmMidr.Arch) (e : Env) : Option (List (Api.Store Elem)) := do
  match ← initByInfo e (chipOf a e) with
  | none => return [.flag false]
  | some none => return [.flag true]
  | some (some p) => return commit p ++ [.flag true]

end Verif.ArmWin
