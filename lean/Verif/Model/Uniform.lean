import Verif.Model.Platform
import Verif.Model.ArmClusters

/-!
# Model of src/x86/mach/init.c, src/mach/topology.c, src/x86/freebsd/init.c, src/freebsd/topology.c

Both systems report numbers of packages, cores and threads only; the tables are made by dividing
these numbers.  The two initialization functions are almost the same text; what they share is
modelled once.  The description of the processor by CPUID (`cpuinfo_x86_init_processor`) is a
parameter, as are the answers of `sysctlbyname`.

`none` is undefined behaviour: division by zero, an access outside a table, or a pointer more than
one element past the end of a table.  When an allocation fails nothing is stored.

Products of an index and a quotient stay below the number of threads (or cores) and are not reduced
modulo 2^32; the exception are the core starts on FreeBSD when cores times threads per core exceed
2^32, which no theorem is about.
-/

set_option autoImplicit false

namespace Verif.Uniform
open X86Init (Package Cache CacheDesc Topology X86Processor bitMask shl32)
open Platform
open ArmClusters (forRange)

/-- `a / b` and `a % b`. -/
def div? (a b : Nat) : Option Nat := if b = 0 then none else some (a / b)
@[inherit_doc div?] def mod? (a b : Nat) : Option Nat := if b = 0 then none else some (a % b)

/-- `table + k` for a table of `n` elements. -/
def ptr? (n k : Nat) : Option Nat := if k ≤ n then some k else none

/-- The numbers the tables are made from. -/
structure Topo where
  packages : Nat
  cores : Nat
  threads : Nat
  threadsPerCore : Nat
deriving DecidableEq, Repr

/-- The reconstructed APIC ID, src/x86/mach/init.c:111-120, src/x86/freebsd/init.c:116-125. -/
def apicId (b : Topology) (smtId coreId packageId : Nat) : Option Nat := do
  let threadMask ← bitMask b.threadLength
  let coreMask ← bitMask b.coreLength
  let packageOffset := max (b.threadOffset + b.threadLength) (b.coreOffset + b.coreLength)
  let s ← shl32 (smtId &&& threadMask) b.threadOffset
  let c ← shl32 (coreId &&& coreMask) b.coreOffset
  let p ← shl32 packageId packageOffset
  return s ||| c ||| p

/-- The tables of the topology. -/
structure Tables where
  processors : List Processor
  cores : List Core
  clusters : List Cluster
  packages : List Package
deriving DecidableEq, Repr

/-- src/x86/mach/init.c:74-93, src/x86/freebsd/init.c:79-98. -/
def packageLoop (t : Topo) (tpp cpp : Nat) (clusters : List Cluster) (packages : List Package) :
    Option (List Cluster × List Package) :=
  forRange (fun i (s : List Cluster × List Package) => do
    let clusters ← put s.1 i ⟨i * tpp, tpp, i * cpp, cpp, 0, some i⟩
    let packages ← put s.2 i ⟨i * tpp, tpp, i * cpp, cpp, i, 1⟩
    return (clusters, packages)) t.packages 0 (clusters, packages)

/-- src/x86/mach/init.c:94-105, src/x86/freebsd/init.c:99-110.  On FreeBSD the product of line 101 may
exceed 32 bits; the other products are at most the number of threads or cores. -/
def coreLoop (t : Topo) (cpp : Nat) (cores : List Core) : Option (List Core) :=
  forRange (fun i cores => do
    let id ← mod? i cpp
    let k ← ptr? t.packages (i / cpp)
    put cores i ⟨i * t.threadsPerCore % U32, t.threadsPerCore, id, some k, some k⟩) t.cores 0 cores

/-- src/x86/mach/init.c:106-127, src/x86/freebsd/init.c:111-132. -/
def processorLoop (t : Topo) (b : Topology) (tpp : Nat) (processors : List Processor) :
    Option (List Processor) :=
  forRange (fun i processors => do
    let smtId ← mod? i t.threadsPerCore
    let coreId ← div? i t.threadsPerCore
    let packageId ← div? i tpp
    let apic ← apicId b smtId coreId packageId
    let core ← ptr? t.cores coreId
    let package ← ptr? t.packages packageId
    put processors i { zeroProcessor with
      smtId, core := some core, cluster := some package, package := some package, apicId := apic })
    t.threads 0 processors

/-- src/x86/mach/init.c:71-127, src/x86/freebsd/init.c:76-132. -/
def tables (t : Topo) (b : Topology) : Option Tables := do
  let tpp ← div? t.threads t.packages
  let cpp ← div? t.cores t.packages
  let cp ← packageLoop t tpp cpp (List.replicate t.packages zeroCluster)
    (List.replicate t.packages zeroPackage)
  let cores ← coreLoop t cpp (List.replicate t.cores zeroCore)
  let processors ← processorLoop t b tpp (List.replicate t.threads zeroProcessor)
  return { processors, cores, clusters := cp.1, packages := cp.2 }

/-- How many threads share a cache of a level, and how many caches there are. -/
structure Share where
  per : Nat
  count : Nat
deriving DecidableEq, Repr

/-- The levels. -/
structure Shares where
  l1 : Share
  l2 : Share
  l3 : Share
  l4 : Share
deriving DecidableEq, Repr

/-- Entry `c` of a cache table, e.g. src/x86/mach/init.c:207-216. -/
def cacheEntry (d : CacheDesc) (per c : Nat) : Cache :=
  { size := d.size, associativity := d.associativity, sets := d.sets, partitions := d.partitions
    lineSize := d.lineSize, flags := d.flags, processorStart := c * per, processorCount := per }

/-- Fill one table of caches and link the processors, e.g. src/x86/mach/init.c:206-220. -/
def fill (d : CacheDesc) (sh : Share) (threads : Nat) (link : Processor → Nat → Processor)
    (processors : List Processor) : Option (List Cache × List Processor) := do
  let table ← forRange (fun c t => put t c (cacheEntry d sh.per c)) sh.count 0
    (List.replicate sh.count zeroCache)
  let processors ← forRange (fun t ps => do
    let k ← div? t sh.per
    let k ← ptr? sh.count k
    let p ← ps[t]?
    put ps t (link p k)) threads 0 processors
  return (table, processors)

/-- One level: nothing if it is not `present`; `some none` if the allocation fails. -/
def level (present alloc : Bool) (d : CacheDesc) (sh : Share) (threads : Nat)
    (link : Processor → Nat → Processor) (processors : List Processor) :
    Option (Option (Option (List Cache) × List Processor)) :=
  if present then
    if alloc then (fill d sh threads link processors).map fun r => some (some r.1, r.2)
    else some none
  else some (some (none, processors))

/-- The tables of caches, and the processors linked to them. -/
structure Caches where
  processors : List Processor
  l1i : Option (List Cache)
  l1d : Option (List Cache)
  l2 : Option (List Cache)
  l3 : Option (List Cache)
  l4 : Option (List Cache)
deriving DecidableEq, Repr

/-- Go on unless the allocation has failed. -/
def orFail {α β : Type} (x : Option (Option α)) (f : α → Option (Option β)) : Option (Option β) :=
  x.bind fun r => match r with
    | none => some none
    | some a => f a

/-- src/x86/mach/init.c:197-330, src/x86/freebsd/init.c:207-341. -/
def caches (x : X86Processor) (s : Shares) (threads : Nat) (alloc : Nat → Bool)
    (processors : List Processor) : Option (Option Caches) :=
  orFail (level (x.l1i.size ≠ 0) (alloc 4) x.l1i s.l1 threads
    (fun p k => { p with l1i := some k }) processors) fun r1 =>
  orFail (level (x.l1d.size ≠ 0) (alloc 5) x.l1d s.l1 threads
    (fun p k => { p with l1d := some k }) r1.2) fun r2 =>
  orFail (level (s.l2.count ≠ 0) (alloc 6) x.l2 s.l2 threads
    (fun p k => { p with l2 := some k }) r2.2) fun r3 =>
  orFail (level (s.l3.count ≠ 0) (alloc 7) x.l3 s.l3 threads
    (fun p k => { p with l3 := some k }) r3.2) fun r4 =>
  orFail (level (s.l4.count ≠ 0) (alloc 8) x.l4 s.l4 threads
    (fun p k => { p with l4 := some k }) r4.2) fun r5 =>
  some (some ⟨r5.2, r1.1, r2.1, r3.1, r4.1, r5.1⟩)

/-- The size of the linked cache: `some none` for a null link. -/
def linkedSize (table : Option (List Cache)) (link : Option Nat) : Option (Option Nat) :=
  match link with
  | none => some none
  | some k => ((table.getD [])[k]?).map fun c => some c.size

/-- One step of src/cache.c:7-15: the size behind the link, or, if it is null, the next level. -/
def sizeOr (table : Option (List Cache)) (link : Option Nat) (next : Option Nat) : Option Nat :=
  (linkedSize table link).bind fun r => match r with
    | some size => some size
    | none => next

/-- `cpuinfo_compute_max_cache_size(&processors[0])`, src/cache.c:6-17.  Only the first link that is
not null is followed. -/
def maxCacheSize (c : Caches) : Option Nat :=
  (c.processors[0]?).bind fun p =>
    sizeOr c.l4 p.l4 (sizeOr c.l3 p.l3 (sizeOr c.l2 p.l2 (sizeOr c.l1d p.l1d (some 0))))

/-- The stores of src/x86/mach/init.c:332-364, src/x86/freebsd/init.c:343-375.  `uarch` and `cpuid`
are carried along. -/
def commit (t : Topo) (uarch cpuid : Nat) (s : Shares) (tb : Tables) (c : Caches) (maxSize : Nat) :
    List (Api.Store Elem) :=
  [ .table .processor (some c.processors),
    .table .core (some tb.cores),
    .table .cluster (some tb.clusters),
    .table .package (some tb.packages),
    .table (.cache .l1i) c.l1i,
    .table (.cache .l1d) c.l1d,
    .table (.cache .l2) c.l2,
    .table (.cache .l3) c.l3,
    .table (.cache .l4) c.l4,
    .count .processor t.threads,
    .count .core t.cores,
    .count .cluster t.packages,
    .count .package t.packages,
    .count (.cache .l1i) s.l1.count,
    .count (.cache .l1d) s.l1.count,
    .count (.cache .l2) s.l2.count,
    .count (.cache .l3) s.l3.count,
    .count (.cache .l4) s.l4.count,
    .maxCacheSize maxSize,
    .globalUarch ⟨uarch, cpuid, t.threads, t.cores⟩,
    .flag true ]

/-- From the tables of the topology and the numbers of sharing threads to the end. -/
def finish (t : Topo) (x : X86Processor) (uarch cpuid : Nat) (alloc : Nat → Bool) (tb : Tables)
    (s : Shares) : Option (List (Api.Store Elem)) :=
  (caches x s t.threads alloc tb.processors).bind fun r => match r with
    | none => some []
    | some c => (maxCacheSize c).map (commit t uarch cpuid s tb c)

/-! ### Mach -/

/-- `struct cpuinfo_mach_topology`, src/mach/api.h. -/
structure MachTopology where
  packages : Nat
  cores : Nat
  threads : Nat
  threadsPerCache : List Nat
deriving DecidableEq, Repr

/-- An answer of `sysctlbyname` for an `int`, `none` if it fails; `dflt` replaces a number that is
not positive. -/
def sysctlInt (answer : Option Int) (dflt : Nat) : Nat :=
  match answer with
  | none => 1
  | some v => if v ≤ 0 then dflt else v.toNat

/-- `cpuinfo_mach_detect_topology`, src/mach/topology.c:12-69, when not for an iPhone.  `config` is
`hw.cacheconfig`; of at most eight entries the low 32 bits are stored, the others are zero. -/
def machTopology (cores threads packages : Option Int) (config : Option (List Nat)) : MachTopology :=
  let c := sysctlInt cores 1
  { packages := sysctlInt packages 1, cores := c, threads := sysctlInt threads c
    threadsPerCache :=
      let l := ((config.getD []).take 8).map (· % U32)
      l ++ List.replicate (8 - l.length) 0 }

/-- The reported number of sharing threads, else an assumption, e.g. src/x86/mach/init.c:131-138. -/
def machShare (present : Bool) (reported assumed : Nat) (threads : Nat) : Option Share :=
  if present then
    let per := if reported = 0 then assumed else reported
    (div? threads per).map fun count => ⟨per, count⟩
  else some ⟨0, 0⟩

/-- src/x86/mach/init.c:129-195. -/
def machShares (t : MachTopology) (x : X86Processor) : Option Shares := do
  let perCore ← div? t.threads t.cores
  let perPackage ← div? t.threads t.packages
  let l1 ← machShare (x.l1i.size ≠ 0 ∨ x.l1d.size ≠ 0) (← t.threadsPerCache[1]?) perCore t.threads
  let l2 ← machShare (x.l2.size ≠ 0) (← t.threadsPerCache[2]?)
    (if x.l3.size ≠ 0 then perCore else perPackage) t.threads
  let l3 ← machShare (x.l3.size ≠ 0) (← t.threadsPerCache[3]?) perPackage t.threads
  let l4 ← machShare (x.l4.size ≠ 0) (← t.threadsPerCache[4]?) t.threads t.threads
  return ⟨l1, l2, l3, l4⟩

/-- `cpuinfo_x86_mach_init`, src/x86/mach/init.c:19-380, for a topology. -/
def machInit (m : MachTopology) (x : X86Processor) (uarch cpuid : Nat) (alloc : Nat → Bool) :
    Option (List (Api.Store Elem)) :=
  if alloc 0 ∧ alloc 1 ∧ alloc 2 ∧ alloc 3 then do
    let tpc ← div? m.threads m.cores
    let t : Topo := ⟨m.packages, m.cores, m.threads, tpc⟩
    let tb ← tables t x.topology
    let s ← machShares m x
    finish t x uarch cpuid alloc tb s
  else some []

/-! ### FreeBSD -/

/-- `strstr`: the text from the first occurrence on. -/
def strstr (tag : Bytes) : Bytes → Option Bytes
  | [] => if tag = [] then some [] else none
  | c :: cs => if tag.isPrefixOf (c :: cs) then some (c :: cs) else strstr tag cs

/-- The loop of src/freebsd/topology.c:60-65, which goes on behind the beginning of each occurrence.
`fuel` bounds the number of rounds by the length of the text (see `occurrences`); neither tag is
empty, so `p` is never advanced past the terminator. -/
def occurrencesLoop (tag : Bytes) : Nat → Bytes → Nat
  | 0, _ => 0
  | fuel + 1, text =>
    match strstr tag text with
    | none => 0
    | some p => 1 + occurrencesLoop tag fuel (p.drop 1)

/-- How often the loop runs. -/
def occurrences (tag text : Bytes) : Nat := occurrencesLoop tag (text.length + 1) text

/-- `group_tags`, src/freebsd/topology.c:57. -/
def tagLevel2 : Bytes := b!"<group level=\"2\" cache-level=\"0\">"
@[inherit_doc tagLevel2] def tagLevel1 : Bytes := b!"<group level=\"1\" "

/-- The number of packages, src/freebsd/topology.c:57-70. -/
def countPackages (spec : Bytes) : Nat :=
  if occurrences tagLevel2 spec > 0 then occurrences tagLevel2 spec else occurrences tagLevel1 spec

/-- `sysctl_int`, src/freebsd/topology.c:11-21. -/
def freebsdInt (answer : Option Int) : Nat :=
  match answer with
  | none => 0
  | some v => if v ≤ 0 then 0 else v.toNat

/-- `cpuinfo_freebsd_detect_topology`, src/freebsd/topology.c:46-107; `none`: `packages` is 0.  `spec`
is the string kern.sched.topology_spec up to its terminator, `none` if there is none.  The number of
packages is at most the length of the string, and no string has 2^32 tags. -/
def freebsdTopology (spec : Option Bytes) (cores threadsPerCore : Option Int) : Option Topo := do
  let spec ← spec
  let packages := countPackages spec
  if packages = 0 then none
  else
    let c := freebsdInt cores
    if c = 0 then none
    else if c < packages then none
    else
      let tpc := freebsdInt threadsPerCore
      if tpc = 0 then none else some ⟨packages, c, tpc * c % U32, tpc⟩

/-- The assumed number of sharing threads, e.g. src/x86/freebsd/init.c:136-150; `some none` if it is
zero, which ends detection. -/
def freebsdShare (present : Bool) (assumed threads : Nat) : Option Share :=
  if present then if assumed = 0 then none else some ⟨assumed, threads / assumed⟩ else some ⟨0, 0⟩

/-- src/x86/freebsd/init.c:134-205; cores and packages are not zero here.  `none` ends detection. -/
def freebsdShares (t : Topo) (x : X86Processor) : Option Shares := do
  let l1 ← freebsdShare (x.l1i.size ≠ 0 ∨ x.l1d.size ≠ 0) (t.threads / t.cores) t.threads
  let l2 ← freebsdShare (x.l2.size ≠ 0)
    (if x.l3.size ≠ 0 then t.threads / t.cores else t.threads / t.packages) t.threads
  let l3 ← freebsdShare (x.l3.size ≠ 0) (t.threads / t.packages) t.threads
  let l4 ← freebsdShare (x.l4.size ≠ 0) t.threads t.threads
  return ⟨l1, l2, l3, l4⟩

/-- `cpuinfo_x86_freebsd_init`, src/x86/freebsd/init.c:19-398, for a topology. -/
def freebsdInit (t : Option Topo) (x : X86Processor) (uarch cpuid : Nat) (alloc : Nat → Bool) :
    Option (List (Api.Store Elem)) :=
  match t with
  | none => some []
  | some t =>
    if alloc 0 ∧ alloc 1 ∧ alloc 2 ∧ alloc 3 then
      (tables t x.topology).bind fun tb =>
        match freebsdShares t x with
        | none => some []
        | some s => finish t x uarch cpuid alloc tb s
    else some []

end Verif.Uniform
