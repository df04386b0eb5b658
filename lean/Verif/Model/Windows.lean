import Verif.Model.Api

/-!
# Model of src/x86/windows/init.c

The answers of the Windows functions are parameters (`Env`): the numbers of processors of the groups, the
records about packages and cores.  The walk over the buffer of records by their `Size` is left out: the
records are lists.  `none` is undefined behaviour: an access outside a table, a shift by 32 or more.

The fields `vendor`, `uarch`, `cpuid` and the package name are left out, as in `X86Init`; the passes of the
five cache levels are those of `X86Init` (the text is the same, with all processors usable).
-/

set_option autoImplicit false

namespace Verif.Windows
open X86Init (Topology X86Processor Core Cluster Package CacheLevel bitMask shl32 inc32 modify?
  buildCache linkedSize computeMaxCacheSize zeroCore zeroCluster zeroPackage)
open X86Cpuinfo (LinuxProc)

/-- `GROUP_AFFINITY` of winnt.h: a processor group and a mask of its processors. -/
structure GroupAffinity where
  group : Nat
  mask : Nat
deriving DecidableEq, Repr

/-- `SYSTEM_LOGICAL_PROCESSOR_INFORMATION_EX` of winnt.h, for packages and cores. -/
structure Info where
  relationship : Nat
  groups : List GroupAffinity
deriving DecidableEq, Repr

/-- `RelationProcessorCore` of winnt.h. -/
def relationCore : Nat := 0
/-- `RelationProcessorPackage` of winnt.h. -/
def relationPackage : Nat := 3

/-- `struct cpuinfo_processor`, include/cpuinfo.h (cache links are kept in `CacheLevel.links`). -/
structure Processor where
  smtId : Nat
  core : Nat
  cluster : Nat
  package : Nat
  groupId : Nat
  processorId : Nat
  apicId : Nat
deriving DecidableEq, Repr

/-- A zeroed entry, as `HeapAlloc` with `HEAP_ZERO_MEMORY` returns it. -/
def zeroProcessor : Processor := ⟨0, 0, 0, 0, 0, 0, 0⟩

/-- `low_index_from_kaffinity`, src/x86/windows/init.c:23-35: `_BitScanForward64` finds the lowest bit
that is set; without one the index is undefined. -/
def lowIndex (mask : Nat) : Option Nat := (List.range 64).find? fun i => mask.testBit i

/-- The loop over a mask, src/x86/windows/init.c:227-238 and 281-312: the indices in the order in which
they are visited.  `fuel` is the number of rounds allowed, the width of the mask. -/
def bitsLoop : (fuel mask : Nat) → Option (List Nat)
  | 0, mask => if mask = 0 then some [] else none
  | fuel + 1, mask =>
    if mask = 0 then some []
    else do
      let i ← lowIndex mask
      let rest ← bitsLoop fuel (mask &&& (mask - 1))
      return i :: rest

/-- A visited processor: its group, its number in the group, and its index in the table. -/
structure Visit where
  group : Nat
  number : Nat
  index : Nat
deriving DecidableEq, Repr

/-- The processors of one `GroupMask`, src/x86/windows/init.c:219-229 and 273-283. -/
def visitGroup (before : List Nat) (g : GroupAffinity) : Option (List Visit) := do
  let start ← before[g.group]?
  let bits ← bitsLoop 64 g.mask
  return bits.map fun b => ⟨g.group, b, (start + b) % U32⟩

/-- The processors of all `GroupMask`s of a record, src/x86/windows/init.c:218-239 and 272-313. -/
def visits (before : List Nat) : List GroupAffinity → Option (List Visit)
  | [] => some []
  | g :: gs => do
    let vs ← visitGroup before g
    let rest ← visits before gs
    return vs ++ rest

/-- `processors_per_group`, src/x86/windows/init.c:138-143. -/
def perGroup (groups : Nat) (maxCount : Nat → Nat) : List Nat := (List.range groups).map maxCount

/-- `processors_count`, src/x86/windows/init.c:137-143. -/
def countLoop : (count : Nat) → List Nat → Nat
  | count, [] => count
  | count, n :: ns => countLoop ((count + n) % U32) ns

/-- `processors_before_group`, src/x86/windows/init.c:145-151. -/
def beforeLoop : (count : Nat) → List Nat → List Nat
  | _, [] => []
  | count, n :: ns => count :: beforeLoop ((count + n) % U32) ns

/-- `package_bits_offset`, src/x86/windows/init.c:128-130. -/
def packageOffset (t : Topology) : Nat :=
  max (t.threadOffset + t.threadLength) (t.coreOffset + t.coreLength)

/-- A processor of package `id`, src/x86/windows/init.c:230-234. -/
def packageVisit (id apic : Nat) (ps : List Processor) (v : Visit) : Option (List Processor) :=
  modify? ps v.index fun p =>
    { p with package := id, groupId := v.group % 65536, processorId := v.number % 65536,
             apicId := apic }

/-- `packages_count` and the table of processors. -/
structure PackageState where
  count : Nat
  processors : List Processor
deriving DecidableEq, Repr

/-- One record about packages, src/x86/windows/init.c:205-239. -/
def packageStep (offset : Nat) (before : List Nat) (s : PackageState) (info : Info) :
    Option PackageState :=
  if info.relationship ≠ relationPackage then some s
  else do
    let apic ← shl32 s.count offset
    let vs ← visits before info.groups
    let ps ← vs.foldlM (packageVisit s.count apic) s.processors
    return ⟨inc32 s.count, ps⟩

/-- The variables of the loop over cores, src/x86/windows/init.c:248-252 and 266. -/
structure CoreState where
  count : Nat
  packageCoreStart : Nat
  currentPackage : Nat
  smtId : Nat
  processors : List Processor
deriving DecidableEq, Repr

/-- A processor of core `id`, src/x86/windows/init.c:285-311.  `core_id - package_core_start` does not
wrap, since `package_core_start` is an earlier core. -/
def coreVisit (t : Topology) (threadMask coreMask id : Nat) (s : CoreState) (v : Visit) :
    Option CoreState := do
  let p ← s.processors[v.index]?
  let start := if p.apicId ≠ s.currentPackage then id else s.packageCoreStart
  let current := if p.apicId ≠ s.currentPackage then p.apicId else s.currentPackage
  let thread ← shl32 (s.smtId &&& threadMask) t.threadOffset
  let core ← shl32 ((id - start) &&& coreMask) t.coreOffset
  let processors ← modify? s.processors v.index fun p =>
    { p with apicId := p.apicId ||| (thread ||| core), smtId := s.smtId, core := id }
  return { s with packageCoreStart := start, currentPackage := current, smtId := inc32 s.smtId,
                  processors }

/-- One record about cores, src/x86/windows/init.c:257-313; `core_apic_id` is computed and not used. -/
def coreStep (t : Topology) (threadMask coreMask : Nat) (before : List Nat) (s : CoreState)
    (info : Info) : Option CoreState :=
  if info.relationship ≠ relationCore then some s
  else do
    let _ ← shl32 (s.count &&& coreMask) t.coreOffset
    let vs ← visits before info.groups
    let s' ← vs.foldlM (coreVisit t threadMask coreMask s.count) { s with smtId := 0 }
    return { s' with count := inc32 s.count }

/-- The tables of cores, clusters and packages. -/
structure Tables where
  cores : List Core
  clusters : List Cluster
  packages : List Package
deriving DecidableEq, Repr

/-- Processor `i`, src/x86/windows/init.c:344-371; the links themselves do not change, as pointers are
indices here. -/
def linkStep (processors : List Processor) (s : Tables) (i : Nat) : Option Tables := do
  let p ← processors[i]?
  let packages ← modify? s.packages p.package fun q =>
    { q with processorStart := i, processorCount := q.processorCount + 1 }
  let clusters ← modify? s.clusters p.cluster fun q =>
    { q with processorStart := i, processorCount := q.processorCount + 1 }
  let cores ← modify? s.cores p.core fun q =>
    { q with processorStart := i, processorCount := q.processorCount + 1 }
  return ⟨cores, clusters, packages⟩

/-- Core `i`, src/x86/windows/init.c:376-395. -/
def coreInfoStep (processors : List Processor) (t : Topology) (coreMask : Nat) (s : Tables) (i : Nat) :
    Option Tables := do
  let c ← s.cores[i]?
  let p ← processors[c.processorStart]?
  if 32 ≤ t.coreOffset then none
  else
    let cores ← modify? s.cores i fun c =>
      { c with cluster := p.cluster, package := p.package
               coreId := coreMask &&& (p.apicId >>> t.coreOffset) }
    let clusters ← modify? s.clusters p.cluster fun q =>
      { q with coreStart := i, coreCount := q.coreCount + 1 }
    let packages ← modify? s.packages p.package fun q =>
      { q with coreStart := i, coreCount := q.coreCount + 1 }
    return ⟨cores, clusters, packages⟩

/-- Package `i`, src/x86/windows/init.c:399-408; reads the first core of the cluster. -/
def packageInfoStep (s : Tables) (i : Nat) : Option Tables := do
  let clusters ← modify? s.clusters i fun q => { q with package := i }
  let q ← clusters[i]?
  let _ ← s.cores[q.coreStart]?
  let packages ← modify? s.packages i fun q => { q with clusterStart := i, clusterCount := 1 }
  return ⟨s.cores, clusters, packages⟩

/-- A loop `for (i = n; i != 0; i--)` with body at `i - 1`. -/
def downFrom {σ : Type} (n : Nat) (f : σ → Nat → Option σ) (s : σ) : Option σ :=
  (List.range n).reverse.foldlM f s

/-- What the Windows functions answer, src/x86/windows/init.c:118-246.  `packages` and `cores` are `none`
when the query for the records fails, `sizesKnown` is false when one of the queries for their sizes
does. -/
structure Env where
  wine : Bool
  groupCount : Nat
  maxCount : Nat → Nat
  sizesKnown : Bool
  packages : Option (List Info)
  cores : Option (List Info)
  cpu : X86Processor
  alloc : Nat → Bool

/-- What is published, src/x86/windows/init.c:603-630. -/
structure Published where
  processors : List Processor
  cores : List Core
  clusters : List Cluster
  packages : List Package
  l1i : CacheLevel
  l1d : CacheLevel
  l2 : CacheLevel
  l3 : CacheLevel
  l4 : CacheLevel
  processorsCount : Nat
  coresCount : Nat
  clustersCount : Nat
  packagesCount : Nat
  maxCacheSize : Nat
deriving DecidableEq, Repr

/-- The processors as the passes over caches see them. -/
def cacheView (ps : List Processor) : List LinuxProc :=
  ps.map fun p => ⟨p.apicId, 0, X86Init.flagValid⟩

/-- From the tables on, src/x86/windows/init.c:412-630. -/
def finish (x : X86Processor) (alloc : Nat → Bool) (n cores packages : Nat)
    (ps : List Processor) (t : Tables) : Option (Option Published) := do
  let v := cacheView ps
  let l1i ← buildCache (alloc 5) x.l1i X86Init.flagValid n v
  let l1d ← buildCache (alloc 6) x.l1d X86Init.flagValid n v
  let l2 ← buildCache (alloc 7) x.l2 X86Init.flagValid n v
  let l3 ← buildCache (alloc 8) x.l3 X86Init.flagValid n v
  let l4 ← buildCache (alloc 9) x.l4 X86Init.flagValid n v
  match l1i, l1d, l2, l3, l4 with
  | some l1i, some l1d, some l2, some l3, some l4 =>
    return some
      { processors := ps, cores := t.cores, clusters := t.clusters, packages := t.packages,
        l1i, l1d, l2, l3, l4, processorsCount := n, coresCount := cores, clustersCount := packages,
        packagesCount := packages,
        maxCacheSize := computeMaxCacheSize (← linkedSize l4 0) (← linkedSize l3 0)
          (← linkedSize l2 0) (← linkedSize l1d 0) }
  | _, _, _, _, _ => return none

/-- The three loops over the tables, src/x86/windows/init.c:343-410. -/
def tables (t : Topology) (coreMask n cores packages : Nat) (ps : List Processor) : Option Tables := do
  let s ← downFrom n (linkStep ps) ⟨List.replicate cores zeroCore, List.replicate packages zeroCluster,
    List.replicate packages zeroPackage⟩
  let s ← downFrom cores (coreInfoStep ps t coreMask) s
  (List.range packages).foldlM packageInfoStep s

/-- `cpuinfo_x86_windows_init`, src/x86/windows/init.c:105-671; `some none`: nothing is stored.
Releasing memory is not modelled. -/
def windowsInit (e : Env) : Option (Option Published) := do
  let t := e.cpu.topology
  let threadMask ← bitMask t.threadLength
  let coreMask ← bitMask t.coreLength
  let per := perGroup (if e.wine then 1 else e.groupCount) e.maxCount
  let n := countLoop 0 per
  let before := beforeLoop 0 per
  if ¬ (e.alloc 0 ∧ e.sizesKnown ∧ e.alloc 1) then return none
  match e.packages with
  | none => return none
  | some packageInfos =>
    let s ← packageInfos.foldlM (packageStep (packageOffset t) before)
      ⟨0, List.replicate n zeroProcessor⟩
    match e.cores with
    | none => return none
    | some coreInfos =>
      let c ← coreInfos.foldlM (coreStep t threadMask coreMask before) ⟨0, 0, 0, 0, s.processors⟩
      if ¬ (e.alloc 2 ∧ e.alloc 3 ∧ e.alloc 4) then return none
      let tb ← tables t coreMask n c.count s.count c.processors
      finish e.cpu e.alloc n c.count s.count c.processors tb

/-- The element types on Windows. -/
def WinElem : Api.Kind → Type
  | .processor => Processor
  | .core => Core
  | .cluster => Cluster
  | .package => Package
  | .uarch => Api.GlobalUarch
  | .cache _ => X86Init.Cache

/-- The assignments of src/x86/windows/init.c:604-634 in program order.  A cache table is allocated only
when its count is not zero. -/
def windowsCommit (uarch cpuid : Nat) (p : Published) : List (Api.Store WinElem) :=
  [ .table .processor (some p.processors),
    .table .core (some p.cores),
    .table .cluster (some p.clusters),
    .table .package (some p.packages),
    .table (.cache .l1i) (Api.cachePtr p.l1i),
    .table (.cache .l1d) (Api.cachePtr p.l1d),
    .table (.cache .l2) (Api.cachePtr p.l2),
    .table (.cache .l3) (Api.cachePtr p.l3),
    .table (.cache .l4) (Api.cachePtr p.l4),
    .count .processor p.processorsCount,
    .count .core p.coresCount,
    .count .cluster p.clustersCount,
    .count .package p.packagesCount,
    .count (.cache .l1i) p.l1i.count,
    .count (.cache .l1d) p.l1d.count,
    .count (.cache .l2) p.l2.count,
    .count (.cache .l3) p.l3.count,
    .count (.cache .l4) p.l4.count,
    .maxCacheSize p.maxCacheSize,
    .globalUarch ⟨uarch, cpuid, p.processorsCount, p.coresCount⟩,
    .flag true ]

end Verif.Windows
