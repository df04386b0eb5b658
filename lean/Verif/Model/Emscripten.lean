import Verif.Model.Platform
import Verif.Model.ArmClusters

/-!
# Model of src/emscripten/init.c

`none` is undefined behaviour; after a failed allocation nothing is stored.
Counts are plain naturals: the number of logical cores is a positive `int`, so no product here
leaves 32 bits.
-/

set_option autoImplicit false

namespace Verif.Emscripten
open X86Init (Package Cache)
open Platform
open ArmClusters (forRange)

/-- The counts of src/emscripten/init.c:35-60. -/
structure Counts where
  isX86 : Bool
  processors : Nat
  cores : Nat
  clusters : Nat
  bigCores : Nat
  perCore : Nat
  l2 : Nat
deriving DecidableEq, Repr

/-- src/emscripten/init.c:40-60, for a number of logical processors. -/
def countsOf (isX86 : Bool) (processors : Nat) : Counts :=
  let c : Counts :=
    if isX86 then
      if processors % 2 = 0 then
        { isX86, processors, cores := processors / 2, clusters := 1, bigCores := processors / 2,
          perCore := 2, l2 := 0 }
      else
        { isX86, processors, cores := processors, clusters := 1, bigCores := processors, perCore := 1,
          l2 := 0 }
    else if processors > 4 then
      { isX86, processors, cores := processors, clusters := 2,
        bigCores := if processors ≥ 8 then 4 else 2, perCore := 1, l2 := 0 }
    else
      { isX86, processors, cores := processors, clusters := 1, bigCores := processors, perCore := 1,
        l2 := 0 }
  { c with l2 := if isX86 then c.cores else c.clusters }

/-- src/emscripten/init.c:35-39.  `logical` is the answer of `emscripten_num_logical_cores`. -/
def processorCount (logical : Int) : Nat := (if logical ≤ 0 then 1 else logical).toNat

/-- src/emscripten/init.c:35-60. -/
def counts (isX86 : Bool) (logical : Int) : Counts := countsOf isX86 (processorCount logical)

/-- The local tables. -/
structure State where
  processors : List Processor
  cores : List Core
  clusters : List Cluster
  l1i : List Cache
  l1d : List Cache
  l2 : List Cache
deriving DecidableEq, Repr

/-- `(uint32_t)(i >= big_cluster_core_count)`. -/
def clusterOf (c : Counts) (i : Nat) : Nat := if i ≥ c.bigCores then 1 else 0

/-- The entry of processor `j` of core `i`, src/emscripten/init.c:124-133. -/
def processorEntry (c : Counts) (i j : Nat) : Processor :=
  { smtId := j, core := some i, cluster := some (clusterOf c i), package := some 0, apicId := 0
    l1i := some i, l1d := some i, l2 := some (if c.isX86 then i else clusterOf c i)
    l3 := if c.isX86 then some 0 else none, l4 := none }

/-- The entry of core `i`, src/emscripten/init.c:136-145. -/
def coreEntry (c : Counts) (i : Nat) : Core :=
  { processorStart := i * c.perCore, processorCount := c.perCore, coreId := i
    cluster := some (clusterOf c i), package := some 0 }

/-- The L1 caches of core `i`, src/emscripten/init.c:147-165. -/
def l1Entry (c : Counts) (i : Nat) : Cache :=
  { size := 32 * 1024, associativity := 4, sets := 128, partitions := 1, lineSize := 64, flags := 0
    processorStart := i * c.perCore, processorCount := c.perCore }

/-- An L2 cache of 256 KB. -/
def smallL2 (start count : Nat) : Cache :=
  { size := 256 * 1024, associativity := 8, sets := 512, partitions := 1, lineSize := 64, flags := 0
    processorStart := start, processorCount := count }

/-- One iteration of the loop over the cores, src/emscripten/init.c:122-178. -/
def coreStep (c : Counts) (i : Nat) (s : State) : Option State := do
  let processors ← forRange (fun j t => put t (i * c.perCore + j) (processorEntry c i j)) c.perCore 0
    s.processors
  let cores ← put s.cores i (coreEntry c i)
  let l1i ← put s.l1i i (l1Entry c i)
  let l1d ← put s.l1d i (l1Entry c i)
  if c.isX86 then
    let l2 ← put s.l2 i (smallL2 (i * c.perCore) c.perCore)
    return { s with processors, cores, l1i, l1d, l2 }
  else return { s with processors, cores, l1i, l1d }

/-- The clusters and the L2 caches of clusters, src/emscripten/init.c:180-241. -/
def clusterTables (c : Counts) (s : State) : Option State := do
  if c.isX86 then
    let clusters ← put s.clusters 0 ⟨0, c.processors, 0, c.cores, 0, some 0⟩
    return { s with clusters }
  else
    let clusters ← put s.clusters 0 ⟨0, c.bigCores, 0, c.bigCores, 0, some 0⟩
    let l2 ← put s.l2 0
      { size := 1024 * 1024, associativity := 8, sets := 2048, partitions := 1, lineSize := 64
        flags := 0, processorStart := 0, processorCount := c.bigCores }
    if c.clusters > 1 then
      let l2 ← put l2 1 (smallL2 c.bigCores (c.processors - c.bigCores))
      let clusters ← put clusters 1
        ⟨c.bigCores, c.processors - c.bigCores, c.bigCores, c.processors - c.bigCores, 1, some 0⟩
      return { s with clusters, l2 }
    else return { s with clusters, l2 }

/-- `static_x86_l3`, src/emscripten/init.c:18-24, with the count of line 193. -/
def x86L3 (c : Counts) : Cache :=
  { size := 2 * 1024 * 1024, associativity := 16, sets := 2048, partitions := 1, lineSize := 64
    flags := 0, processorStart := 0, processorCount := c.processors }

/-- `static_package`, src/emscripten/init.c:16, 113-115. -/
def package (c : Counts) : Package := ⟨0, c.processors, 0, c.cores, 0, c.clusters⟩

/-- The stores of src/emscripten/init.c:243-276 in program order. -/
def commit (c : Counts) (s : State) : List (Api.Store Elem) :=
  [ .table (.cache .l1i) (some s.l1i),
    .table (.cache .l1d) (some s.l1d),
    .table (.cache .l2) (some s.l2) ] ++
  (if c.isX86 then [.table (.cache .l3) (some [x86L3 c])] else []) ++
  [ .table .processor (some s.processors),
    .table .core (some s.cores),
    .table .cluster (some s.clusters),
    .table .package (some [package c]),
    .count (.cache .l1i) c.processors,
    .count (.cache .l1d) c.processors,
    .count (.cache .l2) c.l2 ] ++
  (if c.isX86 then [.count (.cache .l3) 1] else []) ++
  [ .globalUarch ⟨0, 0, c.processors, c.cores⟩,
    .count .processor c.processors,
    .count .core c.processors,
    .count .cluster c.clusters,
    .count .package 1,
    .maxCacheSize (if c.isX86 then 128 * 1024 * 1024 else 8 * 1024 * 1024),
    .flag true ]

/-- `cpuinfo_emscripten_init`, src/emscripten/init.c:26-288; `alloc i` is the outcome of the i-th
`calloc`.  The result is what is stored in the global variables. -/
def init (isX86 : Bool) (logical : Int) (alloc : Nat → Bool) : Option (List (Api.Store Elem)) := do
  let c := counts isX86 logical
  if (List.range 6).all alloc then
    let s ← forRange (coreStep c) c.cores 0
      { processors := List.replicate c.processors zeroProcessor
        cores := List.replicate c.processors zeroCore
        clusters := List.replicate c.clusters zeroCluster
        l1i := List.replicate c.cores zeroCache
        l1d := List.replicate c.cores zeroCache
        l2 := List.replicate c.l2 zeroCache }
    let s ← clusterTables c s
    return commit c s
  else return []

end Verif.Emscripten
