import Verif.Model.Processors
import Verif.Model.Platform
import Verif.Model.ArmClusters

/-!
# Model of src/riscv/linux/init.c, src/riscv/linux/riscv-hw.c, src/riscv/linux/riscv-isa.c and
src/riscv/uarch.c

`none` is undefined behaviour (an access outside a table); `some none` is a failed initialization,
which stores nothing.  Files are contents with a schedule of reads, as in `Verif.Model.Processors`;
the answers of the system call `riscv_hwprobe` and of `qsort` are parameters.

Simplifications: fields of the working structure that are only ever assigned the same value together
(`processor_start` with `core_start`, `cluster_start` and `cluster_id`) are one field of `Group`; of
`flags` only the bits that are tested again are kept.
-/

set_option autoImplicit false

namespace Verif.Riscv
open Processors
open Platform (put)
open ArmClusters (forRange)

/-- A file: its content, `none` if it does not exist, and how reads are split. -/
abbrev File := Option Bytes × Sched

/-- What is gathered about the core, cluster or package of a processor: the flag
`CPUINFO_LINUX_FLAG_…_CLUSTER`, the leader, and the numbers of the public structure,
src/riscv/linux/api.h:11-47. -/
structure Group where
  seen : Bool
  leader : Nat
  start : Nat
  processorCount : Nat
  coreCount : Nat
  clusterCount : Nat
deriving DecidableEq, Repr

/-- `struct cpuinfo_riscv_linux_processor`, src/riscv/linux/api.h:11-47. -/
structure Proc where
  valid : Bool
  linuxId : Nat
  coreId : Nat
  vendor : Nat
  uarch : Nat
  frequency : Nat
  core : Group
  cluster : Group
  package : Group
deriving DecidableEq, Repr

/-- Zeroed entries. -/
def zeroGroup : Group := ⟨false, 0, 0, 0, 0, 0⟩
@[inherit_doc zeroGroup] def zeroProc : Proc := ⟨false, 0, 0, 0, 0, 0, zeroGroup, zeroGroup, zeroGroup⟩

/-- The three parsers are the same text but for the fields. -/
inductive Lvl
  | core | cluster | package
deriving DecidableEq, Repr

/-- The fields of a level. -/
def Proc.get (p : Proc) : Lvl → Group
  | .core => p.core
  | .cluster => p.cluster
  | .package => p.package
@[inherit_doc Proc.get] def Proc.set (p : Proc) : Lvl → Group → Proc
  | .core, g => { p with core := g }
  | .cluster, g => { p with cluster := g }
  | .package, g => { p with package := g }

/-- The local variables of a parser. -/
structure Scan where
  start : Nat
  processors : Nat
  cores : Nat
  clusters : Nat
deriving DecidableEq, Repr

/-- One round of the loop, src/riscv/linux/init.c:53-66, 110-130, 180-203. -/
def scanStep (l : Lvl) (cpu : Nat) (s : List Proc × Scan) : Option (List Proc × Scan) := do
  let p ← s.1[cpu]?
  if p.valid then
    let start := if s.2.start = U32MAX then cpu else s.2.start
    let t ← put s.1 cpu (p.set l { p.get l with leader := start })
    return (t,
      { start := start
        processors := s.2.processors + 1
        cores := if l ≠ .core ∧ p.core.leader = cpu then s.2.cores + 1 else s.2.cores
        clusters := if l = .package ∧ p.cluster.leader = cpu then s.2.clusters + 1
          else s.2.clusters })
  else return s

/-- The end of a parser, src/riscv/linux/init.c:74-82, 138-148, 211-222. -/
def finishParser (l : Lvl) (processor : Nat) (t : List Proc) (s : Scan) : Option (List Proc) := do
  let p ← t[processor]?
  let g := p.get l
  let g := if ¬ g.seen ∨ g.start > s.start then { g with start := s.start, leader := s.start } else g
  put t processor (p.set l
    { g with
      processorCount := (g.processorCount + s.processors) % U32
      coreCount := (g.coreCount + s.cores) % U32
      clusterCount := (g.clusterCount + s.clusters) % U32
      seen := true })

/-- `core_cpus_parser`, `cluster_cpus_parser`, `package_cpus_parser`, src/riscv/linux/init.c:40-223:
the table, and how many processors were found. -/
def parser (l : Lvl) (processor first last : Nat) (t : List Proc) : Option (List Proc × Nat) := do
  let p ← t[processor]?
  let start := if (p.get l).seen then (p.get l).leader else U32MAX
  let s ← forRange (scanStep l) (last - first) first (t, ⟨start, 0, 0, 0⟩)
  let t ← finishParser l processor s.1 s.2
  return (t, s.2.processors)

/-- The parser as a callback: only that of cores can fail.  The table is `none` once an access was
out of bounds. -/
def callback (l : Lvl) (t : Option (List Proc)) (processor first last : Nat) :
    Option (List Proc) × Bool :=
  match t.bind (parser l processor first last) with
  | none => (none, true)
  | some r => (some r.1, l ≠ .core ∨ r.2 ≠ 0)

/-- `cpuinfo_riscv_decode_vendor_uarch`, src/riscv/uarch.c:6-27: 17 is
`cpuinfo_vendor_sifive` (include/cpuinfo.h:226), 0x489 is `cpuinfo_riscv_chipset_vendor_sifive` (src/riscv/api.h). -/
def decodeVendorUarch (vendorId _archId _impId : Nat) : Nat × Nat :=
  (if vendorId = 0x489 then 17 else 0, 0)

/-- The pairs that `riscv_hwprobe` fills in: key and value.  A key may be -1. -/
abbrev Pairs := List (Int × Nat)

/-- The last value for a key, 0 if there is none, src/riscv/linux/riscv-hw.c:128-146. -/
def lookup (key : Int) (pairs : Pairs) : Nat :=
  pairs.foldl (fun v p => if p.1 = key then p.2 % U32 else v) 0

/-- `cpuinfo_riscv_linux_decode_vendor_uarch_from_hwprobe`, src/riscv/linux/riscv-hw.c:72-151;
`none`: the allocation or the system call fails. -/
def hwprobe (answer : Option Pairs) : Nat × Nat :=
  match answer with
  | none => (0, 0)
  | some pairs => decodeVendorUarch (lookup 0 pairs) (lookup 1 pairs) (lookup 2 pairs)

/-- The world outside. -/
structure System where
  kernelMax : File
  present : File
  coreCpus : Nat → File
  clusterCpus : Nat → File
  packageCpus : Nat → File
  coreId : Nat → File
  frequency : Nat → File
  hwprobe : Nat → Option Pairs
  qsort : List Proc → List Proc

/-- The file of a level. -/
def System.cpus (y : System) : Lvl → Nat → File
  | .core => y.coreCpus
  | .cluster => y.clusterCpus
  | .package => y.packageCpus

/-- Go on unless detection has failed. -/
def orFail {α β : Type} (x : Option (Option α)) (f : α → Option (Option β)) : Option (Option β) :=
  x.bind fun r => match r with
    | none => some none
    | some a => f a

/-- Run over the processors until one fails. -/
def overProcessors {α : Type} (f : Nat → α → Option (Option α)) : Nat → Nat → α → Option (Option α)
  | 0, _, s => some (some s)
  | n + 1, i, s => orFail (f i s) (overProcessors f n (i + 1))

/-- `cpuinfo_linux_detect_{core,cluster,package}_cpus` for a processor with the parser. -/
def readGroup (y : System) (l : Lvl) (i : Nat) (t : List Proc) : Option (Option (List Proc)) :=
  (detectSiblings (y.cpus l i).1 (y.cpus l i).2 t.length i (callback l) (some t)).bind fun r =>
    match r with
    | (none, _) => none
    | (some t, ok) => if ok then some (some t) else some none

/-- What a core round reads besides the list, src/riscv/linux/init.c:310-330. -/
def coreDetails (y : System) (i : Nat) (t : List Proc) : Option (List Proc) := do
  let p ← t[i]?
  let id ← processorId (y.coreId i).1 (y.coreId i).2
  let f ← processorFrequency (y.frequency i).1 (y.frequency i).2
  let vu := hwprobe (y.hwprobe i)
  put t i { p with coreId := id.getD p.coreId, vendor := vu.1, uarch := vu.2
                   frequency := if f ≠ 0 then f else p.frequency }

/-- One round of the loops of src/riscv/linux/init.c:295-371 (the cluster's vendor, uarch and
frequency, copied at lines 353-355, are those of the core). -/
def groupRound (y : System) (l : Lvl) (i : Nat) (t : List Proc) : Option (Option (List Proc)) := do
  let p ← t[i]?
  if p.valid then
    orFail (readGroup y l i t) fun t =>
      if l = .core then (coreDetails y i t).map some else some (some t)
  else return some t

/-- src/riscv/linux/init.c:252-371: the number of processor numbers and the gathered table. -/
def gather (y : System) : Option (Option (List Proc)) := do
  let maxCount ← maxProcessorsCount y.kernelMax.1 y.kernelMax.2
  let last ← maxProcessor y.present.1 y.present.2 maxCount
  let n := (1 + last) % U32
  if n = 0 then return none
  else
    -- bit 0 stands for `CPUINFO_LINUX_FLAG_PRESENT | CPUINFO_LINUX_FLAG_VALID`
    let r ← detectProcessors y.present.1 y.present.2 n 1 (List.replicate n 0)
    let flags ← r.1
    if ¬ r.2 then return none
    else
      let t := (List.range n).map fun i =>
        let valid := (flags.getD i 0).testBit 0
        { zeroProc with valid := valid, linuxId := if valid then i else 0 }
      orFail (overProcessors (groupRound y .core) n 0 t) fun t =>
      orFail (overProcessors (groupRound y .cluster) n 0 t) fun t =>
      overProcessors (groupRound y .package) n 0 t

/-! ### Publication -/

/-- `struct cpuinfo_processor`, include/cpuinfo.h. -/
structure Processor where
  linuxId : Nat
  core : Option Nat
  cluster : Option Nat
  package : Option Nat
deriving DecidableEq, Repr

/-- `struct cpuinfo_core`, include/cpuinfo.h. -/
structure Core where
  processorStart : Nat
  processorCount : Nat
  coreId : Nat
  cluster : Option Nat
  package : Option Nat
  vendor : Nat
  uarch : Nat
  frequency : Nat
deriving DecidableEq, Repr

/-- `struct cpuinfo_cluster`, include/cpuinfo.h. -/
structure Cluster where
  processorStart : Nat
  processorCount : Nat
  coreStart : Nat
  coreCount : Nat
  clusterId : Nat
  package : Option Nat
  vendor : Nat
  uarch : Nat
  frequency : Nat
deriving DecidableEq, Repr

/-- `struct cpuinfo_package`, include/cpuinfo.h. -/
structure Package where
  processorStart : Nat
  processorCount : Nat
  coreStart : Nat
  coreCount : Nat
  clusterStart : Nat
  clusterCount : Nat
deriving DecidableEq, Repr

/-- `struct cpuinfo_uarch_info`, include/cpuinfo.h. -/
structure Uarch where
  uarch : Nat
  processorCount : Nat
  coreCount : Nat
deriving DecidableEq, Repr

/-- The public structures that the working structure holds. -/
def Proc.toCore (p : Proc) : Core :=
  ⟨p.core.start, p.core.processorCount, p.coreId, none, none, p.vendor, p.uarch, p.frequency⟩
@[inherit_doc Proc.toCore] def Proc.toCluster (p : Proc) : Cluster :=
  ⟨p.cluster.start, p.cluster.processorCount, p.cluster.start, p.cluster.coreCount, p.cluster.start,
    none, p.vendor, p.uarch, p.frequency⟩
@[inherit_doc Proc.toCore] def Proc.toPackage (p : Proc) : Package :=
  ⟨p.package.start, p.package.processorCount, p.package.start, p.package.coreCount, p.package.start,
    p.package.clusterCount⟩

/-- Is the processor the leader of its group? -/
def Proc.leads (p : Proc) (l : Lvl) : Bool := (p.get l).leader = p.linuxId

/-- The numbers that are counted for the allocations. -/
structure Counts where
  processors : Nat
  cores : Nat
  clusters : Nat
  packages : Nat
  uarchs : Nat
  lastUarch : Nat
deriving DecidableEq, Repr

/-- src/riscv/linux/init.c:401-430. -/
def countStep (c : Counts) (p : Proc) : Counts :=
  if p.valid then
    let c := { c with
      processors := c.processors + 1
      cores := if p.leads .core then c.cores + 1 else c.cores
      clusters := if p.leads .cluster then c.clusters + 1 else c.clusters
      packages := if p.leads .package then c.packages + 1 else c.packages }
    if c.lastUarch ≠ p.uarch ∨ c.uarchs = 0 then
      { c with uarchs := c.uarchs + 1, lastUarch := p.uarch }
    else c
  else c

/-- src/riscv/linux/init.c:394-431. -/
def counts (t : List Proc) : Counts := t.foldl countStep ⟨0, 0, 0, 0, 0, 0⟩

/-- The tables that are filled, and the indices. -/
structure State where
  processors : List Processor
  cores : List Core
  clusters : List Cluster
  packages : List Package
  uarchs : List Uarch
  processorMap : List (Option Nat)
  coreMap : List (Option Nat)
  uarchMap : List Nat
  processorsIndex : Nat
  coresIndex : Nat
  clustersIndex : Nat
  packagesIndex : Nat
  uarchsIndex : Nat
  lastUarch : Nat
deriving DecidableEq, Repr

/-- `&table[index - 1]` for a table of `n` elements. -/
def lastPtr (n index : Nat) : Option Nat :=
  if index = 0 then none else if index ≤ n then some (index - 1) else none

/-- `table[index - 1]` is changed. -/
def modifyLast {α : Type} (t : List α) (index : Nat) (f : α → α) : Option (List α) := do
  let k ← lastPtr t.length index
  let x ← t[k]?
  put t k (f x)

/-- src/riscv/linux/init.c:526-538: the microarchitecture and the processor. -/
def transferProcessor (p : Proc) (s : State) : Option State := do
  let s ← if s.lastUarch ≠ p.uarch ∨ s.uarchsIndex = 0 then do
      let uarchs ← put s.uarchs s.uarchsIndex ⟨p.uarch, 0, 0⟩
      pure { s with uarchs, uarchsIndex := s.uarchsIndex + 1, lastUarch := p.uarch }
    else pure s
  let processors ← put s.processors s.processorsIndex ⟨p.linuxId, none, none, none⟩
  let uarchs ← modifyLast s.uarchs s.uarchsIndex fun u =>
    { u with processorCount := u.processorCount + 1 }
  return { s with processors, processorsIndex := s.processorsIndex + 1, uarchs }

/-- src/riscv/linux/init.c:541-547: the core, if this is its leader. -/
def transferCore (p : Proc) (s : State) : Option State :=
  if p.leads .core then do
    let cores ← put s.cores s.coresIndex p.toCore
    let uarchs ← modifyLast s.uarchs s.uarchsIndex fun u => { u with coreCount := u.coreCount + 1 }
    return { s with cores, coresIndex := s.coresIndex + 1, uarchs }
  else some s

/-- src/riscv/linux/init.c:550-561: the cluster and the package. -/
def transferCluster (p : Proc) (s : State) : Option State :=
  if p.leads .cluster then do
    let clusters ← put s.clusters s.clustersIndex p.toCluster
    return { s with clusters, clustersIndex := s.clustersIndex + 1 }
  else some s
@[inherit_doc transferCluster] def transferPackage (p : Proc) (s : State) : Option State :=
  if p.leads .package then do
    let packages ← put s.packages s.packagesIndex p.toPackage
    return { s with packages, packagesIndex := s.packagesIndex + 1 }
  else some s

/-- src/riscv/linux/init.c:564-575: the pointers and the maps. -/
def transferLinks (p : Proc) (s : State) : Option State := do
  let core ← lastPtr s.cores.length s.coresIndex
  let cluster ← lastPtr s.clusters.length s.clustersIndex
  let package ← lastPtr s.packages.length s.packagesIndex
  let processor ← lastPtr s.processors.length s.processorsIndex
  let processors ← modifyLast s.processors s.processorsIndex fun q =>
    { q with core := some core, cluster := some cluster, package := some package }
  let cores ← modifyLast s.cores s.coresIndex fun c =>
    { c with cluster := some cluster, package := some package }
  let clusters ← modifyLast s.clusters s.clustersIndex fun c => { c with package := some package }
  let processorMap ← put s.processorMap p.linuxId (some processor)
  let coreMap ← put s.coreMap p.linuxId (some core)
  let uarchMap ← put s.uarchMap p.linuxId (s.uarchsIndex - 1)
  return { s with processors, cores, clusters, processorMap, coreMap, uarchMap }

/-- One round of src/riscv/linux/init.c:513-576. -/
def transferStep (p : Proc) (s : State) : Option State :=
  if p.valid then do
    let s ← transferProcessor p s
    let s ← transferCore p s
    let s ← transferCluster p s
    let s ← transferPackage p s
    transferLinks p s
  else some s

/-- The tables as they are allocated, src/riscv/linux/init.c:434-512. -/
def freshState (n : Nat) (c : Counts) : State where
  processors := List.replicate c.processors ⟨0, none, none, none⟩
  cores := List.replicate c.cores ⟨0, 0, 0, none, none, 0, 0, 0⟩
  clusters := List.replicate c.clusters ⟨0, 0, 0, 0, 0, none, 0, 0, 0⟩
  packages := List.replicate c.packages ⟨0, 0, 0, 0, 0, 0⟩
  uarchs := List.replicate c.uarchs ⟨0, 0, 0⟩
  processorMap := List.replicate n none
  coreMap := List.replicate n none
  uarchMap := List.replicate n 0
  processorsIndex := 0
  coresIndex := 0
  clustersIndex := 0
  packagesIndex := 0
  uarchsIndex := 0
  lastUarch := 0

/-- src/riscv/linux/init.c:394-576, for the sorted table. -/
def transfer (t : List Proc) : Option State :=
  t.foldlM (fun s p => transferStep p s) (freshState t.length (counts t))

/-- The element types of the published tables; there are no caches. -/
def Elem : Api.Kind → Type
  | .processor => Processor
  | .core => Core
  | .cluster => Cluster
  | .package => Package
  | .uarch => Uarch
  | .cache _ => Empty

/-- The stores of src/riscv/linux/init.c:579-597. -/
def commit (n : Nat) (c : Counts) (s : State) : List (Api.Store Elem) :=
  [ .table .processor (some s.processors),
    .count .processor c.processors,
    .table .core (some s.cores),
    .count .core c.cores,
    .table .cluster (some s.clusters),
    .count .cluster c.clusters,
    .table .package (some s.packages),
    .count .package c.packages,
    .table .uarch (some s.uarchs),
    .count .uarch c.uarchs,
    .linuxCpuMax n,
    .processorMap (some s.processorMap),
    .coreMap (some s.coreMap),
    .uarchMap (some s.uarchMap),
    .flag true ]

/-- `cpuinfo_riscv_linux_init`, src/riscv/linux/init.c:226-619.  `alloc i`: allocation `i` of the
nine succeeds; without a processor the sizes are 0, and `calloc(0, …)` is taken to succeed. -/
def init (y : System) (alloc : Nat → Bool) : Option (List (Api.Store Elem)) :=
  if alloc 0 then
    (gather y).bind fun r => match r with
      | none => some []
      | some t =>
        if (List.range 9).all alloc then
          (transfer (y.qsort t)).map (commit t.length (counts (y.qsort t)))
        else some []
  else some []

/-! ### The instruction set -/

/-- `struct cpuinfo_riscv_isa`, include/cpuinfo.h:2143-2166. -/
structure Isa where
  i : Bool
  e : Bool
  m : Bool
  a : Bool
  f : Bool
  d : Bool
  c : Bool
  v : Bool
deriving DecidableEq, Repr

/-- `hwcap & (1 << (letter - 'A'))`. -/
def hwcapBit (hwcap letter : Nat) : Bool := hwcap &&& 2 ^ (letter - 65) ≠ 0

/-- `cpuinfo_riscv_linux_decode_isa_from_hwcap`, src/riscv/linux/riscv-isa.c:19-43. -/
def decodeIsa (hwcap : Nat) (isa : Isa) : Isa :=
  let isa := if hwcapBit hwcap 73 then { isa with i := true } else isa
  let isa := if hwcapBit hwcap 77 then { isa with m := true } else isa
  let isa := if hwcapBit hwcap 65 then { isa with a := true } else isa
  let isa := if hwcapBit hwcap 70 then { isa with f := true } else isa
  let isa := if hwcapBit hwcap 68 then { isa with d := true } else isa
  let isa := if hwcapBit hwcap 67 then { isa with c := true } else isa
  if hwcapBit hwcap 86 then { isa with v := true } else isa

/-- The accessors `cpuinfo_has_riscv_…`, include/cpuinfo.h:2171-2237, on RISC-V. -/
def hasI (x : Isa) : Bool := x.i
@[inherit_doc hasI] def hasE (x : Isa) : Bool := x.e
@[inherit_doc hasI] def hasM (x : Isa) : Bool := x.m
@[inherit_doc hasI] def hasA (x : Isa) : Bool := x.a
@[inherit_doc hasI] def hasF (x : Isa) : Bool := x.f
@[inherit_doc hasI] def hasD (x : Isa) : Bool := x.d
@[inherit_doc hasI] def hasG (x : Isa) : Bool := hasI x && hasM x && hasA x && hasF x && hasD x
@[inherit_doc hasI] def hasC (x : Isa) : Bool := x.c
@[inherit_doc hasI] def hasV (x : Isa) : Bool := x.v

end Verif.Riscv
