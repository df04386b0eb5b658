import Verif.Model.ArmCpuinfo
import Verif.Model.Processors
import Verif.Model.X86Init

/-!
# Model of src/arm/linux/clusters.c and of the cluster detection of src/arm/linux/init.c

The processor table is a list of records; a loop `for (uint32_t i = 0; i < n; i++)` is `forRange`.
`none` is undefined behaviour: an access outside the table, or a read of an array element that was
never written.  Simplification: log messages are left out.
-/

set_option autoImplicit false

namespace Verif.ArmClusters
open ArmMidr ArmCpuinfo
open X86Init (modify? bitmaskAll cmp32)

/-- `for (i = i0; i < i0 + n; i++)` over a state, stopping at undefined behaviour. -/
def forRange {σ : Type} (f : Nat → σ → Option σ) : (n i : Nat) → σ → Option σ
  | 0, _, s => some s
  | n + 1, i, s => (f i s).bind (forRange f n (i + 1))

/-- `CPUINFO_LINUX_FLAG_*`, src/linux/api.h:10-24. -/
def flagPresent : Nat := 0x1
@[inherit_doc flagPresent] def flagPossible : Nat := 0x2
@[inherit_doc flagPresent] def flagMaxFrequency : Nat := 0x4
@[inherit_doc flagPresent] def flagMinFrequency : Nat := 0x8
@[inherit_doc flagPresent] def flagPackageId : Nat := 0x40
@[inherit_doc flagPresent] def flagCluster : Nat := 0x400
@[inherit_doc flagPresent] def flagValid : Nat := 0x1000

/-- `flags & bit` as a C condition. -/
def has (p : Proc) (bit : Nat) : Bool := p.flags &&& bit != 0

/-- `bitmask_all(flags, CPUINFO_LINUX_FLAG_VALID)`. -/
def valid (p : Proc) : Bool := bitmaskAll p.flags flagValid

/-- `p->flags |= bit`. -/
def mark (bit : Nat) (p : Proc) : Proc := { p with flags := p.flags ||| bit }

/-- `cmp_arm_linux_processor`, src/arm/linux/init.c:64-105. -/
def cmpProcessor (a : Arch) (x y : Proc) : Int :=
  if valid x != valid y then (if valid y then 1 else 0) - (if valid x then 1 else 0)
  else if x.midr ≠ y.midr ∧ scoreCore a x.midr ≠ scoreCore a y.midr then
    if scoreCore a x.midr > scoreCore a y.midr then -1 else 1
  else if x.maxFrequency ≠ y.maxFrequency then
    if x.maxFrequency > y.maxFrequency then -1 else 1
  else if x.packageLeaderId ≠ y.packageLeaderId then
    if x.packageLeaderId > y.packageLeaderId then -1 else 1
  else cmp32 x.systemProcessorId y.systemProcessorId

/-- The loop of `cluster_siblings_parser`, src/arm/linux/init.c:41-57, from `sibling` with `n`
iterations left; `leader` is the local `package_leader_id`. -/
def siblingsLoop : (n sibling leader : Nat) → List Proc → Option (Nat × List Proc)
  | 0, _, leader, t => some (leader, t)
  | n + 1, sibling, leader, t =>
    match t[sibling]? with
    | none => none
    | some q =>
      if valid q then
        let leader := if q.packageLeaderId < leader then q.packageLeaderId else leader
        siblingsLoop n (sibling + 1) leader
          (t.set sibling { mark flagCluster q with packageLeaderId := leader })
      else siblingsLoop n (sibling + 1) leader t

/-- `cluster_siblings_parser`, src/arm/linux/init.c:33-62. -/
def siblingsParser (t : List Proc) (processor a b : Nat) : Option (List Proc) := do
  let t ← modify? t processor (mark flagCluster)
  let p ← t[processor]?
  let (leader, t) ← siblingsLoop (b - a) a p.packageLeaderId t
  modify? t processor fun p => { p with packageLeaderId := leader }

/-- `siblingsParser` as a callback; the table is `none` once undefined behaviour happened. -/
def siblingsCallback (t : Option (List Proc)) (processor a b : Nat) : Option (List Proc) × Bool :=
  (t.bind fun t => siblingsParser t processor a b, true)

/-- The content of a file and how it is delivered; `none`: it cannot be opened. -/
abbrev File := Option Bytes × Sched

/-- `cpuinfo_linux_detect_cluster_cpus` / `…_core_siblings` with `cluster_siblings_parser`. -/
def readSiblings (f : File) (count i : Nat) (t : List Proc) : Option (List Proc × Bool) := do
  let (t, ok) ← Processors.detectSiblings f.1 f.2 count i siblingsCallback (some t)
  return (← t, ok)

/-- The state of the loop over the sibling lists, src/arm/linux/init.c:338-339. -/
structure Siblings where
  coreNode : Bool
  clusterNode : Bool
  table : List Proc

/-- One iteration of the loop over the sibling lists, src/arm/linux/init.c:340-384.
`clusterCpus i`, `coreSiblings i` are the topology files of processor `i`.  Reading the same file
twice is not needed: the code opens each at most once per processor. -/
def siblingsStep (clusterCpus coreSiblings : Nat → File) (count i : Nat) (s : Siblings) :
    Option Siblings := do
  let p ← s.table[i]?
  if ¬ valid p then return s
  if ¬ bitmaskAll p.flags flagPackageId then return s
  if ¬ s.coreNode ∧ ¬ s.clusterNode then
    let (t, ok) ← readSiblings (clusterCpus i) count i s.table
    if ok then return { s with table := t, clusterNode := true }
    let (t, _) ← readSiblings (coreSiblings i) count i t
    return { s with table := t, coreNode := true }
  else if s.coreNode then
    let (t, _) ← readSiblings (coreSiblings i) count i s.table
    return { s with table := t }
  else
    let (t, _) ← readSiblings (clusterCpus i) count i s.table
    return { s with table := t }

/-- Group ids and sibling lists, src/arm/linux/init.c:332-384. -/
def readAllSiblings (clusterCpus coreSiblings : Nat → File) (t : List Proc) :
    Option (List Proc) := do
  let t ← forRange (fun i t => modify? t i fun p => { p with packageLeaderId := i }) t.length 0 t
  let s ← forRange (siblingsStep clusterCpus coreSiblings t.length) t.length 0 ⟨false, false, t⟩
  return s.table

/-- One iteration of "Propagate all cluster IDs", src/arm/linux/init.c:388-406; the state is
`clustered_processors` and the table. -/
def propagateStep (i : Nat) (s : Nat × List Proc) : Option (Nat × List Proc) := do
  let p ← s.2[i]?
  if bitmaskAll p.flags (flagValid ||| flagCluster) then
    if p.packageLeaderId < i then
      let l ← s.2[p.packageLeaderId]?
      let t ← modify? s.2 i fun p => { p with packageLeaderId := l.packageLeaderId }
      return (s.1 + 1, t)
    else return (s.1 + 1, s.2)
  else return s

/-- "Propagate all cluster IDs", src/arm/linux/init.c:386-406. -/
def propagate (t : List Proc) : Option (Nat × List Proc) := forRange propagateStep t.length 0 (0, t)

/-- The build configuration: the instruction set and `__ANDROID__`. -/
structure Config where
  arch : Arch
  android : Bool
deriving DecidableEq, Repr

/-- The written elements of `cluster_processors`, src/arm/linux/clusters.c:72-100; `none` is the
early `return false`. -/
def clusterSizes (c : Config) (usable : Nat) : Option (List Nat) :=
  if usable = 10 then some [4, 4, 2]
  else if usable = 8 then some [4, 4]
  else if usable = 6 then some [4, 2]
  else if usable = 5 ∧ c.android ∧ c.arch = .arm then some [4, 1]
  else none

/-- The local variables that describe the cluster under construction,
src/arm/linux/clusters.c:111 and 419. -/
structure Attrs where
  flags : Nat
  midr : Nat
  maxFrequency : Nat
  minFrequency : Nat
deriving DecidableEq, Repr

/-- One attribute: if the processor and the cluster both know it they must agree, if only the
processor knows it the cluster takes it over.  `false`: they differ. -/
def attrStep (flag : Nat) (same : Attrs → Proc → Bool) (record : Attrs → Proc → Attrs) (p : Proc)
    (c : Attrs) : Attrs × Bool :=
  if has p flag then
    if c.flags &&& flag != 0 then (c, same c p)
    else ({ record c p with flags := c.flags ||| flag }, true)
  else (c, true)

/-- Run the next check only if the previous ones passed (`return false` / `goto new_cluster`). -/
def andThen (r : Attrs × Bool) (f : Attrs → Attrs × Bool) : Attrs × Bool :=
  if r.2 then f r.1 else r

/-- The six attributes: flag, comparison and copy.  src/arm/linux/clusters.c:191-336 in the
heuristic, 427-561 in the sequential scan (same code). -/
def minStep := attrStep flagMinFrequency (fun c p => c.minFrequency == p.minFrequency)
  fun c p => { c with minFrequency := p.minFrequency }
@[inherit_doc minStep] def maxStep :=
  attrStep flagMaxFrequency (fun c p => c.maxFrequency == p.maxFrequency)
  fun c p => { c with maxFrequency := p.maxFrequency }
@[inherit_doc minStep] def implementerStep := attrStep validImplementer
  (fun c p => c.midr &&& implementerMask == p.midr &&& implementerMask)
  fun c p => { c with midr := copyImplementer c.midr p.midr }
@[inherit_doc minStep] def variantStep := attrStep validVariant
  (fun c p => c.midr &&& variantMask == p.midr &&& variantMask)
  fun c p => { c with midr := copyVariant c.midr p.midr }
@[inherit_doc minStep] def partStep := attrStep validPart
  (fun c p => c.midr &&& partMask == p.midr &&& partMask)
  fun c p => { c with midr := copyPart c.midr p.midr }
@[inherit_doc minStep] def revisionStep := attrStep validRevision
  (fun c p => c.midr &&& revisionMask == p.midr &&& revisionMask)
  fun c p => { c with midr := copyRevision c.midr p.midr }

/-- The chain of the six checks. -/
def checkAttrs (p : Proc) (c : Attrs) : Attrs × Bool :=
  andThen (andThen (andThen (andThen (andThen (minStep p c) (maxStep p)) (implementerStep p))
    (variantStep p)) (partStep p)) (revisionStep p)

/-- The local variables of the verification pass, src/arm/linux/clusters.c:109-112. -/
structure Verify where
  cluster : Nat
  expected : Nat
  start : Nat
  exists' : Bool
  attrs : Attrs
  ok : Bool

/-- One iteration of the verification pass, src/arm/linux/clusters.c:113-339.  Once `ok` is false
the function has returned. -/
def verifyStep (sizes : List Nat) (t : List Proc) (i : Nat) (s : Verify) : Option Verify := do
  if ¬ s.ok then return s
  let p ← t[i]?
  if ¬ valid p then return s
  if s.expected = 0 then
    let ex := has p flagCluster
    let size ← sizes[s.cluster]?
    if ex ∧ p.packageLeaderId ≠ i then return { s with ok := false }
    return { s with
      cluster := s.cluster + 1
      expected := size - 1
      start := i
      exists' := ex
      attrs := if ex then s.attrs else { s.attrs with flags := 0 } }
  else if s.exists' then
    if ¬ has p flagCluster then return { s with ok := false }
    if p.packageLeaderId ≠ s.start then return { s with ok := false }
    return { s with expected := s.expected - 1 }
  else
    if has p flagCluster then return { s with ok := false }
    let r := checkAttrs p s.attrs
    return { s with expected := s.expected - 1, attrs := r.1, ok := r.2 }

/-- The local variables of the assignment pass. -/
structure Assign where
  cluster : Nat
  expected : Nat
  start : Nat
  table : List Proc

/-- One iteration of the assignment pass, src/arm/linux/clusters.c:344-371. -/
def assignStep (sizes : List Nat) (i : Nat) (s : Assign) : Option Assign := do
  let p ← s.table[i]?
  if ¬ valid p then return s
  if s.expected = 0 then
    let size ← sizes[s.cluster]?
    return { s with cluster := s.cluster + 1, expected := size - 1, start := i }
  else
    let t ← modify? s.table i fun p => { mark flagCluster p with packageLeaderId := s.start }
    return { s with expected := s.expected - 1, table := t }

/-- `cpuinfo_arm_linux_detect_core_clusters_by_heuristic`, src/arm/linux/clusters.c:68-373.
`junk` is the content of the uninitialised locals. -/
def heuristic (c : Config) (junk : Attrs) (usable : Nat) (t : List Proc) :
    Option (List Proc × Bool) := do
  match clusterSizes c usable with
  | none => return (t, false)
  | some sizes =>
    let v ← forRange (verifyStep sizes t) t.length 0 ⟨0, 0, 0, false, junk, true⟩
    if ¬ v.ok then return (t, false)
    let s ← forRange (assignStep sizes) t.length 0 ⟨0, 0, 0, t⟩
    return (s.table, true)

/-- "Copy known information from processor to cluster", src/arm/linux/clusters.c:570-596. -/
def recordAttrs (p : Proc) (c : Attrs) : Attrs :=
  let c := { c with flags := 0 }
  let c := if has p flagMinFrequency then
    { c with minFrequency := p.minFrequency, flags := c.flags ||| flagMinFrequency } else c
  let c := if has p flagMaxFrequency then
    { c with maxFrequency := p.maxFrequency, flags := c.flags ||| flagMaxFrequency } else c
  let c := if has p validImplementer then
    { c with midr := copyImplementer c.midr p.midr, flags := c.flags ||| validImplementer } else c
  let c := if has p validVariant then
    { c with midr := copyVariant c.midr p.midr, flags := c.flags ||| validVariant } else c
  let c := if has p validPart then
    { c with midr := copyPart c.midr p.midr, flags := c.flags ||| validPart } else c
  if has p validRevision then
    { c with midr := copyRevision c.midr p.midr, flags := c.flags ||| validRevision } else c

/-- The local variables of the sequential scan, src/arm/linux/clusters.c:417-419. -/
structure Scan where
  processors : Nat
  start : Nat
  attrs : Attrs
  table : List Proc

/-- One iteration of the sequential scan, src/arm/linux/clusters.c:420-597. -/
def scanStep (i : Nat) (s : Scan) : Option Scan := do
  let p ← s.table[i]?
  if p.flags &&& (flagValid ||| flagCluster) = flagValid then
    let r := if s.processors = 0 then (s.attrs, false) else checkAttrs p s.attrs
    if r.2 then
      let t ← modify? s.table i fun p => { mark flagCluster p with packageLeaderId := s.start }
      return { s with processors := s.processors + 1, attrs := r.1, table := t }
    else
      let t ← modify? s.table i fun p => { mark flagCluster p with packageLeaderId := i }
      return { processors := 1, start := i, attrs := recordAttrs p r.1, table := t }
  else return s

/-- `cpuinfo_arm_linux_detect_core_clusters_by_sequential_scan`,
src/arm/linux/clusters.c:414-598. -/
def sequentialScan (junk : Attrs) (t : List Proc) : Option (List Proc) := do
  let s ← forRange scanStep t.length 0 ⟨0, 0, { junk with flags := 0 }, t⟩
  return s.table

/-- First pass of `cpuinfo_arm_linux_count_cluster_processors`, src/arm/linux/clusters.c:618-623.
The counter is a plain natural number here; it never exceeds the number of table entries. -/
def countStep (i : Nat) (t : List Proc) : Option (List Proc) := do
  let p ← t[i]?
  if valid p then
    modify? t p.packageLeaderId fun q =>
      { q with packageProcessorCount := q.packageProcessorCount + 1 }
  else return t

/-- Second pass, src/arm/linux/clusters.c:626-631. -/
def copyCountStep (i : Nat) (t : List Proc) : Option (List Proc) := do
  let p ← t[i]?
  if valid p then
    let l ← t[p.packageLeaderId]?
    modify? t i fun q => { q with packageProcessorCount := l.packageProcessorCount }
  else return t

/-- `cpuinfo_arm_linux_count_cluster_processors`, src/arm/linux/clusters.c:613-632. -/
def countProcessors (t : List Proc) : Option (List Proc) := do
  let t ← forRange countStep t.length 0 t
  forRange copyCountStep t.length 0 t

/-- Cluster detection, src/arm/linux/init.c:332-431: from the table with flags, frequencies and
package ids to the table with cluster leaders and cluster sizes.  `usable` is
`valid_processors`. -/
def detectClusters (c : Config) (junk junk' : Attrs) (clusterCpus coreSiblings : Nat → File)
    (usable : Nat) (t : List Proc) : Option (List Proc) := do
  let t ← readAllSiblings clusterCpus coreSiblings t
  let (clustered, t) ← propagate t
  let t ←
    if clustered ≠ usable then do
      let (t, ok) ← heuristic c junk usable t
      if ok then pure t else sequentialScan junk' t
    else pure t
  countProcessors t

end Verif.ArmClusters
