import Verif.Model.ArmClusters
import Verif.Model.ArmTypes

/-!
# Model of the cluster MIDR detection of src/arm/linux/midr.c

`none` is undefined behaviour: an access outside the processor table, or a read of an element of
`cluster_leaders` that was never written.  Simplification: log messages are left out.
-/

set_option autoImplicit false

namespace Verif.ArmClusterMidr
open ArmMidr ArmCpuinfo ArmClusters ArmChipset
open X86Init (modify? bitmaskAll)

/-- `CLUSTERS_MAX`, src/arm/linux/midr.c:18. -/
def clustersMax : Nat := 3

/-- `struct cluster_config`, src/arm/linux/midr.c:26-53. -/
structure ClusterConfig where
  cores : Nat
  series : Series
  model : Nat
  clusters : Nat
  clusterCores : List Nat
  clusterMidr : List Nat
deriving DecidableEq, Repr

/-- The entries of `cluster_configs`, src/arm/linux/midr.c:80-555, with the instruction set they
are compiled for (`none`: both).  Elements without initializer are zero. -/
def allConfigs : List (Option Arch × ClusterConfig) := [
  (some .arm, ⟨4, .qualcommMsm, 8916, 1, [4, 0, 0],
    [0x410FD030, 0, 0]⟩),
  (some .arm, ⟨8, .qualcommMsm, 8939, 2, [4, 4, 0],
    [0x410FD034, 0x410FD034, 0]⟩),
  (none, ⟨6, .qualcommMsm, 8956, 2, [4, 2, 0],
    [0x410FD034, 0x410FD080, 0]⟩),
  (none, ⟨8, .qualcommMsm, 8976, 2, [4, 4, 0],
    [0x410FD034, 0x410FD080, 0]⟩),
  (none, ⟨6, .qualcommMsm, 8992, 2, [4, 2, 0],
    [0x410FD033, 0x411FD072, 0]⟩),
  (none, ⟨8, .qualcommMsm, 8994, 2, [4, 4, 0],
    [0x410FD032, 0x411FD071, 0]⟩),
  (some .arm, ⟨8, .samsungExynos, 5422, 2, [4, 4, 0],
    [0x410FC073, 0x412FC0F3, 0]⟩),
  (some .arm, ⟨8, .samsungExynos, 5430, 2, [4, 4, 0],
    [0x410FC074, 0x413FC0F3, 0]⟩),
  (none, ⟨8, .samsungExynos, 5433, 2, [4, 4, 0],
    [0x410FD031, 0x411FD070, 0]⟩),
  (none, ⟨8, .samsungExynos, 7420, 2, [4, 4, 0],
    [0x410FD032, 0x411FD070, 0]⟩),
  (none, ⟨8, .samsungExynos, 8890, 2, [4, 4, 0],
    [0x410FD034, 0x531F0011, 0]⟩),
  (some .arm, ⟨8, .hisiliconKirin, 920, 2, [4, 4, 0],
    [0x410FC075, 0x413FC0F3, 0]⟩),
  (some .arm, ⟨8, .hisiliconKirin, 925, 2, [4, 4, 0],
    [0x410FC075, 0x413FC0F3, 0]⟩),
  (some .arm, ⟨8, .hisiliconKirin, 928, 2, [4, 4, 0],
    [0x410FC075, 0x413FC0F3, 0]⟩),
  (none, ⟨8, .hisiliconKirin, 950, 2, [4, 4, 0],
    [0x410FD034, 0x410FD080, 0]⟩),
  (none, ⟨8, .hisiliconKirin, 955, 2, [4, 4, 0],
    [0x410FD034, 0x410FD080, 0]⟩),
  (some .arm, ⟨4, .mediatekMt, 8135, 2, [2, 2, 0],
    [0x410FC073, 0x413FC0F2, 0]⟩),
  (none, ⟨4, .mediatekMt, 8173, 2, [2, 2, 0],
    [0x410FD032, 0x410FD080, 0]⟩),
  (none, ⟨6, .mediatekMt, 8176, 2, [4, 2, 0],
    [0x410FD032, 0x410FD080, 0]⟩),
  (some .arm64, ⟨4, .mediatekMt, 8735, 1, [4, 0, 0],
    [0x410FD034, 0, 0]⟩),
  (some .arm, ⟨4, .mediatekMt, 6592, 2, [4, 4, 0],
    [0x410FC074, 0x410FC074, 0]⟩),
  (some .arm, ⟨8, .mediatekMt, 6595, 2, [4, 4, 0],
    [0x410FC075, 0x410FC0E0, 0]⟩),
  (none, ⟨10, .mediatekMt, 6797, 3, [4, 4, 2],
    [0x410FD034, 0x410FD034, 0x410FD081]⟩),
  (none, ⟨10, .mediatekMt, 6799, 3, [4, 4, 2],
    [0x410FD041, 0x410FD034, 0x410FD092]⟩),
  (none, ⟨6, .rockchipRk, 3399, 2, [4, 2, 0],
    [0x410FD034, 0x410FD082, 0]⟩),
  (some .arm, ⟨4, .actionsAtm, 7029, 1, [4, 0, 0],
    [0x410FC051, 0, 0]⟩)
  ]

/-- `cluster_configs` as compiled for an instruction set. -/
def configs (a : Arch) : List ClusterConfig :=
  (allConfigs.filter fun c => c.1 == none || c.1 == some a).map (·.2)

/-- `midr_mask`: the bits of the MIDR that are known, src/arm/linux/midr.c:611-629 and
736-748. -/
def midrMask (p : Proc) : Nat :=
  let m := 0
  let m := if has p validImplementer then m ||| implementerMask else m
  let m := if has p validVariant then m ||| variantMask else m
  let m := if has p validPart then m ||| partMask else m
  if has p validRevision then m ||| revisionMask else m

/-- `for (cluster = c; cluster < c + n; cluster++)` with a check that may return false. -/
def allClusters (f : Nat → Option Bool) : (n c : Nat) → Option Bool
  | 0, _ => some true
  | n + 1, c => do if ← f c then allClusters f n (c + 1) else return false

/-- The processor that leads a cluster. -/
def leaderProc (leaders : List Nat) (t : List Proc) (cluster : Nat) : Option Proc := do
  t[← leaders[cluster]?]?

/-- `processors[i].midr = midr; processors[i].flags |= bits`. -/
def assignMidr (midr bits : Nat) (p : Proc) : Proc := { p with midr, flags := p.flags ||| bits }

/-- The body of the loop over the table once an entry for the chipset is found,
src/arm/linux/midr.c:593-660. -/
def applyConfig (cfg : ClusterConfig) (clusters : Nat) (leaders : List Nat) (usable : Nat)
    (t : List Proc) (verify : Bool) : Option (List Proc × Bool) := do
  if cfg.cores ≠ usable ∨ cfg.clusters ≠ clusters then return (t, false)
  let sizes ← allClusters (fun c => do
    let p ← leaderProc leaders t c
    return (← cfg.clusterCores[c]?) == p.packageProcessorCount) clusters 0
  if ¬ sizes then return (t, false)
  if verify then
    let midrs ← allClusters (fun c => do
      let p ← leaderProc leaders t c
      return (p.midr ^^^ (← cfg.clusterMidr[c]?)) &&& midrMask p == 0) clusters 0
    if ¬ midrs then return (t, false)
  let t ← forRange (fun c t => do
    modify? t (← leaders[c]?) (assignMidr (← cfg.clusterMidr[c]?) validMidr)) clusters 0 t
  return (t, true)

/-- `cpuinfo_arm_linux_detect_cluster_midr_by_chipset`, src/arm/linux/midr.c:583-665. -/
def byChipset (a : Arch) (chipset : Chipset) (clusters : Nat) (leaders : List Nat) (usable : Nat)
    (t : List Proc) (verify : Bool) : Option (List Proc × Bool) :=
  if clusters ≤ clustersMax then
    match (configs a).find? fun c => c.model == chipset.model && c.series == chipset.series with
    | none => some (t, false)
    | some cfg => applyConfig cfg clusters leaders usable t verify
  else some (t, false)

/-- `cpuinfo_arm_linux_detect_cluster_midr_by_big_little_heuristic`,
src/arm/linux/midr.c:696-779. -/
def bigLittle (clusters withMidr last : Nat) (leaders : List Nat) (t : List Proc) (verify : Bool) :
    Option (List Proc × Bool) := do
  if clusters ≠ 2 ∨ withMidr ≠ 1 then return (t, false)
  let known ← t[(← t[last]?).packageLeaderId]?
  let bigMidr := known.midr
  let littleMidr := littleCoreForBig bigMidr
  let l0 ← leaders[0]?
  let l1 ← leaders[1]?
  let p0 ← t[l0]?
  let p1 ← t[l1]?
  let little := if p0.flags &&& p1.flags &&& flagMaxFrequency ≠ 0 ∧
    p0.maxFrequency > p1.maxFrequency then l1 else l0
  let midrOf := fun l => if l = little then littleMidr else bigMidr
  if verify then
    let ok ← allClusters (fun c => do
      let l ← leaders[c]?
      let p ← t[l]?
      return (p.midr ^^^ midrOf l) &&& midrMask p == 0) clusters 0
    if ¬ ok then return (t, false)
  let t ← forRange (fun c t => do
    let l ← leaders[c]?
    let p ← t[l]?
    if bitmaskAll p.flags validMidr then return t
    modify? t l (assignMidr (midrOf l) (known.flags &&& validMidr))) clusters 0 t
  return (t, true)

/-- One iteration of `cpuinfo_arm_linux_detect_cluster_midr_by_sequential_scan`,
src/arm/linux/midr.c:802-822; the state is the local `midr` and the table. -/
def midrScanStep (i : Nat) (s : Nat × List Proc) : Option (Nat × List Proc) := do
  let p ← s.2[i]?
  if valid p then
    if p.packageLeaderId = i then
      if bitmaskAll p.flags validMidr then return (p.midr, s.2)
      else return (s.1, ← modify? s.2 i (assignMidr s.1 validMidr))
    else return s
  else return s

/-- `cpuinfo_arm_linux_detect_cluster_midr_by_sequential_scan`, src/arm/linux/midr.c:797-823. -/
def midrScan (dflt : Nat) (t : List Proc) : Option (List Proc) := do
  let s ← forRange midrScanStep t.length 0 (dflt, t)
  return s.2

/-- The local variables of `cpuinfo_arm_linux_detect_cluster_midr`, src/arm/linux/midr.c:847-851.
`leaders` are the elements of `cluster_leaders` written so far. -/
structure Survey where
  clusters : Nat
  leaders : List Nat
  lastInCpuinfo : Nat
  lastWithMidr : Nat
  withMidr : Nat
  table : List Proc

/-- "Copy known bits of information to cluster leader", src/arm/linux/midr.c:875-879: the maximum
frequency of the member `p` for the leader `l`. -/
def copyFrequency (p l : Proc) : Proc :=
  if has p flagMaxFrequency ∧ ¬ has l flagMaxFrequency then
    { l with maxFrequency := p.maxFrequency, flags := l.flags ||| flagMaxFrequency } else l

/-- The MIDR of the member `p` for the leader `l`, src/arm/linux/midr.c:880-884. -/
def copyMidr (p l : Proc) : Proc :=
  if ¬ bitmaskAll l.flags validMidr ∧ bitmaskAll p.flags validMidr then
    assignMidr p.midr validMidr l else l

/-- Both, src/arm/linux/midr.c:871-885. -/
def copyKnown (p l : Proc) : Proc := copyMidr p (copyFrequency p l)

/-- One iteration of the first loop, src/arm/linux/midr.c:852-887. -/
def surveyStep (i : Nat) (s : Survey) : Option Survey := do
  let p ← s.table[i]?
  if ¬ valid p then return s
  let s := if has p validProcessor then { s with lastInCpuinfo := i } else s
  let s := if bitmaskAll p.flags (validImplementer ||| validPart) then
    { s with lastWithMidr := i, withMidr := s.withMidr + 1 } else s
  if p.packageLeaderId = i then
    return { s with
      leaders := if s.clusters < clustersMax then s.leaders ++ [i] else s.leaders
      clusters := s.clusters + 1 }
  else
    return { s with table := ← modify? s.table p.packageLeaderId (copyKnown p) }

/-- The number of clusters whose leader has a MIDR, src/arm/linux/midr.c:946-953.  The loop only
reads, so it is a filter over the positions. -/
def clustersWithMidr (t : List Proc) : Nat :=
  ((List.range t.length).filter fun i =>
    t[i]?.any fun p => bitmaskAll p.flags (flagValid ||| validMidr) && p.packageLeaderId == i).length

/-- Sequential initialization from the MIDR of the cluster of `last`,
src/arm/linux/midr.c:935-938 and 995-998. -/
def scanFrom (last : Nat) (t : List Proc) : Option (List Proc) := do
  midrScan (← t[(← t[last]?).packageLeaderId]?).midr t

/-- The branches after the survey, src/arm/linux/midr.c:908-1001. -/
def finishMidr (a : Arch) (chipset : Chipset) (usable : Nat) (s : Survey) :
    Option (List Proc) := do
  let t := s.table
  if s.withMidr = 1 ∧ s.lastInCpuinfo = s.lastWithMidr ∧ s.clusters > 1 then
    let (t, ok) ← byChipset a chipset s.clusters s.leaders usable t false
    if ok then return t
    let (t, ok) ← bigLittle s.clusters 1 s.lastWithMidr s.leaders t false
    if ok then return t
    scanFrom s.lastWithMidr t
  else if s.withMidr < usable then
    if clustersWithMidr t < s.clusters then
      let (t, ok) ← byChipset a chipset s.clusters s.leaders usable t true
      if ok then return t
      if s.lastWithMidr ≠ t.length then
        let (t, ok) ← bigLittle s.clusters s.withMidr s.lastWithMidr s.leaders t true
        if ok then return t
        scanFrom s.lastWithMidr t
      else return t
    else return t
  else return t

/-- `cpuinfo_arm_linux_detect_cluster_midr`, src/arm/linux/midr.c:842-1002: the number of clusters
and the table. -/
def detectClusterMidr (a : Arch) (chipset : Chipset) (usable : Nat) (t : List Proc) :
    Option (Nat × List Proc) := do
  let s ← forRange surveyStep t.length 0 ⟨0, [], t.length, t.length, 0, t⟩
  return (s.clusters, ← finishMidr a chipset usable s)

end Verif.ArmClusterMidr
