import Verif.Model.ArmInit
import Verif.Spec.ArmInit
import Verif.Spec.Ranges
import Verif.Spec.X86Init

/-!
# What ARM detection has to publish

`gather` gives what the kernel files say about every processor; the statements relate the published
tables to that.
-/

set_option autoImplicit false

namespace Verif.Spec
open ArmCpuinfo ArmClusters ArmInit ArmMidr

/-- What `qsort` does with the comparison function. -/
def SortsProcessors (a : Arch) (sort : List Proc → List Proc) : Prop :=
  ∀ t, (sort t).Perm t ∧ (sort t).Pairwise fun x y => cmpProcessor a x y ≤ 0

/-- The kernel files are read and say `t`; the Hardware and Revision lines are `hw` and `rev`. -/
def Reads (e : Env) (t : List Proc) (hw rev : Bytes) : Prop := gather e = some (some (t, hw, rev))

/-- /proc/cpuinfo lists every usable processor. -/
def AllListed (e : Env) : Prop :=
  ∀ t hw rev, Reads e t hw rev → ∀ p ∈ t, Usable p → Listed p

/-- The number of usable processors that /proc/cpuinfo lists. -/
def listedCount (t : List Proc) : Nat :=
  (t.filter fun p => p.flags.testBit 12 && p.flags.testBit 21).length

/-- /proc/cpuinfo gives the same architecture version for all usable processors. -/
def OneVersion (e : Env) : Prop :=
  ∀ t hw rev, Reads e t hw rev → ∀ p ∈ t, ∀ q ∈ t, Usable p → Usable q →
    p.architectureVersion = q.architectureVersion

/-- When clusters, MIDRs and microarchitectures have been determined, the usable processors of a
cluster get L2 and L3 caches of the same sizes, whatever architecture versions /proc/cpuinfo gives. -/
def SameCaches (e : Env) : Prop :=
  ∀ t hw rev, Reads e t hw rev → ∀ n T,
    analyse e (e.dec.chipset hw rev (listedCount t)) t = some (n, T) →
    ∀ p ∈ T, ∀ q ∈ T, Usable p → Usable q → p.packageLeaderId = q.packageLeaderId → ∀ g cores,
      let c := fun (r : Proc) => e.dec.caches r.uarch cores r.midr
        (e.dec.chipset hw rev (listedCount t)) g r.architectureVersion
      (c p).l2.size = (c q).l2.size ∧ (c p).l3.size = (c q).l3.size

/-- Reading frequencies, package numbers and lists of siblings makes `T` of the processors `t`, with
`n` usable processors in clusters. -/
def Siblings (e : Env) (t : List Proc) (n : Nat) (T : List Proc) : Prop :=
  ∃ t1 t2, forRange (frequencyStep e) t.length 0 t = some t1 ∧
    readAllSiblings e.clusterCpus e.coreSiblings t1 = some t2 ∧ propagate t2 = some (n, T)

/-- /proc/cpuinfo describes every usable processor completely. -/
def AllDescribed (e : Env) : Prop :=
  ∀ t hw rev, Reads e t hw rev → ∀ p ∈ t, Usable p → Complete p

/-- `c` are the caches the decoder gives for processor `i`: from the microarchitecture and MIDR of
its core, the number of cores of its cluster, the chipset, the cluster number and the architecture
version in /proc/cpuinfo. -/
def DecodedCaches (e : Env) (pub : Published) (i : Nat) (c : Caches) : Prop :=
  ∃ t hw rev p o l q, Reads e t hw rev ∧ pub.processors[i]? = some p ∧ pub.cores[p.core]? = some o ∧
    pub.clusters[p.cluster]? = some l ∧ t[p.linuxId]? = some q ∧
    c = e.dec.caches o.uarch l.coreCount o.midr (e.dec.chipset hw rev pub.processorsCount) p.cluster
      q.architectureVersion

/-- The published cache `x` has the decoded geometry `c` (as a single partition) and the given range
of processors. -/
def HasGeometry (x c : X86Init.Cache) (start count : Nat) : Prop :=
  x.size = c.size ∧ x.associativity = c.associativity ∧ x.sets = c.sets ∧ x.partitions = 1 ∧
  x.lineSize = c.lineSize ∧ x.flags = c.flags ∧ x.processorStart = start ∧ x.processorCount = count

/-- All processors have an L3 cache of the same size. -/
def OneL3Size (e : Env) (pub : Published) : Prop :=
  ∀ i c c0, DecodedCaches e pub i c → DecodedCaches e pub 0 c0 →
    c.l3.size ≠ 0 ∧ c.l3.size = c0.l3.size

/-- No later cluster has an L3 cache of the size of the first cluster's. -/
def OtherL3Sizes (e : Env) (pub : Published) : Prop :=
  ∀ i c c0 p, DecodedCaches e pub i c → DecodedCaches e pub 0 c0 → pub.processors[i]? = some p →
    p.cluster ≠ 0 → c.l3.size ≠ 0 → c.l3.size ≠ c0.l3.size

/-- Consecutive microarchitectures differ. -/
def AdjacentDiffer (us : List Uarch) : Prop :=
  ∀ (g : Nat) (u v : Uarch), us[g]? = some u → us[g + 1]? = some v → u.uarch ≠ v.uarch

/-- What the kernel says about processor numbers: the largest it supports, and the sysfs lists
(`none`: no such file). -/
structure KernelLists where
  kernelMax : Nat
  possible : Option (List (Nat × Nat))
  present : Option (List (Nat × Nat))

/-- The lists are ordered pairs of processor numbers. -/
structure KernelLists.Ok (k : KernelLists) : Prop where
  kernelMax : k.kernelMax < U32MAX
  possible : ∀ rs, k.possible = some rs → RangesOk rs
  present : ∀ rs, k.present = some rs → RangesOk rs

/-- The files of the environment print the lists, and no read of them fails. -/
structure KernelLists.Describes (k : KernelLists) (e : Env) : Prop where
  kernelMax : e.kernelMax.1 = some (printNat k.kernelMax ++ [10])
  possibleMax : e.possibleMax.1 = k.possible.map printCpuList
  presentMax : e.presentMax.1 = k.present.map printCpuList
  possible : e.possible.1 = k.possible.map printCpuList
  present : e.present.1 = k.present.map printCpuList
  reads : e.kernelMax.2.NoError ∧ e.possibleMax.2.NoError ∧ e.presentMax.2.NoError ∧
    e.possible.2.NoError ∧ e.present.2.NoError

/-- Processor `n` is supported by the kernel, possible and present as far as the kernel tells. -/
def KernelLists.Usable (k : KernelLists) (n : Nat) : Prop :=
  n ≤ k.kernelMax ∧ (∀ rs, k.possible = some rs → InRanges rs n) ∧
    (∀ rs, k.present = some rs → InRanges rs n)

/-- The published caches `l` have at the entry of processor `i` the geometry given in /proc/cpuinfo. -/
def FromNumbers (x : X86Init.Cache) (size assoc sets line : Nat) : Prop :=
  x.size = size ∧ x.associativity = assoc ∧ x.sets = sets ∧ x.lineSize = line ∧ x.partitions = 1

end Verif.Spec
