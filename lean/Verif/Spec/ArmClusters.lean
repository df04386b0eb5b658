import Verif.Model.ArmClusters
import Verif.Spec.X86Init

/-!
# What the cluster detection of ARM systems is about

Flag bits by position (src/linux/api.h, src/arm/linux/api.h): 2 maximum frequency known,
3 minimum frequency known, 6 package id known, 10 cluster known, 12 usable, 17 implementer known,
18 variant known, 19 part known, 20 revision known.
-/

set_option autoImplicit false

namespace Verif.Spec
open ArmCpuinfo ArmMidr

/-- The processor is usable (possible and present). -/
def Usable (p : Proc) : Prop := p.flags.testBit 12 = true

/-- The cluster of the processor is already known. -/
def Clustered (p : Proc) : Prop := p.flags.testBit 10 = true

instance (p : Proc) : Decidable (Usable p) := inferInstanceAs (Decidable (_ = _))
instance (p : Proc) : Decidable (Clustered p) := inferInstanceAs (Decidable (_ = _))

/-- The details by which clusters are told apart. -/
inductive Detail where
  | minFrequency
  | maxFrequency
  | implementer
  | variant
  | part
  | revision
deriving DecidableEq, Repr

/-- The details in the order the code looks at them. -/
def Detail.all : List Detail := [.minFrequency, .maxFrequency, .implementer, .variant, .part, .revision]

/-- The flag bit that says that the detail is known. -/
def Detail.bit : Detail → Nat
  | .minFrequency => 3
  | .maxFrequency => 2
  | .implementer => 17
  | .variant => 18
  | .part => 19
  | .revision => 20

/-- The value of a detail, whether known or not. -/
def Detail.value (d : Detail) (p : Proc) : Nat :=
  match d with
  | .minFrequency => p.minFrequency
  | .maxFrequency => p.maxFrequency
  | .implementer => p.midr / 16777216 % 256
  | .variant => p.midr / 1048576 % 16
  | .part => p.midr / 16 % 4096
  | .revision => p.midr % 16

/-- What is known about a detail of a processor. -/
def known (p : Proc) (d : Detail) : Option Nat :=
  if p.flags.testBit d.bit then some (d.value p) else none

/-- Two processors have a known and different detail. -/
def Conflict (p q : Proc) : Prop :=
  ∃ d v w, known p d = some v ∧ known q d = some w ∧ v ≠ w

/-- A processor the sequential scan has to place: usable and not yet in a cluster. -/
def Free (p : Proc) : Prop := Usable p ∧ ¬ Clustered p

instance (p : Proc) : Decidable (Free p) := inferInstanceAs (Decidable (_ ∧ _))

/-- Position `i` of the table holds a free processor. -/
def FreeAt (t : List Proc) (i : Nat) : Prop := ∃ p, t[i]? = some p ∧ Free p

/-- Position `i` of the table holds a usable processor. -/
def UsableAt (t : List Proc) (i : Nat) : Prop := ∃ p, t[i]? = some p ∧ Usable p

/-- The leader recorded at position `i`. -/
def Leads (t : List Proc) (l i : Nat) : Prop := ∃ p, t[i]? = some p ∧ p.packageLeaderId = l

/-- The documented order of processors: usable ones first, then faster core types, then higher
maximum frequency, then later clusters, then processor number. -/
def Before (a : Arch) (x y : Proc) : Prop :=
  (Usable x ∧ ¬ Usable y) ∨ (Usable x ↔ Usable y) ∧
    (scoreCore a x.midr > scoreCore a y.midr ∨ scoreCore a x.midr = scoreCore a y.midr ∧
      (x.maxFrequency > y.maxFrequency ∨ x.maxFrequency = y.maxFrequency ∧
        (x.packageLeaderId > y.packageLeaderId ∨ x.packageLeaderId = y.packageLeaderId ∧
          x.systemProcessorId < y.systemProcessorId)))

/-- The number of usable processors at positions below `i`. -/
def rank (t : List Proc) (i : Nat) : Nat := ((t.take i).filter fun p => p.flags.testBit 12).length

/-- The number of usable processors. -/
def usableCount (t : List Proc) : Nat := (t.filter fun p => p.flags.testBit 12).length

/-- The number of usable processors with leader `l`. -/
def membersOf (t : List Proc) (l : Nat) : Nat :=
  (t.filter fun p => p.flags.testBit 12 && p.packageLeaderId == l).length

/-- The positions of the usable processors that lead themselves. -/
def leaders (t : List Proc) : List Nat :=
  (List.range t.length).filter fun i =>
    t[i]?.any fun p => p.flags.testBit 12 && p.packageLeaderId == i

/-- Leaders are representatives: the leader of a usable processor is a usable processor at a
position not above, and leads itself. -/
def Led (t : List Proc) : Prop :=
  ∀ (i : Nat) (p : Proc), t[i]? = some p → Usable p →
    p.packageLeaderId ≤ i ∧ UsableAt t p.packageLeaderId ∧ Leads t p.packageLeaderId p.packageLeaderId

/-- The usable processors fall into consecutive groups of four (the last one possibly smaller) that
respect what is known: a group is clustered as a whole under its first member or not at all, and in
the latter case its members other than the first have no conflicting details.  (That the first
member is exempt is a flaw of the code.) -/
structure GroupsFit (t : List Proc) : Prop where
  same : ∀ (j g : Nat) (p q : Proc), t[j]? = some p → Usable p → t[g]? = some q → Usable q →
    rank t g = rank t j / 4 * 4 →
      (Clustered p ↔ Clustered q) ∧ (Clustered p → p.packageLeaderId = g)
  agree : ∀ (j k : Nat) (p q : Proc), t[j]? = some p → Usable p → t[k]? = some q → Usable q →
    rank t j / 4 = rank t k / 4 → rank t j % 4 ≠ 0 → rank t k % 4 ≠ 0 →
    ¬ Clustered p → ¬ Clustered q → ¬ Conflict p q

/-- The first `u` usable processors fall into such groups. -/
structure GroupsFitBelow (t : List Proc) (u : Nat) : Prop where
  same : ∀ (j g : Nat) (p q : Proc), rank t j < u → t[j]? = some p → Usable p → t[g]? = some q → Usable q →
    rank t g = rank t j / 4 * 4 →
      (Clustered p ↔ Clustered q) ∧ (Clustered p → p.packageLeaderId = g)
  agree : ∀ (j k : Nat) (p q : Proc), rank t j < u → rank t k < u → t[j]? = some p → Usable p →
    t[k]? = some q → Usable q → rank t j / 4 = rank t k / 4 → rank t j % 4 ≠ 0 → rank t k % 4 ≠ 0 →
    ¬ Clustered p → ¬ Clustered q → ¬ Conflict p q

/-- The numbers of usable processors the heuristic knows: 10 (4+4+2), 8 (4+4), 6 (4+2), and on
32-bit ARM Android 5 (4+1). -/
def KnownCount (c : ArmClusters.Config) (n : Nat) : Prop :=
  n = 10 ∨ n = 8 ∨ n = 6 ∨ n = 5 ∧ c.android = true ∧ c.arch = .arm

/-- `q` is `p` with possibly another leader and cluster mark. -/
def SameButCluster (p q : Proc) : Prop :=
  q = { p with
    packageLeaderId := q.packageLeaderId
    flags := q.flags } ∧
  ∀ k, k ≠ 10 → q.flags.testBit k = p.flags.testBit k

/-- Both tables describe the same processors, up to leaders and cluster marks. -/
def SameTable (t t' : List Proc) : Prop :=
  t'.length = t.length ∧
    ∀ (i : Nat) (p q : Proc), t[i]? = some p → t'[i]? = some q → SameButCluster p q

/-- Both tables describe the same processors, up to leaders, cluster marks and cluster sizes. -/
def SameProcessors (t t' : List Proc) : Prop :=
  t'.length = t.length ∧
    ∀ (i : Nat) (p q : Proc), t[i]? = some p → t'[i]? = some q →
      SameButCluster p { q with packageProcessorCount := p.packageProcessorCount }

/-- The kernel describes clusters by the class `cls` of every processor: every usable processor has
a package id, and its list of cluster members (`cluster_cpus_list`, or `core_siblings_list` on
kernels without it) is a printed list of ranges whose usable members are those of its class. -/
structure KernelClusters (t : List Proc) (cls : Nat → Nat) (lists : Nat → List (Nat × Nat))
    (clusterCpus coreSiblings : Nat → ArmClusters.File) : Prop where
  packageId : ∀ (i : Nat) (p : Proc), t[i]? = some p → Usable p → p.flags.testBit 6 = true
  ranges : ∀ i, UsableAt t i → RangesOk (lists i)
  members : ∀ i j, UsableAt t i → UsableAt t j → (InRanges (lists i) j ↔ cls j = cls i)
  files : (∀ i, UsableAt t i →
      (clusterCpus i).1 = some (printCpuList (lists i)) ∧ (clusterCpus i).2.NoError) ∨
    (∀ i, UsableAt t i → (clusterCpus i).1 = none ∧
      (coreSiblings i).1 = some (printCpuList (lists i)) ∧ (coreSiblings i).2.NoError)

/-- `m` is the first usable processor of the class of `i`. -/
def FirstOfClass (t : List Proc) (cls : Nat → Nat) (i m : Nat) : Prop :=
  UsableAt t m ∧ cls m = cls i ∧ ∀ j, j < m → UsableAt t j → cls j ≠ cls i

/-- Where the sequential scan has to put the free processor at position `j`, given the leaders of
the free processors before it: the first one leads itself; a later one joins the cluster of the
free processor preceding it unless it conflicts with a member of that cluster, and else leads
itself. -/
def ScanLeader (t : List Proc) (lead : Nat → Nat) (j : Nat) : Prop :=
  ((∀ k, k < j → ¬ FreeAt t k) → lead j = j) ∧
  ∀ k, k < j → FreeAt t k → (∀ m, k < m → m < j → ¬ FreeAt t m) →
    let conflict := ∃ (m : Nat) (p q : Proc), m < j ∧ t[m]? = some p ∧ Free p ∧
      lead m = lead k ∧ t[j]? = some q ∧ Conflict p q
    (¬ conflict → lead j = lead k) ∧ (conflict → lead j = j)

end Verif.Spec
