import Verif.Spec.CpuList
import Verif.Spec.Platform
import Verif.Model.Riscv

/-!
# RISC-V machines as Linux describes them
-/

set_option autoImplicit false

namespace Verif.Spec

/-- The numbers in ranges with both ends. -/
def cover (rs : List (Nat × Nat)) : List Nat := rs.flatMap fun r => List.range' r.1 (r.2 + 1 - r.1)

/-- The processors that are present are divided into groups; `members i` is the group of processor
`i`, in ascending order. -/
structure Grouping (present : Nat → Prop) (members : Nat → List Nat) : Prop where
  self : ∀ i, present i → i ∈ members i
  closed : ∀ i, present i → ∀ j ∈ members i, present j ∧ members j = members i
  ascending : ∀ i, present i → (members i).Pairwise (· < ·)

/-- Every group of `inner` lies inside one group of `outer`. -/
def Within (present : Nat → Prop) (inner outer : Nat → List Nat) : Prop :=
  ∀ i, present i → ∀ j ∈ inner i, j ∈ outer i

/-- Processors between two of a group are of the group. -/
def Convex (present : Nat → Prop) (members : Nat → List Nat) : Prop :=
  ∀ i j k, present i → present j → k ∈ members i → i ≤ j → j ≤ k → j ∈ members i

/-- The file with the list for a level: `topology/core_cpus_list`, `topology/cluster_cpus_list`,
`topology/package_cpus_list`. -/
def listFile (y : Riscv.System) : Riscv.Lvl → Nat → Riscv.File
  | .core => y.coreCpus
  | .cluster => y.clusterCpus
  | .package => y.packageCpus

/-- The files of a RISC-V Linux system with processor numbers below `n`: `kernel_max` allows them,
the processors `rs` are present, the last of them is `n - 1`, and the lists of every present
processor name its core, cluster and package.  No read fails. -/
structure Layout (y : Riscv.System) (n : Nat) (present : Nat → Prop)
    (members : Riscv.Lvl → Nat → List Nat) : Prop where
  limit : ∃ v, y.kernelMax.1 = some (printNat v ++ [10]) ∧ y.kernelMax.2.NoError ∧ v < U32MAX ∧
    n ≤ v + 1
  list : ∃ rs, y.present.1 = some (printCpuList rs) ∧ y.present.2.NoError ∧ rs ≠ [] ∧
    (∀ r ∈ rs, r.1 ≤ r.2 ∧ r.2 < n) ∧ (∃ r ∈ rs, r.2 + 1 = n) ∧ ∀ i, present i ↔ i ∈ cover rs
  grouping : ∀ l, Grouping present (members l)
  files : ∀ l i, present i → ∃ rs, (listFile y l i).1 = some (printCpuList rs) ∧
    (listFile y l i).2.NoError ∧ rs ≠ [] ∧ (∀ r ∈ rs, r.1 ≤ r.2) ∧ cover rs = members l i

end Verif.Spec
