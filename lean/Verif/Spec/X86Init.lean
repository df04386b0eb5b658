import Verif.Model.X86Init
import Verif.Spec.Ranges
import Verif.Spec.X86Cpuinfo

/-!
# Contracts of the environment of x86/Linux detection
-/

set_option autoImplicit false

namespace Verif.Spec
open X86Init
open X86Cpuinfo (LinuxProc)

/-- The contract of `qsort`: the result is a permutation of the input, ordered by the comparison
function of the program. -/
def QSorts (sort : List LinuxProc → List LinuxProc) : Prop :=
  ∀ t, (sort t).Perm t ∧ (sort t).Pairwise fun a b => cmpProcessor a b ≤ 0

/-- The SMT field starts at bit 0 and the core field follows it. -/
def LowFields (t : Topology) : Prop := t.threadOffset = 0 ∧ t.coreOffset = t.threadLength

/-- All bit fields are narrower than 32 bits. -/
def NarrowFields (x : X86Processor) : Prop :=
  x.topology.threadLength < 32 ∧ x.topology.coreLength < 32 ∧ x.l1i.apicBits < 32 ∧
    x.l1d.apicBits < 32 ∧ x.l2.apicBits < 32 ∧ x.l3.apicBits < 32 ∧ x.l4.apicBits < 32

/-- The sharing bits of the last-level cache: L4 if there is one, else L3, else L2, else L1D. -/
inductive LastLevelBits (x : X86Processor) : Nat → Prop
  | l4 (h : x.l4.size ≠ 0) : LastLevelBits x x.l4.apicBits
  | l3 (h4 : x.l4.size = 0) (h : x.l3.size ≠ 0) : LastLevelBits x x.l3.apicBits
  | l2 (h4 : x.l4.size = 0) (h3 : x.l3.size = 0) (h : x.l2.size ≠ 0) : LastLevelBits x x.l2.apicBits
  | l1 (h4 : x.l4.size = 0) (h3 : x.l3.size = 0) (h2 : x.l2.size = 0) (h : x.l1d.size ≠ 0) :
      LastLevelBits x x.l1d.apicBits
  | none (h4 : x.l4.size = 0) (h3 : x.l3.size = 0) (h2 : x.l2.size = 0) (h1 : x.l1d.size = 0) :
      LastLevelBits x 0

/-- The cache levels: what CPUID says and what is published. -/
inductive IsLevel (x : X86Processor) (pub : Published) : CacheDesc → CacheLevel → Prop
  | l1i : IsLevel x pub x.l1i pub.l1i
  | l1d : IsLevel x pub x.l1d pub.l1d
  | l2 : IsLevel x pub x.l2 pub.l2
  | l3 : IsLevel x pub x.l3 pub.l3
  | l4 : IsLevel x pub x.l4 pub.l4

/-- An executable sort, to exhibit concrete runs. -/
def insertSorted (p : LinuxProc) : List LinuxProc → List LinuxProc
  | [] => [p]
  | q :: qs => if cmpProcessor p q ≤ 0 then p :: q :: qs else q :: insertSorted p qs

/-- See `insertSorted`. -/
def insertionSort : List LinuxProc → List LinuxProc
  | [] => []
  | p :: ps => insertSorted p (insertionSort ps)

/-- What the kernel files say about a machine: the largest processor number the kernel supports,
the sysfs lists (`none`: no such file) and the blocks of /proc/cpuinfo. -/
structure Machine where
  kernelMax : Nat
  possible : Option (List (Nat × Nat))
  present : Option (List (Nat × Nat))
  blocks : List ProcBlock
  tail : List Bytes

/-- The ranges of a sysfs list are ordered pairs of processor numbers. -/
def RangesOk (rs : List (Nat × Nat)) : Prop := rs ≠ [] ∧ ∀ r ∈ rs, r.1 ≤ r.2 ∧ r.2 < U32MAX

/-- The lines of /proc/cpuinfo. -/
def Machine.lines (m : Machine) : List Bytes := m.blocks.flatMap ProcBlock.lines ++ m.tail

/-- The files are well-formed: lists of ordered ranges, distinct processors in /proc/cpuinfo,
lines shorter than `limit`. -/
structure Machine.Ok (m : Machine) (limit : Nat) : Prop where
  kernelMax : m.kernelMax < U32MAX
  possible : ∀ rs, m.possible = some rs → RangesOk rs
  present : ∀ rs, m.present = some rs → RangesOk rs
  blocks : ∀ b ∈ m.blocks, b.Ok
  tail : ∀ l ∈ m.tail, OtherLine l
  distinct : (m.blocks.map ProcBlock.number).Nodup
  nonempty : m.lines ≠ []
  newline : ∀ l ∈ m.lines, 10 ∉ l
  short : ∀ l ∈ m.lines, l.length < limit

/-- The files of the environment are those of the machine, and no read fails. -/
structure Machine.Describes (m : Machine) (e : Env) : Prop where
  kernelMax : e.kernelMax.1 = some (printNat m.kernelMax ++ [10])
  possibleMax : e.possibleMax.1 = m.possible.map printCpuList
  presentMax : e.presentMax.1 = m.present.map printCpuList
  possible : e.possible.1 = m.possible.map printCpuList
  present : e.present.1 = m.present.map printCpuList
  cpuinfo : e.cpuinfo.1 = some (joinLines m.lines)
  reads : e.kernelMax.2.NoError ∧ e.possibleMax.2.NoError ∧ e.presentMax.2.NoError ∧
    e.possible.2.NoError ∧ e.present.2.NoError ∧ e.cpuinfo.2.NoError

/-- Processor `n` is in the ranges. -/
def InRanges (rs : List (Nat × Nat)) (n : Nat) : Prop := ∃ r ∈ rs, r.1 ≤ n ∧ n ≤ r.2

/-- Processor `n` has a block in /proc/cpuinfo. -/
def Machine.Online (m : Machine) (n : Nat) : Prop := ∃ b ∈ m.blocks, b.number = n

/-- Processor `n` is usable: supported by the kernel, possible and present as far as the kernel
tells; if it does not tell which processors are present, those of /proc/cpuinfo are. -/
def Machine.Usable (m : Machine) (n : Nat) : Prop :=
  n ≤ m.kernelMax ∧ (∀ rs, m.possible = some rs → InRanges rs n) ∧
    (∀ rs, m.present = some rs → InRanges rs n) ∧ (m.present = none → m.Online n)

/-- The APIC id /proc/cpuinfo gives for processor `n`. -/
def Machine.ApicId (m : Machine) (n a : Nat) : Prop := ∃ b ∈ m.blocks, b.number = n ∧ b.apic = a

end Verif.Spec
