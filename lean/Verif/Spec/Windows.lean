import Verif.Model.Windows
import Verif.Spec.Ranges

/-!
# What the records of Windows mean

Stated without the loops of the model: a mask stands for the set of its bits, the processors are numbered
group after group.
-/

set_option autoImplicit false

namespace Verif.Spec
open Windows (GroupAffinity Info Env relationCore relationPackage)

/-- The bits that are set in a mask of 64 bits, in increasing order. -/
def setBits (mask : Nat) : List Nat := (List.range 64).filter fun b => mask.testBit b

/-- The numbers of processors of the groups; Wine has one group. -/
def groupSizes (e : Env) : List Nat :=
  (List.range (if e.wine then 1 else e.groupCount)).map e.maxCount

/-- The index of processor `b` of group `g`: the processors of the earlier groups come first. -/
def winIndex (per : List Nat) (g b : Nat) : Nat := (per.take g).sum + b

/-- The processors of a record, as (group, number in the group). -/
def winMembers (info : Info) : List (Nat × Nat) :=
  info.groups.flatMap fun g => (setBits g.mask).map fun b => (g.group, b)

/-- The indices of the processors of a record. -/
def winIndices (per : List Nat) (info : Info) : List Nat :=
  (winMembers info).map fun m => winIndex per m.1 m.2

/-- The records of one kind. -/
def recordsOf (relation : Nat) (infos : List Info) : List Info :=
  infos.filter fun i => i.relationship == relation

/-- The masks of a record only have bits of processors that the groups have. -/
def WinFits (per : List Nat) (info : Info) : Prop :=
  ∀ g ∈ info.groups, g.mask < 2 ^ 64 ∧
    ∃ n, per[g.group]? = some n ∧ ∀ b, g.mask.testBit b = true → b < n

/-- The fields of the APIC id lie within 32 bits, and so do the fields of the caches. -/
def WinNarrow (e : Env) : Prop :=
  let t := e.cpu.topology
  t.threadOffset + t.threadLength < 32 ∧ t.coreOffset + t.coreLength < 32 ∧
  e.cpu.l1i.apicBits < 32 ∧ e.cpu.l1d.apicBits < 32 ∧ e.cpu.l2.apicBits < 32 ∧
  e.cpu.l3.apicBits < 32 ∧ e.cpu.l4.apicBits < 32

/-- The numbers of the packages fit above the fields of core and thread. -/
def WinRoom (e : Env) (ps : List Info) : Prop :=
  let t := e.cpu.topology
  ps.length * 2 ^ max (t.threadOffset + t.threadLength) (t.coreOffset + t.coreLength) < U32

/-- No processor is in two packages or in two cores, and every core is in one package. -/
structure WinDisjoint (e : Env) (ps cs : List Info) : Prop where
  packages : (ps.flatMap (winIndices (groupSizes e))).Nodup
  cores : (cs.flatMap (winIndices (groupSizes e))).Nodup
  nonempty : ∀ c ∈ cs, winIndices (groupSizes e) c ≠ []
  inPackage : ∀ c ∈ cs, ∃ p ∈ ps, ∀ i ∈ winIndices (groupSizes e) c, i ∈ winIndices (groupSizes e) p

/-- Core `j` of the records is in package `q` of the records. -/
def WinIn (per : List Nat) (ps cs : List Info) (j q : Nat) : Prop :=
  ∃ c p, cs[j]? = some c ∧ ps[q]? = some p ∧ winIndices per c ≠ [] ∧
    ∀ i ∈ winIndices per c, i ∈ winIndices per p

/-- The cores of a package follow one another. -/
def WinGrouped (per : List Nat) (ps cs : List Info) : Prop :=
  ∀ a b c q, a < b → b < c → WinIn per ps cs a q → WinIn per ps cs c q → WinIn per ps cs b q

/-- `f` is the first core of package `q`. -/
def WinFirst (per : List Nat) (ps cs : List Info) (q f : Nat) : Prop :=
  WinIn per ps cs f q ∧ ∀ j < f, ¬ WinIn per ps cs j q

/-- Every processor is in a core. -/
def WinComplete (e : Env) (cs : List Info) : Prop :=
  ∀ i < (groupSizes e).sum, ∃ c ∈ cs, i ∈ winIndices (groupSizes e) c

/-- The records list all processors in the order of their indices: packages, cores in them, threads in
these. -/
def WinInOrder (e : Env) (ps cs : List Info) : Prop :=
  ps.flatMap (winIndices (groupSizes e)) = List.range (groupSizes e).sum ∧
  cs.flatMap (winIndices (groupSizes e)) = List.range (groupSizes e).sum

/-- Cores and threads fit the fields of the APIC id: no core has more threads than the field of the thread
counts, no package more cores. -/
def WinFieldsFit (e : Env) (ps cs : List Info) : Prop :=
  (∀ c ∈ cs, (winIndices (groupSizes e) c).length ≤ 2 ^ e.cpu.topology.threadLength) ∧
  ∀ j f q, WinIn (groupSizes e) ps cs j q → WinFirst (groupSizes e) ps cs q f →
    j - f < 2 ^ e.cpu.topology.coreLength

/-- Windows answers with the package records `ps` and the core records `cs`. -/
structure WinReports (e : Env) (ps cs : List Info) : Prop where
  packages : ∃ l, e.packages = some l ∧ ps = recordsOf relationPackage l
  cores : ∃ l, e.cores = some l ∧ cs = recordsOf relationCore l
  total : (groupSizes e).sum < U32
  fitsPackages : ∀ i ∈ ps, WinFits (groupSizes e) i
  fitsCores : ∀ i ∈ cs, WinFits (groupSizes e) i
  somePackage : ps ≠ []
  someCore : cs ≠ []
  fewPackages : ps.length < U32
  fewCores : cs.length < U32
  someProcessor : 0 < (groupSizes e).sum

/-- The cache levels: what CPUID describes and what is published. -/
inductive WinLevel (x : X86Init.X86Processor) (pub : Windows.Published) :
    X86Init.CacheDesc → X86Init.CacheLevel → Prop
  | l1i : WinLevel x pub x.l1i pub.l1i
  | l1d : WinLevel x pub x.l1d pub.l1d
  | l2 : WinLevel x pub x.l2 pub.l2
  | l3 : WinLevel x pub x.l3 pub.l3
  | l4 : WinLevel x pub x.l4 pub.l4

end Verif.Spec
