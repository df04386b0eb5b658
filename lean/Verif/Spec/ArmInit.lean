import Verif.Spec.ArmClusters

/-!
# What ARM detection has to get right about core identities

More flag bits by position (src/arm/linux/api.h): 16 architecture known, 21 listed in
/proc/cpuinfo.  A description is complete if bits 16 to 21 are set.
-/

set_option autoImplicit false

namespace Verif.Spec
open ArmCpuinfo ArmMidr

/-- The processor has a `processor` line in /proc/cpuinfo. -/
def Listed (p : Proc) : Prop := p.flags.testBit 21 = true

/-- Implementer and part number are known. -/
def Identified (p : Proc) : Prop := p.flags.testBit 17 = true ∧ p.flags.testBit 19 = true

/-- The description in /proc/cpuinfo is complete. -/
def Complete (p : Proc) : Prop := ∀ k, 16 ≤ k → k ≤ 21 → p.flags.testBit k = true

instance (p : Proc) : Decidable (Listed p) := inferInstanceAs (Decidable (_ = _))
instance (p : Proc) : Decidable (Identified p) := inferInstanceAs (Decidable (_ ∧ _))

theorem complete_iff (p : Proc) : Complete p ↔ (p.flags.testBit 16 = true ∧ p.flags.testBit 17 = true ∧
    p.flags.testBit 18 = true ∧ p.flags.testBit 19 = true ∧ p.flags.testBit 20 = true ∧
    p.flags.testBit 21 = true) := by
  constructor
  · intro h
    exact ⟨h 16 (by decide) (by decide), h 17 (by decide) (by decide), h 18 (by decide) (by decide),
      h 19 (by decide) (by decide), h 20 (by decide) (by decide), h 21 (by decide) (by decide)⟩
  · rintro ⟨h1, h2, h3, h4, h5, h6⟩ k hk hk'
    have : k = 16 ∨ k = 17 ∨ k = 18 ∨ k = 19 ∨ k = 20 ∨ k = 21 := by omega
    rcases this with h | h | h | h | h | h <;> subst h <;> assumption

instance (p : Proc) : Decidable (Complete p) := decidable_of_iff _ (complete_iff p).symm

/-- The MIDR reported for the cluster with leader `l`: that of the first usable member with a
complete description. -/
def reported (t : List Proc) (l : Nat) : Option Nat :=
  (t.find? fun p => decide (Usable p ∧ p.packageLeaderId = l ∧ Complete p)).map (·.midr)

/-- The number of usable processors whose implementer and part number are known. -/
def identifiedCount (t : List Proc) : Nat := (t.filter fun p => decide (Usable p ∧ Identified p)).length

/-- /proc/cpuinfo identifies only one usable processor, and it is the last one listed: its identity
cannot be attributed to a processor. -/
def OnlyLastIdentified (t : List Proc) : Prop :=
  identifiedCount t = 1 ∧ ∃ (i : Nat) (p : Proc), t[i]? = some p ∧ Usable p ∧ Identified p ∧ Listed p ∧
    ∀ (j : Nat) (q : Proc), i < j → t[j]? = some q → Usable q → ¬ Listed q

/-- The details that make up the identity of a core. -/
def identityDetails : List Detail := [.implementer, .variant, .part, .revision]

/-- Two MIDR values name the same core: implementer, variant, part and revision are equal. -/
def SameIdentity (m m' : Nat) : Prop := ∀ d ∈ identityDetails,
  d.value { Proc.zero with midr := m } = d.value { Proc.zero with midr := m' }

/-- Nothing known about the identity of the processor speaks against the MIDR value `m`. -/
def MayBe (p : Proc) (m : Nat) : Prop := ∀ d ∈ identityDetails, ∀ v, known p d = some v →
  d.value { Proc.zero with midr := m } = v

/-- Position `l` leads a cluster. -/
def LeadsItself (t : List Proc) (l : Nat) : Prop :=
  ∃ p, t[l]? = some p ∧ Usable p ∧ p.packageLeaderId = l

/-- Nothing reported about the cluster led by `l` speaks against the MIDR value `m`: neither the
identity of the first completely described member nor, if there is none, the details known of the
leader. -/
def ClusterMayBe (t : List Proc) (l m : Nat) : Prop :=
  (∀ r, reported t l = some r → SameIdentity m r) ∧
  (reported t l = none → ∀ p, t[l]? = some p → MayBe p m)

/-- `p`, at position `j`, is the last completely described cluster leader before position `i`. -/
def LastKnownLeader (t : List Proc) (i j : Nat) (p : Proc) : Prop :=
  j < i ∧ t[j]? = some p ∧ LeadsItself t j ∧ Complete p ∧
    ∀ (k : Nat) (q : Proc), j < k → k < i → t[k]? = some q → LeadsItself t k → ¬ Complete q

/-- A processor record apart from what identifies the core: MIDR, vendor, microarchitecture, maximum
frequency, and the marks that they are known. -/
def SameButIdentity (p q : Proc) : Prop :=
  q = { p with
    midr := q.midr
    vendor := q.vendor
    uarch := q.uarch
    maxFrequency := q.maxFrequency
    flags := q.flags } ∧
  ∀ k, k ≠ 2 → ¬ (16 ≤ k ∧ k ≤ 21) → q.flags.testBit k = p.flags.testBit k

/-- A processor record apart from what is read from its cpufreq and topology files: frequencies,
package id, and the marks that they are known. -/
def SameButMeasured (p q : Proc) : Prop :=
  q = { p with
    packageId := q.packageId
    minFrequency := q.minFrequency
    maxFrequency := q.maxFrequency
    flags := q.flags } ∧
  ∀ k, k ≠ 2 → k ≠ 3 → k ≠ 6 → q.flags.testBit k = p.flags.testBit k

end Verif.Spec
