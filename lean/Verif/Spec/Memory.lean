import Verif.Model.Memory

/-!
# What good ownership means

Independent of how the functions go about it: a property of the memory after the function.
-/

set_option autoImplicit false

namespace Verif.Spec
open Memory

/-- The final state of a run. -/
abbrev final (nullOk : Bool) (o : Nat → Choice) (p : List Step) : Option St := run nullOk o p none start

/-- Nothing that was attempted failed. -/
def NoFailure (s : St) : Prop := ∀ e ∈ s.log, e.2 ≠ .fail

/-- After a failure nothing is allocated or published; after success exactly the published blocks are
allocated, and the global variables `tables` are among them; success is the absence of failures. -/
structure Balanced (tables : List Var) (s : St) : Prop where
  failed : s.flag = false → s.heap = [] ∧ s.globals = []
  kept : s.flag = true → ∀ b ∈ s.heap, b ∈ s.globals.map (·.2)
  alive : ∀ g ∈ s.globals, g.2 ∈ s.heap
  published : s.flag = true → ∀ v ∈ tables, v ∈ s.globals.map (·.1)
  success : s.flag = true ↔ NoFailure s

/-- The state without some blocks: those are known to be lost. -/
def without (lost : List Nat) (s : St) : St := { s with heap := s.heap.filter fun b => ¬ b ∈ lost }

/-- Neither published nor freed: a leak. -/
def Leaked (b : Nat) (s : St) : Prop := b ∈ s.heap ∧ b ∉ s.globals.map (·.2)

/-- Every site of a function has a number of its own, so that the environment is free at each. -/
def DistinctSites (p : List Step) : Prop := (p.filterMap Step.site).Nodup

end Verif.Spec
