import Verif.Model.Once

/-! Vocabulary for the statements about initialization and queries. -/

set_option autoImplicit false

namespace Verif.Spec

open Verif.Api

/-- An assignment that leaves `cpuinfo_is_initialized` alone. -/
def KeepsFlag {E : Kind → Type} (s : Store E) : Prop :=
  ∀ g : Globals E, (s.apply g).isInitialized = g.isInitialized

/-- A commit block: nothing at all, or assignments to other variables and then, as the very last
one, the assignment to `cpuinfo_is_initialized`. -/
def FlagLast {E : Kind → Type} (c : List (Store E)) : Prop :=
  c = [] ∨ ∃ (body : List (Store E)) (v : Bool), (∀ s ∈ body, KeepsFlag s) ∧ c = body ++ [.flag v]

/-- The published counts describe the published tables: a table of `n` elements stands behind every
counter `n`, except that the pointer may be null where the counter is zero. -/
def CountsMatch {E : Kind → Type} (g : Globals E) (k : Kind) : Prop :=
  (g.table k = none ∧ g.count k = 0) ∨ ∃ t : List (E k), g.table k = some t ∧ t.length = g.count k

/-- `t` can be got from the beginning of the process. -/
def Reachable {E : Kind → Type} (b : Build) (Outcome : List (Store E) → Prop) (u : E .uarch)
    (w : Once.World E) : Prop :=
  Once.Steps b Outcome (.initial u) w

end Verif.Spec
