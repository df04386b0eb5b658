import Verif.Spec.Ranges

/-!
# Tables that describe each other
-/

set_option autoImplicit false

namespace Verif.Spec

/-- The elements `es` divide the elements `ps` between them: their ranges follow each other without
gaps from the first to the last of `ps`, and the link of every element of `ps` leads to the element
of `es` whose range it is in. -/
def Divides {α β : Type} (ps : List α) (es : List β) (link : α → Option Nat)
    (start count : β → Nat) : Prop :=
  Consecutive 0 (es.map fun e => (start e, count e)) ps.length ∧
  ∀ i p, ps[i]? = some p →
    ∃ k e, link p = some k ∧ es[k]? = some e ∧ InRange (start e) (count e) i

end Verif.Spec
