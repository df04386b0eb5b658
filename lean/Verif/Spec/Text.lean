import Verif.Spec.CpuList

/-!
# What a multi-line file means
-/

set_option autoImplicit false

namespace Verif.Spec

/-- Join lines with newlines (byte 10); a file that ends with a newline has an empty last line. -/
def joinLines : List Bytes → Bytes
  | [] => []
  | [l] => l
  | l :: ls => l ++ 10 :: joinLines ls

/-- Hand lines to a handler in order, numbering them from `n`; stop at the first one rejected. -/
def runLines {σ : Type} (cb : σ → Bytes → Nat → σ × Bool) : σ → Nat → List Bytes → σ × Bool
  | s, _, [] => (s, true)
  | s, n, l :: ls =>
    let (s', k) := cb s l n
    if k then runLines cb s' (n + 1) ls else (s', false)

end Verif.Spec
