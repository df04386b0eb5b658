import Verif.Base

/-!
# What a Main ID Register means
-/

set_option autoImplicit false

namespace Verif.Spec

/-- The five fields of the register, from the Arm Architecture Reference Manual. -/
structure Midr where
  implementer : Nat
  variant : Nat
  architecture : Nat
  part : Nat
  revision : Nat
deriving DecidableEq, Repr

/-- Every field within its width: 8, 4, 4, 12 and 4 bits. -/
def Midr.Ok (m : Midr) : Prop :=
  m.implementer < 256 ∧ m.variant < 16 ∧ m.architecture < 16 ∧ m.part < 4096 ∧ m.revision < 16

/-- The register with these fields. -/
def Midr.word (m : Midr) : Nat :=
  m.implementer * 16777216 + m.variant * 1048576 + m.architecture * 65536 + m.part * 16 +
    m.revision

/-- The fields of a register. -/
def Midr.of (x : Nat) : Midr :=
  { implementer := x / 16777216, variant := x / 1048576 % 16, architecture := x / 65536 % 16,
    part := x / 16 % 4096, revision := x % 16 }

end Verif.Spec
