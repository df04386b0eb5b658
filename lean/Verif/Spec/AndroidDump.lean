import Verif.Spec.FileDump

/-!
# What getprop prints, and what an array of mock properties means
-/

set_option autoImplicit false

namespace Verif.AndroidDump
open FileDump

/-- What getprop of Android prints: a line `[key]: [value]` for each property. -/
def getpropText (props : List (Bytes × Bytes)) : Bytes :=
  props.flatMap fun p => b!"[" ++ p.1 ++ b!"]: [" ++ p.2 ++ b!"]\n"

/-- The initialisers `{ .key = …, .value = …, }` up to `{ NULL }`; the texts end at a zero byte. -/
def propertyInitialisers : List Token → Option (List (Bytes × Bytes))
  | [.punct 123, .word w, .punct 125, .punct 44, .punct 125, .punct 59] =>
    if w = b!"NULL" then some [] else none
  | .punct 123 :: .punct 46 :: .word w₁ :: .punct 61 :: .string key :: .punct 44 ::
      .punct 46 :: .word w₂ :: .punct 61 :: .string value :: .punct 44 ::
      .punct 125 :: .punct 44 :: rest =>
    if w₁ = b!"key" ∧ w₂ = b!"value" then
      (propertyInitialisers rest).map fun l => (key.takeWhile (· ≠ 0), value.takeWhile (· ≠ 0)) :: l
    else none
  | _ => none

/-- The definition of the array `properties`. -/
def propertyDefinition : List Token → Option (List (Bytes × Bytes))
  | .word w₁ :: .word w₂ :: .word w₃ :: .punct 91 :: .punct 93 :: .punct 61 :: .punct 123 :: rest =>
    if w₁ = b!"struct" ∧ w₂ = b!"cpuinfo_mock_property" ∧ w₃ = b!"properties" then
      propertyInitialisers rest
    else none
  | _ => none

/-- The mock properties that an array defines. -/
def mockProperties (text : Bytes) : Option (List (Bytes × Bytes)) :=
  (tokens text).bind fun ts => propertyDefinition (glue ts)

end Verif.AndroidDump
