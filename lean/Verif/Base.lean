/-!
# Common ground: bytes, byte-string literals, 32-bit wrap-around

C `char` data is modelled as a list of natural numbers.  Real data only contains
values 0..255; theorems quantify over all naturals, which includes them.
-/

set_option autoImplicit false

namespace Verif

/-- A C `char`/`uint8_t` value.  Simplification: any natural number; real bytes are < 256. -/
notation "Byte" => Nat

/-- A byte string (contents of a file, of a buffer, of an entry …). -/
notation "Bytes" => List Nat

/-- `2^32`, the modulus of `uint32_t` arithmetic. -/
notation "U32" => (4294967296 : Nat)

/-- `UINT32_MAX`. -/
notation "U32MAX" => (4294967295 : Nat)

open Lean in
/-- `b!"abc"` is the list of character codes of an ASCII literal. -/
macro:max "b!" s:str : term => do
  let elems ← s.getString.toList.toArray.mapM fun c =>
    `(($(Syntax.mkNumLit (toString c.toNat)) : Byte))
  `(([$elems,*] : Bytes))

end Verif
