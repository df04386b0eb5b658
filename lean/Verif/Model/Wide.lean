import Verif.Base

/-!
# Model of the conversion of the chip name on ARM Windows

Texts of Windows are lists of 16-bit units (UTF-16), without the terminating zero.  `wideToUtf8` stands for
`WideCharToMultiByte` with `CP_UTF8` and `WC_ERR_INVALID_CHARS`, a function of Windows: it is modelled after
its documentation and is part of the trusted base.
-/

set_option autoImplicit false

namespace Verif.Wide

/-- UTF-8 of a code point below 0x110000 (RFC 3629). -/
def utf8 (c : Nat) : Bytes :=
  if c < 0x80 then [c]
  else if c < 0x800 then [0xC0 + c / 0x40, 0x80 + c % 0x40]
  else if c < 0x10000 then [0xE0 + c / 0x1000, 0x80 + c / 0x40 % 0x40, 0x80 + c % 0x40]
  else [0xF0 + c / 0x40000, 0x80 + c / 0x1000 % 0x40, 0x80 + c / 0x40 % 0x40, 0x80 + c % 0x40]

/-- The conversion of a text; `none`: a surrogate without its partner. -/
def wideToUtf8 : List Nat → Option Bytes
  | [] => some []
  | [u] => if u < 0xD800 ∨ 0xDFFF < u then some (utf8 u) else none
  | u :: l :: rest =>
    if u < 0xD800 ∨ 0xDFFF < u then (wideToUtf8 (l :: rest)).map (utf8 u ++ ·)
    else if u < 0xDC00 ∧ 0xDC00 ≤ l ∧ l ≤ 0xDFFF then
      (wideToUtf8 rest).map (utf8 (0x10000 + (u - 0xD800) * 0x400 + (l - 0xDC00)) ++ ·)
    else none

/-- `CPUINFO_PACKAGE_NAME_MAX`, include/cpuinfo.h:709. -/
def packageNameMax : Nat := 48

/-- The call of `WideCharToMultiByte`, src/arm/windows/init-by-logical-sys-info.c:846-857: it fails
(`none`) for a null pointer, for a text that is not UTF-16, and if the bytes and a zero do not fit. -/
def convertName (name : Option (List Nat)) : Option Bytes :=
  match name with
  | none => none
  | some w =>
    match wideToUtf8 w with
    | none => none
    | some bytes => if bytes.length + 1 ≤ packageNameMax then some bytes else none

/-- `wcsndup`, src/arm/windows/init.c:109-117. -/
def wcsndup (alloc : Bool) (src : List Nat) (n : Nat) : Option (List Nat) :=
  if alloc then some ((src.takeWhile (· ≠ 0)).take n) else none

end Verif.Wide
