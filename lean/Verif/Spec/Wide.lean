import Verif.Base

/-!
# Texts as code points: UTF-16 and how UTF-8 is read

Stated independently of the conversion in `Model.Wide`: `utf16` is how Windows stores a character, and
`readUtf8` is how a user of the library reads the bytes of a name.
-/

set_option autoImplicit false

namespace Verif.Spec

/-- A Unicode scalar value: a code point that is not a surrogate. -/
def Scalar (c : Nat) : Prop := c < 0xD800 ∨ (0xE000 ≤ c ∧ c < 0x110000)

instance (c : Nat) : Decidable (Scalar c) := by unfold Scalar; infer_instance

/-- UTF-16 of a character. -/
def utf16 (c : Nat) : List Nat :=
  if c < 0x10000 then [c] else [0xD800 + (c - 0x10000) / 0x400, 0xDC00 + (c - 0x10000) % 0x400]

/-- A continuation byte of UTF-8, and its six bits. -/
def contBits (b : Nat) : Option Nat := if 0x80 ≤ b ∧ b < 0xC0 then some (b - 0x80) else none

/-- Read UTF-8 bytes as characters; `none` if they are not UTF-8. -/
def readUtf8 : Bytes → Option (List Nat)
  | [] => some []
  | a :: rest =>
    if a < 0x80 then (readUtf8 rest).map (a :: ·)
    else
      match rest with
      | [] => none
      | b :: rest =>
        match contBits b with
        | none => none
        | some b =>
          if 0xC0 ≤ a ∧ a < 0xE0 then (readUtf8 rest).map (((a - 0xC0) * 64 + b) :: ·)
          else
            match rest with
            | [] => none
            | c :: rest =>
              match contBits c with
              | none => none
              | some c =>
                if 0xE0 ≤ a ∧ a < 0xF0 then (readUtf8 rest).map ((((a - 0xE0) * 64 + b) * 64 + c) :: ·)
                else
                  match rest with
                  | [] => none
                  | d :: rest =>
                    match contBits d with
                    | none => none
                    | some d =>
                      if 0xF0 ≤ a ∧ a < 0xF8 then
                        (readUtf8 rest).map (((((a - 0xF0) * 64 + b) * 64 + c) * 64 + d) :: ·)
                      else none

/-- The number of bytes of a character in UTF-8. -/
def utf8Bytes (c : Nat) : Nat :=
  if c < 0x80 then 1 else if c < 0x800 then 2 else if c < 0x10000 then 3 else 4

end Verif.Spec
