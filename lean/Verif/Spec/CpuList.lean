import Verif.Base

/-!
# What a CPU list means

Independent of the model: a relational grammar for entries, and the printing function of the
kernel's `%*pbl` format.
-/

set_option autoImplicit false

namespace Verif.Spec

/-- Two lists of the same length, related element by element. -/
inductive Forall2 {α β : Type} (R : α → β → Prop) : List α → List β → Prop
  | nil : Forall2 R [] []
  | cons {a b as bs} : R a b → Forall2 R as bs → Forall2 R (a :: as) (b :: bs)

/-- Space, tab, newline, carriage return. -/
def IsBlank (c : Byte) : Prop := c = 32 ∨ c = 9 ∨ c = 10 ∨ c = 13

/-- '0'..'9'. -/
def IsDigit (c : Byte) : Prop := 48 ≤ c ∧ c ≤ 57

/-- The number denoted by a string of decimal digits. -/
def decimal (ds : Bytes) : Nat := ds.foldl (fun n d => n * 10 + (d - 48)) 0

/-- A non-empty string of decimal digits. -/
def IsNumeral (ds : Bytes) : Prop := ds ≠ [] ∧ ∀ d ∈ ds, IsDigit d

/-- `body` is a number or a range `number-number` (possibly followed by ignored junk); it denotes
the processors `a..b` inclusive.  Numbers are taken modulo 2^32. -/
inductive BodyDenotes : Bytes → Nat → Nat → Prop
  | single (ds : Bytes) (h : IsNumeral ds) : BodyDenotes ds (decimal ds % U32) (decimal ds % U32)
  | range (ds₁ ds₂ junk : Bytes) (h₁ : IsNumeral ds₁) (h₂ : IsNumeral ds₂)
      (hj : ∀ c, junk.head? = some c → ¬ IsDigit c)
      (hle : decimal ds₁ % U32 ≤ decimal ds₂ % U32) :
      BodyDenotes (ds₁ ++ 45 :: (ds₂ ++ junk)) (decimal ds₁ % U32) (decimal ds₂ % U32)

/-- An entry denotes `a..b` when, after stripping blanks on both sides, its body does. -/
def EntryDenotes (entry : Bytes) (a b : Nat) : Prop :=
  ∃ pre body post, entry = pre ++ body ++ post ∧ (∀ c ∈ pre, IsBlank c) ∧ (∀ c ∈ post, IsBlank c) ∧
    (∀ c, body.head? = some c → ¬ IsBlank c) ∧ (∀ c, body.getLast? = some c → ¬ IsBlank c) ∧
    BodyDenotes body a b

/-- The meaning of an entry: the range it denotes, or `none` for a malformed entry. -/
def EntryMeaning (entry : Bytes) : Option (Nat × Nat) → Prop
  | some (a, b) => EntryDenotes entry a b
  | none => ∀ a b, ¬ EntryDenotes entry a b

/-- Join entries with commas (byte 44). -/
def joinComma : List Bytes → Bytes
  | [] => []
  | [e] => e
  | e :: es => e ++ 44 :: joinComma es

/-- Decimal digits of a number, without leading zeros ("0" for zero). -/
def printNat (n : Nat) : Bytes :=
  if h : n < 10 then [48 + n] else printNat (n / 10) ++ [48 + n % 10]
termination_by n

/-- How the kernel prints the range `a..b`. -/
def printRange (r : Nat × Nat) : Bytes :=
  if r.1 = r.2 then printNat r.1 else printNat r.1 ++ 45 :: printNat r.2

/-- How the kernel prints a whole list: ranges joined by commas, then a newline. -/
def printCpuList (rs : List (Nat × Nat)) : Bytes := joinComma (rs.map printRange) ++ [10]

/-- Run a callback over the meanings of the entries in order.  The verdict is positive exactly
when all entries are well-formed and all callbacks accept. -/
def runEntries {σ : Type} (cb : σ → Nat → Nat → σ × Bool) : σ → List (Option (Nat × Nat)) → σ × Bool
  | s, [] => (s, true)
  | s, none :: rs => ((runEntries cb s rs).1, false)
  | s, some (a, b) :: rs =>
    let (s', k) := cb s a ((b + 1) % U32)
    ((runEntries cb s' rs).1, k && (runEntries cb s' rs).2)

end Verif.Spec
