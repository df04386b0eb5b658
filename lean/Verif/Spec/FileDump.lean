import Verif.Spec.Mock

/-!
# What the C header of a dumped file system means

The part of C that such a header needs: white space, words, decimal numbers, string literals with the
escape sequences `\\`, `\"`, `\t`, `\n`, `\r` and octal ones, and eight punctuators.  Everything else makes
the header `none`.  Trigraphs, which compilers replace only in the strict modes before C23 and C++17, are
left as they are.
-/

set_option autoImplicit false

namespace Verif.FileDump

/-- A token of C. -/
inductive Token
  | word (w : Bytes)
  | number (n : Nat)
  | string (s : Bytes)
  | punct (c : Byte)
deriving DecidableEq, Repr

/-- Where in a token the reader is.  `octal s v k` is inside a string literal that has the bytes `s` so far,
after a backslash and `k` octal digits of value `v`. -/
inductive Mode
  | outside
  | word (w : Bytes)
  | number (n : Nat)
  | string (s : Bytes)
  | escape (s : Bytes)
  | octal (s : Bytes) (v k : Nat)
  | bad
deriving DecidableEq, Repr

def isDigit (c : Byte) : Bool := Nat.ble 48 c && Nat.ble c 57

def isOctal (c : Byte) : Bool := Nat.ble 48 c && Nat.ble c 55

def isLetter (c : Byte) : Bool :=
  (Nat.ble 65 c && Nat.ble c 90) || (Nat.ble 97 c && Nat.ble c 122) || Nat.beq c 95

/-- The tokens before the place of the reader, and its mode. -/
abbrev Reader := List Token × Mode

/-- The first byte of a token, or white space. -/
def begin (ts : List Token) (c : Byte) : Reader :=
  if c = 32 ∨ c = 9 ∨ c = 10 then (ts, .outside)
  else if isLetter c then (ts, .word [c])
  else if isDigit c then (ts, .number (c - 48))
  else if c = 34 then (ts, .string [])
  else if c ∈ b!"{}[]=,;." then (ts ++ [.punct c], .outside)
  else (ts, .bad)

/-- A byte of a string literal that has the bytes `s` so far. -/
def inString (ts : List Token) (s : Bytes) (c : Byte) : Reader :=
  if c = 34 then (ts ++ [.string s], .outside)
  else if c = 92 then (ts, .escape s)
  else if c = 10 then (ts, .bad)
  else (ts, .string (s ++ [c]))

/-- One byte. -/
def step : Reader → Byte → Reader
  | (ts, .outside), c => begin ts c
  | (ts, .word w), c =>
    if isLetter c || isDigit c then (ts, .word (w ++ [c])) else begin (ts ++ [.word w]) c
  | (ts, .number n), c =>
    if isDigit c then if n = 0 then (ts, .bad) else (ts, .number (10 * n + (c - 48)))
    else if isLetter c then (ts, .bad)
    else begin (ts ++ [.number n]) c
  | (ts, .string s), c => inString ts s c
  | (ts, .escape s), c =>
    if isOctal c then (ts, .octal s (c - 48) 1)
    else if c = 92 ∨ c = 34 then (ts, .string (s ++ [c]))
    else if c = 116 then (ts, .string (s ++ [9]))
    else if c = 110 then (ts, .string (s ++ [10]))
    else if c = 114 then (ts, .string (s ++ [13]))
    else (ts, .bad)
  | (ts, .octal s v k), c =>
    if isOctal c && Nat.blt k 3 then (ts, .octal s (8 * v + (c - 48)) (k + 1))
    else if v < 256 then inString ts (s ++ [v]) c
    else (ts, .bad)
  | (ts, .bad), _ => (ts, .bad)

/-- The tokens of a text that ends between two tokens. -/
def tokens (text : Bytes) : Option (List Token) :=
  match text.foldl step ([], .outside) with
  | (ts, .outside) => some ts
  | _ => none

/-- Adjacent string literals are one. -/
def glue : List Token → List Token
  | [] => []
  | .string a :: r =>
    match glue r with
    | .string b :: r' => .string (a ++ b) :: r'
    | r' => .string a :: r'
  | t :: r => t :: glue r

/-- The initialisers `{ .path = …, .size = …, .content = …, }` up to `{ NULL }`: path, size and content. -/
def initialisers : List Token → Option (List (Bytes × Nat × Bytes))
  | [.punct 123, .word w, .punct 125, .punct 44, .punct 125, .punct 59] =>
    if w = b!"NULL" then some [] else none
  | .punct 123 :: .punct 46 :: .word w₁ :: .punct 61 :: .string path :: .punct 44 ::
      .punct 46 :: .word w₂ :: .punct 61 :: .number size :: .punct 44 ::
      .punct 46 :: .word w₃ :: .punct 61 :: .string content :: .punct 44 ::
      .punct 125 :: .punct 44 :: rest =>
    if w₁ = b!"path" ∧ w₂ = b!"size" ∧ w₃ = b!"content" then
      (initialisers rest).map fun l => (path, size, content) :: l
    else none
  | _ => none

/-- The definition of the array `filesystem`. -/
def definition : List Token → Option (List (Bytes × Nat × Bytes))
  | .word w₁ :: .word w₂ :: .word w₃ :: .punct 91 :: .punct 93 :: .punct 61 :: .punct 123 :: rest =>
    if w₁ = b!"struct" ∧ w₂ = b!"cpuinfo_mock_file" ∧ w₃ = b!"filesystem" then initialisers rest else none
  | _ => none

/-- The file of an initialiser: the path ends at a zero byte, and the content are the first bytes of the
literal and of the zero byte behind it; `none` if there are fewer of them than the size says. -/
def fileOf : Bytes × Nat × Bytes → Option Mock.File
  | (path, size, literal) =>
    if size ≤ literal.length + 1 then
      some ⟨path.takeWhile (· ≠ 0), (literal ++ [0]).take size, 0⟩
    else none

/-- The mock file system that a header defines. -/
def mockFiles (text : Bytes) : Option Mock.FS :=
  (tokens text).bind fun ts => (definition (glue ts)).bind fun l => l.mapM fileOf

/-- Bytes that the script writes as themselves or with an escape sequence. -/
def Plain (c : Byte) : Prop := c = 0 ∨ c = 9 ∨ c = 10 ∨ c = 13 ∨ (32 ≤ c ∧ c < 127)

/-- No zero byte comes before an octal digit, which would belong to its escape sequence. -/
def NoDigitAfterZero (content : Bytes) : Prop :=
  ∀ (a b : Bytes) (d : Byte), content = a ++ 0 :: d :: b → ¬(48 ≤ d ∧ d ≤ 55)

end Verif.FileDump
