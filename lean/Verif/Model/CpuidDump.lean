import Verif.Model.X86Processor

/-!
# Model of tools/cpuid-dump.c, scripts/parse-x86-cpuid-dump.py and src/x86/mockcpuid.c

A developer runs `cpuid-dump` on a machine, turns its output into a table with the script, and gives
the table to the mock build of the library.

Simplifications:
* `printf` writes what the C standard says for `%08X`, `%02X`, `%.12s` and `%.16s`.
* The script reads bytes; which bytes end a line for `str.splitlines` is a parameter (it depends on
  the version of Python).  Only ASCII digits count for `\d`.
* `CPUID` gives the same answers in all executions, except leaf 2.
-/

set_option autoImplicit false

namespace Verif.CpuidDump
open X86Cpuid (Regs Cpuid regBytes)

/-! ## tools/cpuid-dump.c -/

/-- A line of the output, by the function that prints it. -/
inductive Item
  | plain (eax : Nat) (regs : Regs)           -- `print_cpuid`, tools/cpuid-dump.c:8-15
  | sub (eax ecx : Nat) (regs : Regs)         -- `print_cpuidex`, 17-25
  | vendor (eax : Nat) (regs : Regs)          -- `print_cpuid_vendor`, 27-43
  | brand (eax : Nat) (regs : Regs)           -- `print_cpuid_brand_string`, 45-58
deriving DecidableEq, Repr

/-- A digit of `%X`. -/
def upDigit (d : Nat) : Byte := if d < 10 then 48 + d else 55 + d

/-- `%08X` of a `uint32_t`. -/
def hexUp8 (n : Nat) : Bytes :=
  [n / 0x10000000 % 16, n / 0x1000000 % 16, n / 0x100000 % 16, n / 0x10000 % 16, n / 0x1000 % 16,
   n / 0x100 % 16, n / 16 % 16, n % 16].map upDigit

/-- `%02X` of a `uint32_t`. -/
def hexUp2 (n : Nat) : Bytes :=
  if n < 256 then [n / 16, n % 16].map upDigit else (hexUp8 n).dropWhile (· == 48)

/-- The part that all lines have in common, tools/cpuid-dump.c:9-14. -/
def lineHead (eax : Nat) (r : Regs) : Bytes :=
  b!"CPUID " ++ hexUp8 eax ++ b!": " ++ hexUp8 r.eax ++ b!"-" ++ hexUp8 r.ebx ++ b!"-" ++
    hexUp8 r.ecx ++ b!"-" ++ hexUp8 r.edx

/-- What `%.12s` prints of `vendor_id`, tools/cpuid-dump.c:29-39. -/
def vendorText (r : Regs) : Bytes :=
  (regBytes r.ebx ++ regBytes r.edx ++ regBytes r.ecx).takeWhile (· != 0)

/-- What `%.16s` prints of `brand_string`, tools/cpuid-dump.c:46-58. -/
def brandText (r : Regs) : Bytes :=
  (regBytes r.eax ++ regBytes r.ebx ++ regBytes r.ecx ++ regBytes r.edx).takeWhile (· != 0)

/-- The text of a line with its newline, tools/cpuid-dump.c:8-58. -/
def Item.text : Item → Bytes
  | .plain eax r => lineHead eax r ++ [10]
  | .sub eax ecx r => lineHead eax r ++ b!" [SL " ++ hexUp2 ecx ++ b!"]" ++ [10]
  | .vendor eax r =>
    if r.ebx ||| r.ecx ||| r.edx ≠ 0 then lineHead eax r ++ b!" [" ++ vendorText r ++ b!"]" ++ [10]
    else lineHead eax r ++ [10]
  | .brand eax r => lineHead eax r ++ b!" [" ++ brandText r ++ b!"]" ++ [10]

/-- A loop `for (ecx = 0;; ecx++)` over sub-leaves that breaks when `stop` holds,
tools/cpuid-dump.c:70-76, 89-95, 99-105; `none` when it has not ended after `fuel` rounds. -/
def listLoop (stop : Nat → Regs → Bool) (leaf : Nat) (sub : Nat → Regs) :
    (fuel ecx : Nat) → Option (List Item)
  | 0, _ => none
  | fuel + 1, ecx =>
    if stop ecx (sub ecx) then some []
    else (listLoop stop leaf sub fuel ((ecx + 1) % U32)).map (Item.sub leaf ecx (sub ecx) :: ·)

/-- A loop `for (ecx = 0; ecx <= max; ecx++)` that reads `max` from sub-leaf 0,
tools/cpuid-dump.c:79-86, 109-115, 118-124, 127-133: the lines and the last value of the variable. -/
def countLoop (leaf : Nat) (sub : Nat → Regs) : (fuel ecx max : Nat) → Option (List Item × Nat)
  | 0, _, _ => none
  | fuel + 1, ecx, max =>
    if ecx ≤ max then
      let max := if ecx = 0 then (sub ecx).eax else max
      (countLoop leaf sub fuel ((ecx + 1) % U32) max).map fun r =>
        (Item.sub leaf ecx (sub ecx) :: r.1, r.2)
    else some ([], max)

/-- The variables of `main`, tools/cpuid-dump.c:62-63. -/
structure Vars where
  maxStructured : Nat
  maxTrace : Nat
  maxSocid : Nat
  hasSgx : Bool

/-- Leaf 4 ends at a sub-leaf without a cache type, tools/cpuid-dump.c:72. -/
def stop4 (_ecx : Nat) (r : Regs) : Bool := r.eax &&& 0x1F == 0
/-- Leaf 0xB ends at a sub-leaf without a level type, tools/cpuid-dump.c:91. -/
def stopB (_ecx : Nat) (r : Regs) : Bool := r.ecx &&& 0xFF00 == 0
/-- Leaf 0x12 ends at a sub-leaf from 2 on without a type, tools/cpuid-dump.c:101. -/
def stop12 (ecx : Nat) (r : Regs) : Bool := decide (ecx ≥ 2) && r.eax &&& 0xF == 0

/-- The `switch` in the loop over the basic leaves, tools/cpuid-dump.c:65-138. -/
def baseLeaf (c : Cpuid) (fuel : Nat) (v : Vars) (eax : Nat) : Option (List Item × Vars) :=
  if eax = 0x0 then some ([.vendor eax (c.leaf eax)], v)
  else if eax = 0x4 then (listLoop stop4 eax (c.sub eax) fuel 0).map fun l => (l, v)
  else if eax = 0x7 then
    (countLoop eax (c.sub eax) fuel 0 v.maxStructured).map fun r =>
      (r.1, { v with maxStructured := r.2, hasSgx := (c.sub eax 0).ebx &&& 0x4 != 0 })
  else if eax = 0xB then (listLoop stopB eax (c.sub eax) fuel 0).map fun l => (l, v)
  else if eax = 0x12 then
    if v.hasSgx then (listLoop stop12 eax (c.sub eax) fuel 0).map fun l => (l, v)
    else some ([], v)
  else if eax = 0x14 then
    (countLoop eax (c.sub eax) fuel 0 v.maxTrace).map fun r => (r.1, { v with maxTrace := r.2 })
  else if eax = 0x17 then
    (countLoop eax (c.sub eax) fuel 0 v.maxSocid).map fun r => (r.1, { v with maxSocid := r.2 })
  else if eax = 0x24 then
    (countLoop eax (c.sub eax) fuel 0 v.maxSocid).map fun r => (r.1, { v with maxSocid := r.2 })
  else some ([.plain eax (c.sub eax 0)], v)

/-- The loop over the basic leaves, tools/cpuid-dump.c:64-139; `inner` is the fuel of the loops over
sub-leaves. -/
def baseLoop (c : Cpuid) (inner : Nat) : (fuel eax : Nat) → Vars → Option (List Item)
  | 0, _, _ => none
  | fuel + 1, eax, v =>
    if eax ≤ (c.leaf 0).eax then
      match baseLeaf c inner v eax with
      | none => none
      | some (l, v) => (baseLoop c inner fuel ((eax + 1) % U32) v).map (l ++ ·)
    else some []

/-- The `switch` in the loop over the extended leaves, tools/cpuid-dump.c:143-154. -/
def extLeaf (c : Cpuid) (eax : Nat) : Item :=
  if eax = 0x80000000 then .vendor eax (c.leaf eax)
  else if eax = 0x80000002 ∨ eax = 0x80000003 ∨ eax = 0x80000004 then .brand eax (c.leaf eax)
  else .plain eax (c.sub eax 0)

/-- The loop over the extended leaves, tools/cpuid-dump.c:142-155. -/
def extLoop (c : Cpuid) : (fuel eax : Nat) → Option (List Item)
  | 0, _ => none
  | fuel + 1, eax =>
    if eax ≤ (c.leaf 0x80000000).eax then
      (extLoop c fuel ((eax + 1) % U32)).map (extLeaf c eax :: ·)
    else some []

/-- `main` of tools/cpuid-dump.c:60-156; `none` when it has not ended after `fuel` rounds of a
loop. -/
def dump (c : Cpuid) (fuel : Nat) : Option (List Item) :=
  match baseLoop c fuel fuel 0 ⟨0, 0, 0, false⟩, extLoop c fuel 0x80000000 with
  | some a, some b => some (a ++ b)
  | _, _ => none

/-- The output of the tool. -/
def output (l : List Item) : Bytes := l.flatMap Item.text

/-! ## scripts/parse-x86-cpuid-dump.py and src/x86/mockcpuid.c -/

/-- `struct cpuinfo_mock_cpuid`, include/cpuinfo-mock.h:26-33. -/
structure Entry where
  inEax : Nat
  inEcx : Nat
  regs : Regs
deriving DecidableEq, Repr

/-- `[\dA-F]`, scripts/parse-x86-cpuid-dump.py:20. -/
def isHexUp (c : Byte) : Bool := (decide (48 ≤ c) && decide (c ≤ 57)) || (decide (65 ≤ c) && decide (c ≤ 70))

/-- Value of a digit in `int(…, 16)`, scripts/parse-x86-cpuid-dump.py:22. -/
def hexUpValue (c : Byte) : Nat := if c ≤ 57 then c - 48 else c - 55

/-- `([\dA-F]{8})` at the start of `s`: the number and what follows. -/
def readHex8 (s : Bytes) : Option (Nat × Bytes) :=
  if (s.take 8).length = 8 ∧ (s.take 8).all isHexUp = true then
    some ((s.take 8).foldl (fun n c => n * 16 + hexUpValue c) 0, s.drop 8)
  else none

/-- A fixed text at the start of `s`: what follows. -/
def readText (t s : Bytes) : Option Bytes :=
  if t.isPrefixOf s then some (s.drop t.length) else none

/-- White space for `str.strip`. -/
def isSpace (c : Byte) : Bool := c == 32 || (decide (9 ≤ c) && decide (c ≤ 13))

/-- `\[SL (\d{2})\]` behind the registers, scripts/parse-x86-cpuid-dump.py:23-27: the sub-leaf; the
field `input_ecx` is left out, and hence zero, where the expression does not match. -/
def subLeaf (s : Bytes) : Nat :=
  match readText b!"[SL " (s.dropWhile isSpace) with
  | some (a :: b :: c :: _) =>
    if (48 ≤ a ∧ a ≤ 57) ∧ (48 ≤ b ∧ b ≤ 57) ∧ c = 93 then (a - 48) * 16 + (b - 48) else 0
  | _ => 0

/-- One line, scripts/parse-x86-cpuid-dump.py:20-28. -/
def parseLine (s : Bytes) : Option Entry := do
  let s ← readText b!"CPUID " s
  let (inEax, s) ← readHex8 s
  let s ← readText b!": " s
  let (eax, s) ← readHex8 s
  let s ← readText b!"-" s
  let (ebx, s) ← readHex8 s
  let s ← readText b!"-" s
  let (ecx, s) ← readHex8 s
  let s ← readText b!"-" s
  let (edx, s) ← readHex8 s
  return ⟨inEax, subLeaf s, ⟨eax, ebx, ecx, edx⟩⟩

/-- `splitlines`, scripts/parse-x86-cpuid-dump.py:19; `sep` are the bytes that end a line. -/
def splitLines (sep : Byte → Bool) : Bytes → List Bytes
  | [] => [[]]
  | c :: s =>
    if sep c then [] :: splitLines sep s
    else
      match splitLines sep s with
      | [] => [[c]]
      | l :: ls => (c :: l) :: ls

/-- The table that the script writes, scripts/parse-x86-cpuid-dump.py:18-42. -/
def script (sep : Byte → Bool) (text : Bytes) : List Entry :=
  (splitLines sep text).filterMap parseLine

/-- The search for leaf 4 in `cpuinfo_mock_get_cpuid`, src/x86/mockcpuid.c:26-38. -/
def mockSkip : List Entry → (skip : Nat) → Option Regs
  | [], _ => none
  | e :: es, skip =>
    if e.inEax = 4 then
      if skip = 0 then some e.regs else mockSkip es (skip - 1)
    else mockSkip es skip

/-- `cpuinfo_mock_get_cpuid`, src/x86/mockcpuid.c:19-52: the registers and the new value of
`cpuinfo_mock_cpuid_leaf4_iteration`. -/
def mockCpuid (data : List Entry) (iteration eax : Nat) : Regs × Nat :=
  if eax = 4 then
    match mockSkip data iteration with
    | some r => (r, (iteration + 1) % U32)
    | none => (⟨0, 0, 0, 0⟩, iteration)
  else
    match data.find? fun e => e.inEax == eax with
    | some e => (e.regs, 0)
    | none => (⟨0, 0, 0, 0⟩, 0)

/-- `cpuinfo_mock_get_cpuidex`, src/x86/mockcpuid.c:54-69. -/
def mockCpuidex (data : List Entry) (eax ecx : Nat) : Regs :=
  match data.find? fun e => e.inEax == eax && e.inEcx == ecx with
  | some e => e.regs
  | none => ⟨0, 0, 0, 0⟩

/-- The CPUID answers that detection gets after `cpuinfo_mock_set_cpuid(data, entries)`,
src/x86/mockcpuid.c:14-17 and src/x86/cpuid.h:16-25, 42-51.  Detection never calls `cpuid(4)`, so the
iteration counter stays zero. -/
def mocked (data : List Entry) : Cpuid :=
  let data := data.take (data.length % U32)
  { leaf := fun n => (mockCpuid data 0 n).1
    sub := mockCpuidex data
    leaf2 := fun _ => (mockCpuid data 0 2).1 }

end Verif.CpuidDump
