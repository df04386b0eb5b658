import Verif.Base
import Verif.Model.X86Processor

/-!
# Model of src/x86/name.c: normalization of brand strings, package names

A pointer into the buffer `name` is its offset.  Reading or writing outside the buffer makes the
function `none`.
-/

set_option autoImplicit false

namespace Verif.X86Name
open X86Cpuid (Vendor Regs Cpuid Target)

/-- Reading `n` bytes from offset `s`. -/
def load (b : Bytes) (s n : Nat) : Option Bytes :=
  if s + n ≤ b.length then some ((b.drop s).take n) else none

/-- Writing the bytes `x` at offset `s`. -/
def store (b : Bytes) (s : Nat) (x : Bytes) : Option Bytes :=
  if s + x.length ≤ b.length then some (b.take s ++ x ++ b.drop (s + x.length)) else none

/-- `memset(s, ' ', n)`. -/
def blank (b : Bytes) (s n : Nat) : Option Bytes := store b s (List.replicate n 32)

/-- `struct parser_state`, src/x86/name.c:12-57. -/
structure NState where
  contextModel : Option Nat
  contextUpperLetter : Option Nat
  contextDual : Option Nat
  contextCore : Option Nat
  contextEngineering : Option Nat
  frequencySeparator : Option Nat
  frequencyToken : Bool
  xeon : Bool
  parsedModelNumber : Bool
  engineeringSample : Bool
deriving DecidableEq, Repr

/-- `{0}`, src/x86/name.c:595. -/
def NState.init : NState := ⟨none, none, none, none, none, none, false, false, false, false⟩

/-- `reset_context`, src/x86/name.c:61-66. -/
def resetContext (st : NState) : NState :=
  { st with contextModel := none, contextUpperLetter := none, contextDual := none,
            contextCore := none }

/-- `is_upper_letter`, src/x86/name.c:95-97; a character below 'A' gives a large difference. -/
def isUpperLetter (c : Byte) : Bool := 65 ≤ c && c ≤ 90

/-- `is_digit`, src/x86/name.c:105-107. -/
def isDigit (c : Byte) : Bool := 48 ≤ c && c ≤ 57

/-- `is_zero_number`, src/x86/name.c:109-116, on the characters of the token. -/
def isZeroNumber (t : Bytes) : Bool := t.all (· == 48)

/-- `is_space`, src/x86/name.c:118-125. -/
def isSpace (t : Bytes) : Bool := t.all (· == 32)

/-- `is_number`, src/x86/name.c:127-134. -/
def isNumber (t : Bytes) : Bool := t.all isDigit

/-- `is_model_number`, src/x86/name.c:136-143: two digits in a row. -/
def isModelNumber : Bytes → Bool
  | a :: b :: t => (isDigit a && isDigit b) || isModelNumber (b :: t)
  | _ => false

/-- `is_frequency`, src/x86/name.c:145-156; the characters are read from the end. -/
def isFrequency (t : Bytes) : Bool :=
  decide (t.length > 3) &&
    match t.reverse with
    | z :: h :: m :: _ => h == 72 && z == 122 && (m == 75 || m == 77 || m == 71)
    | _ => false

/-- The tests `if (erase_matching(token_start, token_length, word)) { ... return r; }` of
src/x86/name.c:216-503: the word, the value returned, whether `context_core` is set.  Words of one
length differ, so the order of the tests does not matter. -/
def eraseWords : List (Bytes × Bool × Bool) :=
  [(b!"w/", false, false),          -- 219
   (b!"CPU", true, false),          -- 241
   (b!"SOC", false, false),         -- 249
   (b!"AMD", true, false),          -- 258
   (b!"VIA", true, false),          -- 267
   (b!"IDT", true, false),          -- 272
   (b!"MMX", false, false),         -- 280
   (b!"APU", false, false),         -- 290
   (b!"Intel", true, false),        -- 338
   (b!"Cyrix", true, false),        -- 345
   (b!"Radeon", false, false),      -- 372
   (b!"RADEON", false, false),      -- 373
   (b!"family", true, false),       -- 388
   (b!"Genuine", true, false),      -- 406
   (b!"12-Core", true, false),      -- 413
   (b!"16-Core", true, false),      -- 420
   (b!"QuadCore", true, true),      -- 450
   (b!"Six-Core", true, true),      -- 457
   (b!"Processor", true, false),    -- 463
   (b!"processor", true, false),    -- 466
   (b!"Dual-Core", true, true),     -- 472
   (b!"Quad-Core", true, true),     -- 480
   (b!"Transmeta", true, false),    -- 488
   (b!"Eight-Core", true, true),    -- 497
   (b!"Triple-Core", true, true)]   -- 508

/-- The word in the table. -/
def findWord (t : Bytes) : List (Bytes × Bool × Bool) → Option (Bool × Bool)
  | [] => none
  | (w, r) :: l => if t = w then some r else findWord t l

/-- What a test of the switch does: return from `transform_token`, or go on after the switch. -/
inductive Step
  | ret (b : Bytes) (st : NState) (r : Bool)
  | goOn (st : NState)

/-- The tests of the switch other than `eraseWords` for tokens of three or more characters,
src/x86/name.c:298-519.  `t` is the token, which spans `ts` to `te`; `prev` is the state before
the token. -/
def longWords (b : Bytes) (t : Bytes) (ts te : Nat) (prev st : NState) : Option Step :=
  if t = b!"Eng" then some (.goOn { st with contextEngineering := some ts }) -- 298-300
  else if t = b!"Dual" then some (.goOn { st with contextDual := some ts }) -- 305-307
  else if t = b!"Xeon" then some (.goOn { st with xeon := true }) -- 309-311
  else if t = b!"Core" then -- 315-324
    match prev.contextDual with
    | some p => (blank b p (te - p)).map fun b' => .ret b' { st with contextCore := some te } true
    | none => some (.goOn st)
  else if t = b!"Geode" then some (.ret b st false) -- 354-356
  else if t = b!"model" then some (.ret b { st with contextModel := some ts } true) -- 359-362
  else if t = b!"Mobile" then -- 381-385
    match prev.contextCore with
    | some _ => (blank b ts t.length).map fun b' => .ret b' st true
    | none => some (.goOn st)
  else if t = b!"Sample" then -- 393-398
    match prev.contextEngineering with
    | some _ => some (.ret b { st with engineeringSample := true } false)
    | none => some (.goOn st)
  else if t = b!"unknown" then -- 425-432
    match prev.contextModel with
    | some p => (blank b p (te - p)).map fun b' => .ret b' st true
    | none => some (.goOn st)
  else if t = b!"Sample," ∨ t = b!"Sample:" then -- 439-445
    match prev.contextEngineering with
    | some _ => some (.ret b { st with engineeringSample := true } false)
    | none => some (.goOn st)
  else if t = b!"Engineering" then -- 516-519
    some (.ret b { st with contextEngineering := some ts } true)
  else some (.goOn st)

/-- The tests of the switch other than `eraseWords`, src/x86/name.c:202-520. -/
def specialWords (b : Bytes) (t : Bytes) (ts te : Nat) (prev st : NState) : Option Step :=
  match t with
  | [c] => -- 203-216
    if isUpperLetter c then some (.ret b { st with contextUpperLetter := some ts } true)
    else some (.goOn st)
  | [c, d] => -- 229-232
    if c == 86 && isDigit d then (store b ts [118]).map fun b' => .ret b' st true
    else some (.goOn st)
  | _ => longWords b t ts te prev st

/-- The switch on the length of the token, src/x86/name.c:201-521. -/
def switchWords (b : Bytes) (ts te : Nat) (prev st : NState) : Option Step :=
  match load b ts (te - ts) with
  | none => none
  | some t =>
    match findWord t eraseWords with
    | some (r, core) =>
      (blank b ts t.length).map fun b' =>
        .ret b' (if core then { st with contextCore := some te } else st) r
    | none => specialWords b t ts te prev st

/-- Merging a single letter with the number that follows, src/x86/name.c:532-562: the new buffer
and start of the token. -/
def mergeLetter (b : Bytes) (ts te : Nat) (prev : NState) : Option (Bytes × Nat) :=
  match prev.contextUpperLetter with
  | none => some (b, ts)
  | some p =>
    match load b ts (te - ts) with
    | none => none
    | some t =>
      if 2 ≤ t.length ∧ t.length ≤ 5 ∧ isNumber t = true then
        match b[p]? with
        | none => none
        | some letter =>
          match store b p [32] with
          | none => none
          | some b1 =>
            if ts = 0 then none
            else
              -- memmove reads after the letter has been erased
              match load b1 ts (te - ts) with
              | none => none
              | some t1 =>
                match store b1 (ts - 1) t1 with
                | none => none
                | some b2 => (store b2 (te - 1) [letter]).map fun b3 => (b3, ts - 1)
      else some (b, ts)

/-- The end of `transform_token`, src/x86/name.c:522-571. -/
def finishToken (b : Bytes) (ts te : Nat) (prev st : NState) : Option (Bytes × NState × Bool) :=
  match load b ts (te - ts) with
  | none => none
  | some t =>
    if isZeroNumber t then (blank b ts t.length).map fun b' => (b', st, true)
    else
      match mergeLetter b ts te prev with
      | none => none
      | some (b', ts') =>
        match load b' ts' (te - ts') with
        | none => none
        | some t' =>
          some (b',
            { st with
              parsedModelNumber := st.parsedModelNumber ||
                (st.frequencySeparator.isSome && isModelNumber t')
              frequencyToken := st.frequencyToken || isFrequency t' }, true)

/-- Blanking tokens after the frequency separator, src/x86/name.c:174-180. -/
def blankFrequency (b : Bytes) (ts te : Nat) (st : NState) : Option Bytes :=
  match st.frequencySeparator with
  | some sep => if ts > sep ∧ st.parsedModelNumber = true then blank b ts (te - ts) else some b
  | none => some b

/-- The suffix "tm", src/x86/name.c:186-194: the new buffer and end of the token. -/
def stripTm (b : Bytes) (ts te : Nat) : Option (Bytes × Nat) :=
  if te - ts > 2 then
    match load b (te - 3) 3 with
    | some [x, y, z] =>
      if (isDigit x || isUpperLetter x) && [y, z] == b!"tm" then
        (blank b (te - 2) 2).map fun b' => (b', te - 2)
      else some (b, te)
    | _ => none
  else some (b, te)

/-- The prefix "AMD-", src/x86/name.c:195-206: the new buffer and start of the token. -/
def stripAmd (b : Bytes) (ts te : Nat) : Option (Bytes × Nat) :=
  if te - ts > 4 then
    match load b ts 4 with
    | some x => if x = b!"AMD-" then (blank b ts 4).map fun b' => (b', ts + 4) else some (b, ts)
    | none => none
  else some (b, ts)

/-- `transform_token`, src/x86/name.c:168-572. -/
def transformToken (b : Bytes) (ts te : Nat) (prev : NState) : Option (Bytes × NState × Bool) :=
  let st := resetContext prev
  match blankFrequency b ts te st with
  | none => none
  | some b1 =>
    match stripTm b1 ts te with
    | none => none
    | some (b2, te') =>
      match stripAmd b2 ts te' with
      | none => none
      | some (b3, ts') =>
        match switchWords b3 ts' te' prev st with
        | none => none
        | some (.ret b4 st' r) => some (b4, st', r)
        | some (.goOn st') => finishToken b3 ts' te' prev st'

/-- The search for the end of the string, src/x86/name.c:584-593, `n` bytes left; 0 if all bytes
are zero. -/
def findEnd (b : Bytes) : Nat → Option Nat
  | 0 => some 0
  | n + 1 =>
    match b[n]? with
    | none => none
    | some c => if c = 0 then findEnd b n else some (n + 1)

/-- Unifying whitespace and erasing parentheses, src/x86/name.c:599-625, from offset `i` on. -/
def unify : Bytes → Nat → Bool → Option Nat → Bytes × Option Nat
  | [], _, _, sep => ([], sep)
  | c :: l, i, inside, sep =>
    if c = 40 then ((32 :: (unify l (i + 1) true sep).1), (unify l (i + 1) true sep).2)
    else if c = 41 then ((32 :: (unify l (i + 1) false sep).1), (unify l (i + 1) false sep).2)
    else if c = 64 then
      ((32 :: (unify l (i + 1) inside (some i)).1), (unify l (i + 1) inside (some i)).2)
    else if c = 0 ∨ c = 9 ∨ inside = true then
      ((32 :: (unify l (i + 1) inside sep).1), (unify l (i + 1) inside sep).2)
    else ((c :: (unify l (i + 1) inside sep).1), (unify l (i + 1) inside sep).2)

/-- The loop over tokens, src/x86/name.c:628-651, at offset `i` with `n` characters left;
`tok` is the start of the token the loop is in.  Returns buffer, `name_end` and state. -/
def tokenLoop : Nat → Nat → Bytes → Option Nat → NState → Option (Bytes × Nat × NState)
  | 0, i, b, tok, st =>
    match tok with
    | some ts => (transformToken b ts i st).map fun r => (r.1, i, r.2.1)
    | none => some (b, i, st)
  | n + 1, i, b, tok, st =>
    match b[i]? with
    | none => none
    | some c =>
      if c = 32 then
        match tok with
        | some ts =>
          match transformToken b ts i st with
          | none => none
          | some (b', st', ok) => if ok then tokenLoop n (i + 1) b' none st' else some (b', i, st')
        | none => tokenLoop n (i + 1) b none st
      else
        match tok with
        | some ts => tokenLoop n (i + 1) b (some ts) st
        | none => tokenLoop n (i + 1) b (some i) st

/-- State of the last loop: output, whether the last token ended with a dash, count of tokens. -/
structure Compact where
  out : Bytes
  endsWithDash : Bool
  tokenCount : Nat
deriving DecidableEq, Repr

/-- Emitting a token, src/x86/name.c:681-689 and 698-704; `none` if it overruns the 48 bytes of
`normalized_name`. -/
def emit (s : Compact) (t : Bytes) : Option Compact :=
  let sep := !(t.head? == some 45) && !s.endsWithDash
  let out := s.out ++ (if sep then [32] else []) ++ t
  if out.length ≤ 48 then
    some ⟨out, t.getLast? == some 45, if sep then s.tokenCount + 1 else s.tokenCount⟩
  else none

/-- The last loop, src/x86/name.c:675-704, over the characters left; `tok` is the token so far. -/
def compact : Bytes → Option Bytes → Compact → Option Compact
  | [], none, s => some s
  | [], some t, s => emit s t
  | c :: l, tok, s =>
    if c = 32 then
      match tok with
      | some t =>
        match emit s t with
        | none => none
        | some s' => compact l none s'
      | none => compact l none s
    else compact l (some (tok.getD [] ++ [c])) s

/-- Whether nothing but spaces precedes the frequency separator, src/x86/name.c:657-664. -/
def frequencyOnly (b : Bytes) : Option Nat → Bool
  | some sep => isSpace (b.take sep)
  | none => false

/-- `cpuinfo_x86_normalize_brand_string`, src/x86/name.c:574-715: the string stored in
`normalized_name`, without its terminating NUL, and the value returned. -/
def normalize (raw : Bytes) : Option (Bytes × Nat) :=
  match findEnd raw 48 with
  | none => none
  | some 0 => some ([], 0)
  | some (e + 1) =>
    let u := unify (raw.take (e + 1)) 0 false none
    let name := u.1 ++ raw.drop (e + 1)
    match tokenLoop (e + 1) 0 name none { NState.init with frequencySeparator := u.2 } with
    | none => none
    | some (b, nameEnd, st) =>
      if st.engineeringSample then some ([], 0)
      else if frequencyOnly b st.frequencySeparator then some ([], 0)
      else
        match compact (b.take nameEnd) none ⟨[], true, 1⟩ with
        | none => none
        | some s =>
          if s.tokenCount ≤ 1 ∧ st.frequencyToken = true then some ([], 0)
          else if s.out.length < 48 then some (s.out, s.out.length)
          else some (s.out.take 47, s.out.length)

/-- `vendor_string_map`, src/x86/name.c:717-731. -/
def vendorString : Vendor → Option Bytes
  | .intel => some b!"Intel"
  | .amd => some b!"AMD"
  | .via => some b!"VIA"
  | .hygon => some b!"Hygon"
  | .rdc => some b!"RDC"
  | .dmp => some b!"DM&P"
  | .transmeta => some b!"Transmeta"
  | .cyrix => some b!"Cyrix"
  | .rise => some b!"Rise"
  | .nsc => some b!"NSC"
  | .sis => some b!"SiS"
  | .nexgen => some b!"NexGen"
  | .umc => some b!"UMC"
  | .unknown => none

/-- `snprintf(buffer, size, "%s", s)` for a positive size: the string stored. -/
def snprintf (size : Nat) (s : Bytes) : Bytes := s.take (size - 1)

/-- `cpuinfo_x86_format_package_name`, src/x86/name.c:733-754, on the string stored in
`normalized_brand_string`: the string stored in `package_name` and the value returned. -/
def formatPackageName (v : Vendor) (brand : Bytes) : Bytes × Nat :=
  match brand with
  | [] => ([], 0)
  | _ =>
    match vendorString v with
    | none => (brand.take 47, 0)
    | some s => (snprintf 48 (s ++ [32] ++ brand), s.length + 1)

/-- `processor->brand_string` of a zeroed processor after src/x86/init.c:70-75. -/
def rawBrand (c : Cpuid) : Bytes :=
  if X86Cpuid.maxExtendedIndex c ≥ 0x80000004 then
    (c.leaf 0x80000002).bytes ++ (c.leaf 0x80000003).bytes ++ (c.leaf 0x80000004).bytes
  else List.replicate 48 0

/-- The name of every package on x86, src/x86/linux/init.c:222-223 and 475-476 (alike in
src/x86/mach/init.c, src/x86/freebsd/init.c and src/x86/windows/init.c). -/
def packageName (t : Target) (c : Cpuid) : Option Bytes :=
  match normalize (rawBrand c) with
  | none => none
  | some (brand, _) =>
    some (formatPackageName (X86Cpuid.decodeVendor t (c.leaf 0).ebx (c.leaf 0).ecx (c.leaf 0).edx)
      brand).1

end Verif.X86Name
