import Verif.Model.Read

/-!
# Model of src/linux/cpulist.c
-/

set_option autoImplicit false

namespace Verif.CpuList

/-- `is_whitespace`, src/linux/cpulist.c:28-38. -/
def isWs (c : Byte) : Bool := c == 32 || c == 9 || c == 10 || c == 13

/-- The unsigned difference `(uint32_t)c - (uint32_t)'0'` of src/linux/cpulist.c:43 for a byte
`c` (bytes below '0' wrap to huge values; negative `char`s do so as well). -/
def digitVal (c : Byte) : Nat := if c < 48 then c + U32 - 48 else c - 48

/-- `parse_number`, src/linux/cpulist.c:40-52, started with accumulator `n` (0 at the call):
returns the number (modulo 2^32) and the unparsed rest. -/
def parseNumber : Bytes → Nat → Nat × Bytes
  | [], n => (n, [])
  | c :: cs, n =>
    if digitVal c ≥ 10 then (n, c :: cs)
    else parseNumber cs ((n * 10 + digitVal c) % U32)

/-- Both trimming loops of src/linux/cpulist.c:60-70. -/
def trim (e : Bytes) : Bytes := ((e.dropWhile isWs).reverse.dropWhile isWs).reverse

/-- `parse_entry`, src/linux/cpulist.c:54-152.  `some (a, b)` means the callback is invoked as
`callback(a, b, context)`; `none` means the entry is ignored and `false` is returned.
Simplification: the warnings (and the bytes they print) are not modelled. -/
def parseEntry (entry : Bytes) : Option (Nat × Nat) :=
  let e := trim entry
  if e.length = 0 then none
  else
    let (first, r) := parseNumber e 0
    if r.length = e.length then none
    else
      match r with
      | [] => some (first, (first + 1) % U32)
      | c :: r' =>
        if c ≠ 45 then none
        else
          let (last, r'') := parseNumber r' 0
          if r''.length = r'.length then none
          else if last < first then none
          else some (first, (last + 1) % U32)

/-- What one entry does to the caller's context `s`: the callback `cb` of `parse_entry`, or
nothing for an ignored entry (src/linux/cpulist.c:198-199, 217-219). -/
def entryStep {σ : Type} (cb : σ → Nat → Nat → σ × Bool) (s : σ) (entry : Bytes) : σ × Bool :=
  match parseEntry entry with
  | none => (s, false)
  | some (a, b) => cb s a b

/-- The inner do/while loop, src/linux/cpulist.c:202-222, over the valid data in the buffer.
`cur` is the text from `entry_start` to `entry_end`; the second list is the text from
`entry_end` to `data_end`.  Returns the context, the status and the unfinished entry that
`memmove` keeps (lines 226-228). -/
def drain {σ : Type} (cb : σ → Nat → Nat → σ × Bool) :
    Bytes → Bytes → σ → Bool → σ × Bool × Bytes
  | cur, [], s, ok => (s, ok, cur)
  | cur, c :: cs, s, ok =>
    if c = 44 then
      let (s', k) := entryStep cb s cur
      drain cb [] cs s' (ok && k)
    else drain cb (cur ++ [c]) cs s ok

/-- `BUFFER_SIZE`, src/linux/cpulist.c:25. -/
def bufferSize : Nat := 256

/-- The outer do/while loop, src/linux/cpulist.c:177-230.  `buf` is the partial entry kept at the
beginning of the buffer, `rest` the unread part of the file.  `none` only when the fuel runs out. -/
def loop {σ : Type} (sched : Sched) (cb : σ → Nat → Nat → σ × Bool) :
    Nat → Nat → Bytes → Bytes → σ → Bool → Option (σ × Bool)
  | 0, _, _, _, _, _ => none
  | fuel + 1, i, buf, rest, s, ok =>
    match sysRead (sched i) (bufferSize - buf.length) rest with
    | none => some (s, false)
    | some ([], _) =>
      let (s', k) := entryStep cb s buf
      some (s', ok && k)
    | some (g :: gs, rest') =>
      let (s', ok', left) := drain cb [] (buf ++ (g :: gs)) s ok
      loop sched cb fuel (i + 1) left rest' s' ok'

/-- `cpuinfo_linux_parse_cpulist`, src/linux/cpulist.c:154-242.  `file = none` when `open`
fails.  Every iteration but the last consumes at least one byte, so the fuel
`length + 1` is enough (the theorems show the result is never `none`). -/
def parse {σ : Type} (file : Option Bytes) (sched : Sched)
    (cb : σ → Nat → Nat → σ × Bool) (s : σ) : Option (σ × Bool) :=
  match file with
  | none => some (s, false)
  | some content => loop sched cb (content.length + 1) 0 [] content s true

/-- A callback that only records its calls, for statements about which calls happen. -/
def record (calls : List (Nat × Nat)) (a b : Nat) : List (Nat × Nat) × Bool :=
  (calls ++ [(a, b)], true)

end Verif.CpuList
