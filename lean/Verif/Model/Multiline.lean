import Verif.Model.Read

/-!
# Model of src/linux/multiline.c
-/

set_option autoImplicit false

namespace Verif.Multiline

/-- A line handler: context, line text and line number to new context and verdict
(`cpuinfo_line_callback`). -/
abbrev Handler (σ : Type) := σ → Bytes → Nat → σ × Bool

/-- Result of the inner loop: stopped by the handler, or the unfinished line and next line
number. -/
inductive Drained (σ : Type) where
  | stopped (s : σ)
  | more (s : σ) (lineNo : Nat) (left : Bytes)

/-- The inner do/while loop, src/linux/multiline.c:69-96.  `cur` is the text from `line_start` to
`line_end`.  Simplification: `line_number` is a natural number, not `uint64_t`. -/
def drain {σ : Type} (cb : Handler σ) : Bytes → Bytes → σ → Nat → Drained σ
  | cur, [], s, n => .more s n cur
  | cur, c :: cs, s, n =>
    if c = 10 then
      let (s', k) := cb s cur n
      if k then drain cb [] cs s' (n + 1) else .stopped s'
    else drain cb (cur ++ [c]) cs s n

/-- The outer do/while loop, src/linux/multiline.c:44-98; `size` is `buffer_size`. -/
def loop {σ : Type} (size : Nat) (sched : Sched) (cb : Handler σ) :
    Nat → Nat → Bytes → Bytes → σ → Nat → Option (σ × Bool)
  | 0, _, _, _, _, _ => none
  | fuel + 1, i, buf, rest, s, n =>
    match sysRead (sched i) (size - buf.length) rest with
    | none => some (s, false)
    | some ([], _) => some (cb s buf n)
    | some (g :: gs, rest') =>
      match drain cb [] (buf ++ (g :: gs)) s n with
      | .stopped s' => some (s', false)
      | .more s' n' left => loop size sched cb fuel (i + 1) left rest' s' n'

/-- `cpuinfo_linux_parse_multiline_file`, src/linux/multiline.c:19-113. -/
def parse {σ : Type} (file : Option Bytes) (size : Nat) (sched : Sched) (cb : Handler σ) (s : σ) :
    Option (σ × Bool) :=
  match file with
  | none => some (s, false)
  | some content => loop size sched cb (content.length + 1) 0 [] content s 1

end Verif.Multiline
