import Verif.Model.Read

/-!
# Model of src/linux/smallfile.c
-/

set_option autoImplicit false

namespace Verif.SmallFile

/-- Outcome of reading a small file: failure before the callback, or the callback is called with
the given text (src/linux/smallfile.c:66). -/
inductive Outcome where
  | failed
  | callback (text : Bytes)
deriving DecidableEq, Repr

/-- The do/while loop, src/linux/smallfile.c:44-64.  `buf` is the buffer content up to
`buffer_position`.  `none` only when the fuel runs out. -/
def loop (size : Nat) (sched : Sched) : Nat → Nat → Bytes → Bytes → Option Outcome
  | 0, _, _, _ => none
  | fuel + 1, i, buf, rest =>
    match sysRead (sched i) (size - buf.length) rest with
    | none => some .failed
    | some (got, rest') =>
      if (buf ++ got).length ≥ size then some .failed
      else if got = [] then some (.callback (buf ++ got))
      else loop size sched fuel (i + 1) (buf ++ got) rest'

/-- `cpuinfo_linux_parse_small_file`, src/linux/smallfile.c:19-78; `size` is `buffer_size`,
`file = none` when `open` fails. -/
def parse (file : Option Bytes) (size : Nat) (sched : Sched) : Option Outcome :=
  match file with
  | none => some .failed
  | some content => loop size sched (content.length + 1) 0 [] content

end Verif.SmallFile
