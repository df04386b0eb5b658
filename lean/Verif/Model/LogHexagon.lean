import Verif.Model.Log

/-!
# Model of src/log.c and deps/clog/src/clog.c on Hexagon

There the message is not written with its length but printed with `qurt_printf("%s", …)`, which reads up
to the first NUL byte.  Buffers and outcomes are those of `Log`.
-/

set_option autoImplicit false

namespace Verif.Log

/-- `qurt_printf("%s", buffer)`: the bytes before the first NUL byte; without one the read leaves the
buffer. -/
def printS : Bytes → Option Bytes
  | [] => none
  | b :: bs => if b = 0 then some [] else (printS bs).map (b :: ·)

/-- `cpuinfo_vlog` on Hexagon, src/log.c:50-101, 114.  The line end has length 1, line 38, but is not
stored: lines 103-104 and 116 are not compiled. -/
def vlogHexagon (pre stack : Bytes) (heap : Option (Nat → Byte)) (text : Option Bytes) :
    Option (Option Bytes) := do
  let stack ← put stack 0 pre
  match text with
  | none => return none
  | some text =>
    let stack ← vsnprintf stack pre.length (stackSize - (pre.length + 1)) text
    let total := pre.length + text.length + 1
    if total > stackSize then
      match heap with
      | none => return none
      | some fill =>
        let h ← put (fresh fill total) 0 pre
        let h ← vsnprintf h pre.length (text.length + 1) text
        return some (← printS h)
    else
      return some (← printS stack)

/-- `cpuinfo_vlog_debug` … `cpuinfo_vlog_fatal` on Hexagon, src/log.c:134-203. -/
def logHexagon (l : LogLevel) := vlogHexagon (prefixOf l)

/-- `clog_vlog_fatal` on Hexagon, deps/clog/src/clog.c:48-107, 115, and the functions of the other levels.
The line end is stored, line 107, over the terminator of the text. -/
def clogHexagon (l : LogLevel) (modul : Option (Option Bytes)) (stack : Bytes)
    (heap : Option (Nat → Byte)) (text : Option Bytes) : Option (Option Bytes) := do
  let (stack, pre) ← clogPrefix l modul stack
  match text with
  | none => return none
  | some text =>
    let stack ← clogStackText stack pre text
    let total := pre.length + text.length + 1
    if total > stackSize then
      match heap with
      | none => return none
      | some fill =>
        let h ← clogHeapPrefix stack pre (fresh fill total)
        let h ← vsnprintf h pre.length (text.length + 1) text
        let h ← put h (pre.length + text.length) [10]
        return some (← printS h)
    else
      let out ← put stack (pre.length + text.length) [10]
      return some (← printS out)

end Verif.Log
