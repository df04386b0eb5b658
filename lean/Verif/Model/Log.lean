import Verif.Base

/-!
# Model of src/log.c and deps/clog/src/clog.c

A call ends with `none` (undefined behaviour: an access outside a buffer), `some none` (nothing is
written) or `some (some out)` (the bytes of the one `write`).  The text `vsnprintf` makes of format
and arguments is a parameter, `none` if formatting fails.  Fresh memory has arbitrary contents: the
stack buffer is a parameter of 1024 bytes, an allocated buffer is given by a function, `none` if
`malloc` fails.

Simplifications: Android builds, which write by other means, and the choice of the output are in
`LogLevels`, Hexagon builds in `LogHexagon`, and the `int` sum of lengths in clog.c is taken to be less than 2^31.
-/

set_option autoImplicit false

namespace Verif.Log

/-- `CPUINFO_LOG_STACK_BUFFER_SIZE`, src/log.c:30, `CLOG_STACK_BUFFER_SIZE`, clog.c:29. -/
notation "stackSize" => (1024 : Nat)

/-- Copy bytes into a buffer. -/
def put (buf : Bytes) (off : Nat) (bs : Bytes) : Option Bytes :=
  if off + bs.length ≤ buf.length then some (buf.take off ++ bs ++ buf.drop (off + bs.length))
  else none

/-- `vsnprintf(buf + off, size, …)` for a text: nothing for size 0, else as many characters as fit
before the terminator. -/
def vsnprintf (buf : Bytes) (off size : Nat) (text : Bytes) : Option Bytes :=
  if size = 0 then some buf else put buf off (text.take (size - 1) ++ [0])

/-- A fresh buffer. -/
def fresh (fill : Nat → Byte) (size : Nat) : Bytes := (List.range size).map fill

/-- `cpuinfo_vlog`, src/log.c:50-130.  `newline` is "\n", on Windows "\r\n". -/
def vlog (newline pre : Bytes) (stack : Bytes) (heap : Option (Nat → Byte)) (text : Option Bytes) :
    Option (Option Bytes) := do
  let stack ← put stack 0 pre
  match text with
  | none => return none
  | some text =>
    let stack ← vsnprintf stack pre.length (stackSize - (pre.length + newline.length)) text
    let total := pre.length + text.length + newline.length
    if total > stackSize then
      match heap with
      | none => return none
      | some fill =>
        let h ← put (fresh fill total) 0 pre
        let h ← vsnprintf h pre.length (text.length + newline.length) text
        let h ← put h (pre.length + text.length) newline
        return some (h.take total)
    else
      let out ← put stack (pre.length + text.length) newline
      return some (out.take total)

/-- The levels with a function of their own. -/
inductive LogLevel
  | debug | info | warning | error | fatal
deriving DecidableEq, Repr

/-- The prefixes, src/log.c:137-201. -/
def prefixOf : LogLevel → Bytes
  | .debug => b!"Debug (cpuinfo): "
  | .info => b!"Note (cpuinfo): "
  | .warning => b!"Warning in cpuinfo: "
  | .error => b!"Error in cpuinfo: "
  | .fatal => b!"Fatal error in cpuinfo: "

/-- `cpuinfo_vlog_debug` … `cpuinfo_vlog_fatal`, src/log.c:134-203, on Windows or elsewhere. -/
def log (windows : Bool) (l : LogLevel) := vlog (if windows then [13, 10] else [10]) (prefixOf l)

/-- `CLOG_…_PREFIX`, clog.c:31-45. -/
def clogPlain : LogLevel → Bytes
  | .fatal => b!"Fatal error: "
  | .error => b!"Error: "
  | .warning => b!"Warning: "
  | .info => b!"Note: "
  | .debug => b!"Debug: "

/-- `CLOG_…_PREFIX_FORMAT`, clog.c:33-45. -/
def clogFormat (l : LogLevel) (m : Bytes) : Bytes :=
  match l with
  | .fatal => b!"Fatal error in " ++ m ++ b!": "
  | .error => b!"Error in " ++ m ++ b!": "
  | .warning => b!"Warning in " ++ m ++ b!": "
  | .info => b!"Note (" ++ m ++ b!"): "
  | .debug => b!"Debug (" ++ m ++ b!"): "

/-- The prefix on the stack and its length `prefix_chars`, clog.c:60-70.  `module` is `none` for
NULL, `some none` if formatting the prefix fails. -/
def clogPrefix (l : LogLevel) (modul : Option (Option Bytes)) (stack : Bytes) : Option (Bytes × Bytes) :=
  match modul with
  | none => do return (← put stack 0 (clogPlain l), clogPlain l)
  | some none => some (stack, [])
  | some (some m) => do return (← vsnprintf stack 0 stackSize (clogFormat l m), clogFormat l m)

/-- The text on the stack, clog.c:72-85; a NULL buffer is used if the prefix leaves no room. -/
def clogStackText (stack pre text : Bytes) : Option Bytes :=
  if pre.length + 1 ≥ stackSize then some stack
  else vsnprintf stack pre.length (stackSize - pre.length - 1) text

/-- The prefix in the allocated buffer, clog.c:97-103. -/
def clogHeapPrefix (stack pre heap : Bytes) : Option Bytes :=
  if pre.length > stackSize then vsnprintf heap 0 (pre.length + 1) pre
  else if pre.length ≤ stack.length then put heap 0 (stack.take pre.length) else none

/-- `clog_vlog_fatal`, deps/clog/src/clog.c:48-124; the functions of the other levels
(lines 126-436) differ in the prefix and the output handle only. -/
def clog (l : LogLevel) (modul : Option (Option Bytes)) (stack : Bytes) (heap : Option (Nat → Byte))
    (text : Option Bytes) : Option (Option Bytes) := do
  let (stack, pre) ← clogPrefix l modul stack
  match text with
  | none => return none
  | some text =>
    let stack ← clogStackText stack pre text
    let total := pre.length + text.length + 1
    if total > stackSize then
      match heap with
      | none => return none
      | some fill =>
        let h ← clogHeapPrefix stack pre (fresh fill total)
        let h ← vsnprintf h pre.length (text.length + 1) text
        let h ← put h (pre.length + text.length) [10]
        return some (h.take total)
    else
      let out ← put stack (pre.length + text.length) [10]
      return some (out.take total)

end Verif.Log
