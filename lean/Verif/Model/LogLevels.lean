import Verif.Model.Log

/-!
# Model of the log levels: src/cpuinfo/log.h, the outputs of src/log.c, the settings in CMakeLists.txt

A run of the library makes log calls one after another.  A call hands at most one message to one of
the outputs, and a call of `cpuinfo_log_fatal` ends the process.  As in `Log`, formatting is a
parameter, and so are the contents of fresh memory.

Simplifications: a message handed to `__android_log_vprint` is given by the text its format and
arguments stand for; what that function makes of it is not modelled.  `write` and `WriteFile` take
all bytes.
-/

set_option autoImplicit false

namespace Verif.LogLevels
open Log

/-- The number CMakeLists.txt:284-301 makes of the setting `CPUINFO_LOG_LEVEL`, `none` if it stops
with an error. -/
def settingNumber (s : Bytes) : Option Nat :=
  if s = b!"default" then some 2
  else if s = b!"debug" then some 5
  else if s = b!"info" then some 4
  else if s = b!"warning" then some 3
  else if s = b!"error" then some 2
  else if s = b!"fatal" then some 1
  else if s = b!"none" then some 0
  else none

/-- `CPUINFO_LOG_FATAL` … `CPUINFO_LOG_DEBUG`, src/cpuinfo/log.h:11-16. -/
def number : LogLevel → Nat
  | .fatal => 1
  | .error => 2
  | .warning => 3
  | .info => 4
  | .debug => 5

/-- The builds that differ in their output: `CPUINFO_LOG_TO_STDIO` is 0 for `android` only,
src/log.c:18-24 and CMakeLists.txt:16-20. -/
inductive Build
  | posix | windows | android
deriving DecidableEq, Repr

/-- Where a message goes: a file handle, or the Android log with a priority and a tag. -/
inductive Sink
  | stdout | stderr | androidLog (priority : Nat) (tag : Bytes)
deriving DecidableEq, Repr

/-- `ANDROID_LOG_DEBUG` … `ANDROID_LOG_FATAL` of android/log.h, as used in src/log.c:142-200. -/
def androidPriority : LogLevel → Nat
  | .debug => 3
  | .info => 4
  | .warning => 5
  | .error => 6
  | .fatal => 7

/-- `cpuinfo_module`, src/log.c:132. -/
def moduleTag : Bytes := b!"XNNPACK"

/-- The handles in src/log.c:134-203. -/
def handle : LogLevel → Sink
  | .debug => .stdout
  | .info => .stdout
  | .warning => .stderr
  | .error => .stderr
  | .fatal => .stderr

/-- One log call: what `vsnprintf` makes of format and arguments, and the memory it finds. -/
structure Call where
  /-- The function called. -/
  level : LogLevel
  /-- The formatted text, `none` if formatting fails. -/
  text : Option Bytes
  /-- The stack buffer before the call. -/
  stack : Bytes
  /-- An allocated buffer, `none` if `malloc` fails. -/
  heap : Option (Nat → Byte)

/-- `cpuinfo_vlog_debug` … `cpuinfo_vlog_fatal`, src/log.c:134-203. -/
def vlogLevel (b : Build) (c : Call) : Option (Option (Sink × Bytes)) :=
  match b with
  | .android => some (c.text.map fun t => (.androidLog (androidPriority c.level) moduleTag, t))
  | .posix => (log false c.level c.stack c.heap c.text).map fun o => o.map fun m => (handle c.level, m)
  | .windows => (log true c.level c.stack c.heap c.text).map fun o => o.map fun m => (handle c.level, m)

/-- `cpuinfo_log_debug` … `cpuinfo_log_fatal`, src/cpuinfo/log.h:58-103, built with
`CPUINFO_LOG_LEVEL` `n`: the message, and whether the call aborts. -/
def call (n : Nat) (b : Build) (c : Call) : Option (Option (Sink × Bytes) × Bool) := do
  let out ← if n ≥ number c.level then vlogLevel b c else some none
  return (out, c.level == .fatal)

/-- Log calls one after another, until one aborts: the messages, and whether the process was ended. -/
def run (n : Nat) (b : Build) : List Call → Option (List (Sink × Bytes) × Bool)
  | [] => some ([], false)
  | c :: cs => do
    let (out, ended) ← call n b c
    if ended then return (out.toList, true)
    let (rest, e) ← run n b cs
    return (out.toList ++ rest, e)

end Verif.LogLevels
