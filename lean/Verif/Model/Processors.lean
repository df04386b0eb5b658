import Verif.Model.CpuList
import Verif.Model.SmallFile

/-!
# Model of src/linux/processors.c

File names are not modelled (the file content is a parameter); the length of the formatted file
names is, see `filenameSize`.
-/

set_option autoImplicit false

namespace Verif.Processors

/-- `parse_number`, src/linux/processors.c:54-66. -/
def parseNumber : Bytes → Nat → Nat × Bytes
  | [], n => (n, [])
  | c :: cs, n =>
    if CpuList.digitVal c ≥ 10 then (n, c :: cs)
    else parseNumber cs ((n * 10 + CpuList.digitVal c) % U32)

/-- `uint32_parser`, src/linux/processors.c:95-126: `none` is a `false` return (context
unchanged), `some v` stores `v`.  Simplification: warnings are not modelled. -/
def uint32Parser (text : Bytes) : Option Nat :=
  if text.length = 0 then none
  else
    let (v, r) := parseNumber text 0
    if r.length = text.length then none else some v

/-- A sysfs number file read through `cpuinfo_linux_parse_small_file` with `uint32_parser` and
the given buffer size.  Outer `none`: fuel (never happens). -/
def readNumber (file : Option Bytes) (size : Nat) (sched : Sched) : Option (Option Nat) :=
  (SmallFile.parse file size sched).map fun
    | .failed => none
    | .callback text => uint32Parser text

/-- `default_max_processors_count = CPU_SETSIZE`, src/linux/processors.c:92 (glibc value). -/
def defaultMaxProcessors : Nat := 1024

/-- `cpuinfo_linux_get_max_processors_count`, src/linux/processors.c:128-148
(`KERNEL_MAX_FILESIZE` is 32). -/
def maxProcessorsCount (file : Option Bytes) (sched : Sched) : Option Nat :=
  (readNumber file 32 sched).map fun
    | some kernelMax => (kernelMax + 1) % U32
    | none => defaultMaxProcessors

/-- `cpuinfo_linux_get_processor_{cur,max,min}_frequency`, src/linux/processors.c:150-231
(`FREQUENCY_FILESIZE` is 32). -/
def processorFrequency (file : Option Bytes) (sched : Sched) : Option Nat :=
  (readNumber file 32 sched).map fun
    | some f => f
    | none => 0

/-- `cpuinfo_linux_get_processor_{core,package}_id`, src/linux/processors.c:233-281: `none` is a
`false` return. -/
def processorId (file : Option Bytes) (sched : Sched) : Option (Option Nat) :=
  readNumber file 32 sched

/-- `max_processor_number_parser`, src/linux/processors.c:283-290. -/
def maxNumberCallback (m : Nat) (_a b : Nat) : Nat × Bool :=
  let last := (b + U32 - 1) % U32
  (if m < last then last else m, true)

/-- `cpuinfo_linux_get_max_possible_processor` and `…_present_processor`,
src/linux/processors.c:292-334 (identical but for the file name). -/
def maxProcessor (file : Option Bytes) (sched : Sched) (maxCount : Nat) : Option Nat :=
  (CpuList.parse file sched maxNumberCallback 0).map fun
    | (_, false) => U32MAX
    | (m, true) => if m ≥ maxCount then (maxCount + U32 - 1) % U32 else m

/-- The for loop of `detect_processor_parser`, src/linux/processors.c:349-354, from processor `p`
with `n` iterations left (`n = end - start`).  The table holds one flag word per processor; an
access outside it is `none` (undefined behaviour). -/
def detectLoop (maxCount flag : Nat) : Nat → Nat → List Nat → Option (List Nat)
  | 0, _, t => some t
  | n + 1, p, t =>
    if p ≥ maxCount then some t
    else
      match t[p]? with
      | none => none
      | some w => detectLoop maxCount flag n (p + 1) (t.set p (w ||| flag))

/-- `detect_processor_parser`, src/linux/processors.c:343-356.  The table is `none` once an
out-of-bounds access happened. -/
def detectCallback (maxCount flag : Nat) (t : Option (List Nat)) (a b : Nat) :
    Option (List Nat) × Bool :=
  (t.bind (detectLoop maxCount flag (b - a) a), true)

/-- `cpuinfo_linux_detect_possible_processors` / `…_present_processors`,
src/linux/processors.c:358-394. -/
def detectProcessors (file : Option Bytes) (sched : Sched) (maxCount flag : Nat)
    (table : List Nat) : Option (Option (List Nat) × Bool) :=
  CpuList.parse file sched (detectCallback maxCount flag) (some table)

/-- `siblings_parser`, src/linux/processors.c:404-420, for a callback `cb` that receives the
processor and the clamped range. -/
def siblingsCallback {σ : Type} (maxCount processor : Nat)
    (cb : σ → Nat → Nat → Nat → σ × Bool) (s : σ) (a b : Nat) : σ × Bool :=
  cb s processor a (if b > maxCount then maxCount else b)

/-- `cpuinfo_linux_detect_{core_cpus,core_siblings,thread_siblings,cluster_cpus,package_cpus}`,
src/linux/processors.c:422-580 (identical but for the file names). -/
def detectSiblings {σ : Type} (file : Option Bytes) (sched : Sched) (maxCount processor : Nat)
    (cb : σ → Nat → Nat → Nat → σ × Bool) (s : σ) : Option (σ × Bool) :=
  CpuList.parse file sched (siblingsCallback maxCount processor cb) s

/-- The size of the buffer for a per-processor file name with the given suffix,
`sizeof("/sys/devices/system/cpu/cpu" STRINGIFY(UINT32_MAX) suffix)`, src/linux/processors.c:22-49.
`STRINGIFY` does not expand its argument, so the middle part is the ten characters
`UINT32_MAX`; `sizeof` adds the terminator. -/
def filenameSize (suffix : Bytes) : Nat :=
  (b!"/sys/devices/system/cpu/cpu" ++ b!"UINT32_MAX" ++ suffix).length + 1

end Verif.Processors
