import Verif.Model.CpuList
import Verif.Model.Multiline

/-!
# Model of src/x86/linux/cpuinfo.c
-/

set_option autoImplicit false

namespace Verif.X86Cpuinfo

/-- `struct cpuinfo_x86_linux_processor`, src/x86/linux/api.h. -/
structure LinuxProc where
  apicId : Nat
  linuxId : Nat
  flags : Nat
deriving DecidableEq, Repr

/-- `CPUINFO_LINUX_FLAG_APIC_ID`, src/linux/api.h. -/
def flagApicId : Nat := 0x80
/-- `CPUINFO_LINUX_FLAG_PROC_CPUINFO`, src/linux/api.h. -/
def flagProcCpuinfo : Nat := 0x800

/-- The digit loop of `parse_processor_number`, src/x86/linux/cpuinfo.c:26-37.  The comparison is
`digit > 10` as in the source. -/
def numberLoop : Bytes → Nat → Nat
  | [], n => n
  | c :: cs, n =>
    if CpuList.digitVal c > 10 then n
    else numberLoop cs ((n * 10 + CpuList.digitVal c) % U32)

/-- `parse_processor_number`, src/x86/linux/cpuinfo.c:17-40 (0 for an empty string). -/
def parseProcessorNumber (v : Bytes) : Nat := numberLoop v 0

/-- The digit loop of `parse_apic_id`, src/x86/linux/cpuinfo.c:52-66; `none` when a non-digit is
met. -/
def apicLoop : Bytes → Nat → Option Nat
  | [], n => some n
  | c :: cs, n =>
    if CpuList.digitVal c ≥ 10 then none
    else apicLoop cs ((n * 10 + CpuList.digitVal c) % U32)

/-- `parse_apic_id`, src/x86/linux/cpuinfo.c:48-70. -/
def parseApicId (v : Bytes) (p : LinuxProc) : LinuxProc :=
  match apicLoop v 0 with
  | none => p
  | some a => { p with apicId := a, flags := p.flags ||| flagApicId }

/-- `struct proc_cpuinfo_parser_state`, src/x86/linux/cpuinfo.c:72-77.  Simplification: the dummy
processor is left out, its content is never read. -/
structure State where
  index : Nat
  table : List LinuxProc
deriving DecidableEq, Repr

/-- Drop trailing bytes satisfying `p` (the backward loops of src/x86/linux/cpuinfo.c:112-117 and
141-146). -/
def dropTrailing (p : Byte → Bool) (l : Bytes) : Bytes := (l.reverse.dropWhile p).reverse

/-- Key and value of a line, src/x86/linux/cpuinfo.c:88-146: `none` for the lines skipped there. -/
def splitLine (line : Bytes) : Option (Bytes × Bytes) :=
  let before := line.takeWhile (· != 58)
  match line.dropWhile (· != 58) with
  | [] => none
  | _ :: after =>
    let key := dropTrailing (fun c => c == 32 || c == 9) before
    if key = [] then none
    else
      let value := after.dropWhile (· == 32)
      if value = [] then none
      else some (key, dropTrailing (· == 32) value)

/-- Update entry `i` of the table; `none` if there is no such entry (undefined behaviour). -/
def modifyAt (t : List LinuxProc) (i : Nat) (f : LinuxProc → LinuxProc) : Option (List LinuxProc) :=
  match t[i]? with
  | none => none
  | some p => some (t.set i (f p))

/-- `parse_line`, src/x86/linux/cpuinfo.c:83-208; always returns `true`.  The state is `none` once
an out-of-bounds access happened.  Simplification: warnings are not modelled. -/
def parseLine (maxCount : Nat) (s : Option State) (line : Bytes) (_lineNo : Nat) :
    Option State × Bool :=
  (s.bind fun st =>
    match splitLine line with
    | none => some st
    | some (key, value) =>
      if key = b!"apicid" then
        if st.index < maxCount then
          (modifyAt st.table st.index (parseApicId value)).map fun t => { st with table := t }
        else some st
      else if key = b!"processor" then
        let n := parseProcessorNumber value
        if n ≥ maxCount then some { st with index := n }
        else
          (modifyAt st.table n fun p => { p with flags := p.flags ||| flagProcCpuinfo }).map
            fun t => { index := n, table := t }
      else some st, true)

/-- `cpuinfo_x86_linux_parse_proc_cpuinfo`, src/x86/linux/cpuinfo.c:210-220 (`BUFFER_SIZE` is
2048). -/
def parseProcCpuinfo (file : Option Bytes) (sched : Sched) (maxCount : Nat)
    (table : List LinuxProc) : Option (Option State × Bool) :=
  Multiline.parse file 2048 sched (parseLine maxCount) (some { index := 0, table })

end Verif.X86Cpuinfo
