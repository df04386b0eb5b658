import Verif.Model.ArmMidr
import Verif.Model.X86Cpuinfo

/-!
# Model of src/arm/linux/cpuinfo.c and of the processor record of src/arm/linux/api.h
-/

set_option autoImplicit false

namespace Verif.ArmCpuinfo
open ArmMidr

/-- `struct cpuinfo_arm_linux_proc_cpuinfo_cache`, src/arm/linux/api.h:42-51. -/
structure CacheNumbers where
  iSize : Nat
  iAssoc : Nat
  iLine : Nat
  iSets : Nat
  dSize : Nat
  dAssoc : Nat
  dLine : Nat
  dSets : Nat
deriving DecidableEq, Repr

/-- `struct cpuinfo_arm_linux_processor`, src/arm/linux/api.h:175-223.  The vendor and uarch enums
are numbers here.  `architecture_flags` and the cache numbers exist on 32-bit ARM only; the 64-bit
code never touches them. -/
structure Proc where
  architectureVersion : Nat
  architectureFlags : Nat
  cache : CacheNumbers
  features : Nat
  features2 : Nat
  midr : Nat
  vendor : Nat
  uarch : Nat
  uarchIndex : Nat
  packageId : Nat
  packageLeaderId : Nat
  packageProcessorCount : Nat
  maxFrequency : Nat
  minFrequency : Nat
  systemProcessorId : Nat
  flags : Nat
deriving DecidableEq, Repr

/-- A zeroed record, as `calloc` gives it (src/arm/linux/init.c:142). -/
def Proc.zero : Proc :=
  ⟨0, 0, ⟨0, 0, 0, 0, 0, 0, 0, 0⟩, 0, 0, 0, 0, 0, 0, 0, 0, 0, 0, 0, 0, 0⟩

/-- `CPUINFO_ARM_LINUX_VALID_*`, src/arm/linux/api.h:149-172. -/
def validArchitecture : Nat := 0x00010000
@[inherit_doc validArchitecture] def validImplementer : Nat := 0x00020000
@[inherit_doc validArchitecture] def validVariant : Nat := 0x00040000
@[inherit_doc validArchitecture] def validPart : Nat := 0x00080000
@[inherit_doc validArchitecture] def validRevision : Nat := 0x00100000
@[inherit_doc validArchitecture] def validProcessor : Nat := 0x00200000
@[inherit_doc validArchitecture] def validFeatures : Nat := 0x00400000
@[inherit_doc validArchitecture] def validIcacheSize : Nat := 0x01000000
@[inherit_doc validArchitecture] def validIcacheSets : Nat := 0x02000000
@[inherit_doc validArchitecture] def validIcacheWays : Nat := 0x04000000
@[inherit_doc validArchitecture] def validIcacheLine : Nat := 0x08000000
@[inherit_doc validArchitecture] def validDcacheSize : Nat := 0x10000000
@[inherit_doc validArchitecture] def validDcacheSets : Nat := 0x20000000
@[inherit_doc validArchitecture] def validDcacheWays : Nat := 0x40000000
@[inherit_doc validArchitecture] def validDcacheLine : Nat := 0x80000000
/-- `CPUINFO_ARM_LINUX_VALID_MIDR`, src/arm/linux/api.h:168. -/
def validMidr : Nat := 0x003F0000

/-- The words `parse_features` knows, src/arm/linux/cpuinfo.c:127-312: the bits set in `features`
and in `features2`, or `none` for an unexpected word. -/
def featureWord (a : Arch) (w : Bytes) : Option (Nat × Nat) :=
  match a with
  | .arm64 =>
    if w = b!"fp" then some (0x1, 0)
    else if w = b!"aes" then some (0x8, 0)
    else if w = b!"sha1" then some (0x20, 0)
    else if w = b!"sha2" then some (0x40, 0)
    else if w = b!"fphp" then some (0x200, 0)
    else if w = b!"fcma" then some (0x4000, 0)
    else if w = b!"i8mm" then some (0, 0x2000)
    else if w = b!"pmull" then some (0x10, 0)
    else if w = b!"crc32" then some (0x80, 0)
    else if w = b!"asimd" then some (0x2, 0)
    else if w = b!"cpuid" then some (0x800, 0)
    else if w = b!"jscvt" then some (0x2000, 0)
    else if w = b!"lrcpc" then some (0x8000, 0)
    else if w = b!"evtstrm" then some (0x4, 0)
    else if w = b!"atomics" then some (0x100, 0)
    else if w = b!"asimdhp" then some (0x400, 0)
    else if w = b!"asimdrdm" then some (0x1000, 0)
    else if w = b!"asimdfhm" then some (0x800000, 0)
    else none
  | .arm =>
    if w = b!"fp" then some (0, 0)
    else if w = b!"wp" then some (0x1, 0)
    else if w = b!"aes" then some (0, 0x1)
    else if w = b!"swp" then some (0x1, 0)
    else if w = b!"fpa" then some (0x20, 0)
    else if w = b!"vfp" then some (0x40, 0)
    else if w = b!"tls" then some (0x8000, 0)
    else if w = b!"sha1" then some (0, 0x4)
    else if w = b!"sha2" then some (0, 0x8)
    else if w = b!"fphp" then some (0, 0)
    else if w = b!"fcma" then some (0, 0)
    else if w = b!"i8mm" then some (0, 0)
    else if w = b!"half" then some (0x2, 0)
    else if w = b!"edsp" then some (0x80, 0)
    else if w = b!"java" then some (0x100, 0)
    else if w = b!"neon" then some (0x1000, 0)
    else if w = b!"lpae" then some (0x100000, 0)
    else if w = b!"tlsi" then some (0x8000, 0)
    else if w = b!"pmull" then some (0, 0x2)
    else if w = b!"crc32" then some (0, 0x10)
    else if w = b!"asimd" then some (0, 0)
    else if w = b!"cpuid" then some (0, 0)
    else if w = b!"jscvt" then some (0, 0)
    else if w = b!"lrcpc" then some (0, 0)
    else if w = b!"thumb" then some (0x4, 0)
    else if w = b!"26bit" then some (0x8, 0)
    else if w = b!"vfpv3" then some (0x2000, 0)
    else if w = b!"vfpv4" then some (0x10000, 0)
    else if w = b!"idiva" then some (0x20000, 0)
    else if w = b!"idivt" then some (0x40000, 0)
    else if w = b!"iwmmxt" then some (0x200, 0)
    else if w = b!"crunch" then some (0x400, 0)
    else if w = b!"vfpd32" then some (0x80000, 0)
    else if w = b!"evtstrm" then some (0x200000, 0)
    else if w = b!"atomics" then some (0, 0)
    else if w = b!"asimdhp" then some (0, 0)
    else if w = b!"thumbee" then some (0x800, 0)
    else if w = b!"asimdrdm" then some (0, 0)
    else if w = b!"asimdfhm" then some (0, 0)
    else if w = b!"fastmult" then some (0x10, 0)
    else if w = b!"vfpv3d16" then some (0x4000, 0)
    else none

/-- One token of the features loop. -/
def applyFeature (a : Arch) (w : Bytes) (p : Proc) : Proc :=
  match featureWord a w with
  | none => p
  | some (f, f2) => { p with features := p.features ||| f, features2 := p.features2 ||| f2 }

/-- The do/while loop of `parse_features`, src/arm/linux/cpuinfo.c:115-324.  The text is what lies
between `feature_start` and `features_end`; `none` when the loop would read past the end (that
happens exactly when it is entered with nothing left).  `fuel` is never the limit. -/
def featuresLoop (a : Arch) : Nat → Bytes → Proc → Option Proc
  | 0, _, _ => none
  | _ + 1, [], _ => none
  | fuel + 1, c :: cs, p =>
    let word := c :: cs.takeWhile (· != 32)
    let rest := cs.dropWhile (· != 32)
    let p := applyFeature a word p
    match rest with
    | [] => some p
    | _ :: _ => featuresLoop a fuel (rest.dropWhile (· == 32)) p

/-- `parse_features`, src/arm/linux/cpuinfo.c:105-325. -/
def parseFeatures (a : Arch) (v : Bytes) (p : Proc) : Option Proc :=
  featuresLoop a (v.length + 1) v { p with flags := p.flags ||| (validFeatures ||| validProcessor) }

/-- The digit loop of `parse_cpu_architecture`, src/arm/linux/cpuinfo.c:343-354: the number and the
text where it stops. -/
def architectureDigits : Bytes → Nat → Nat × Bytes
  | [], n => (n, [])
  | c :: cs, n =>
    if CpuList.digitVal c ≥ 10 then (n, c :: cs)
    else architectureDigits cs ((n * 10 + CpuList.digitVal c) % U32)

/-- The loop over the letters after the number, src/arm/linux/cpuinfo.c:366-394. -/
def architectureLetters (a : Arch) : Bytes → Nat → Nat
  | [], f => f
  | c :: cs, f =>
    let f' := match a with
      | .arm64 => f
      | .arm => if c = 84 then f ||| 1 else if c = 69 then f ||| 2 else if c = 74 then f ||| 4 else f
    architectureLetters a cs f'

/-- The MIDR architecture code chosen by the switch of src/arm/linux/cpuinfo.c:401-421. -/
def architectureCode (a : Arch) (version archFlags : Nat) : Nat :=
  match a with
  | .arm64 => 0xF
  | .arm =>
    if version = 6 then 0x7
    else if version = 5 then
      (if archFlags &&& 7 = 7 then 0x6 else if archFlags &&& 3 = 3 then 0x5 else 0x4)
    else 0xF

/-- `parse_cpu_architecture`, src/arm/linux/cpuinfo.c:327-422. -/
def parseArchitecture (a : Arch) (v : Bytes) (p : Proc) : Proc :=
  if v = b!"AArch64" then
    { p with midr := setArchitecture p.midr 0xF, architectureVersion := 8,
             flags := p.flags ||| (validArchitecture ||| validProcessor) }
  else
    let (n, rest) := architectureDigits v 0
    let p :=
      if rest.length = v.length then p
      else if n ≠ 0 then
        { p with architectureVersion := n,
                 flags := p.flags ||| (validArchitecture ||| validProcessor),
                 architectureFlags := architectureLetters a rest p.architectureFlags }
      else p
    { p with midr := setArchitecture p.midr
                       (architectureCode a p.architectureVersion p.architectureFlags) }

/-- A hexadecimal digit, src/arm/linux/cpuinfo.c:458-476. -/
def hexDigit (c : Byte) : Option Nat :=
  if 48 ≤ c ∧ c ≤ 57 then some (c - 48)
  else if 65 ≤ c ∧ c < 71 then some (10 + (c - 65))
  else if 97 ≤ c ∧ c < 103 then some (10 + (c - 97))
  else none

/-- The digit loops of `parse_cpu_part` and `parse_cpu_implementer`,
src/arm/linux/cpuinfo.c:457-477 and 521-541; `none` at the first character that is not a
hexadecimal digit. -/
def hexLoop : Bytes → Nat → Option Nat
  | [], n => some n
  | c :: cs, n =>
    match hexDigit c with
    | none => none
    | some d => hexLoop cs ((n * 16 + d) % U32)

/-- The common part of the three hexadecimal parsers: length check, `0x` check, digits. -/
def parseHex (minLen maxLen : Nat) (v : Bytes) : Option Nat :=
  if v.length < minLen ∨ v.length > maxLen then none
  else
    match v with
    | 48 :: 120 :: ds => hexLoop ds 0
    | _ => none

/-- `parse_cpu_part`, src/arm/linux/cpuinfo.c:424-481. -/
def parsePart (v : Bytes) (p : Proc) : Proc :=
  match parseHex 3 5 v with
  | none => p
  | some n => { p with midr := setPart p.midr n, flags := p.flags ||| (validPart ||| validProcessor) }

/-- `parse_cpu_implementer`, src/arm/linux/cpuinfo.c:483-545. -/
def parseImplementer (v : Bytes) (p : Proc) : Proc :=
  match parseHex 3 4 v with
  | none => p
  | some n => { p with midr := setImplementer p.midr n,
                       flags := p.flags ||| (validImplementer ||| validProcessor) }

/-- `parse_cpu_variant`, src/arm/linux/cpuinfo.c:547-597. -/
def parseVariant (v : Bytes) (p : Proc) : Proc :=
  match parseHex 3 3 v with
  | none => p
  | some n => { p with midr := setVariant p.midr n,
                       flags := p.flags ||| (validVariant ||| validProcessor) }

/-- The digit loops of `parse_cpu_revision` and `parse_cache_number`,
src/arm/linux/cpuinfo.c:603-620 and 649-664: `none` at a non-digit. -/
def decimalLoop : Bytes → Nat → Option Nat
  | [], n => some n
  | c :: cs, n =>
    if CpuList.digitVal c ≥ 10 then none
    else decimalLoop cs ((n * 10 + CpuList.digitVal c) % U32)

/-- `parse_cpu_revision`, src/arm/linux/cpuinfo.c:599-624. -/
def parseRevision (v : Bytes) (p : Proc) : Proc :=
  match decimalLoop v 0 with
  | none => p
  | some n => { p with midr := setRevision p.midr n,
                       flags := p.flags ||| (validRevision ||| validProcessor) }

/-- `parse_cache_number`, src/arm/linux/cpuinfo.c:642-694 (32-bit only).  The warnings about zero
and about odd line sizes are followed by the assignment, as in the source.  `set` stores the number
in its field. -/
def parseCacheNumber (v : Bytes) (set : Nat → CacheNumbers → CacheNumbers) (mask : Nat)
    (p : Proc) : Proc :=
  match decimalLoop v 0 with
  | none => p
  | some n => { p with cache := set n p.cache, flags := p.flags ||| (mask ||| validProcessor) }

/-- Storing a Hardware or Revision value, src/arm/linux/cpuinfo.c:873-887 and 888-902: `none` when
a byte outside the buffer is written. -/
def storeText (buf : Bytes) (max : Nat) (v : Bytes) : Option Bytes :=
  if v.length > max then
    if max ≤ buf.length then some (v.take max ++ buf.drop max) else none
  else
    if v.length < buf.length then some (v ++ 0 :: buf.drop (v.length + 1)) else none

/-- `struct proc_cpuinfo_parser_state`, src/arm/linux/cpuinfo.c:697-704.  Simplification: the dummy
processor is left out, its content is never read. -/
structure State where
  hardware : Bytes
  revision : Bytes
  index : Nat
  table : List Proc
deriving DecidableEq, Repr

/-- Update the current processor, `processors[processor_index]` or the dummy,
src/arm/linux/cpuinfo.c:792-798. -/
def State.update (st : State) (maxCount : Nat) (f : Proc → Option Proc) : Option State :=
  if st.index < maxCount then
    match st.table[st.index]? with
    | none => none
    | some p => (f p).map fun p' => { st with table := st.table.set st.index p' }
  else some st

/-- The key dispatch for the keys about one processor (all but `processor`, `Hardware` and
`Revision`), src/arm/linux/cpuinfo.c:801-1004; `none` for keys without effect. -/
def fieldParser (a : Arch) (key value : Bytes) : Option (Proc → Option Proc) :=
  if key = b!"CPU part" then some fun p => some (parsePart value p)
  else if key = b!"Features" then some (parseFeatures a value)
  else if key = b!"CPU variant" then some fun p => some (parseVariant value p)
  else if key = b!"CPU revision" then some fun p => some (parseRevision value p)
  else if key = b!"CPU implementer" then some fun p => some (parseImplementer value p)
  else if key = b!"CPU implementor" then some fun p => some (parseImplementer value p)
  else if key = b!"CPU architecture" then some fun p => some (parseArchitecture a value p)
  else
    match a with
    | .arm64 => none
    | .arm =>
      if key = b!"I size" then
        some fun p => some (parseCacheNumber value (fun n c => { c with iSize := n }) validIcacheSize p)
      else if key = b!"I sets" then
        some fun p => some (parseCacheNumber value (fun n c => { c with iSets := n }) validIcacheSets p)
      else if key = b!"D size" then
        some fun p => some (parseCacheNumber value (fun n c => { c with dSize := n }) validDcacheSize p)
      else if key = b!"D sets" then
        some fun p => some (parseCacheNumber value (fun n c => { c with dSets := n }) validDcacheSets p)
      else if key = b!"I assoc" then
        some fun p => some (parseCacheNumber value (fun n c => { c with iAssoc := n }) validIcacheWays p)
      else if key = b!"D assoc" then
        some fun p => some (parseCacheNumber value (fun n c => { c with dAssoc := n }) validDcacheWays p)
      else if key = b!"I line length" then
        some fun p => some (parseCacheNumber value (fun n c => { c with iLine := n }) validIcacheLine p)
      else if key = b!"D line length" then
        some fun p => some (parseCacheNumber value (fun n c => { c with dLine := n }) validDcacheLine p)
      else none

/-- One key and value, src/arm/linux/cpuinfo.c:801-1005.  `parse_processor_number`
(src/arm/linux/cpuinfo.c:18-40) is the same text as the x86 one, `X86Cpuinfo.parseProcessorNumber`. -/
def parseKeyValue (a : Arch) (maxCount : Nat) (st : State) (key value : Bytes) : Option State :=
  if key = b!"Hardware" then
    (storeText st.hardware 64 value).map fun h => { st with hardware := h }
  else if key = b!"Revision" then
    (storeText st.revision 9 value).map fun r => { st with revision := r }
  else if key = b!"processor" then
    let n := X86Cpuinfo.parseProcessorNumber value
    if n < maxCount then
      match st.table[n]? with
      | none => none
      | some p =>
        some { st with index := n, table := st.table.set n { p with flags := p.flags ||| validProcessor } }
    else some { st with index := n }
  else
    match fieldParser a key value with
    | none => some st
    | some f => st.update maxCount f

/-- `parse_line`, src/arm/linux/cpuinfo.c:726-1006; always returns `true`.  Splitting a line into key
and value (lines 731-790) is the same text as in the x86 parser, `X86Cpuinfo.splitLine`.  The state
is `none` once an access out of bounds happened.  Simplification: log messages are not modelled. -/
def parseLine (a : Arch) (maxCount : Nat) (s : Option State) (line : Bytes) (_lineNo : Nat) :
    Option State × Bool :=
  (s.bind fun st =>
    match X86Cpuinfo.splitLine line with
    | none => some st
    | some (key, value) => parseKeyValue a maxCount st key value, true)

/-- `cpuinfo_arm_linux_parse_proc_cpuinfo`, src/arm/linux/cpuinfo.c:1008-1023 (`BUFFER_SIZE` is
1024).  `hardware` and `revision` are the buffers as they are on entry: the first byte of the
Hardware buffer is cleared, the Revision buffer is not touched. -/
def parseProcCpuinfo (a : Arch) (file : Option Bytes) (sched : Sched) (hardware revision : Bytes)
    (maxCount : Nat) (table : List Proc) : Option (Option State × Bool) :=
  Multiline.parse file 1024 sched (parseLine a maxCount)
    (some { hardware := hardware.set 0 0, revision, index := 0, table })

/-- `cpuinfo_arm_linux_processor_equals`, src/arm/linux/api.h:232-266. -/
def processorEquals (i j : Proc) : Bool :=
  let joint := i.flags &&& j.flags
  if joint &&& 0x4 ≠ 0 ∧ i.maxFrequency ≠ j.maxFrequency then false
  else
    let sameMax : Bool := joint &&& 0x4 != 0
    if joint &&& 0x8 ≠ 0 ∧ i.minFrequency ≠ j.minFrequency then false
    else
      let sameMin : Bool := joint &&& 0x8 != 0
      if joint &&& validMidr = validMidr ∧ i.midr = j.midr then
        (if isCortexA53 i.midr then sameMin && sameMax else true)
      else sameMax && sameMin

/-- `cpuinfo_arm_linux_processor_not_equals`, src/arm/linux/api.h:270-294. -/
def processorNotEquals (i j : Proc) : Bool :=
  let joint := i.flags &&& j.flags
  if joint &&& 0x4 ≠ 0 ∧ i.maxFrequency ≠ j.maxFrequency then true
  else if joint &&& 0x8 ≠ 0 ∧ i.minFrequency ≠ j.minFrequency then true
  else if joint &&& validMidr = validMidr ∧ i.midr ≠ j.midr then true
  else false

end Verif.ArmCpuinfo
