import Verif.Base
import Verif.Model.ArmChipsetDecode

/-!
# Model of scripts/arm-linux-filesystem-dump.py

The script that writes the files of a device as a C header, from which tests make the file system of the
mock build (src/linux/mockfile.c).  The script is for Python 2, where files that are opened with "rb" give
strings of bytes.

Simplifications: `IOError` is the only error when a file is read; the header can be written.  The
copy of /proc/cpuinfo to test/cpuinfo is left out.
-/

set_option autoImplicit false

namespace Verif.FileDump
open ArmChipset (decimal)

/-- A digit of `%02X`. -/
def hexDigit (n : Nat) : Byte := if n < 10 then 48 + n else 55 + n

/-- One round of `c_escape`, scripts/arm-linux-filesystem-dump.py:45-60. -/
def escapeByte (c : Byte) : Bytes :=
  if c = 92 then [92, 92]
  else if c = 34 then [92, 34]
  else if c = 9 then [92, 116]
  else if c = 10 then [92, 110]
  else if c = 13 then [92, 114]
  else if c = 0 then [92, 48]
  else if 32 ≤ c ∧ c < 127 then [c]
  else [120, hexDigit (c / 16), hexDigit (c % 16)]

/-- `c_escape`, scripts/arm-linux-filesystem-dump.py:42-61. -/
def cEscape (s : Bytes) : Bytes := s.flatMap escapeByte

/-- `str.splitlines(True)` of Python 2: lines end with a line feed, a carriage return, or both in the
order "\r\n", and keep their ends.  (`splitlines()` gives as many lines.) -/
def splitLines : Bytes → List Bytes
  | [] => []
  | 13 :: 10 :: r => [13, 10] :: splitLines r
  | c :: r =>
    if c = 10 ∨ c = 13 then [c] :: splitLines r
    else
      match splitLines r with
      | [] => [[c]]
      | l :: ls => (c :: l) :: ls

/-- `.content = …`, scripts/arm-linux-filesystem-dump.py:71-77. -/
def contentText (content : Bytes) : Bytes :=
  if (splitLines content).length > 1 then
    b!"\t\t.content =" ++ (splitLines content).flatMap (fun l => b!"\n\t\t\t\"" ++ cEscape l ++ b!"\"") ++
      b!",\n"
  else b!"\t\t.content = \"" ++ cEscape content ++ b!"\",\n"

/-- `dump_system_file` for a file that can be read, scripts/arm-linux-filesystem-dump.py:64-79. -/
def entryText (path content : Bytes) : Bytes :=
  b!"\t{\n" ++ (b!"\t\t.path = \"" ++ path ++ b!"\",\n") ++
    (b!"\t\t.size = " ++ decimal content.length ++ b!",\n") ++ contentText content ++ b!"\t},\n"

/-- `SYSTEM_FILES`, scripts/arm-linux-filesystem-dump.py:14-19. -/
def systemFiles : List Bytes :=
  [b!"/proc/cpuinfo", b!"/sys/devices/system/cpu/kernel_max", b!"/sys/devices/system/cpu/possible",
    b!"/sys/devices/system/cpu/present"]

/-- `CPU_FILES`, scripts/arm-linux-filesystem-dump.py:21-28. -/
def cpuFiles : List Bytes :=
  [b!"cpufreq/cpuinfo_max_freq", b!"cpufreq/cpuinfo_min_freq", b!"topology/physical_package_id",
    b!"topology/core_siblings_list", b!"topology/core_id", b!"topology/thread_siblings_list"]

/-- `CACHE_FILES`, scripts/arm-linux-filesystem-dump.py:30-40. -/
def cacheFiles : List Bytes :=
  [b!"allocation_policy", b!"coherency_line_size", b!"level", b!"number_of_sets", b!"shared_cpu_list",
    b!"size", b!"type", b!"ways_of_associativity", b!"write_policy"]

/-- The directory of a processor. -/
def cpuDir (cpu : Nat) : Bytes := b!"/sys/devices/system/cpu/cpu" ++ decimal cpu ++ b!"/"

/-- The paths in the order of `main`, scripts/arm-linux-filesystem-dump.py:91-100. -/
def paths : List Bytes :=
  systemFiles ++ (List.range 16).flatMap fun cpu =>
    cpuFiles.map (fun f => cpuDir cpu ++ f) ++
      (List.range 10).flatMap fun index =>
        cacheFiles.map fun f => cpuDir cpu ++ (b!"cache/index" ++ decimal index ++ b!"/" ++ f)

/-- What is written for a path, scripts/arm-linux-filesystem-dump.py:64-81; `device` gives the content of
a file, `none` if it cannot be read. -/
def dumpFile (device : Bytes → Option Bytes) (path : Bytes) : Bytes :=
  match device path with
  | some content => entryText path content
  | none => []

/-- The array of the files with some paths. -/
def headerOf (ps : List Bytes) (device : Bytes → Option Bytes) : Bytes :=
  b!"struct cpuinfo_mock_file filesystem[] = {\n" ++ ps.flatMap (dumpFile device) ++
    b!"\t{ NULL },\n" ++ b!"};\n"

/-- The header, scripts/arm-linux-filesystem-dump.py:89-102. -/
def header (device : Bytes → Option Bytes) : Bytes := headerOf paths device

end Verif.FileDump
