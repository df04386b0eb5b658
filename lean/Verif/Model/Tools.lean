import Verif.Model.X86Init
import Verif.Model.ArmChipsetDecode

/-!
# Model of the reports of tools/cpu-info.c and tools/cache-info.c

Text is what `printf` writes, as bytes.  Enumerators are the numbers of include/cpuinfo.h.
-/

set_option autoImplicit false

namespace Verif.Tools

open Verif.ArmChipset (decimal)

/-- The cases of `vendor_to_string`, tools/cpu-info.c:8-47. -/
def vendorNames : List (Nat × Bytes) :=
  [(0, b!"unknown"), (1, b!"Intel"), (2, b!"AMD"), (15, b!"Huawei"), (16, b!"Hygon"), (3, b!"ARM"),
   (4, b!"Qualcomm"), (5, b!"Apple"), (6, b!"Samsung"), (7, b!"Nvidia"), (8, b!"MIPS"),
   (9, b!"IBM"), (10, b!"Ingenic"), (11, b!"VIA"), (12, b!"Cavium"), (13, b!"Broadcom"),
   (14, b!"Applied Micro")]

/-- The cases of `uarch_to_string`, tools/cpu-info.c:49-292. -/
def uarchNames : List (Nat × Bytes) :=
  [(0x00000000, b!"unknown"), (0x00100100, b!"P5"), (0x00100101, b!"Quark"), (0x00100200, b!"P6"),
   (0x00100201, b!"Dothan"), (0x00100202, b!"Yonah"), (0x00100203, b!"Conroe"),
   (0x00100204, b!"Penryn"), (0x00100205, b!"Nehalem"), (0x00100206, b!"Sandy Bridge"),
   (0x00100207, b!"Ivy Bridge"), (0x00100208, b!"Haswell"), (0x00100209, b!"Broadwell"),
   (0x0010020A, b!"Sky Lake"), (0x0010020B, b!"Palm Cove"), (0x0010020C, b!"Sunny Cove"),
   (0x00100300, b!"Willamette"), (0x00100301, b!"Prescott"), (0x00100400, b!"Bonnell"),
   (0x00100401, b!"Saltwell"), (0x00100402, b!"Silvermont"), (0x00100403, b!"Airmont"),
   (0x00100404, b!"Goldmont"), (0x00100405, b!"Goldmont Plus"), (0x00100500, b!"Knights Ferry"),
   (0x00100501, b!"Knights Corner"), (0x00100502, b!"Knights Landing"),
   (0x00100503, b!"Knights Hill"), (0x00100504, b!"Knights Mill"), (0x00200100, b!"K5"),
   (0x00200101, b!"K6"), (0x00200102, b!"K7"), (0x00200103, b!"K8"), (0x00200104, b!"K10"),
   (0x00200105, b!"Bulldozer"), (0x00200106, b!"Piledriver"), (0x00200107, b!"Steamroller"),
   (0x00200108, b!"Excavator"), (0x00200109, b!"Zen"), (0x0020010A, b!"Zen 2"),
   (0x0020010B, b!"Zen 3"), (0x0020010C, b!"Zen 4"), (0x0020010D, b!"Zen 5"),
   (0x00200200, b!"Geode"), (0x00200201, b!"Bobcat"), (0x00200202, b!"Jaguar"),
   (0x00200203, b!"Puma"), (0x00100600, b!"XScale"), (0x00300100, b!"ARM7"), (0x00300101, b!"ARM9"),
   (0x00300102, b!"ARM11"), (0x00300205, b!"Cortex-A5"), (0x00300207, b!"Cortex-A7"),
   (0x00300208, b!"Cortex-A8"), (0x00300209, b!"Cortex-A9"), (0x00300212, b!"Cortex-A12"),
   (0x00300215, b!"Cortex-A15"), (0x00300217, b!"Cortex-A17"), (0x00300332, b!"Cortex-A32"),
   (0x00300335, b!"Cortex-A35"), (0x00300353, b!"Cortex-A53"), (0x00300354, b!"Cortex-A55r0"),
   (0x00300355, b!"Cortex-A55"), (0x00300357, b!"Cortex-A57"), (0x00300365, b!"Cortex-A65"),
   (0x00300372, b!"Cortex-A72"), (0x00300373, b!"Cortex-A73"), (0x00300375, b!"Cortex-A75"),
   (0x00300376, b!"Cortex-A76"), (0x00300377, b!"Cortex-A77"), (0x00300378, b!"Cortex-A78"),
   (0x00300551, b!"Cortex-A510"), (0x00300571, b!"Cortex-A710"), (0x00300572, b!"Cortex-A715"),
   (0x00300501, b!"Cortex-X1"), (0x00300502, b!"Cortex-X2"), (0x00300503, b!"Cortex-X3"),
   (0x00300400, b!"Neoverse N1"), (0x00300401, b!"Neoverse E1"), (0x00300402, b!"Neoverse V1"),
   (0x00300403, b!"Neoverse N2"), (0x00300404, b!"Neoverse V2"), (0x00400100, b!"Scorpion"),
   (0x00400101, b!"Krait"), (0x00400102, b!"Kryo"), (0x00400103, b!"Falkor"),
   (0x00400104, b!"Saphira"), (0x00400105, b!"Oryon"), (0x00500100, b!"Denver"),
   (0x00500101, b!"Denver 2"), (0x00500102, b!"Carmel"), (0x00600100, b!"Exynos M1"),
   (0x00600101, b!"Exynos M2"), (0x00600102, b!"Exynos M3"), (0x00600103, b!"Exynos M4"),
   (0x00600104, b!"Exynos M5"), (0x00700100, b!"Swift"), (0x00700101, b!"Cyclone"),
   (0x00700102, b!"Typhoon"), (0x00700103, b!"Twister"), (0x00700104, b!"Hurricane"),
   (0x00700105, b!"Monsoon"), (0x00700106, b!"Mistral"), (0x00700107, b!"Vortex"),
   (0x00700108, b!"Tempest"), (0x00700109, b!"Lightning"), (0x0070010A, b!"Thunder"),
   (0x0070010B, b!"Firestorm"), (0x0070010C, b!"Icestorm"), (0x0070010D, b!"Avalanche"),
   (0x0070010E, b!"Blizzard"), (0x00800100, b!"ThunderX"), (0x00800200, b!"ThunderX2"),
   (0x00900100, b!"PJ4"), (0x00A00100, b!"Brahma B15"), (0x00A00101, b!"Brahma B53"),
   (0x00B00100, b!"X-Gene"), (0x01000100, b!"Dhyana"), (0x00C00100, b!"TaiShan v110")]

/-- `vendor_to_string`, tools/cpu-info.c:8-47; `none` is the null pointer. -/
def vendorToString (v : Nat) : Option Bytes := vendorNames.lookup v

/-- `uarch_to_string`, tools/cpu-info.c:49-292. -/
def uarchToString (u : Nat) : Option Bytes := uarchNames.lookup u

/-- A hexadecimal digit of `%x`. -/
def hexDigit (d : Nat) : Byte := if d < 10 then 48 + d else 87 + d

/-- `%08x` of a number below 2^32. -/
def hex8 (n : Nat) : Bytes :=
  [n / 0x10000000 % 16, n / 0x1000000 % 16, n / 0x100000 % 16, n / 0x10000 % 16, n / 0x1000 % 16,
   n / 0x100 % 16, n / 16 % 16, n % 16].map hexDigit

/-- One line of the microarchitectures, tools/cpu-info.c:309-317.  (The closing parenthesis is missing in
the code, too.) -/
def uarchLine (coreCount uarch : Nat) : Bytes :=
  match uarchToString uarch with
  | none => [9] ++ decimal coreCount ++ b!"x Unknown (0x" ++ hex8 uarch ++ [10]
  | some s => [9] ++ decimal coreCount ++ b!"x " ++ s ++ [10]

/-- `1 processor (0)` or `2 processors (0-1)`, tools/cpu-info.c:322-330, 346-354 and 355-363; the sum wraps. -/
def members (what : Bytes) (start count : Nat) : Bytes :=
  if count = 1 then b!"1 " ++ what ++ b!" (" ++ decimal start ++ b!")"
  else decimal count ++ b!" " ++ what ++ b!"s (" ++ decimal start ++ b!"-" ++
    decimal ((start + count + U32MAX) % U32) ++ b!")"

/-- The end of the lines of cores and clusters, tools/cpu-info.c:331-341 and 364-374. -/
def makerText (vendor uarch : Nat) : Bytes :=
  match vendorToString vendor, uarchToString uarch with
  | none, _ => b!", vendor 0x" ++ hex8 vendor ++ b!" uarch 0x" ++ hex8 uarch ++ [10]
  | some v, none => b!", " ++ v ++ b!" uarch 0x" ++ hex8 uarch ++ [10]
  | some v, some u => b!", " ++ v ++ b!" " ++ u ++ [10]

/-- One line of the cores, tools/cpu-info.c:321-341. -/
def coreLine (i start count vendor uarch : Nat) : Bytes :=
  [9] ++ decimal i ++ b!": " ++ members b!"processor" start count ++ makerText vendor uarch

/-- One line of the clusters, tools/cpu-info.c:345-374. -/
def clusterLine (i start count coreStart coreCount vendor uarch : Nat) : Bytes :=
  [9] ++ decimal i ++ b!": " ++ members b!"processor" start count ++
    b!",\t" ++ decimal i ++ b!": " ++ members b!"core" coreStart coreCount ++ makerText vendor uarch

/-- The size with its unit, tools/cache-info.c:11-19. -/
def sizeText (size : Nat) : Bytes :=
  if size % 1048576 = 0 then decimal (size / 1048576) ++ b!" MB"
  else if size % 1024 = 0 then decimal (size / 1024) ++ b!" KB"
  else decimal size ++ b!" bytes"

/-- The ways, tools/cache-info.c:32-36; the product wraps. -/
def waysText (c : X86Init.Cache) : Bytes :=
  if c.associativity * c.lineSize % U32 = c.size then b!"fully associative"
  else decimal c.associativity ++ b!"-way set associative"

/-- The sets, tools/cache-info.c:37-47.  (Without sets there is no comma before the line size.) -/
def setsText (c : X86Init.Cache) : Bytes :=
  if c.sets ≠ 0 then
    b!" (" ++ decimal c.sets ++ b!" sets" ++
      (if c.partitions ≠ 1 then b!", " ++ decimal c.partitions ++ b!" partitions" else []) ++
      (if c.flags &&& 4 ≠ 0 then b!", complex indexing), " else b!"), ")
  else []

/-- The processors, tools/cache-info.c:50-54. -/
def sharedText (c : X86Init.Cache) : Bytes :=
  if c.processorCount ≠ 0 then b!", shared by " ++ decimal c.processorCount ++ b!" processors\n"
  else [10]

/-- `report_cache`, tools/cache-info.c:7-55. -/
def reportCache (count : Nat) (c : X86Init.Cache) (level : Nat) (type : Bytes) : Bytes :=
  b!"L" ++ decimal level ++ b!" " ++ (if c.flags &&& 1 ≠ 0 then b!"unified" else type) ++ b!" cache: " ++
    (if count ≠ 1 then decimal count ++ b!" x " else []) ++
    sizeText c.size ++
    (if level = 1 then b!", "
     else b!" (" ++ (if c.flags &&& 2 ≠ 0 then b!"inclusive" else b!"exclusive") ++ b!"), ") ++
    waysText c ++ setsText c ++ decimal c.lineSize ++ b!" byte lines" ++ sharedText c

end Verif.Tools
