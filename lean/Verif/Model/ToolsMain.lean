import Verif.Model.Tools

/-!
# Model of what tools/cpu-info.c and tools/cache-info.c print as a whole

The queries of the library are parameters: a list for every table, in order.  Initialization has
succeeded.
-/

set_option autoImplicit false

namespace Verif.Tools

open Verif.ArmChipset (decimal)

/-- What the preprocessor distinguishes, tools/cpu-info.c:299-306, 377-394. -/
structure Host where
  android : Bool
  linux : Bool
  x86 : Bool
deriving DecidableEq, Repr

/-- The fields of `struct cpuinfo_uarch_info` that are printed. -/
structure UarchRow where
  coreCount : Nat
  uarch : Nat
deriving DecidableEq, Repr

/-- The fields of `struct cpuinfo_core` that are printed. -/
structure CoreRow where
  processorStart : Nat
  processorCount : Nat
  vendor : Nat
  uarch : Nat
deriving DecidableEq, Repr

/-- The fields of `struct cpuinfo_cluster` that are printed. -/
structure ClusterRow where
  processorStart : Nat
  processorCount : Nat
  coreStart : Nat
  coreCount : Nat
  vendor : Nat
  uarch : Nat
deriving DecidableEq, Repr

/-- The fields of `struct cpuinfo_processor` that are printed.  (`linux_id` is signed, but never
negative.) -/
structure ProcessorRow where
  linuxId : Nat
  apicId : Nat
deriving DecidableEq, Repr

/-- What the queries return; of packages the names. -/
structure Machine where
  packages : List Bytes
  uarchs : List UarchRow
  cores : List CoreRow
  clusters : List ClusterRow
  processors : List ProcessorRow
deriving DecidableEq, Repr

/-- `for (uint32_t i = 0; i < count; i++)` that prints a line for each element. -/
def numbered {α : Type} (line : Nat → α → Bytes) : Nat → List α → Bytes
  | _, [] => []
  | i, x :: xs => line i x ++ numbered line (i + 1) xs

/-- One line of the packages, tools/cpu-info.c:304. -/
def packageLine (i : Nat) (name : Bytes) : Bytes := [9] ++ decimal i ++ b!": " ++ name ++ [10]

/-- The packages, tools/cpu-info.c:299-306.  On Android the name of package 0 is read through a null
pointer (`none`) if there is no package. -/
def packagesText (h : Host) (packages : List Bytes) : Option Bytes :=
  if h.android then packages.head?.map fun name => b!"SoC name: " ++ name ++ [10]
  else some (b!"Packages:\n" ++ numbered packageLine 0 packages)

/-- One line of the logical processors, tools/cpu-info.c:381-394. -/
def processorLine (h : Host) (i : Nat) (p : ProcessorRow) : Bytes :=
  [9] ++ decimal i ++ (if h.linux then b!" (" ++ decimal p.linuxId ++ b!")" else []) ++
    (if h.x86 then b!": APIC ID 0x" ++ hex8 p.apicId ++ [10] else [10])

/-- `main` of tools/cpu-info.c, lines 299-395. -/
def cpuInfo (h : Host) (m : Machine) : Option Bytes :=
  (packagesText h m.packages).map fun packages => packages ++
    (b!"Microarchitectures:\n" ++ (numbered (fun _ u => uarchLine u.coreCount u.uarch) 0 m.uarchs ++
    (b!"Cores:\n" ++ (numbered (fun i c => coreLine i c.processorStart c.processorCount c.vendor c.uarch)
      0 m.cores ++
    (b!"Clusters:\n" ++ (numbered (fun i c => clusterLine i c.processorStart c.processorCount c.coreStart
      c.coreCount c.vendor c.uarch) 0 m.clusters ++
    (b!"Logical processors" ++ ((if h.linux then b!" (System ID)" else []) ++ (b!":\n" ++
      numbered (processorLine h) 0 m.processors)))))))))

/-- A table of caches: how many, and the first. -/
structure Level where
  count : Nat
  first : X86Init.Cache
deriving DecidableEq, Repr

/-- `if (cpuinfo_get_lX_caches_count() != 0) report_cache(...)`, tools/cache-info.c:67-78. -/
def levelText (l : Level) (level : Nat) : Bytes :=
  if l.count ≠ 0 then reportCache l.count l.first level b!"data" else []

/-- The tables of caches. -/
structure CacheTables where
  maxCacheSize : Nat
  l1i : Level
  l1d : Level
  l2 : Level
  l3 : Level
  l4 : Level
deriving DecidableEq, Repr

/-- `main` of tools/cache-info.c, lines 62-78. -/
def cacheInfo (t : CacheTables) : Bytes :=
  b!"Max cache size (upper bound): " ++ (decimal t.maxCacheSize ++ (b!" bytes\n" ++
    ((if t.l1i.count ≠ 0 ∧ t.l1i.first.flags &&& 1 = 0 then
      reportCache t.l1i.count t.l1i.first 1 b!"instruction" else []) ++
    (levelText t.l1d 1 ++ (levelText t.l2 2 ++ (levelText t.l3 3 ++ levelText t.l4 4))))))

end Verif.Tools
