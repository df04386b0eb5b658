import Verif.Model.X86Init

/-!
Model of the query functions of `src/api.c`.

Every query is a small program of single reads of one global variable each, so that other threads
can act between two reads.  Pointers returned to the caller are represented by what they point to:
`none` is the null pointer, `some x` a pointer to the table element `x`.  Forming a pointer to an
element that is not in its table is the outcome `fault`.

Simplifications: the table of global variables is one record (src/api.c:18-47), and the variables
that only some builds have (`cpuinfo_uarchs`, the maps of Linux CPU numbers) are present on every
platform but only touched by the queries of the builds that have them.  The answer of the `getcpu`
system call is a parameter of the query: `none` if the call fails.
-/

set_option autoImplicit false

namespace Verif.Api

/-- `enum cpuinfo_cache_level`, src/cpuinfo/internal-api.h:11-18. -/
inductive Level
  | l1i | l1d | l2 | l3 | l4
deriving DecidableEq, Repr

/-- The kinds of tables that are published. -/
inductive Kind
  | processor | core | cluster | package | uarch
  | cache (l : Level)
deriving DecidableEq, Repr

/-- The global variables of src/api.c:18-47.  `E k` is the type of the elements of the table of
kind `k`.  A table is a pointer (`none` is NULL) to an array; the entries of the processor and core
maps are pointers to elements, given by their position (`none` is NULL). -/
structure Globals (E : Kind → Type) where
  isInitialized : Bool
  table : (k : Kind) → Option (List (E k))
  count : Kind → Nat
  globalUarch : E .uarch
  maxCacheSize : Nat
  linuxCpuMax : Nat
  processorMap : Option (List (Option Nat))
  coreMap : Option (List (Option Nat))
  uarchMap : Option (List Nat)

/-- The values before initialization, src/api.c:18-47. -/
def Globals.initial {E : Kind → Type} (u : E .uarch) : Globals E where
  isInitialized := false
  table := fun _ => none
  count := fun _ => 0
  globalUarch := u
  maxCacheSize := 0
  linuxCpuMax := 0
  processorMap := none
  coreMap := none
  uarchMap := none

/-- An assignment to one global variable. -/
inductive Store (E : Kind → Type)
  | flag (b : Bool)
  | table (k : Kind) (t : Option (List (E k)))
  | count (k : Kind) (n : Nat)
  | globalUarch (u : E .uarch)
  | maxCacheSize (n : Nat)
  | linuxCpuMax (n : Nat)
  | processorMap (m : Option (List (Option Nat)))
  | coreMap (m : Option (List (Option Nat)))
  | uarchMap (m : Option (List Nat))

/-- Write one entry of a family of variables. -/
def setAt {D : Kind → Type} (f : (k : Kind) → D k) (k : Kind) (x : D k) : (k' : Kind) → D k' :=
  fun k' => if h : k = k' then h ▸ x else f k'

/-- The effect of an assignment. -/
def Store.apply {E : Kind → Type} : Store E → Globals E → Globals E
  | .flag b, g => { g with isInitialized := b }
  | .table k t, g => { g with table := setAt (D := fun k => Option (List (E k))) g.table k t }
  | .count k n, g => { g with count := setAt (D := fun _ => Nat) g.count k n }
  | .globalUarch u, g => { g with globalUarch := u }
  | .maxCacheSize n, g => { g with maxCacheSize := n }
  | .linuxCpuMax n, g => { g with linuxCpuMax := n }
  | .processorMap m, g => { g with processorMap := m }
  | .coreMap m, g => { g with coreMap := m }
  | .uarchMap m, g => { g with uarchMap := m }

/-- Assignments in program order. -/
def applyAll {E : Kind → Type} : List (Store E) → Globals E → Globals E
  | [], g => g
  | s :: rest, g => applyAll rest (s.apply g)

/-- What a query hands back to its caller. -/
inductive Answer (E : Kind → Type)
  | elem (k : Kind) (x : Option (E k))
  | table (k : Kind) (t : Option (List (E k)))
  | num (n : Nat)

/-- How a query ends: `abort` is `cpuinfo_log_fatal` (src/cpuinfo/log.h:97-105, which ends the
process), `fault` is forming a pointer outside a table or reading outside a map. -/
inductive Res (E : Kind → Type)
  | abort
  | fault
  | ret (a : Answer E)

/-- A program that reads global variables one at a time. -/
inductive Prog (E : Kind → Type)
  | done (r : Res E)
  | read (k : Globals E → Prog E)

/-- Run a program without interruption. -/
def Prog.eval {E : Kind → Type} : Prog E → Globals E → Res E
  | .done r, _ => r
  | .read k, g => (k g).eval g

/-- What differs between the builds: does the library know several kinds of cores
(`CPUINFO_ARCH_ARM || CPUINFO_ARCH_ARM64 || CPUINFO_ARCH_RISCV32 || CPUINFO_ARCH_RISCV64`), and is it
`__linux__`? -/
structure Build where
  manyUarchs : Bool
  linux : Bool
deriving DecidableEq, Repr

/-- `if (!cpuinfo_is_initialized) cpuinfo_log_fatal(…)`, the first statement of every query. -/
def guarded {E : Kind → Type} (body : Prog E) : Prog E :=
  .read fun g => if g.isInitialized then body else .done .abort

/-- The address of element `index` of a table. -/
def pointTo {E : Kind → Type} (k : Kind) (t : Option (List (E k))) (index : Nat) : Res E :=
  match t with
  | none => .fault
  | some t =>
    match t[index]? with
    | none => .fault
    | some x => .ret (.elem k (some x))

/-- The table getters, for example src/api.c:49-54. -/
def tableProg {E : Kind → Type} (k : Kind) : Prog E :=
  guarded (.read fun g => .done (.ret (.table k (g.table k))))

/-- The index getters, for example src/api.c:88-96; `n` is the counter that is consulted. -/
def elemProg {E : Kind → Type} (k n : Kind) (index : Nat) : Prog E :=
  guarded (.read fun g =>
    if index ≥ g.count n then .done (.ret (.elem k none))
    else .read fun g => .done (pointTo k (g.table k) index))

/-- The counting getters, for example src/api.c:145-150. -/
def countProg {E : Kind → Type} (k : Kind) : Prog E :=
  guarded (.read fun g => .done (.ret (.num (g.count k))))

/-- A pointer stored in a map of CPU numbers, read at src/api.c:324 and 343. -/
def mapEntry {E : Kind → Type} (k : Kind) (m : Option (List (Option Nat)))
    (t : Option (List (E k))) (cpu : Nat) : Res E :=
  match m with
  | none => .fault
  | some m =>
    match m[cpu]? with
    | none => .fault
    | some none => .ret (.elem k none)
    | some (some i) => pointTo k t i

/-- The entry of the map of core kinds, src/api.c:371 and 406. -/
def uarchEntry {E : Kind → Type} (m : List Nat) (cpu : Nat) : Res E :=
  match m[cpu]? with
  | none => .fault
  | some u => .ret (.num u)

/-- The queries of src/api.c.  `os` is the answer of `syscall(__NR_getcpu, …)`. -/
inductive Query
  | processors | cores | clusters | packages | uarchs
  | l1iCaches | l1dCaches | l2Caches | l3Caches | l4Caches
  | processor (index : Nat) | core (index : Nat) | cluster (index : Nat) | package (index : Nat)
  | uarch (index : Nat)
  | l1iCache (index : Nat) | l1dCache (index : Nat) | l2Cache (index : Nat)
  | l3Cache (index : Nat) | l4Cache (index : Nat)
  | processorsCount | coresCount | clustersCount | packagesCount | uarchsCount
  | l1iCachesCount | l1dCachesCount | l2CachesCount | l3CachesCount | l4CachesCount
  | maxCacheSize
  | currentProcessor (os : Option Nat)
  | currentCore (os : Option Nat)
  | currentUarchIndex (os : Option Nat)
  | currentUarchIndexWithDefault (os : Option Nat) (dflt : Nat)
deriving DecidableEq, Repr

/-- `cpuinfo_get_uarchs`, src/api.c:77-86: on a build with one kind of cores the table is the single
global record. -/
def uarchsProg {E : Kind → Type} (b : Build) : Prog E :=
  if b.manyUarchs then tableProg .uarch
  else guarded (.read fun g => .done (.ret (.table .uarch (some [g.globalUarch]))))

/-- `cpuinfo_get_uarch`, src/api.c:128-143. -/
def uarchProg {E : Kind → Type} (b : Build) (index : Nat) : Prog E :=
  if b.manyUarchs then elemProg .uarch .uarch index
  else guarded
    (if index ≠ 0 then .done (.ret (.elem .uarch none))
     else .read fun g => .done (.ret (.elem .uarch (some g.globalUarch))))

/-- `cpuinfo_get_uarchs_count`, src/api.c:173-182. -/
def uarchsCountProg {E : Kind → Type} (b : Build) : Prog E :=
  if b.manyUarchs then countProg .uarch else guarded (.done (.ret (.num 1)))

/-- `cpuinfo_get_current_processor`, src/api.c:311-328. -/
def currentProcessorProg {E : Kind → Type} (b : Build) (os : Option Nat) : Prog E :=
  guarded (if b.linux then
    match os with
    | none => .done (.ret (.elem .processor none))
    | some cpu => .read fun g =>
      if cpu % U32 ≥ g.linuxCpuMax then .done (.ret (.elem .processor none))
      else .read fun g => .done (mapEntry .processor g.processorMap (g.table .processor) cpu)
  else .done (.ret (.elem .processor none)))

/-- `cpuinfo_get_current_core`, src/api.c:330-347. -/
def currentCoreProg {E : Kind → Type} (b : Build) (os : Option Nat) : Prog E :=
  guarded (if b.linux then
    match os with
    | none => .done (.ret (.elem .core none))
    | some cpu => .read fun g =>
      if cpu % U32 ≥ g.linuxCpuMax then .done (.ret (.elem .core none))
      else .read fun g => .done (mapEntry .core g.coreMap (g.table .core) cpu)
  else .done (.ret (.elem .core none)))

/-- `cpuinfo_get_current_uarch_index`, src/api.c:349-381. -/
def currentUarchProg {E : Kind → Type} (b : Build) (os : Option Nat) : Prog E :=
  guarded (if b.manyUarchs then
    if b.linux then
      .read fun g =>
        match g.uarchMap with
        | none => .done (.ret (.num 0))
        | some _ =>
          match os with
          | none => .done (.ret (.num 0))
          | some cpu => .read fun g =>
            if cpu % U32 ≥ g.linuxCpuMax then .done (.ret (.num 0))
            else .read fun g =>
              match g.uarchMap with
              | none => .done .fault
              | some m => .done (uarchEntry m cpu)
    else .done (.ret (.num 0))
  else .done (.ret (.num 0)))

/-- `cpuinfo_get_current_uarch_index_with_default`, src/api.c:383-416. -/
def currentUarchDefaultProg {E : Kind → Type} (b : Build) (os : Option Nat) (dflt : Nat) : Prog E :=
  guarded (if b.manyUarchs then
    if b.linux then
      .read fun g =>
        match g.uarchMap with
        | none => .done (.ret (.num 0))
        | some _ =>
          match os with
          | none => .done (.ret (.num dflt))
          | some cpu => .read fun g =>
            if cpu % U32 ≥ g.linuxCpuMax then .done (.ret (.num dflt))
            else .read fun g =>
              match g.uarchMap with
              | none => .done .fault
              | some m => .done (uarchEntry m cpu)
    else .done (.ret (.num dflt))
  else .done (.ret (.num 0)))

/-- The body of each query; the line of each in src/api.c is given at the right. -/
def Query.prog {E : Kind → Type} (b : Build) : Query → Prog E
  | .processors => tableProg .processor                              -- 49
  | .cores => tableProg .core                                        -- 56
  | .clusters => tableProg .cluster                                  -- 63
  | .packages => tableProg .package                                  -- 70
  | .uarchs => uarchsProg b                                          -- 77
  | .processor i => elemProg .processor .processor i                 -- 88
  | .core i => elemProg .core .core i                                -- 98
  | .cluster i => elemProg .cluster .cluster i                       -- 108
  | .package i => elemProg .package .package i                       -- 118
  | .uarch i => uarchProg b i                                        -- 128
  | .processorsCount => countProg .processor                         -- 145
  | .coresCount => countProg .core                                   -- 152
  | .clustersCount => countProg .cluster                             -- 159
  | .packagesCount => countProg .package                             -- 166
  | .uarchsCount => uarchsCountProg b                                -- 173
  | .l1iCaches => tableProg (.cache .l1i)                            -- 184
  | .l1dCaches => tableProg (.cache .l1d)                            -- 191
  | .l2Caches => tableProg (.cache .l2)                              -- 198
  | .l3Caches => tableProg (.cache .l3)                              -- 205
  | .l4Caches => tableProg (.cache .l4)                              -- 212
  | .l1iCache i => elemProg (.cache .l1i) (.cache .l1i) i            -- 219
  | .l1dCache i => elemProg (.cache .l1d) (.cache .l1d) i            -- 229
  | .l2Cache i => elemProg (.cache .l2) (.cache .l2) i               -- 239
  | .l3Cache i => elemProg (.cache .l3) (.cache .l3) i               -- 249
  | .l4Cache i => elemProg (.cache .l4) (.cache .l4) i               -- 259
  | .l1iCachesCount => countProg (.cache .l1i)                       -- 269
  | .l1dCachesCount => countProg (.cache .l1d)                       -- 276
  | .l2CachesCount => countProg (.cache .l2)                         -- 283
  | .l3CachesCount => countProg (.cache .l3)                         -- 290
  | .l4CachesCount => countProg (.cache .l4)                         -- 297
  | .maxCacheSize =>                                                 -- 304
      guarded (.read fun g => .done (.ret (.num g.maxCacheSize)))
  | .currentProcessor os => currentProcessorProg b os                -- 311
  | .currentCore os => currentCoreProg b os                          -- 330
  | .currentUarchIndex os => currentUarchProg b os                   -- 349
  | .currentUarchIndexWithDefault os d => currentUarchDefaultProg b os d -- 383

/-! ### The commit block of x86 Linux -/

/-- The global record for the kind of the cores, src/x86/linux/init.c:642-647; the microarchitecture
and the CPUID signature are carried along as numbers. -/
structure GlobalUarch where
  uarch : Nat
  cpuid : Nat
  processorCount : Nat
  coreCount : Nat
deriving DecidableEq, Repr

/-- The element types on x86. -/
def X86Elem : Kind → Type
  | .processor => X86Init.Processor
  | .core => X86Init.Core
  | .cluster => X86Init.Cluster
  | .package => X86Init.Package
  | .uarch => GlobalUarch
  | .cache _ => X86Init.Cache

/-- A cache table is allocated only when its count is not zero (src/x86/linux/init.c:337-391),
otherwise its pointer stays NULL (lines 139-143). -/
def cachePtr (l : X86Init.CacheLevel) : Option (List X86Init.Cache) :=
  if l.count = 0 then none else some l.table

/-- The assignments of src/x86/linux/init.c:620-655 in program order. -/
def x86LinuxCommit (uarch cpuid : Nat) (p : X86Init.Published) : List (Store X86Elem) :=
  [ .table .processor (some p.processors),
    .table .core (some p.cores),
    .table .cluster (some p.clusters),
    .table .package (some p.packages),
    .table (.cache .l1i) (cachePtr p.l1i),
    .table (.cache .l1d) (cachePtr p.l1d),
    .table (.cache .l2) (cachePtr p.l2),
    .table (.cache .l3) (cachePtr p.l3),
    .table (.cache .l4) (cachePtr p.l4),
    .count .processor p.processorsCount,
    .count .core p.coresCount,
    .count .cluster p.clustersCount,
    .count .package p.packagesCount,
    .count (.cache .l1i) p.l1i.count,
    .count (.cache .l1d) p.l1d.count,
    .count (.cache .l2) p.l2.count,
    .count (.cache .l3) p.l3.count,
    .count (.cache .l4) p.l4.count,
    .maxCacheSize p.maxCacheSize,
    .globalUarch ⟨uarch, cpuid, p.processorsCount, p.coresCount⟩,
    .linuxCpuMax p.linuxCpuMax,
    .processorMap (some p.processorMap),
    .coreMap (some p.coreMap),
    .flag true ]

end Verif.Api
