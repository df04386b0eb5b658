import Verif.Base

/-!
# Who owns the memory

The initialization functions allocate tables one after the other; whatever fails leaves the function by
`return` or by `goto` to its end, where what was not published is freed.  Each function is transcribed
to a list of steps that keeps exactly the allocations, the exits, the assignments to global variables, the
assignments of `NULL` and the frees, in program order; everything in between is left out, as it does
not change who owns a block.  Whether an allocation or a test succeeds is up to the environment, so that
every execution of the code is one of the executions here.

Jumps go forward only, as in the code.  A block is named by the site that allocates it: the line, and for
helper functions the line of the call before it (`line * 1000 + line of the helper`).  `none` is undefined
behaviour: a block is freed that is not allocated.
-/

set_option autoImplicit false

namespace Verif.Memory

/-- The pointer variables. -/
inductive Var
  | linuxProcessors | processors | cores | clusters | packages | uarchs
  | l1i | l1d | l2 | l3 | l4 | caches
  | processorMap | coreMap | uarchIndexMap
  | topologySpec | processorInfos | infos | groupIndex | textBuffer | chipInfo | chipName
  | cpuSet | heapBuffer | file | libc
deriving DecidableEq, Repr

/-- The places jumped to; `ret` is the end of the function, after the last free. -/
inductive Label
  | cleanup | ret | strFail | specFail | topologyDone | noL2 | regFail | nameDone | chipDone
  | fail (n : Nat) | done (n : Nat)
deriving DecidableEq, Repr

/-- What happens at a site: it goes well, it fails, or (where the code says `if (count != 0)`) it is not
reached. -/
inductive Choice
  | ok | fail | skip
deriving DecidableEq, Repr

/-- The steps. -/
inductive Step
  /-- `v = calloc(…); if (v == NULL) goto l;` -/
  | alloc (site : Nat) (v : Var) (l : Label)
  /-- `if (count != 0) { v = calloc(…); if (v == NULL) goto l; }` -/
  | allocIf (site : Nat) (v : Var) (l : Label)
  /-- `v = calloc(…); if (v == NULL) goto l;` where this is no failure -/
  | allocOr (site : Nat) (v : Var) (l : Label)
  /-- `if (!operation) goto l;` -/
  | test (site : Nat) (l : Label)
  /-- `if (condition) goto l;` where this is no failure -/
  | branch (site : Nat) (l : Label)
  | goto (l : Label)
  | label (l : Label)
  /-- `global = v;` -/
  | publish (v : Var)
  /-- `v = NULL;` -/
  | clear (v : Var)
  /-- `free(v);` or `if (v != NULL) HeapFree(v);` -/
  | free (v : Var)
  /-- `HeapFree(v);`, of which Microsoft's documentation says that it is undefined for `NULL` -/
  | heapFree (v : Var)
  /-- `cpuinfo_is_initialized = true;` or `result = true;` -/
  | raise
deriving DecidableEq, Repr

/-- The memory: the allocated blocks, where the variables point (`NULL` if absent), the blocks the global
variables point to, the flag of success, and what happened at the sites reached. -/
structure St where
  heap : List Nat
  vars : List (Var × Nat)
  globals : List (Var × Nat)
  flag : Bool
  log : List (Nat × Choice)
deriving DecidableEq, Repr

/-- Before the function: its pointers are initialized with `NULL`, the globals are zero. -/
def start : St := ⟨[], [], [], false, []⟩

/-- Where a variable points. -/
def St.get (s : St) (v : Var) : Option Nat := (s.vars.find? fun x => x.1 == v).map (·.2)

/-- `v = block;` -/
def St.set (s : St) (v : Var) (b : Nat) : St :=
  { s with vars := (v, b) :: s.vars.filter fun x => x.1 != v }

/-- `v = NULL;` -/
def St.unset (s : St) (v : Var) : St := { s with vars := s.vars.filter fun x => x.1 != v }

/-- A successful allocation. -/
def St.allocate (s : St) (site : Nat) (v : Var) : St :=
  { s.set v site with heap := site :: s.heap }

/-- `free`: null is ignored, a block that is not allocated is undefined behaviour. -/
def St.release (s : St) (v : Var) : Option St :=
  match s.get v with
  | none => some s
  | some b => if b ∈ s.heap then some { s with heap := s.heap.erase b } else none

/-- Note what happened at a site. -/
def St.note (s : St) (site : Nat) (c : Choice) : St := { s with log := (site, c) :: s.log }

/-- The choices a step leaves to the environment; a step without a site has one. -/
def Step.choices : Step → List Choice
  | .alloc .. | .allocOr .. | .test .. => [.ok, .fail]
  | .allocIf .. => [.ok, .fail, .skip]
  | .branch .. => [.ok, .skip]
  | _ => [.ok]

/-- One step, given what happens at its site; the result has the label that is jumped to, if any.
`nullOk` says whether `HeapFree` takes `NULL`. -/
def exec (nullOk : Bool) (c : Choice) (s : St) : Step → Option (St × Option Label)
  | .alloc n v l =>
    match c with
    | .ok => some ((s.note n .ok).allocate n v, none)
    | _ => some ((s.note n .fail).unset v, some l)
  | .allocIf n v l =>
    match c with
    | .ok => some ((s.note n .ok).allocate n v, none)
    | .fail => some ((s.note n .fail).unset v, some l)
    | .skip => some (s.note n .skip, none)
  | .allocOr n v l =>
    match c with
    | .ok => some ((s.note n .ok).allocate n v, none)
    | _ => some ((s.note n .skip).unset v, some l)
  | .test n l =>
    match c with
    | .ok => some (s.note n .ok, none)
    | _ => some (s.note n .fail, some l)
  | .branch n l =>
    match c with
    | .skip => some (s.note n .skip, some l)
    | _ => some (s.note n .ok, none)
  | .goto l => some (s, some l)
  | .label _ => some (s, none)
  | .publish v =>
    match s.get v with
    | none => some (s, none)
    | some b => some ({ s with globals := (v, b) :: s.globals }, none)
  | .clear v => some (s.unset v, none)
  | .free v => (s.release v).map fun s => (s, none)
  | .heapFree v =>
    if s.get v = none ∧ ¬ nullOk then none else (s.release v).map fun s => (s, none)
  | .raise => some ({ s with flag := true }, none)

/-- The number of the site of a step; steps without a site have none. -/
def Step.site : Step → Option Nat
  | .alloc n .. | .allocIf n .. | .allocOr n .. | .test n .. | .branch n .. => some n
  | _ => none

/-- What the environment does at a step. -/
def Step.choice (o : Nat → Choice) (st : Step) : Choice :=
  match st.site with
  | some n => o n
  | none => .ok

/-- Execution in an environment `o`; the second argument is the label that is being jumped to. -/
def run (nullOk : Bool) (o : Nat → Choice) : List Step → Option Label → St → Option St
  | [], _, s => some s
  | st :: rest, some l, s => run nullOk o rest (if st = .label l then none else some l) s
  | st :: rest, none, s =>
    match exec nullOk (st.choice o) s st with
    | none => none
    | some (s, j) => run nullOk o rest j s

/-! ## The functions -/

/-- Several tables are published, then all local pointers are cleared, as every function does it. -/
def publishAll (vs : List Var) : List Step := vs.map .publish
def clearAll (vs : List Var) : List Step := vs.map .clear
def freeAll (vs : List Var) : List Step := vs.map .free

/-- `cpuinfo_x86_linux_init`, src/x86/linux/init.c:147-678. -/
def x86Linux : List Step :=
  [ .alloc 183 .linuxProcessors .ret, .test 208 .ret,
    .alloc 238 .processors .cleanup, .alloc 283 .processorMap .cleanup,
    .alloc 292 .coreMap .cleanup, .alloc 301 .cores .cleanup,
    .alloc 310 .clusters .cleanup, .alloc 319 .packages .cleanup,
    .allocIf 329 .l1i .cleanup, .allocIf 339 .l1d .cleanup, .allocIf 349 .l2 .cleanup,
    .allocIf 359 .l3 .cleanup, .allocIf 369 .l4 .cleanup ] ++
  publishAll [.processors, .cores, .clusters, .packages, .l1i, .l1d, .l2, .l3, .l4,
    .processorMap, .coreMap] ++
  [ .raise ] ++
  clearAll [.processors, .cores, .clusters, .packages, .l1i, .l1d, .l2, .l3, .l4,
    .processorMap, .coreMap] ++
  [ .label .cleanup ] ++
  freeAll [.linuxProcessors, .processors, .cores, .clusters, .packages, .l1i, .l1d, .l2, .l3, .l4,
    .processorMap, .coreMap] ++
  [ .label .ret ]

/-- `cpuinfo_x86_mach_init`, src/x86/mach/init.c:19-380.  The allocations of caches leave by `return`. -/
def x86Mach : List Step :=
  [ .alloc 31 .processors .cleanup, .alloc 39 .cores .cleanup,
    .alloc 48 .clusters .cleanup, .alloc 56 .packages .cleanup,
    .allocIf 202 .l1i .ret, .allocIf 228 .l1d .ret, .allocIf 254 .l2 .ret,
    .allocIf 280 .l3 .ret, .allocIf 306 .l4 .ret ] ++
  publishAll [.processors, .cores, .clusters, .packages, .l1i, .l1d, .l2, .l3, .l4] ++
  [ .raise ] ++
  clearAll [.processors, .cores, .clusters, .packages, .l1i, .l1d, .l2, .l3, .l4] ++
  [ .label .cleanup ] ++
  freeAll [.processors, .cores, .clusters, .packages, .l1i, .l1d, .l2, .l3, .l4] ++
  [ .label .ret ]

/-- `sysctl_str` and `cpuinfo_freebsd_detect_topology`, src/freebsd/topology.c:23-101, with the test of
the result in src/x86/freebsd/init.c:30-34: whenever it fails the number of packages is 0. -/
def freebsdTopology : List Step :=
  [ .test 30025 .cleanup, .alloc 30033 .topologySpec .cleanup, .test 30038 .strFail,
    .test 30071 .specFail, .free .topologySpec,
    .test 30078 .cleanup, .test 30081 .cleanup, .test 30086 .cleanup, .goto .topologyDone,
    .label .strFail, .free .topologySpec, .goto .cleanup,
    .label .specFail, .free .topologySpec, .goto .cleanup,
    .label .topologyDone ]

/-- `cpuinfo_x86_freebsd_init`, src/x86/freebsd/init.c:19-398. -/
def x86Freebsd : List Step :=
  freebsdTopology ++
  [ .alloc 35 .processors .cleanup, .alloc 43 .cores .cleanup,
    .alloc 53 .clusters .cleanup, .alloc 61 .packages .cleanup,
    .test 140 .cleanup, .test 163 .cleanup, .test 183 .cleanup, .test 204 .cleanup,
    .allocIf 215 .l1i .cleanup, .allocIf 242 .l1d .cleanup, .allocIf 269 .l2 .cleanup,
    .allocIf 296 .l3 .cleanup, .allocIf 323 .l4 .cleanup ] ++
  publishAll [.processors, .cores, .clusters, .packages, .l1i, .l1d, .l2, .l3, .l4] ++
  [ .raise ] ++
  clearAll [.processors, .cores, .clusters, .packages, .l1i, .l1d, .l2, .l3, .l4] ++
  [ .label .cleanup ] ++
  freeAll [.processors, .cores, .clusters, .packages, .l1i, .l1d, .l2, .l3, .l4] ++
  [ .label .ret ]

/-- `cpuinfo_x86_windows_init`, src/x86/windows/init.c:105-671.  `processor_infos` is not freed. -/
def x86Windows : List Step :=
  [ .alloc 153 .processors .cleanup, .test 169 .cleanup, .test 180 .cleanup,
    .alloc 186 .processorInfos .cleanup, .test 197 .cleanup, .test 245 .cleanup,
    .alloc 316 .cores .cleanup, .alloc 325 .clusters .cleanup, .alloc 334 .packages .cleanup,
    .allocIf 418 .l1i .cleanup, .allocIf 428 .l1d .cleanup, .allocIf 438 .l2 .cleanup,
    .allocIf 448 .l3 .cleanup, .allocIf 458 .l4 .cleanup ] ++
  publishAll [.processors, .cores, .clusters, .packages, .l1i, .l1d, .l2, .l3, .l4] ++
  [ .raise ] ++
  clearAll [.processors, .cores, .clusters, .packages, .l1i, .l1d, .l2, .l3, .l4] ++
  [ .label .cleanup ] ++
  freeAll [.processors, .cores, .clusters, .packages, .l1i, .l1d, .l2, .l3, .l4] ++
  [ .label .ret ]

/-- `cpuinfo_arm_linux_init`, src/arm/linux/init.c:107-888.  The package is a static variable; `l3` is
allocated only inside of the condition for `l2`. -/
def armLinux : List Step :=
  [ .test 140 .ret, .alloc 145 .linuxProcessors .ret, .test 186 .ret,
    .alloc 518 .processors .cleanup, .alloc 527 .cores .cleanup,
    .alloc 536 .clusters .cleanup, .alloc 545 .uarchs .cleanup,
    .alloc 554 .processorMap .cleanup, .alloc 563 .coreMap .cleanup,
    .allocIf 573 .uarchIndexMap .cleanup,
    .alloc 583 .l1i .cleanup, .alloc 592 .l1d .cleanup,
    .branch 732 .noL2, .alloc 733 .l2 .cleanup, .allocIf 743 .l3 .cleanup, .label .noL2 ] ++
  publishAll [.processors, .cores, .clusters, .uarchs, .l1i, .l1d, .l2, .l3,
    .processorMap, .coreMap, .uarchIndexMap] ++
  [ .raise ] ++
  clearAll [.processors, .cores, .clusters, .uarchs, .l1i, .l1d, .l2, .l3,
    .processorMap, .coreMap, .uarchIndexMap] ++
  [ .label .cleanup ] ++
  freeAll [.linuxProcessors, .processors, .cores, .clusters, .uarchs, .l1i, .l1d, .l2, .l3,
    .processorMap, .coreMap, .uarchIndexMap] ++
  [ .label .ret ]

/-- `cpuinfo_arm_mach_init`, src/arm/mach/init.c:249-692. -/
def armMach : List Step :=
  [ .alloc 261 .processors .cleanup, .alloc 269 .cores .cleanup, .alloc 277 .packages .cleanup,
    .alloc 456 .clusters .cleanup, .alloc 464 .uarchs .cleanup,
    .allocIf 546 .l1i .cleanup, .allocIf 572 .l1d .cleanup, .allocIf 598 .l2 .cleanup,
    .allocIf 624 .l3 .cleanup ] ++
  publishAll [.processors, .cores, .clusters, .packages, .uarchs, .l1i, .l1d, .l2, .l3] ++
  [ .raise ] ++
  clearAll [.processors, .cores, .clusters, .packages, .uarchs, .l1i, .l1d, .l2, .l3] ++
  [ .label .cleanup ] ++
  freeAll [.processors, .cores, .clusters, .packages, .uarchs, .l1i, .l1d, .l2, .l3] ++
  [ .label .ret ]

/-- `read_all_logical_processor_info_of_relation`, src/arm/windows/init-by-logical-sys-info.c:450-549, called
on line `n`, with the caller's test of the number returned.  Where the helper fails this number is 0;
its end is written twice, once for each result. -/
def readAll (n : Nat) : List Step :=
  [ .test (n * 1000 + 474) (.fail n), .alloc (n * 1000 + 478) .infos (.fail n),
    .test (n * 1000 + 490) (.fail n), .test (n * 1000 + 541) (.fail n),
    .heapFree .infos, .clear .infos, .test n .cleanup, .goto (.done n),
    .label (.fail n), .heapFree .infos, .clear .infos, .goto .cleanup,
    .label (.done n) ]

/-- `cpu_info_init_by_logical_sys_info`, src/arm/windows/init-by-logical-sys-info.c:113-373.  The result
is raised by the connection of the tables on line 258, before the last allocation.  The caches of all
levels are one block. -/
def armWindowsTables : List Step :=
  [ .alloc 142 .groupIndex .cleanup, .alloc 152 .processors .cleanup ] ++
  readAll 164 ++ readAll 177 ++ readAll 189 ++
  [ .alloc 198 .packages .cleanup, .alloc 209 .clusters .cleanup,
    .alloc 218 .cores .cleanup, .alloc 229 .caches .cleanup ] ++
  readAll 241 ++ readAll 249 ++
  [ .test 268 .cleanup, .raise, .alloc 282 .uarchs .cleanup ] ++
  publishAll [.processors, .packages, .clusters, .cores, .uarchs, .caches] ++
  clearAll [.processors, .packages, .clusters, .cores, .caches, .uarchs] ++
  [ .label .cleanup ] ++
  freeAll [.processors, .packages, .clusters, .cores, .caches, .uarchs] ++
  [ .heapFree .groupIndex, .clear .groupIndex ]

/-- `read_registry` and `get_system_info_from_registry`, src/arm/windows/init.c:41-81 and 137-190.  Where
they fail the unknown chip is used, and initialization goes on. -/
def registry : List Step :=
  [ .branch 28056 .chipDone, .allocOr 28061 .textBuffer .chipDone,
    .branch 28075 .regFail, .goto .nameDone,
    .label .regFail, .free .textBuffer, .clear .textBuffer, .goto .chipDone,
    .label .nameDone, .branch 28159 .chipDone, .branch 28169 .chipDone,
    .allocOr 28177 .chipInfo .chipDone, .allocOr 28111 .chipName .chipDone,
    .label .chipDone ]

/-- `cpuinfo_arm_windows_init`, src/arm/windows/init.c:22-36. -/
def armWindows : List Step := registry ++ armWindowsTables

/-- `cpuinfo_emscripten_init`, src/emscripten/init.c:25-288.  The package and the L3 cache are static. -/
def emscripten : List Step :=
  [ .alloc 60 .processors .cleanup, .alloc 68 .cores .cleanup, .alloc 76 .clusters .cleanup,
    .alloc 85 .l1i .cleanup, .alloc 94 .l1d .cleanup, .alloc 103 .l2 .cleanup ] ++
  publishAll [.l1i, .l1d, .l2, .processors, .cores, .clusters] ++
  [ .raise ] ++
  clearAll [.processors, .cores, .clusters, .l1i, .l1d, .l2] ++
  [ .label .cleanup ] ++
  freeAll [.processors, .cores, .clusters, .l1i, .l1d, .l2] ++
  [ .label .ret ]

/-- `cpuinfo_riscv_linux_init`, src/riscv/linux/init.c:226-619.  The tests on lines 307, 344 and 369 are in
loops; a loop with a failing test leaves by it. -/
def riscvLinux : List Step :=
  [ .test 253 .ret, .alloc 263 .linuxProcessors .cleanup, .test 282 .cleanup, .test 307 .cleanup,
    .test 344 .cleanup, .test 369 .cleanup,
    .alloc 434 .processors .cleanup, .alloc 443 .cores .cleanup, .alloc 452 .clusters .cleanup,
    .alloc 461 .packages .cleanup, .alloc 470 .uarchs .cleanup,
    .alloc 479 .processorMap .cleanup, .alloc 488 .coreMap .cleanup,
    .alloc 497 .uarchIndexMap .cleanup ] ++
  publishAll [.processors, .cores, .clusters, .packages, .uarchs,
    .processorMap, .coreMap, .uarchIndexMap] ++
  [ .raise ] ++
  clearAll [.processors, .cores, .clusters, .packages, .uarchs,
    .processorMap, .coreMap, .uarchIndexMap] ++
  [ .label .cleanup ] ++
  freeAll [.linuxProcessors, .processors, .cores, .clusters, .packages, .uarchs,
    .processorMap, .coreMap, .uarchIndexMap] ++
  [ .label .ret ]

/-! ## Functions that own something only while they run -/

/-- `cpuinfo_riscv_linux_decode_vendor_uarch_from_hwprobe`, src/riscv/linux/riscv-hw.c:72-151. -/
def hwprobe : List Step :=
  [ .alloc 95 .cpuSet .ret, .test 119 .cleanup, .raise, .label .cleanup, .free .cpuSet, .label .ret ]

/-- `clog_vlog_fatal` and its three copies, deps/clog/src/clog.c:48-125. -/
def log : List Step :=
  [ .test 86 .cleanup, .allocIf 92 .heapBuffer .cleanup, .raise, .label .cleanup, .free .heapBuffer ]

/-- `cpuinfo_linux_parse_small_file`, src/linux/smallfile.c:19-80: the test is in the loop that reads. -/
def smallFile : List Step :=
  [ .alloc 35 .file .cleanup, .test 50 .cleanup, .test 59 .cleanup, .test 66 .cleanup, .raise,
    .label .cleanup, .free .file, .clear .file ]

/-- `cpuinfo_linux_parse_multiline_file`, src/linux/multiline.c:19-114: the tests are in the loop that
reads. -/
def multiline : List Step :=
  [ .alloc 31 .file .cleanup, .test 50 .cleanup, .test 64 .cleanup, .test 85 .cleanup, .raise,
    .label .cleanup, .free .file, .clear .file ]

/-- `cpuinfo_linux_parse_cpulist`, src/linux/cpulist.c:154-242. -/
def cpuList : List Step :=
  [ .alloc 165 .file .cleanup, .test 183 .cleanup, .raise,
    .label .cleanup, .free .file, .clear .file ]

/-- `cpuinfo_arm_linux_hwcap_from_getauxval` on Android, src/arm/linux/hwcap.c:43-75. -/
def getauxval : List Step :=
  [ .alloc 54 .libc .cleanup, .test 61 .cleanup, .raise,
    .label .cleanup, .free .libc, .clear .libc ]

/-- `cpuinfo_arm_linux_hwcap_from_procfs`, src/arm/linux/hwcap.c:86-140. -/
def procfs : List Step :=
  [ .alloc 96 .file .cleanup, .test 106 .cleanup, .test 119 .cleanup, .raise,
    .label .cleanup, .free .file, .clear .file ]

end Verif.Memory
