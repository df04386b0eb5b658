import Verif.Proof.Memory

/-!
C144: initialization owns its memory properly.  C145: helpers release what they acquire.

All theorems are for every environment: every combination of allocations, system calls and parses that
fail or succeed, and of levels of caches that exist.
-/

set_option autoImplicit false

namespace Verif.Props

open Verif.Memory Verif.Spec

/-- An environment for examples: everything goes well but for one site. -/
def failAt (n : Nat) : Nat → Choice := fun k => if k = n then .fail else .ok

/-! ## C144 -/

/-- The sites have numbers of their own. -/
theorem C144_sites : ∀ p ∈ [x86Linux, x86Mach, x86Freebsd, x86Windows, armLinux, armMach, armWindows,
    emscripten, riscvLinux, hwprobe, log, smallFile, multiline, cpuList, getauxval, procfs],
    DistinctSites p := by
  decide +kernel

/-- The programs are run on a heap where a block can be freed only once: a second `free` of the same
block has no result, whatever was allocated and freed before.  So "there is a result" in the theorems
below says that no block is freed twice. -/
theorem C144_double_free (nullOk : Bool) (o : Nat → Choice) (rest : List Step) (s : St) (v : Var)
    (b : Nat) (hv : s.get v = some b) (once : s.heap.count b ≤ 1) :
    run nullOk o (.free v :: .free v :: rest) none s = none := by
  by_cases hb : b ∈ s.heap
  · have hg : ({ s with heap := s.heap.erase b } : St).get v = some b := hv
    have hn : b ∉ s.heap.erase b := by
      intro h
      have h1 := List.count_pos_iff.2 h
      have h2 : (s.heap.erase b).count b = s.heap.count b - 1 := List.count_erase_self ..
      omega
    simp [run, exec, St.release, hv, hb, hg, hn]
  · simp [run, exec, St.release, hv, hb]

/-- Non-vacuity: a block allocated, held and not yet freed. -/
example : (({ heap := [7], vars := [(.l2, 7)], globals := [], flag := false, log := [] } : St).get .l2 =
    some 7) ∧ [7].count 7 ≤ 1 := by decide

/-- **C144, x86 on FreeBSD.** Whatever fails: nothing is freed that is not allocated; after a failure no
block stays allocated and nothing is published; after success exactly the published tables stay
allocated, and initialization succeeds exactly if nothing failed. -/
theorem C144_x86_freebsd (o : Nat → Choice) : ∃ s, final false o x86Freebsd = some s ∧
    Balanced [.processors, .cores, .clusters, .packages] s :=
  holds (by decide +kernel) o

/-- **C144, ARM on Apple systems.** -/
theorem C144_arm_mach (o : Nat → Choice) : ∃ s, final false o armMach = some s ∧
    Balanced [.processors, .cores, .clusters, .packages, .uarchs] s :=
  holds (by decide +kernel) o

/-- **C144, Emscripten.** -/
theorem C144_emscripten (o : Nat → Choice) : ∃ s, final false o emscripten = some s ∧
    Balanced [.processors, .cores, .clusters, .l1i, .l1d, .l2] s :=
  holds (by decide +kernel) o

/-- **C144, RISC-V on Linux.** -/
theorem C144_riscv_linux (o : Nat → Choice) : ∃ s, final false o riscvLinux = some s ∧
    Balanced [.processors, .cores, .clusters, .packages, .uarchs, .processorMap, .coreMap,
      .uarchIndexMap] s :=
  holds (by decide +kernel) o

/-- **C144, x86 on Linux, what holds**: all of it if /proc/cpuinfo can be parsed.  Missing: see
`C144_violated_x86_linux`. -/
theorem C144_x86_linux_partial (o : Nat → Choice) : ∃ s, final false o x86Linux = some s ∧
    ((208, .fail) ∉ s.log →
      Balanced [.processors, .cores, .clusters, .packages, .processorMap, .coreMap] s) :=
  holds (by decide +kernel) o

/-- **C144 is violated on x86 Linux**: whenever /proc/cpuinfo cannot be parsed, the table of Linux
processors is lost, and nothing else. -/
theorem C144_violated_x86_linux (o : Nat → Choice) : ∃ s, final false o x86Linux = some s ∧
    ((208, .fail) ∈ s.log → s.flag = false ∧ s.heap = [183] ∧ Leaked 183 s) :=
  holds (by decide +kernel) o

/-- **C144, ARM on Linux, what holds**: all of it if /proc/cpuinfo can be parsed.  Missing: see
`C144_violated_arm_linux`. -/
theorem C144_arm_linux_partial (o : Nat → Choice) : ∃ s, final false o armLinux = some s ∧
    ((186, .fail) ∉ s.log →
      Balanced [.processors, .cores, .clusters, .uarchs, .l1i, .l1d, .processorMap, .coreMap] s) :=
  holds (by decide +kernel) o

/-- **C144 is violated on ARM Linux** in the same way as on x86 Linux. -/
theorem C144_violated_arm_linux (o : Nat → Choice) : ∃ s, final false o armLinux = some s ∧
    ((186, .fail) ∈ s.log → s.flag = false ∧ s.heap = [145] ∧ Leaked 145 s) :=
  holds (by decide +kernel) o

/-- The sites where the Apple x86 code allocates caches. -/
def machCacheSites : List Nat := [202, 228, 254, 280, 306]

/-- **C144, x86 on Apple systems, what holds**: all of it unless the memory for a table of caches is
missing.  Missing: see `C144_violated_x86_mach`. -/
theorem C144_x86_mach_partial (o : Nat → Choice) : ∃ s, final false o x86Mach = some s ∧
    ((∀ n ∈ machCacheSites, (n, .fail) ∉ s.log) →
      Balanced [.processors, .cores, .clusters, .packages] s) :=
  holds (by decide +kernel) o

/-- **C144 is violated on Apple x86**: whenever the memory for a table of caches is missing, all the tables
allocated before are lost, the processors, cores, clusters and packages among them. -/
theorem C144_violated_x86_mach (o : Nat → Choice) : ∃ s, final false o x86Mach = some s ∧
    ((∃ n ∈ machCacheSites, (n, .fail) ∈ s.log) → s.flag = false ∧ s.globals = [] ∧
      Leaked 31 s ∧ Leaked 39 s ∧ Leaked 48 s ∧ Leaked 56 s) :=
  holds (by decide +kernel) o

/-- **C144, x86 on Windows, what holds**: all of it but for one block.  Missing: see
`C144_violated_x86_windows`. -/
theorem C144_x86_windows_partial (o : Nat → Choice) : ∃ s, final false o x86Windows = some s ∧
    Balanced [.processors, .cores, .clusters, .packages] (without [186] s) :=
  holds (by decide +kernel) o

/-- **C144 is violated on x86 Windows**: the buffer for the records of Windows is lost in every run that
allocates it, and so in every successful run. -/
theorem C144_violated_x86_windows (o : Nat → Choice) : ∃ s, final false o x86Windows = some s ∧
    (Leaked 186 s ↔ (186, .ok) ∈ s.log) ∧ (s.flag = true → Leaked 186 s) :=
  holds (by decide +kernel) o

/-- The blocks the registry code of ARM Windows loses: the name read, the chip, the copy of the name. -/
def registryBlocks : List Nat := [28061, 28177, 28111]

/-- **C144, ARM on Windows, what holds**: if `HeapFree` takes null, all of it but for three blocks and for
the failure of one allocation.  Missing: see the violations. -/
theorem C144_arm_windows_partial (o : Nat → Choice) : ∃ s, final true o armWindows = some s ∧
    ((282, .fail) ∉ s.log →
      Balanced [.processors, .packages, .clusters, .cores, .uarchs, .caches]
        (without registryBlocks s)) :=
  holds (by decide +kernel) o

/-- **C144 is violated on ARM Windows**: the name read from the registry, the chip and the copy of the name
are lost in exactly those runs that read, allocate and copy them. -/
theorem C144_violated_arm_windows_registry (o : Nat → Choice) : ∃ s, final true o armWindows = some s ∧
    (Leaked 28061 s ↔ (28075, .ok) ∈ s.log) ∧ (Leaked 28177 s ↔ (28177, .ok) ∈ s.log) ∧
    (Leaked 28111 s ↔ (28111, .ok) ∈ s.log) :=
  holds (by decide +kernel) o

/-- **C144 is violated on ARM Windows**: if the memory for the kinds of cores is missing, all tables are
freed and nothing is published, but the result is success. -/
theorem C144_violated_arm_windows_result (o : Nat → Choice) : ∃ s, final true o armWindows = some s ∧
    ((282, .fail) ∈ s.log →
      s.flag = true ∧ s.globals = [] ∧ (without registryBlocks s).heap = []) :=
  holds (by decide +kernel) o

/-- **C144 is violated on ARM Windows**: if the first allocation fails, or the first query or allocation for
records, `HeapFree` is called with null, which its documentation leaves undefined. -/
theorem C144_violated_arm_windows_null :
    final false (failAt 142) armWindows = none ∧ final false (failAt 164474) armWindows = none ∧
    final false (failAt 164478) armWindows = none := by
  decide +kernel

/-- Non-vacuity: the last allocation of x86 FreeBSD fails, or all goes well, with eight tables and an L4
cache; a run where nothing works. -/
example : (final false (failAt 323) x86Freebsd).map (fun s => (s.flag, s.heap)) = some (false, []) ∧
    (final false (fun n => if n = 296 then .skip else .ok) x86Freebsd).map
      (fun s => (s.flag, s.heap, s.globals.map (·.1))) =
      some (true, [323, 269, 242, 215, 61, 53, 43, 35],
        [.l4, .l2, .l1d, .l1i, .packages, .clusters, .cores, .processors]) ∧
    (final false (fun _ => .fail) x86Freebsd).map (fun s => (s.flag, s.heap)) = some (false, []) := by
  decide +kernel

/-- Non-vacuity of the violations: the runs they speak about exist. -/
example : (final false (failAt 208) x86Linux).map (fun s => (s.flag, s.heap)) = some (false, [183]) ∧
    (final false (failAt 186) armLinux).map (fun s => (s.flag, s.heap)) = some (false, [145]) ∧
    (final false (failAt 254) x86Mach).map (fun s => (s.flag, s.heap)) =
      some (false, [228, 202, 56, 48, 39, 31]) ∧
    (final false (fun _ => .ok) x86Windows).map (fun s => (s.flag, decide (Leaked 186 s))) =
      some (true, true) ∧
    (final true (fun _ => .ok) armWindows).map (fun s => (s.flag, s.heap)) =
      some (true, [282, 229, 218, 209, 198, 152, 28111, 28177, 28061]) ∧
    (final true (failAt 282) armWindows).map (fun s => (s.flag, s.globals)) = some (true, []) := by
  decide +kernel

/-- Non-vacuity of the partial theorems: complete runs. -/
example : (final false (fun _ => .ok) x86Linux).map (fun s => (s.flag, s.heap.length)) =
      some (true, 11) ∧
    (final false (fun n => if n = 732 then .skip else .ok) armLinux).map
      (fun s => (s.flag, s.heap.length)) = some (true, 9) ∧
    (final false (fun _ => .ok) x86Mach).map (fun s => (s.flag, s.heap.length)) = some (true, 9) ∧
    (final false (fun _ => .ok) armMach).map (fun s => (s.flag, s.heap.length)) = some (true, 9) ∧
    (final false (fun _ => .ok) emscripten).map (fun s => (s.flag, s.heap.length)) = some (true, 6) ∧
    (final false (fun _ => .ok) riscvLinux).map (fun s => (s.flag, s.heap.length)) = some (true, 8) := by
  decide +kernel

/-! ## C145 -/

/-- **C145.** The helpers that read files, ask the C library or the kernel, or format a log line release
whatever they acquired: file, library, set of processors, buffer; once, and in every run. -/
theorem C145_released (p : List Step)
    (hp : p ∈ [hwprobe, log, smallFile, multiline, cpuList, getauxval, procfs]) (o : Nat → Choice) :
    ∃ s, final false o p = some s ∧ s.heap = [] ∧ s.globals = [] ∧
      (s.flag = true ↔ NoFailure s) := by
  simp only [List.mem_cons, List.not_mem_nil, or_false] at hp
  rcases hp with rfl | rfl | rfl | rfl | rfl | rfl | rfl <;> exact holds (by decide +kernel) o

/-- Non-vacuity: a file that is opened and cannot be read, and one that is read. -/
example : (final false (failAt 50) smallFile).map (fun s => (s.flag, s.log, s.heap)) =
      some (false, [(50, .fail), (35, .ok)], []) ∧
    (final false (fun _ => .ok) smallFile).map (fun s => (s.flag, s.heap)) = some (true, []) := by
  decide +kernel

end Verif.Props
