import Verif.Spec.Build

/-!
# C171: CMake builds what `cpuinfo_initialize` needs
-/

set_option autoImplicit false

namespace Verif.Props
open Spec Build

private theorem x86_iff (p : Bytes) : x86Processor p = true ↔ X86Named p := by
  unfold x86Processor X86Named
  simp only [decide_eq_true_eq, List.mem_cons, List.not_mem_nil, or_false]
  constructor <;> rintro (h | h | h | h | h | h | h) <;> simp [h]

private theorem armv_iff (p : Bytes) : armv p = true ↔ Armv p := by
  constructor
  · intro h
    unfold armv at h
    split at h
    · rename_i d rest
      simp only [Bool.and_eq_true, decide_eq_true_eq] at h
      exact ⟨d, rest, rfl, h.1, h.2⟩
    · cases h
  · rintro ⟨d, rest, rfl, h1, h2⟩
    show (decide (53 ≤ d) && decide (d ≤ 56)) = true
    simp [h1, h2]

private theorem x86_not_armv {p : Bytes} (h : armv p = true) : x86Processor p = false := by
  obtain ⟨d, rest, rfl, -, -⟩ := (armv_iff p).mp h
  cases hx : x86Processor (b!"armv" ++ d :: rest) with
  | false => rfl
  | true =>
    have := (x86_iff _).mp hx
    unfold X86Named at this
    simp at this

private theorem riscv_not_armv {p : Bytes} (h : armv p = true) : riscvProcessor p = false := by
  obtain ⟨d, rest, rfl, -, -⟩ := (armv_iff p).mp h
  unfold riscvProcessor
  simp

/-- The target processor is the processor of the system, unless Visual Studio or Apple decide. -/
private theorem target_plain {c : Config} (h1 : c.visualStudio = false) (h2 : appleName c.systemName = false)
    (h3 : contains b!"FreeBSD" c.systemName = false) : targetProcessor c = some c.systemProcessor := by
  unfold targetProcessor
  simp [h1, h2, h3]

private theorem x86_false {p : Bytes} (h : ¬ X86Named p) : x86Processor p = false := by
  cases hx : x86Processor p with
  | false => rfl
  | true => exact absurd ((x86_iff p).mp hx) h

/-- The names of processors are of one kind. -/
private theorem kinds (p : Bytes) :
    (x86Processor p = true → armProcessor p = false ∧ riscvProcessor p = false) ∧
    (armProcessor p = true → riscvProcessor p = false) ∧
    (armv p = true → (p = b!"aarch64" || p = b!"arm64") = false) := by
  refine ⟨fun h => ?_, fun h => ?_, fun h => ?_⟩
  · unfold x86Processor at h
    simp only [decide_eq_true_eq, List.mem_cons, List.not_mem_nil, or_false] at h
    rcases h with rfl | rfl | rfl | rfl | rfl | rfl | rfl <;> decide
  · cases hr : riscvProcessor p with
    | false => rfl
    | true =>
      unfold riscvProcessor at hr
      simp only [decide_eq_true_eq, List.mem_cons, List.not_mem_nil, or_false] at hr
      rcases hr with rfl | rfl <;> revert h <;> decide
  · obtain ⟨d, rest, rfl, -, -⟩ := (armv_iff p).mp h
    simp

private theorem arm_of {p : Bytes} (h : armv p = true ∨ p = b!"aarch64" ∨ p = b!"arm64") :
    armProcessor p = true := by
  unfold armProcessor
  rcases h with h | rfl | rfl
  · simp [h]
  · decide
  · decide

/-- The files for Linux by the kind of the name. -/
private def linuxList (android x a v e r : Bool) : List File :=
  (if x then x86Files ++ [.x86LinuxInit, .x86LinuxCpuinfo]
    else if a then [.armUarch, .armCache] ++ ([.armLinuxInit, .armLinuxCpuinfo, .armLinuxClusters,
      .armLinuxChipset, .armLinuxMidr, .armLinuxHwcap] ++
      (if v then [.aarch32Isa] else if e then [.aarch64Isa] else [])) ++
      (if android then [.androidProperties] else [])
    else if r then [.riscvUarch, .riscvLinuxInit, .riscvHw, .riscvIsa]
    else []) ++ [.smallfile, .multiline, .cpulist, .processors]

private theorem linux_core : ∀ (android x a v e r : Bool) (b : Arch), b ∈ [Arch.x86, .x8664, .arm, .arm64, .riscv32,
      .riscv64] →
    (Links ⟨b, if android then .android else .linux⟩ (common ++ linuxList android x a v e r) ↔
      (match b with
        | .x86 | .x8664 => x
        | .arm => !x && a && v
        | .arm64 => !x && a && !v && e
        | .riscv32 | .riscv64 => !x && !a && r
        | _ => false) = true) := by
  intro android x a v e r b hb
  simp only [List.mem_cons, List.not_mem_nil, or_false] at hb
  revert android x a v e r
  rcases hb with rfl | rfl | rfl | rfl | rfl | rfl <;> decide +kernel

private theorem common_links (t : Target) : Links t common ↔ entry t = none := by
  rcases t with ⟨a, o⟩
  cases a <;> cases o <;> decide

private theorem sources_of {c : Config} {tp : Bytes} (h : targetProcessor c = some tp) :
    sources c = some (common ++
      (if supported c tp then processorFiles c tp ++ systemFiles c.systemName else [])) := by
  unfold sources
  rw [h]
  rfl

private theorem named_iff (a : Arch) (p : Bytes) : LinuxNamed a p ↔ (match a with
        | .x86 | .x8664 => x86Processor p
        | .arm => armv p
        | .arm64 => decide (p = b!"aarch64") || decide (p = b!"arm64")
        | .riscv32 | .riscv64 => riscvProcessor p
        | _ => false) = true := by
  cases a <;> simp [LinuxNamed, x86_iff, armv_iff, riscvProcessor]

/-- **C171 (Linux and Android, exactly).** For every name of a processor, and whatever the compiler compiles for: a
program that calls `cpuinfo_initialize` can be linked if and only if the name is one of those for
the architecture. -/
theorem C171_linux_exact (c : Config) (t : Target) (hs : c.systemName = b!"Linux" ∧ t.os = .linux ∨
      c.systemName = b!"Android" ∧ t.os = .android)
    (hv : c.visualStudio = false) (hi : c.iosArch = []) (ha : NativeArch t.arch) :
    ∃ l, sources c = some l ∧ (Links t l ↔ LinuxNamed t.arch c.systemProcessor) := by
  have hname : appleName c.systemName = false ∧ contains b!"FreeBSD" c.systemName = false ∧
      linuxName c.systemName = true ∧ listed c.systemName = true ∧ c.systemName ≠ [] ∧
      c.systemName ≠ b!"Emscripten" ∧ b!"Windows".isPrefixOf c.systemName = false := by
    rcases hs with ⟨h, -⟩ | ⟨h, -⟩ <;> rw [h] <;> decide
  obtain ⟨n1, n2, n3, n4, n5, n6, n7⟩ := hname
  have htp := target_plain hv n1 n2
  have hand : t = ⟨t.arch, if decide (c.systemName = b!"Android") then .android else .linux⟩ := by
    rcases t with ⟨a, o⟩
    rcases hs with ⟨h, ho⟩ | ⟨h, ho⟩ <;> rw [h] <;> dsimp only at ho <;> rw [ho] <;> rfl
  have hfiles : processorFiles c c.systemProcessor ++ systemFiles c.systemName =
      linuxList (c.systemName = b!"Android") (x86Processor c.systemProcessor) (armProcessor c.systemProcessor)
        (armv c.systemProcessor) (c.systemProcessor = b!"aarch64" || c.systemProcessor = b!"arm64")
        (riscvProcessor c.systemProcessor) := by
    unfold processorFiles systemFiles linuxList armSystem x86System
    simp [n3, n6, n7, hi]
  obtain ⟨k1, k2, k3⟩ := kinds c.systemProcessor
  refine ⟨_, sources_of htp, ?_⟩
  have k4 : armv c.systemProcessor = true → armProcessor c.systemProcessor = true := fun h => arm_of (.inl h)
  have k5 : (decide (c.systemProcessor = b!"aarch64") || decide (c.systemProcessor = b!"arm64")) = true →
      armProcessor c.systemProcessor = true := fun h => arm_of (.inr (by simpa using h))
  rw [named_iff]
  by_cases hsup : supported c c.systemProcessor = true
  · rw [if_pos hsup, hfiles, hand, linux_core _ _ _ _ _ _ _ ha]
    dsimp only
    generalize x86Processor c.systemProcessor = x at *
    generalize armProcessor c.systemProcessor = a at *
    generalize armv c.systemProcessor = v at *
    generalize riscvProcessor c.systemProcessor = r at *
    generalize (decide (c.systemProcessor = b!"aarch64") || decide (c.systemProcessor = b!"arm64")) = e at *
    clear hfiles hsup hand
    revert k1 k2 k3 k4 k5
    cases t.arch <;> revert x a v r e <;> decide
  · have hnone : x86Processor c.systemProcessor = false ∧ armProcessor c.systemProcessor = false ∧
        riscvProcessor c.systemProcessor = false := by
      by_cases he : c.systemProcessor = []
      · rw [he]; decide
      · unfold supported at hsup
        rw [if_neg he, if_neg n5, n4] at hsup
        simp only [Bool.true_or, Bool.and_true, Bool.or_eq_true, not_or, Bool.not_eq_true] at hsup
        exact ⟨hsup.1.1.1, hsup.1.1.2, hsup.2⟩
    obtain ⟨g1, g2, g3⟩ := hnone
    rw [if_neg hsup, List.append_nil, common_links, hand]
    rw [g2] at k4 k5
    rw [g1, g3]
    generalize armv c.systemProcessor = v at *
    generalize (decide (c.systemProcessor = b!"aarch64") || decide (c.systemProcessor = b!"arm64")) = e at *
    generalize decide (c.systemName = b!"Android") = n at *
    unfold NativeArch at ha
    clear hfiles hsup hand
    dsimp only
    revert ha k4 k5
    clear k3
    cases t.arch <;> revert v e n <;> decide

/-! ## Windows -/

private def windowsList (x w a r : Bool) : List File :=
  if x then x86Files ++ [.x86WindowsInit]
  else if w then [.armWindowsSysInfo, .armWindowsInit, .armUarch]
  else if a then [.armUarch, .armCache]
  else if r then [.riscvUarch]
  else []

private theorem windows_core : ∀ (x w a r : Bool) (b : Arch), b ∈ [Arch.x86, .x8664, .arm, .arm64, .riscv32,
      .riscv64] →
    (Links ⟨b, .windows⟩ (common ++ windowsList x w a r) ↔
      (match b with
        | .x86 | .x8664 => x
        | .arm | .arm64 => !x && w
        | _ => true) = true) := by
  intro x w a r b hb
  simp only [List.mem_cons, List.not_mem_nil, or_false] at hb
  revert x w a r
  rcases hb with rfl | rfl | rfl | rfl | rfl | rfl <;> decide +kernel

/-- **C171 (Windows, exactly).** For every target processor that CMake finds: programs can be linked for x86 if and
only if it has a name of x86, and for ARM if and only if it is ARM64 or arm64. -/
theorem C171_windows_exact (c : Config) (t : Target) (tp : Bytes)
    (hs : c.systemName = b!"Windows" ∨ c.systemName = b!"WindowsStore") (ho : t.os = .windows)
    (htp : targetProcessor c = some tp) (hsp : c.systemProcessor ≠ []) (hi : c.iosArch = [])
    (ha : NativeArch t.arch) :
    ∃ l, sources c = some l ∧ (Links t l ↔
      (X86Arch t.arch → X86Named tp) ∧ (ArmArch t.arch → tp = b!"ARM64" ∨ tp = b!"arm64")) := by
  obtain ⟨n1, n2, n3, n4, n5, n6, n7, n8⟩ : appleName c.systemName = false ∧ linuxName c.systemName = false ∧
      windowsName c.systemName = true ∧ listed c.systemName = true ∧ c.systemName ≠ [] ∧
      c.systemName ≠ b!"Emscripten" ∧ b!"Windows".isPrefixOf c.systemName = true ∧
      c.systemName ≠ b!"FreeBSD" := by
    rcases hs with h | h <;> rw [h] <;> decide
  have n9 : c.systemName ≠ b!"Android" := by
    rcases hs with h | h <;> rw [h] <;> decide
  have hfiles : processorFiles c tp ++ systemFiles c.systemName =
      windowsList (x86Processor tp) (tp = b!"ARM64" || tp = b!"arm64") (armProcessor tp) (riscvProcessor tp) := by
    unfold processorFiles systemFiles windowsList armSystem x86System
    simp [n1, n2, n3, n6, n7, n8, n9, hi]
  have ht : t = ⟨t.arch, .windows⟩ := by
    rcases t with ⟨a, o⟩
    dsimp only at ho
    rw [ho]
  have k : (decide (tp = b!"ARM64") || decide (tp = b!"arm64")) = true → x86Processor tp = false := by
    intro h
    simp only [Bool.or_eq_true, decide_eq_true_eq] at h
    rcases h with rfl | rfl <;> decide
  have hw : (tp = b!"ARM64" ∨ tp = b!"arm64") ↔
      (decide (tp = b!"ARM64") || decide (tp = b!"arm64")) = true := by simp
  refine ⟨_, sources_of htp, ?_⟩
  rw [← x86_iff, hw]
  by_cases hsup : supported c tp = true
  · rw [if_pos hsup, hfiles, ht, windows_core _ _ _ _ _ ha]
    dsimp only
    generalize x86Processor tp = x at *
    generalize (decide (tp = b!"ARM64") || decide (tp = b!"arm64")) = w at *
    unfold NativeArch at ha
    unfold X86Arch ArmArch
    clear hfiles hsup ht hw
    revert ha k
    cases t.arch <;> revert x w <;> decide
  · have hnone : x86Processor tp = false ∧ (decide (tp = b!"ARM64") || decide (tp = b!"arm64")) = false := by
      unfold supported at hsup
      rw [if_neg hsp, if_neg n5, n4] at hsup
      simp only [Bool.true_or, Bool.and_true, Bool.or_eq_true, not_or, Bool.not_eq_true] at hsup
      refine ⟨hsup.1.1.1, ?_⟩
      cases hw : (decide (tp = b!"ARM64") || decide (tp = b!"arm64")) with
      | false => rfl
      | true =>
        simp only [Bool.or_eq_true, decide_eq_true_eq] at hw
        rcases hw with rfl | rfl
        · exact absurd hsup.1.2 (by decide)
        · exact absurd hsup.1.1.2 (by decide)
    rw [if_neg hsup, List.append_nil, common_links, ht, hnone.1, hnone.2]
    unfold NativeArch at ha
    unfold X86Arch ArmArch
    clear hsup ht hw hfiles
    dsimp only
    revert ha
    cases t.arch <;> decide

/-- **C171 (Visual Studio).** For every platform of a Visual Studio generator: programs for x86 can be linked on Win32
and x64, programs for ARM on ARM64 and the platforms that start with ARM64E, and CMake stops on all others. -/
theorem C171_visual_studio (c : Config) (t : Target)
    (hs : c.systemName = b!"Windows" ∨ c.systemName = b!"WindowsStore") (ho : t.os = .windows)
    (hv : c.visualStudio = true) (hp : c.vsPlatform ≠ []) (hsp : c.systemProcessor ≠ []) (hi : c.iosArch = []) :
    (c.vsPlatform = b!"Win32" ∨ c.vsPlatform = b!"x64" → X86Arch t.arch → ∃ l, sources c = some l ∧ Links t l) ∧
    (c.vsPlatform = b!"ARM64" ∨ b!"ARM64E" <+: c.vsPlatform ∨ b!"arm64e" <+: c.vsPlatform → ArmArch t.arch →
      ∃ l, sources c = some l ∧ Links t l) ∧
    (¬ (c.vsPlatform = b!"Win32" ∨ c.vsPlatform = b!"x64" ∨ c.vsPlatform = b!"ARM64" ∨
      b!"ARM64E" <+: c.vsPlatform ∨ b!"arm64e" <+: c.vsPlatform) → sources c = none) := by
  have n1 : appleName c.systemName = false := by
    rcases hs with h | h <;> rw [h] <;> decide
  have htp : targetProcessor c =
      if c.vsPlatform = b!"Win32" then some b!"x86"
      else if c.vsPlatform = b!"x64" then some b!"x86_64"
      else if c.vsPlatform = b!"ARM64" then some b!"arm64"
      else if b!"ARM64E".isPrefixOf c.vsPlatform || b!"arm64e".isPrefixOf c.vsPlatform then some b!"arm64"
      else none := by
    unfold targetProcessor
    simp [n1, hv, hp]
  refine ⟨?_, ?_, ?_⟩
  · intro h ha
    obtain ⟨tp, h1, h2⟩ : ∃ tp, targetProcessor c = some tp ∧ X86Named tp := by
      rcases h with h | h
      · exact ⟨_, by rw [htp, if_pos h], (x86_iff _).mp (by decide)⟩
      · exact ⟨_, by rw [htp, h]; rfl, (x86_iff _).mp (by decide)⟩
    obtain ⟨l, h3, h4⟩ := C171_windows_exact c t tp hs ho h1 hsp hi
      (by unfold NativeArch; rcases ha with ha | ha <;> rw [ha] <;> decide)
    refine ⟨l, h3, h4.mpr ⟨fun _ => h2, fun hb => ?_⟩⟩
    exfalso
    rcases ha with ha | ha <;> rcases hb with hb | hb <;> rw [ha] at hb <;> cases hb
  · intro h ha
    have h1 : targetProcessor c = some b!"arm64" := by
      rw [htp]
      rcases h with h | h
      · rw [h]; rfl
      · have hpre : (b!"ARM64E".isPrefixOf c.vsPlatform || b!"arm64e".isPrefixOf c.vsPlatform) = true := by
          simpa [Bool.or_eq_true, List.isPrefixOf_iff_prefix] using h
        have hn : c.vsPlatform ≠ b!"Win32" ∧ c.vsPlatform ≠ b!"x64" := by
          constructor <;> intro hh <;> rw [hh] at hpre <;> exact absurd hpre (by decide)
        rw [if_neg hn.1, if_neg hn.2, if_pos hpre]
        split <;> rfl
    obtain ⟨l, h3, h4⟩ := C171_windows_exact c t _ hs ho h1 hsp hi
      (by unfold NativeArch; rcases ha with ha | ha <;> rw [ha] <;> decide)
    refine ⟨l, h3, h4.mpr ⟨fun hb => ?_, fun _ => .inr rfl⟩⟩
    exfalso
    rcases ha with ha | ha <;> rcases hb with hb | hb <;> rw [ha] at hb <;> cases hb
  · intro h
    simp only [not_or] at h
    have hpre : (b!"ARM64E".isPrefixOf c.vsPlatform || b!"arm64e".isPrefixOf c.vsPlatform) = false := by
      rw [Bool.or_eq_false_iff, ← Bool.not_eq_true, ← Bool.not_eq_true, List.isPrefixOf_iff_prefix,
        List.isPrefixOf_iff_prefix]
      exact h.2.2.2
    unfold sources
    rw [htp, if_neg h.1, if_neg h.2.1, if_neg h.2.2.1, hpre]
    rfl

example : (∃ l, sources { systemName := b!"Windows", systemProcessor := b!"AMD64", visualStudio := true,
                          vsPlatform := b!"ARM64EC" } = some l ∧ Links ⟨.arm64, .windows⟩ l) ∧
    sources { systemName := b!"Windows", systemProcessor := b!"AMD64", visualStudio := true,
              vsPlatform := b!"ARM" } = none :=
  ⟨(C171_visual_studio _ ⟨.arm64, .windows⟩ (.inl rfl) rfl rfl (by decide) (by decide) rfl).2.1
      (.inr (.inl (by decide))) (.inr rfl), by decide⟩

/-! ## All systems -/

/-- **C171 (unsupported builds, exactly).** Where CMake warns that `cpuinfo_initialize` "will always fail", a program
that calls it can be linked if and only if src/init.c has no detection for what is compiled. -/
theorem C171_warned_exact (c : Config) (t : Target) (tp : Bytes) (htp : targetProcessor c = some tp)
    (hw : supported c tp = false) : ∃ l, sources c = some l ∧ (Links t l ↔ entry t = none) := by
  refine ⟨_, sources_of htp, ?_⟩
  rw [hw]
  exact common_links t

/-- **C171 (universal binaries, never).** On systems of Apple, no setting of CMake builds files that can
be linked for both x86-64 and 64-bit ARM. -/
theorem C171_violated_universal (c : Config) (l : List File) (hs : appleName c.systemName = true)
    (h : sources c = some l) : ¬ (Links ⟨.x8664, .apple⟩ l ∧ Links ⟨.arm64, .apple⟩ l) := by
  rintro ⟨h1, h2⟩
  obtain ⟨tp, htp, rfl⟩ := Option.map_eq_some_iff.mp h
  have e1 : File.x86MachInit ∈ common ++
      (if supported c tp then processorFiles c tp ++ systemFiles c.systemName else []) :=
    h1 .init (by simp [common]) _ (by decide)
  have e2 : File.armMachInit ∈ common ++
      (if supported c tp then processorFiles c tp ++ systemFiles c.systemName else []) :=
    h2 .init (by simp [common]) _ (by decide)
  clear h1 h2 h
  unfold appleName at hs
  simp only [decide_eq_true_eq, List.mem_cons, List.not_mem_nil, or_false] at hs
  unfold processorFiles at e1 e2
  by_cases hsup : supported c tp = true
  · rw [if_pos hsup] at e1 e2
    by_cases hx : (decide (c.systemName ≠ b!"Emscripten") &&
        (x86Processor tp || decide (c.iosArch = b!"i386") || decide (c.iosArch = b!"x86_64"))) = true
    · rw [if_pos hx] at e2
      revert e2
      rcases hs with h | h | h | h <;> rw [h] <;> decide
    · rw [if_neg hx] at e1
      revert e1
      rcases hs with h | h | h | h <;> rw [h] <;>
        simp [common, systemFiles, linuxName, appleName, armSystem] <;> split <;> (try split) <;>
        (try split) <;> simp
  · rw [if_neg hsup] at e1
    revert e1
    decide

/-- **C171 (single architectures of Apple).** With `CMAKE_OSX_ARCHITECTURES` set to x86_64, or to arm64 or a
variant of it, programs can be linked for this architecture. -/
theorem C171_apple (c : Config) (hs : appleName c.systemName = true) (hp : c.systemProcessor ≠ [] ∨ c.ios = true)
    (hi : c.iosArch = []) :
    (c.osxArchitectures = b!"x86_64" → ∃ l, sources c = some l ∧ Links ⟨.x8664, .apple⟩ l) ∧
    (∀ rest, c.osxArchitectures = b!"arm64" ++ rest → ∃ l, sources c = some l ∧ Links ⟨.arm64, .apple⟩ l) := by
  have sup : ∀ tp, (x86Processor tp || armProcessor tp) = true → supported c tp = true := by
    intro tp h
    unfold supported
    have hn : c.systemName ≠ [] := by
      intro h0
      rw [h0] at hs
      exact absurd hs (by decide)
    rw [if_neg hn, hs]
    by_cases he : c.systemProcessor = []
    · rcases hp with hp | hp
      · exact absurd he hp
      · simp [he, hp]
    · simp [he, h]
  have hname := hs
  unfold appleName at hname
  simp only [decide_eq_true_eq, List.mem_cons, List.not_mem_nil, or_false] at hname
  obtain ⟨m1, m2, m3, m4⟩ : linuxName c.systemName = false ∧ c.systemName ≠ b!"Android" ∧
      c.systemName ≠ b!"Emscripten" ∧ b!"Windows".isPrefixOf c.systemName = false := by
    rcases hname with h | h | h | h <;> rw [h] <;> decide
  constructor
  · intro ho
    have htp : targetProcessor c = some b!"x86_64" := by
      unfold targetProcessor
      simp [hs, ho]
    refine ⟨_, sources_of htp, ?_⟩
    have e : processorFiles c b!"x86_64" ++ systemFiles c.systemName =
        x86Files ++ [.x86MachInit] ++ [.machTopology] := by
      have hx : x86Processor b!"x86_64" = true := by decide
      unfold processorFiles systemFiles x86System
      simp [hs, hx, m1, m3]
    rw [if_pos (sup _ (by decide)), e]
    decide
  · intro rest ho
    have hpre : b!"arm64".isPrefixOf (b!"arm64" ++ rest) = true := by simp
    have htp : targetProcessor c = some (b!"arm64" ++ rest) := by
      unfold targetProcessor
      simp [hs, ho]
    have harm : armProcessor (b!"arm64" ++ rest) = true := by
      unfold armProcessor
      simp
    have hx : x86Processor (b!"arm64" ++ rest) = false := by
      cases hx : x86Processor (b!"arm64" ++ rest) with
      | false => rfl
      | true =>
        have := ((kinds _).1 hx).1
        rw [harm] at this
        cases this
    have hcon : contains b!"arm64" (b!"arm64" ++ rest) = true := by
      show (b!"arm64".isPrefixOf (b!"arm64" ++ rest) || _) = true
      rw [hpre]
      rfl
    refine ⟨_, sources_of htp, ?_⟩
    have e : processorFiles c (b!"arm64" ++ rest) ++ systemFiles c.systemName =
        [.armUarch, .armCache] ++ [.armMachInit] ++ [.machTopology] := by
      unfold processorFiles systemFiles armSystem
      rw [hi, hx, harm, hcon]
      simp [hs, m1, m2, m3, m4]
    rw [if_pos (sup _ (by rw [harm]; simp)), e]
    decide

/-- **C171 is violated on Emscripten by every CMake since 3.14**: the system is not in the list, so the file with its
detection, which src/init.c calls, is left out. -/
theorem C171_violated_emscripten (c : Config) (t : Target) (l : List File)
    (hs : c.systemName = b!"Emscripten") (hc : c.cmake314 = true) (ha : WebArch t.arch)
    (h : sources c = some l) : ¬ Links t l := by
  obtain ⟨tp, htp, rfl⟩ := Option.map_eq_some_iff.mp h
  have hsup : supported c tp = false := by
    unfold supported
    rw [hs, hc]
    simp [listed, windowsName, linuxName, appleName]
  rw [hsup]
  show ¬ Links t (common ++ [])
  rw [List.append_nil, common_links]
  rcases t with ⟨a, o⟩
  rcases ha with h | h | h <;> dsimp only at h <;> rw [h] <;> cases o <;> decide

/-- Before 3.14 it could be linked. -/
example : ∃ l, sources { systemName := b!"Emscripten", systemProcessor := b!"x86", cmake314 := false } = some l ∧
    Links ⟨.wasm, .other⟩ l := ⟨_, rfl, by decide +kernel⟩

/-- **C171 is violated by names of processors that are not in the list**: CMake warns that the
library will compile and fail, but a program cannot be linked.  64-bit x86 and 32-bit ARM Linux under
the names of Debian's amd64 and of generic ARM. -/
theorem C171_violated_warned :
    supported { systemName := b!"Linux", systemProcessor := b!"amd64" } b!"amd64" = false ∧
    (∃ l, sources { systemName := b!"Linux", systemProcessor := b!"amd64" } = some l ∧
      ¬ Links ⟨.x8664, .linux⟩ l) ∧
    supported { systemName := b!"Linux", systemProcessor := b!"arm" } b!"arm" = false ∧
    ∃ l, sources { systemName := b!"Linux", systemProcessor := b!"arm" } = some l ∧ ¬ Links ⟨.arm, .linux⟩ l :=
  ⟨by decide +kernel, ⟨_, rfl, by decide +kernel⟩, by decide +kernel, ⟨_, rfl, by decide +kernel⟩⟩

/-- The setting of MinGW for ARM. -/
def mingwArm : Config := { systemName := b!"Windows", systemProcessor := b!"aarch64" }

/-- The setting of Visual Studio for ARM64EC. -/
def studioArm64ec : Config :=
  { systemName := b!"Windows", systemProcessor := b!"ARM64", visualStudio := true, vsPlatform := b!"ARM64EC" }

/-- **C171 is violated on ARM Windows** under the name aarch64 (used by MinGW), and by Visual Studio for
ARM64EC, for which the compiler defines the macros of x86-64: CMake does not warn, but a program cannot be linked. -/
theorem C171_violated_windows :
    supported mingwArm b!"aarch64" = true ∧ (∃ l, sources mingwArm = some l ∧ ¬ Links ⟨.arm64, .windows⟩ l) ∧
    supported studioArm64ec b!"arm64" = true ∧
    ∃ l, sources studioArm64ec = some l ∧ ¬ Links ⟨.x8664, .windows⟩ l :=
  ⟨by decide +kernel, ⟨_, rfl, by decide +kernel⟩, by decide +kernel, ⟨_, rfl, by decide +kernel⟩⟩

/-- **C171 is violated silently** where CMake does not warn and programs can be linked, but `cpuinfo_initialize`
always fails: 64-bit ARM and RISC-V on FreeBSD. -/
theorem C171_violated_silent (p : Bytes) (a : Arch)
    (h : p = b!"aarch64" ∧ a = .arm64 ∨ p = b!"riscv64" ∧ a = .riscv64) :
    supported { systemName := b!"FreeBSD", systemProcessor := p } p = true ∧
    (∃ l, sources { systemName := b!"FreeBSD", systemProcessor := p } = some l ∧ Links ⟨a, .freebsd⟩ l) ∧
    entry ⟨a, .freebsd⟩ = none := by
  rcases h with ⟨rfl, rfl⟩ | ⟨rfl, rfl⟩
  · exact ⟨by decide +kernel, ⟨_, rfl, by decide +kernel⟩, rfl⟩
  · exact ⟨by decide +kernel, ⟨_, rfl, by decide +kernel⟩, rfl⟩

private def bsdList (cygwin x a r : Bool) : List File :=
  (if x then x86Files ++ [if cygwin then .x86WindowsInit else .x86FreebsdInit]
    else if a then [.armUarch, .armCache]
    else if r then [.riscvUarch]
    else []) ++ (if cygwin then [] else [.freebsdTopology])

private theorem bsd_core : ∀ (cygwin x a r : Bool) (b : Arch), b ∈ [Arch.x86, .x8664, .arm, .arm64, .riscv32,
      .riscv64] →
    (Links ⟨b, if cygwin then .cygwin else .freebsd⟩ (common ++ bsdList cygwin x a r) ↔
      (match b with
        | .x86 | .x8664 => x
        | _ => true) = true) := by
  intro cygwin x a r b hb
  simp only [List.mem_cons, List.not_mem_nil, or_false] at hb
  revert cygwin x a r
  rcases hb with rfl | rfl | rfl | rfl | rfl | rfl <;> decide +kernel

private theorem bsd_exact (c : Config) (t : Target) (tp : Bytes) (cygwin : Bool)
    (htp : targetProcessor c = some tp) (ht : t = ⟨t.arch, if cygwin then .cygwin else .freebsd⟩)
    (hl : listed c.systemName = true) (hn : c.systemName ≠ []) (hempty : c.systemProcessor = [] → tp = [])
    (hfiles : processorFiles c tp ++ systemFiles c.systemName =
      bsdList cygwin (x86Processor tp) (armProcessor tp) (riscvProcessor tp))
    (ha : NativeArch t.arch) : ∃ l, sources c = some l ∧ (Links t l ↔ (X86Arch t.arch → X86Named tp)) := by
  refine ⟨_, sources_of htp, ?_⟩
  rw [← x86_iff]
  by_cases hsup : supported c tp = true
  · rw [if_pos hsup, hfiles, ht, bsd_core _ _ _ _ _ ha]
    dsimp only
    generalize x86Processor tp = x at *
    unfold NativeArch at ha
    unfold X86Arch
    clear hfiles hsup ht
    revert ha
    cases t.arch <;> revert x <;> decide
  · have hnone : x86Processor tp = false := by
      by_cases he : c.systemProcessor = []
      · rw [hempty he]; decide
      · unfold supported at hsup
        rw [if_neg he, if_neg hn, hl] at hsup
        simp only [Bool.true_or, Bool.and_true, Bool.or_eq_true, not_or, Bool.not_eq_true] at hsup
        exact hsup.1.1.1
    rw [if_neg hsup, List.append_nil, common_links, ht, hnone]
    unfold NativeArch at ha
    unfold X86Arch
    clear hsup ht hfiles
    dsimp only
    revert ha
    cases t.arch <;> revert cygwin <;> decide

/-- **C171 (FreeBSD, exactly).** For every name of a processor: a program can be linked for x86 if and only if the
name is one of x86 or amd64; for ARM and RISC-V it always can (though initialization fails, see
`C171_violated_silent`). -/
theorem C171_freebsd_exact (c : Config) (t : Target) (hs : c.systemName = b!"FreeBSD") (ho : t.os = .freebsd)
    (hv : c.visualStudio = false) (hi : c.iosArch = []) (ha : NativeArch t.arch) :
    ∃ l, sources c = some l ∧
      (Links t l ↔ (X86Arch t.arch → X86Named c.systemProcessor ∨ c.systemProcessor = b!"amd64")) := by
  have ht : t = ⟨t.arch, if false then .cygwin else .freebsd⟩ := by
    rcases t with ⟨a, o⟩
    dsimp only at ho
    rw [ho]
    rfl
  have n1 : appleName b!"FreeBSD" = false := by decide
  have n2 : contains b!"FreeBSD" b!"FreeBSD" = true := by decide
  have n3 : linuxName b!"FreeBSD" = false := by decide
  have n4 : windowsName b!"FreeBSD" = false := by decide
  have htp : targetProcessor c =
      some (if c.systemProcessor = b!"amd64" then b!"AMD64" else c.systemProcessor) := by
    unfold targetProcessor
    simp [hs, hv, n1, n2]
  obtain ⟨l, hl, hlinks⟩ := bsd_exact c t _ false htp ht (by rw [hs]; decide) (by rw [hs]; decide)
    (by
      intro he
      rw [he]
      rfl)
    (by
      unfold processorFiles systemFiles bsdList armSystem x86System
      simp [hs, hi, n1, n3, n4]) ha
  refine ⟨l, hl, hlinks.trans (imp_congr_right fun _ => ?_)⟩
  by_cases he : c.systemProcessor = b!"amd64"
  · simp only [he, if_true, or_true, iff_true]
    exact (x86_iff _).mp (by decide)
  · simp only [he, if_false, or_false]

/-- **C171 (Cygwin and MSYS, exactly).** For every name of a processor: a program can be linked for x86 if and only
if the name is one of x86. -/
theorem C171_cygwin_exact (c : Config) (t : Target) (hs : c.systemName = b!"CYGWIN" ∨ c.systemName = b!"MSYS")
    (ho : t.os = .cygwin) (hv : c.visualStudio = false) (hi : c.iosArch = []) (ha : NativeArch t.arch) :
    ∃ l, sources c = some l ∧ (Links t l ↔ (X86Arch t.arch → X86Named c.systemProcessor)) := by
  have ht : t = ⟨t.arch, if true then .cygwin else .freebsd⟩ := by
    rcases t with ⟨a, o⟩
    dsimp only at ho
    rw [ho]
    rfl
  obtain ⟨n1, n2, n3, n4, n5, n6⟩ : appleName c.systemName = false ∧ contains b!"FreeBSD" c.systemName = false ∧
      linuxName c.systemName = false ∧ windowsName c.systemName = true ∧ listed c.systemName = true ∧
      c.systemName ≠ [] := by
    rcases hs with h | h <;> rw [h] <;> decide
  obtain ⟨n7, n8, n9, n10⟩ : c.systemName ≠ b!"Emscripten" ∧ b!"Windows".isPrefixOf c.systemName = false ∧
      c.systemName ≠ b!"Android" ∧ c.systemName ≠ b!"FreeBSD" := by
    rcases hs with h | h <;> rw [h] <;> decide
  exact bsd_exact c t _ true (target_plain hv n1 n2) ht n5 n6 id
    (by
      unfold processorFiles systemFiles bsdList armSystem x86System
      simp [hi, n1, n3, n4, n7, n8, n9, n10]) ha

/-- Non-vacuity: usual settings for Linux, Windows and macOS. -/
example : (∃ l, sources { systemName := b!"Linux", systemProcessor := b!"armv7l" } = some l ∧
      Links ⟨.arm, .linux⟩ l) ∧
    (∃ l, sources { systemName := b!"Windows", systemProcessor := b!"AMD64" } = some l ∧
      Links ⟨.x8664, .windows⟩ l) ∧
    (∃ l, sources { systemName := b!"FreeBSD", systemProcessor := b!"amd64" } = some l ∧
      Links ⟨.x8664, .freebsd⟩ l) ∧
    (∃ l, sources { systemName := b!"CYGWIN", systemProcessor := b!"i686" } = some l ∧
      Links ⟨.x86, .cygwin⟩ l) ∧
    ∃ l, sources { systemName := b!"Darwin", systemProcessor := b!"arm64",
                   osxArchitectures := b!"x86_64" } = some l ∧ Links ⟨.x8664, .apple⟩ l :=
  ⟨⟨_, rfl, by decide +kernel⟩, ⟨_, rfl, by decide +kernel⟩, ⟨_, rfl, by decide +kernel⟩,
    ⟨_, rfl, by decide +kernel⟩, ⟨_, rfl, by decide +kernel⟩⟩

end Verif.Props
