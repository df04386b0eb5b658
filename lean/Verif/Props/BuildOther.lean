import Verif.Model.BuildOther
import Verif.Spec.Build

/-!
# C172: Bazel, ndk-build and confu build what `cpuinfo_initialize` needs
-/

set_option autoImplicit false

namespace Verif.Props
open Spec Build

/-- **C172 (Bazel).** For every `--cpu` and platform: if Bazel chooses files, the setting is for this `--cpu`, for this
platform of Apple if for any, and programs can be linked for what it stands for at the level
Bazel compiles with. -/
theorem C172_bazel (c : Bazel.Config) (s : Bazel.Setting) (h : Bazel.chosen c = some s) :
    s.cpu = c.cpu ∧ (∀ p, s.apple = some p → c.apple = p) ∧ (s.android = true → c.android = true) ∧
    LinksAt 2 s.target s.files := by
  unfold Bazel.chosen at h
  have hm := List.mem_of_find?_eq_some h
  obtain ⟨hs, hh⟩ := List.mem_filter.mp hm
  have all : ∀ s ∈ Bazel.settings, LinksAt 2 s.target s.files := by decide +kernel
  unfold Bazel.Setting.holds at hh
  simp only [Bool.and_eq_true, Bool.or_eq_true, decide_eq_true_eq, Bool.not_eq_true'] at hh
  obtain ⟨⟨h1, h2⟩, h3⟩ := hh
  refine ⟨h1, fun p hp => ?_, fun ha => ?_, all s hs⟩
  · rcases h2 with h2 | h2
    · rw [hp] at h2; cases h2
    · rw [hp] at h2; exact (Option.some.inj h2).symm
  · rcases h3 with h3 | h3
    · rw [ha] at h3; cases h3
    · exact h3

/-- **C172 (Bazel is never undecided).** Bazel stops only where no setting matches. -/
theorem C172_bazel_decided (c : Bazel.Config) :
    Bazel.chosen c = none ↔ ∀ s ∈ Bazel.settings, s.holds c = false := by
  constructor
  · intro h s hs
    cases hh : s.holds c with
    | false => rfl
    | true =>
      have hcpu : c.cpu = s.cpu := by
        unfold Bazel.Setting.holds at hh
        simp only [Bool.and_eq_true, decide_eq_true_eq] at hh
        exact hh.1.1.symm
      have all : ∀ s ∈ Bazel.settings, ∀ a ∈ [Bazel.Apple.macos, .ios, .watchos, .tvos, .visionos, .catalyst],
          ∀ d : Bool, s.holds ⟨s.cpu, a, d⟩ = true → Bazel.chosen ⟨s.cpu, a, d⟩ ≠ none := by
        decide +kernel
      rcases c with ⟨cpu, a, d⟩
      dsimp only at hcpu
      subst hcpu
      exact absurd h (all s hs a (by cases a <;> decide) d hh)
  · intro h
    unfold Bazel.chosen
    have : Bazel.settings.filter (·.holds c) = [] := by
      rw [List.filter_eq_nil_iff]
      intro s hs
      rw [h s hs]
      exact Bool.false_ne_true
    rw [this]
    rfl

/-- **C172 (Bazel, what is chosen).** With the crosstool of Android the files for Android are taken where both those for
Linux and those for Android match; the usual `--cpu` of Linux, macOS and Windows get their files; asm.js has a
setting in BUILD.bazel but no files. -/
theorem C172_bazel_targets :
    (Bazel.chosen { cpu := b!"riscv64", android := true }).map (·.target) = some ⟨.riscv64, .android⟩ ∧
    (Bazel.chosen { cpu := b!"riscv64" }).map (·.target) = some ⟨.riscv64, .linux⟩ ∧
    (Bazel.chosen { cpu := b!"k8" }).map (·.target) = some ⟨.x8664, .linux⟩ ∧
    (Bazel.chosen { cpu := b!"darwin_arm64" }).map (·.target) = some ⟨.arm64, .apple⟩ ∧
    (Bazel.chosen { cpu := b!"x64_windows" }).map (·.target) = some ⟨.x8664, .windows⟩ ∧
    ∀ a d, Bazel.chosen ⟨b!"asmjs", a, d⟩ = none := by
  refine ⟨by decide +kernel, by decide +kernel, by decide +kernel, by decide +kernel, by decide +kernel, ?_⟩
  intro a d
  cases a <;> cases d <;> decide +kernel

private theorem log_needed {n : Nat} {t : Target} {l : List File} (hn : 1 ≤ n) (ha : File.api ∈ l)
    (hl : File.log ∉ l) : ¬ LinksAt n t l :=
  fun h => hl (h.2 .api ha hn)

/-- **C172 (ndk-build, exactly).** For every ABI, a program can be linked if and only if it is not a debug build,
and the ABI is not armeabi or riscv64. -/
theorem C172_ndk_exact (a : Ndk.Abi) (debug : Bool) :
    LinksAt (Ndk.level debug) (Ndk.target a) (Ndk.sources a) ↔
      debug = false ∧ a ≠ .armeabi ∧ a ≠ .riscv64 := by
  cases a <;> cases debug <;> decide +kernel

/-- **C172 is violated by every debug build of ndk-build**: jni/Android.mk lacks src/log.c. -/
theorem C172_violated_ndk_debug (a : Ndk.Abi) : ¬ LinksAt (Ndk.level true) (Ndk.target a) (Ndk.sources a) := by
  rw [C172_ndk_exact]
  exact fun h => Bool.noConfusion h.1

/-- The targets for which configure.py builds the detection that src/init.c calls, or src/init.c calls none. -/
def ConfuTarget (t : Target) : Prop :=
  entry t = none ∨ (X86Arch t.arch ∧ t.os ∈ [.linux, .android, .apple]) ∨ (ArmArch t.arch ∧ t.os ∈ [.linux, .android])

instance (t : Target) : Decidable (ConfuTarget t) := by
  unfold ConfuTarget X86Arch ArmArch
  infer_instance

/-- **C172 (confu, exactly).** For every target and every `--log`: a program can be linked if and only if
`--log none` is given, and the target is x86 on Linux, Android or macOS, ARM on Linux or Android, or has no
detection. -/
theorem C172_confu_exact (t : Target) (log : Option Confu.Log) :
    LinksAt (Confu.level log) t (Confu.sources t) ↔ log = some .none ∧ ConfuTarget t := by
  rcases t with ⟨a, o⟩
  by_cases hl : log = some .none
  · rw [hl]
    cases a <;> cases o <;> decide +kernel
  · have hn : 1 ≤ Confu.level log := by
      rcases log with _ | l
      · decide
      · cases l <;> first | exact absurd rfl hl | decide
    constructor
    · intro h
      refine absurd h (log_needed hn ?_ ?_)
      · simp [Confu.sources]
      · cases a <;> cases o <;> decide +kernel
    · exact fun h => absurd h.1 hl

/-- **C172 is violated by configure.py without `--log`** on every target, and on RISC-V with every `--log`. -/
theorem C172_violated_confu (t : Target) :
    ¬ LinksAt (Confu.level none) t (Confu.sources t) ∧
    (t = ⟨.riscv64, .linux⟩ → ∀ log, ¬ LinksAt (Confu.level log) t (Confu.sources t)) := by
  constructor
  · rw [C172_confu_exact]
    exact fun h => by cases h.1
  · rintro rfl log
    rw [C172_confu_exact]
    exact fun h => absurd h.2 (by decide)

/-- Non-vacuity: builds that can be linked. -/
example : LinksAt (Ndk.level false) (Ndk.target .arm64V8a) (Ndk.sources .arm64V8a) ∧
    LinksAt (Confu.level (some .none)) ⟨.x8664, .linux⟩ (Confu.sources ⟨.x8664, .linux⟩) := by decide +kernel

end Verif.Props
