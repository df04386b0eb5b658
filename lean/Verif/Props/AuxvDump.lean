import Verif.Proof.AuxvDump
import Verif.Proof.ArmIsa

/-!
# C170: auxv-dump prints what is needed to detect the instruction set elsewhere
-/

set_option autoImplicit false

namespace Verif.Props
open Spec AuxvDump ArmIsa
open ArmCpuinfo (Proc)
open ArmMidr (Arch)
open ArmChipset (Chipset)

/-- **C170.** If `getauxval` is found, exactly the lines with the words are printed, and nothing on standard
error. -/
theorem C170_lines (arm32 : Bool) (s : System) (h1 : s.libcError = none) (h2 : s.symbolError = none) :
    (run arm32 s).status = 0 ∧ (run arm32 s).stderr = [] ∧
    ∃ first second, (run arm32 s).stdout = first ++ second ∧ SaysWord b!"AT_HWCAP" s.hwcap first ∧
      (arm32 = true → SaysWord b!"AT_HWCAP2" s.hwcap2 second) ∧ (arm32 = false → second = []) := by
  have e : run arm32 s = ⟨b!"AT_HWCAP = 0x" ++ hexLong s.hwcap ++ b!"\n" ++
        (if arm32 then b!"AT_HWCAP2 = 0x" ++ hexLong s.hwcap2 ++ b!"\n" else []), [], 0⟩ := by
    unfold run
    rw [h1, h2]
  rw [e]
  refine ⟨rfl, rfl, _, _, rfl, hexLong_says b!"AT_HWCAP" s.hwcap, ?_, ?_⟩
  · rintro rfl
    exact hexLong_says b!"AT_HWCAP2" s.hwcap2
  · rintro rfl
    rfl

/-- **C170.** Whoever reads a dump reads the words of the device: a text that says words `v` (and `w`) is a
dump of them only. -/
theorem C170_read_back (arm32 : Bool) (s : System) (h1 : s.libcError = none) (h2 : s.symbolError = none)
    (v w : Nat) (first second : Bytes) (h : (run arm32 s).stdout = first ++ second)
    (hf : SaysWord b!"AT_HWCAP" v first) :
    v = s.hwcap ∧ (arm32 = true → SaysWord b!"AT_HWCAP2" w second → w = s.hwcap2) := by
  obtain ⟨-, -, a, b, hs, ha, hb, -⟩ := C170_lines arm32 s h1 h2
  rw [h] at hs
  obtain ⟨e1, e2⟩ := says_unique hf ha hs
  refine ⟨e1, fun harm hw => ?_⟩
  have := hb harm
  rw [← e2] at this
  exact (says_unique (rest := []) (rest' := []) hw this rfl).1

/-- **C170 (32-bit ARM).** A mocked build given the words of the dump detects the instruction set of the
device, on which `getauxval` gave the same words. -/
theorem C170_replay32 (s : System) (h1 : s.libcError = none) (h2 : s.symbolError = none)
    (hw : s.hwcap < U32) (hw2 : s.hwcap2 < U32) (v w : Nat) (first second : Bytes)
    (h : (run true s).stdout = first ++ second) (hf : SaysWord b!"AT_HWCAP" v first)
    (hs : SaysWord b!"AT_HWCAP2" w second)
    (device : Source) (hlibc : device.libc ≠ .other) (haux : device.auxval = some (s.hwcap, s.hwcap2))
    (t : List Proc) (chipset : Chipset) :
    detectIsa .arm device t chipset =
      some (mockedIsa .arm device.target device.vectorLength (some v) (some w) t chipset) := by
  obtain ⟨rfl, hk⟩ := C170_read_back true s h1 h2 v w first second h hf
  obtain rfl := hk rfl hs
  have e : features32 device t = some (s.hwcap, s.hwcap2) := by
    unfold features32 hwcapFromGetauxval
    cases hl : device.libc with
    | other => exact absurd hl hlibc
    | android => simp [haux, Nat.mod_eq_of_lt hw, Nat.mod_eq_of_lt hw2]
    | glibc => simp [haux, Nat.mod_eq_of_lt hw, Nat.mod_eq_of_lt hw2]
  have hw3 : s.hwcap2 < 2 ^ 64 := Nat.lt_trans hw2 (by decide)
  unfold detectIsa mockedIsa mocked
  simp only [e, bind, pure, Option.bind_some, Option.getD_some, Nat.mod_eq_of_lt hw, Nat.mod_eq_of_lt hw3]

/-- **C170 is violated on 64-bit ARM, exactly where it matters.** AT_HWCAP2 is not printed, so it is 0 in the
mocked build.  The instruction set detected there is that of the device if and only if the device has none of
the features of the second word. -/
theorem C170_replay64_exact (s : System) (h1 : s.libcError = none) (h2 : s.symbolError = none)
    (hw2 : s.hwcap2 < 2 ^ 64) (v : Nat) (first second : Bytes)
    (h : (run false s).stdout = first ++ second) (hf : SaysWord b!"AT_HWCAP" v first)
    (device : Source) (haux : device.auxval = some (s.hwcap, s.hwcap2)) (t : List Proc) (chipset : Chipset) :
    detectIsa .arm64 device t chipset =
      some (mockedIsa .arm64 device.target device.vectorLength (some v) none t chipset) ↔
    ∀ k ∈ reportedBits2, s.hwcap2.testBit k = false := by
  obtain ⟨rfl, -⟩ := C170_read_back false s h1 h2 v 0 first second h hf
  unfold detectIsa mockedIsa mocked
  simp only [haux, Option.getD_some, Option.getD_none, Option.some.injEq, Nat.mod_eq_of_lt hw2, Nat.zero_mod]
  have z : ∀ k, Nat.testBit 0 k = false := Nat.zero_testBit
  have b13 : ∀ n, on n 0x00002000 = n.testBit 13 := fun n => on_pow n 13
  have b1 : ∀ n, on n 0x00000002 = n.testBit 1 := fun n => on_pow n 1
  have b23 : ∀ n, on n 0x00800000 = n.testBit 23 := fun n => on_pow n 23
  have b37 : ∀ n, on n 0x0000002000000000 = n.testBit 37 := fun n => on_pow n 37
  have b38 : ∀ n, on n 0x0000004000000000 = n.testBit 38 := fun n => on_pow n 38
  have b39 : ∀ n, on n 0x0000008000000000 = n.testBit 39 := fun n => on_pow n 39
  have b40 : ∀ n, on n 0x0000010000000000 = n.testBit 40 := fun n => on_pow n 40
  have b41 : ∀ n, on n 0x0000020000000000 = n.testBit 41 := fun n => on_pow n 41
  have b42 : ∀ n, on n 0x0000040000000000 = n.testBit 42 := fun n => on_pow n 42
  have b14 : ∀ n, on n 0x00004000 = n.testBit 14 := fun n => on_pow n 14
  have b12 : ∀ n, on n 0x00001000 = n.testBit 12 := fun n => on_pow n 12
  unfold decode64
  simp only [Isa.mk.injEq, true_and, and_true, ArmIsa.on_or, b13, b1, b23, b37, b38, b39, b40, b41, b42, b14, b12,
    z, reportedBits2, List.mem_cons, List.not_mem_nil, or_false, forall_eq_or_imp, forall_eq,
    Bool.or_eq_false_iff, Bool.or_false]
  constructor
  · intro h; simp_all
  · intro h; simp_all

/-- **C170 is violated on 64-bit ARM**: the dumps of two devices with and without I8MM are the same. -/
theorem C170_violated_hwcap2 (hwcap a b : Nat) :
    run false ⟨none, none, hwcap, a⟩ = run false ⟨none, none, hwcap, b⟩ ∧
    ∀ (d : Source) (t : List Proc) (chipset : Chipset),
      (detectIsa .arm64 { d with auxval := some (hwcap, 0x2000) } t chipset).map (·.i8mm) = some true ∧
      (detectIsa .arm64 { d with auxval := some (hwcap, 0) } t chipset).map (·.i8mm) = some false := by
  refine ⟨rfl, fun d t chipset => ⟨?_, ?_⟩⟩
  · simp [detectIsa, decode64, on]
  · simp [detectIsa, decode64, on]

/-- **C170 (errors).** If the C library or the function is missing, nothing is printed as a word, the exit status
tells the failure, and the reason is on standard error. -/
theorem C170_errors (arm32 : Bool) (s : System) (m : Bytes)
    (h : s.libcError = some m ∨ (s.libcError = none ∧ s.symbolError = some m)) :
    (run arm32 s).stdout = [] ∧ (run arm32 s).status = 1 ∧ m <:+: (run arm32 s).stderr := by
  unfold run
  rcases h with h | ⟨h, h'⟩
  · rw [h]
    exact ⟨rfl, rfl, _, _, rfl⟩
  · rw [h, h']
    exact ⟨rfl, rfl, _, [], List.append_nil _⟩

/-- **C170 is violated**: the message about a missing function is not ended, unlike that about a missing
library. -/
theorem C170_violated_newline (arm32 : Bool) (hwcap hwcap2 : Nat) (m : Bytes) (hm : 10 ∉ m) :
    10 ∉ (run arm32 ⟨none, some m, hwcap, hwcap2⟩).stderr ∧
    (run arm32 ⟨some m, none, hwcap, hwcap2⟩).stderr.getLast? = some 10 := by
  constructor
  · show 10 ∉ b!"Error: failed to locate getauxval in libc.so: " ++ m
    rw [List.mem_append]
    rintro (h | h)
    · revert h; decide
    · exact hm h
  · show (b!"Error: failed to load libc.so: " ++ m ++ [10]).getLast? = some 10
    rw [List.getLast?_append]
    rfl

/-- Non-vacuity: dumps of a Pixel-like device and of a 64-bit word with bits above 32. -/
example : (run true ⟨none, none, 0x37B0D6, 0x1F⟩).stdout =
      b!"AT_HWCAP = 0x0037B0D6\nAT_HWCAP2 = 0x0000001F\n" ∧
    (run false ⟨none, none, 0x1123456789, 0x2000⟩).stdout = b!"AT_HWCAP = 0x1123456789\n" := by
  decide +kernel

end Verif.Props
