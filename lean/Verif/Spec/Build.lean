import Verif.Model.Build

/-!
# Names of processors and systems, as CMake and the operating systems give them
-/

set_option autoImplicit false

namespace Verif.Spec
open Build (Arch Os Target Config)

/-- A usual name of a 32-bit or 64-bit x86 processor. -/
def X86Named (p : Bytes) : Prop :=
  p ∈ [b!"i386", b!"i486", b!"i586", b!"i686", b!"x86", b!"x86_64", b!"AMD64"]

/-- `armv5…` to `armv8…` -/
def Armv (p : Bytes) : Prop := ∃ d rest, p = b!"armv" ++ d :: rest ∧ 53 ≤ d ∧ d ≤ 56

/-- The names of processors for which the library is built on Linux and Android, by what is compiled. -/
def LinuxNamed : Arch → Bytes → Prop
  | .x86, p | .x8664, p => X86Named p
  | .arm, p => Armv p
  | .arm64, p => p = b!"aarch64" ∨ p = b!"arm64"
  | .riscv32, p | .riscv64, p => p = b!"riscv32" ∨ p = b!"riscv64"
  | _, _ => False

/-- An x86, ARM or RISC-V processor. -/
def NativeArch (a : Arch) : Prop := a ∈ [.x86, .x8664, .arm, .arm64, .riscv32, .riscv64]

/-- An x86 processor. -/
def X86Arch (a : Arch) : Prop := a = .x86 ∨ a = .x8664

/-- An ARM processor. -/
def ArmArch (a : Arch) : Prop := a = .arm ∨ a = .arm64

/-- A processor of Emscripten. -/
def WebArch (a : Arch) : Prop := a = .asmjs ∨ a = .wasm ∨ a = .wasmsimd

end Verif.Spec
