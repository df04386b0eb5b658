import Verif.Model.ArmIsa
import Verif.Model.FileDump

/-!
# tools/auxv-dump.c, and the mocked hardware capabilities of src/arm/linux/hwcap.c

The tool prints the words that detection of the instruction set reads, to be handed to
`cpuinfo_set_hwcap` and `cpuinfo_set_hwcap2` in a mocked build.

Simplifications: the answers of `dlopen`, `dlsym`, `dlerror` and `getauxval` are parameters.
-/

set_option autoImplicit false

namespace Verif.AuxvDump
open FileDump (hexDigit)
open ArmCpuinfo (Proc)
open ArmMidr (Arch)
open ArmChipset (Chipset)
open ArmIsa

/-- What the tool asks the system. -/
structure System where
  /-- The text of `dlerror()` if `dlopen("libc.so")` fails. -/
  libcError : Option Bytes
  /-- The text of `dlerror()` if `getauxval` is not found. -/
  symbolError : Option Bytes
  hwcap : Nat
  hwcap2 : Nat

/-- What the tool writes, and the exit status. -/
structure Output where
  stdout : Bytes
  stderr : Bytes
  status : Nat
deriving DecidableEq

/-- The last `w` hexadecimal digits. -/
def digits : Nat → Nat → Bytes
  | 0, _ => []
  | w + 1, n => digits w (n / 16) ++ [hexDigit (n % 16)]

/-- `%08lX`: at least 8 digits, more if needed. -/
def hexLong (n : Nat) : Bytes := digits (max 8 (n.log2 / 4 + 1)) n

/-- `main`, tools/auxv-dump.c:12-31; `arm32` is `CPUINFO_ARCH_ARM`. -/
def run (arm32 : Bool) (s : System) : Output :=
  match s.libcError with
  | some m => ⟨[], b!"Error: failed to load libc.so: " ++ m ++ b!"\n", 1⟩
  | none =>
    match s.symbolError with
    | some m => ⟨[], b!"Error: failed to locate getauxval in libc.so: " ++ m, 1⟩
    | none =>
      ⟨b!"AT_HWCAP = 0x" ++ hexLong s.hwcap ++ b!"\n" ++
        (if arm32 then b!"AT_HWCAP2 = 0x" ++ hexLong s.hwcap2 ++ b!"\n" else []), [], 0⟩

/-- The words detection finds in a mocked build after `cpuinfo_set_hwcap` (if called) and
`cpuinfo_set_hwcap2` (if called), src/arm/linux/hwcap.c:28-38, 44-47 and 141-144; the arguments are converted to
32 and 64 bits. -/
def mocked (hwcap hwcap2 : Option Nat) : Nat × Nat :=
  ((hwcap.getD 0) % U32, (hwcap2.getD 0) % 2 ^ 64)

/-- `cpuinfo_isa` after src/arm/linux/init.c:195-308 in a mocked build. -/
def mockedIsa (a : Arch) (target : Target32) (vectorLength : Int) (hwcap hwcap2 : Option Nat)
    (t : List Proc) (chipset : Chipset) : Isa :=
  let f := mocked hwcap hwcap2
  match a with
  | .arm => decode32 target f.1 f.2 (lastMidr t) (lastArchitecture t).1 (lastArchitecture t).2 chipset
  | .arm64 => decode64 f.1 f.2 (lastMidr t) chipset vectorLength

end Verif.AuxvDump
