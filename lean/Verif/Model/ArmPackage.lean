import Verif.Model.ArmInit

/-!
# The chipset decoders inside `cpuinfo_arm_linux_init`, src/arm/linux/init.c:241-247

`cpuinfo_arm_linux_init` takes the decoders as parameters in Model/ArmInit; here are the ones of the
code.  Both are called with 0 as maximum frequency.
-/

set_option autoImplicit false

namespace Verif.ArmInit
open ArmChipset

/-- The chipset of a match; the other outcomes never happen (C45, C115). -/
def chipsetOf : Match Chipset → Chipset
  | .yes c => c
  | _ => .unknown

/-- Not on Android, src/arm/linux/init.c:245-246. -/
def linuxChipset (arm32 : Bool) (hardware revision : Bytes) (cores : Nat) : Chipset :=
  chipsetOf (decodeLinux arm32 hardware revision cores 0)

/-- On Android, src/arm/linux/init.c:242-243; `p` are the properties other than the Hardware string,
which is parsed into the same structure (src/arm/linux/init.c:171-184). -/
def androidChipset (arm32 : Bool) (p : Properties) (hardware _revision : Bytes) (cores : Nat) :
    Chipset :=
  chipsetOf (decodeAndroid arm32 { p with hardware } cores 0)

end Verif.ArmInit
