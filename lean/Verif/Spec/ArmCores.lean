import Verif.Model.ArmMidr
import Verif.Spec.ArmMidr

/-!
# The identification of ARM cores, for C161

By core type: the numbers that the manuals of ARM and its licensees, and the kernel's lists, give for the
implementer and the part in the main ID register.
-/

set_option autoImplicit false

namespace Verif.Spec
open ArmMidr (Arch)

/-- The builds in which a core can be met: 32-bit cores only in 32-bit builds, and so on. -/
inductive Build
  | both
  | only32
  | only64
deriving DecidableEq, Repr

def Build.has : Build → Arch → Bool
  | .both, _ => true
  | .only32, a => a = .arm
  | .only64, a => a = .arm64

/-- Core types with fixed part numbers: microarchitecture, implementer, parts, builds. -/
def coreParts : List (Nat × Nat × List Nat × Build) :=
  [-- ARM, 32-bit
   (0x00300205, 0x41, [0xC05], .only32), (0x00300207, 0x41, [0xC07], .only32),
   (0x00300208, 0x41, [0xC08], .only32), (0x00300209, 0x41, [0xC09], .only32),
   (0x00300212, 0x41, [0xC0C, 0xC0D], .only32), (0x00300215, 0x41, [0xC0F], .only32),
   (0x00300217, 0x41, [0xC0E], .only32),
   -- ARM, Cortex-A
   (0x00300332, 0x41, [0xD01], .both), (0x00300335, 0x41, [0xD04], .both),
   (0x00300353, 0x41, [0xD03], .both), (0x00300357, 0x41, [0xD07], .both),
   (0x00300365, 0x41, [0xD06], .both), (0x00300372, 0x41, [0xD08], .both),
   (0x00300373, 0x41, [0xD09], .both), (0x00300375, 0x41, [0xD0A], .both),
   (0x00300376, 0x41, [0xD0B, 0xD0E], .both), (0x00300377, 0x41, [0xD0D], .both),
   (0x00300378, 0x41, [0xD41], .both), (0x00300551, 0x41, [0xD46], .both),
   (0x00300571, 0x41, [0xD47], .both), (0x00300572, 0x41, [0xD4D], .both),
   -- ARM, Cortex-X and Neoverse
   (0x00300501, 0x41, [0xD44], .both), (0x00300502, 0x41, [0xD48], .both),
   (0x00300503, 0x41, [0xD4E], .both), (0x00300400, 0x41, [0xD0C], .both),
   (0x00300401, 0x41, [0xD4A], .only64), (0x00300402, 0x41, [0xD40], .both),
   (0x00300403, 0x41, [0xD49], .both), (0x00300404, 0x41, [0xD4F], .both),
   -- Qualcomm
   (0x00400100, 0x51, [0x02D], .only32), (0x00400101, 0x51, [0x04D, 0x06F], .only32),
   (0x00400102, 0x51, [0x201, 0x205, 0x211], .both), (0x00400103, 0x51, [0xC00], .only64),
   (0x00400104, 0x51, [0xC01], .only64), (0x00400105, 0x51, [0x001], .only64),
   -- Qualcomm's numbers for cores of ARM: Kryo 260/280, 385, 485
   (0x00300373, 0x51, [0x800], .both), (0x00300353, 0x51, [0x801], .both),
   (0x00300375, 0x51, [0x802], .both), (0x00300354, 0x51, [0x803], .both),
   (0x00300376, 0x51, [0x804], .both), (0x00300355, 0x51, [0x805], .both),
   -- NVIDIA
   (0x00500100, 0x4E, [0x000], .both), (0x00500101, 0x4E, [0x003], .both),
   (0x00500102, 0x4E, [0x004], .both),
   -- Cavium, also with Broadcom's numbers
   (0x00800100, 0x43, [0x0A0, 0x0A1, 0x0A2, 0x0A3], .only64), (0x00800200, 0x43, [0x0AF], .only64),
   (0x00800200, 0x42, [0x516], .only64),
   -- Broadcom, Marvell, APM, HiSilicon
   (0x00A00100, 0x42, [0x00F], .both), (0x00A00101, 0x42, [0x100], .both),
   (0x00900100, 0x56, [0x581, 0x584], .only32), (0x00B00100, 0x50, [0x000], .both),
   (0x00C00100, 0x48, [0xD01], .only64), (0x00300376, 0x48, [0xD40], .both)]

/-- Samsung's cores, by variant and part. -/
def exynosCores : List (Nat × Nat × Nat) :=
  [(0x00600100, 1, 1), (0x00600101, 4, 1), (0x00600102, 1, 2), (0x00600103, 1, 3), (0x00600104, 1, 4)]

/-- Old families: microarchitecture, implementer and first digit of the part. -/
def coreFamilies : List (Nat × Nat × Nat) :=
  [(0x00300100, 0x41, 0x7), (0x00300101, 0x41, 0x9), (0x00300102, 0x41, 0xB),
   (0x00100600, 0x69, 0x2), (0x00100600, 0x69, 0x4), (0x00100600, 0x69, 0x6)]

/-- The core type of a processor with the fields `m`; `vfpv4` says that it has VFPv4. -/
inductive IsCore (a : Arch) (vfpv4 : Bool) (m : Midr) : Nat → Prop
  /-- The implementer's part number is that of the core. -/
  | part (u i : Nat) (ps : List Nat) (b : Build) : (u, i, ps, b) ∈ coreParts → b.has a = true →
      m.implementer = i → m.part ∈ ps → IsCore a vfpv4 m u
  /-- Cortex-A55 up to r0. -/
  | a55r0 : m.implementer = 0x41 → m.part = 0xD05 → m.variant = 0 → IsCore a vfpv4 m 0x00300354
  /-- Cortex-A55 from r1. -/
  | a55 : m.implementer = 0x41 → m.part = 0xD05 → m.variant ≠ 0 → IsCore a vfpv4 m 0x00300355
  /-- Qualcomm's part 0x00F is Cortex-A5 if it has VFPv4, -/
  | a5 : a = .arm → vfpv4 = true → m.implementer = 0x51 → m.part = 0x00F → IsCore a vfpv4 m 0x00300205
  /-- and Scorpion if not. -/
  | scorpion : a = .arm → vfpv4 = false → m.implementer = 0x51 → m.part = 0x00F →
      IsCore a vfpv4 m 0x00400100
  | exynos (u : Nat) : (u, m.variant, m.part) ∈ exynosCores → m.implementer = 0x53 → IsCore a vfpv4 m u
  | family (u : Nat) : (u, m.implementer, m.part / 256) ∈ coreFamilies → a = .arm → IsCore a vfpv4 m u

end Verif.Spec
