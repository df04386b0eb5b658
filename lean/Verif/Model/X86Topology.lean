import Verif.Model.X86Cpuid
import Verif.Model.X86Init

/-!
# Model of src/x86/topology.c

The `apic_id` field of the topology is left out: nothing reads it.
-/

set_option autoImplicit false

namespace Verif.X86Cpuid
open X86Init (Topology)

/-- C `-` on `uint32_t`. -/
def sub32 (a b : Nat) : Nat := (a + U32 - b % U32) % U32

/-- The part for leaf 1 (and the AMD extended leaves) of `cpuinfo_x86_detect_topology`,
src/x86/topology.c:26-92. -/
def legacyTopology (c : Cpuid) (maxExtended : Nat) (leaf1 : Regs) (t : Topology) : Topology :=
  if leaf1.edx &&& 0x10000000 = 0 then t
  else
    let amdCmpLegacy :=
      decide (maxExtended ≥ 0x80000001) && (c.leaf 0x80000001).ecx &&& 0x00000002 != 0
    if amdCmpLegacy then
      if maxExtended ≥ 0x80000008 then
        { t with coreLength := bitLength (1 + ((c.leaf 0x80000008).ecx &&& 0xFF)) }
      else
        let cores := (leaf1.ebx >>> 16) &&& 0xFF
        if cores ≠ 0 then { t with coreLength := bitLength cores } else t
    else
      let logical := (leaf1.ebx >>> 16) &&& 0xFF
      if logical ≠ 0 then
        let threadBits := sub32 (bitLength logical) t.coreLength
        { t with coreOffset := threadBits, threadLength := threadBits }
      else t

/-- The `switch` of the loop over the levels of leaf 0xB, src/x86/topology.c:111-148. -/
def applyLevel (type shift total : Nat) (t : Topology) : Topology :=
  if type = 1 then { t with threadOffset := total, threadLength := shift }
  else if type = 2 then { t with coreOffset := total, coreLength := shift }
  else t

/-- The loop over the levels of leaf 0xB, src/x86/topology.c:105-151; `none` when it has not
ended after `fuel` levels. -/
def levelLoop (leafB : Nat → Regs) : (fuel level total : Nat) → Topology → Option Topology
  | 0, _, _, _ => none
  | fuel + 1, level, total, t =>
    let type := ((leafB level).ecx >>> 8) &&& 0xFF
    let shift := (leafB level).eax &&& 0x1F
    let t := applyLevel type shift total t
    if type = 0 then some t
    else levelLoop leafB fuel ((level + 1) % U32) ((total + shift) % U32) t

/-- `cpuinfo_x86_detect_topology`, src/x86/topology.c:16-163; `none` when it has not ended after
`fuel` levels of leaf 0xB. -/
def detectTopology (c : Cpuid) (fuel maxBase maxExtended : Nat) (leaf1 : Regs) (t : Topology) :
    Option Topology :=
  let t := legacyTopology c maxExtended leaf1 t
  if leaf1.ecx &&& 0x00200000 ≠ 0 ∧ maxBase ≥ 0xB then
    levelLoop (c.sub 0xB) fuel 0 0 ⟨0, 0, 0, 0⟩
  else some t

end Verif.X86Cpuid
