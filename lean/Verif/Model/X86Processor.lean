import Verif.Model.X86Cache
import Verif.Model.X86Topology

/-!
# Model of `cpuinfo_x86_init_processor`, src/x86/init.c

The instruction-set flags (src/x86/isa.c) and the brand string (src/x86/name.c) are modelled in
files of their own.
-/

set_option autoImplicit false

namespace Verif.X86Cpuid
open X86Init (CacheDesc Topology X86Processor)

/-- What `cpuinfo_x86_init_processor` stores besides ISA flags and the brand string. -/
structure Detected where
  vendor : Vendor
  uarch : Uarch
  cpuid : Nat
  clflushSize : Nat
  cpu : X86Processor
deriving DecidableEq, Repr

/-- A zeroed `struct cpuinfo_x86_cache`. -/
def zeroCacheDesc : CacheDesc := ⟨0, 0, 0, 0, 0, 0, 0⟩

/-- Zeroed caches. -/
def zeroCaches : Caches :=
  ⟨zeroCacheDesc, zeroCacheDesc, zeroCacheDesc, zeroCacheDesc, zeroCacheDesc⟩

/-- The largest extended leaf, src/x86/init.c:20-21. -/
def maxExtendedIndex (c : Cpuid) : Nat :=
  if (c.leaf 0x80000000).eax ≥ 0x80000000 then (c.leaf 0x80000000).eax else 0

/-- Leaf 0x80000001, or zeros if there is none, src/x86/init.c:23-25. -/
def extendedInfo (c : Cpuid) : Regs :=
  if maxExtendedIndex c ≥ 0x80000001 then c.leaf 0x80000001 else ⟨0, 0, 0, 0⟩

/-- `cpuinfo_x86_init_processor` on a zeroed processor, src/x86/init.c:14-78; `none` when a loop
over sub-leaves has not ended after `fuel` rounds. -/
def initProcessor (t : Target) (c : Cpuid) (fuel : Nat) : Option Detected :=
  let leaf0 := c.leaf 0
  let maxBase := leaf0.eax
  let vendor := decodeVendor t leaf0.ebx leaf0.ecx leaf0.edx
  if maxBase ≥ 1 then
    let leaf1 := c.leaf 1
    let m := decodeModelInfo leaf1.eax
    let amdTopologyExtensions := (extendedInfo c).ecx &&& 0x00400000 != 0
    match detectCache t c fuel maxBase (maxExtendedIndex c) amdTopologyExtensions vendor m
        zeroCaches 0 with
    | none => none
    | some (cache, coreLength) =>
      match detectTopology c fuel maxBase (maxExtendedIndex c) leaf1 ⟨0, 0, 0, coreLength⟩ with
      | none => none
      | some topology =>
        some
          { vendor
            uarch := decodeUarch t vendor m
            cpuid := leaf1.eax
            clflushSize := ((leaf1.ebx >>> 8) &&& 0xFF) * 8
            cpu := ⟨topology, cache.l1i, cache.l1d, cache.l2, cache.l3, cache.l4⟩ }
  else
    some
      { vendor, uarch := .unknown, cpuid := 0, clflushSize := 0
        cpu := ⟨⟨0, 0, 0, 0⟩, zeroCacheDesc, zeroCacheDesc, zeroCacheDesc, zeroCacheDesc,
          zeroCacheDesc⟩ }

end Verif.X86Cpuid
