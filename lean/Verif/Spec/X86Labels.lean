import Verif.Model.X86Labels
import Verif.Spec.X86Cpuid

/-!
What a processor says about itself through CPUID, for C147.
-/

set_option autoImplicit false

namespace Verif.Spec

open Verif.X86Cpuid (Vendor Uarch Target Cpuid decodeUarch decodeModelInfo maxExtendedIndex)
open Verif.X86Labels (Label)
open Verif.X86Name (normalize formatPackageName)

/-- `l` and `name` are what the processor says: the vendor is the one whose string is in leaf 0, the CPUID
value is that of leaf 1 and decides on the microarchitecture, the name is made of the vendor and the brand
in the leaves 0x80000002 to 0x80000004. -/
structure Tells (t : Target) (c : Cpuid) (l : Label) (name : Bytes) : Prop where
  vendor : ∀ v, v ≠ Vendor.unknown → (l.vendor = v ↔
    (chars (c.leaf 0).ebx ++ chars (c.leaf 0).edx ++ chars (c.leaf 0).ecx, v) ∈ knownVendors t)
  cpuid : 1 ≤ (c.leaf 0).eax → l.cpuid = (c.leaf 1).eax ∧
    l.uarch = decodeUarch t l.vendor (decodeModelInfo (c.leaf 1).eax)
  old : (c.leaf 0).eax = 0 → l.cpuid = 0 ∧ l.uarch = Uarch.unknown
  fits : name.length ≤ 47 ∧ 0 ∉ name
  unnamed : maxExtendedIndex c < 0x80000004 → name = []
  named : 0x80000004 ≤ maxExtendedIndex c → ∃ brand n,
    normalize ([0x80000002, 0x80000003, 0x80000004].flatMap fun k => chars (c.leaf k).eax ++
      chars (c.leaf k).ebx ++ chars (c.leaf k).ecx ++ chars (c.leaf k).edx) = some (brand, n) ∧
    name = (formatPackageName l.vendor brand).1

end Verif.Spec
