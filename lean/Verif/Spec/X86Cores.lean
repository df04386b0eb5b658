import Verif.Spec.X86Cpuid

/-!
# Which x86 processors have which microarchitecture

The tables of this file are organised by microarchitecture: for each, the vendor, the display family
and the ranges of display models of the processors that have it.  They are written from the
product names in the comments of src/x86/uarch.c and include/cpuinfo.h and from the vendors'
numbering (Intel's list of family 6 models; AMD's BIOS and kernel developer's guides and processor
programming references, which give out models by ranges of sixteen), not from the control flow of
the decoder.
-/
set_option autoImplicit false

namespace Verif.X86Cores
open X86Cpuid

/-- The processors of one family that have a microarchitecture. -/
structure Row where
  uarch : Uarch
  vendor : Vendor
  /-- Display family. -/
  family : Nat
  /-- Ranges of display models, both ends included. -/
  models : List (Nat × Nat)
  /-- The processors cannot run 64-bit code. -/
  only32 : Bool := false

/-- Intel's processors. -/
def intelRows : List Row := [
  -- Pentium to Pentium MMX; Quark
  ⟨.p5, .intel, 5, [(1, 4)], true⟩, ⟨.quark, .intel, 5, [(9, 9)], true⟩,
  -- Pentium Pro, II, III
  ⟨.p6, .intel, 6, [(1, 1), (3, 3), (5, 8), (0x0A, 0x0B)], true⟩,
  -- Pentium M (Banias, Dothan) and Tolapai
  ⟨.dothan, .intel, 6, [(9, 9), (0x0D, 0x0D), (0x15, 0x15)], true⟩,
  -- Core Solo/Duo
  ⟨.yonah, .intel, 6, [(0x0E, 0x0E)], true⟩,
  -- Core 2
  ⟨.conroe, .intel, 6, [(0x0F, 0x0F), (0x16, 0x16)], false⟩,
  ⟨.penryn, .intel, 6, [(0x17, 0x17), (0x1D, 0x1D)], false⟩,
  -- Nehalem and Westmere
  ⟨.nehalem, .intel, 6,
    [(0x1A, 0x1A), (0x1E, 0x1F), (0x25, 0x25), (0x2C, 0x2C), (0x2E, 0x2F)], false⟩,
  ⟨.sandyBridge, .intel, 6, [(0x2A, 0x2A), (0x2D, 0x2D)], false⟩,
  ⟨.ivyBridge, .intel, 6, [(0x3A, 0x3A), (0x3E, 0x3E)], false⟩,
  ⟨.haswell, .intel, 6, [(0x3C, 0x3C), (0x3F, 0x3F), (0x45, 0x46)], false⟩,
  ⟨.broadwell, .intel, 6, [(0x3D, 0x3D), (0x47, 0x47), (0x4F, 0x4F), (0x56, 0x56)], false⟩,
  -- Sky, Kaby, Coffee, Cascade, Cooper, Comet Lake
  ⟨.skyLake, .intel, 6,
    [(0x4E, 0x4E), (0x55, 0x55), (0x5E, 0x5E), (0x8E, 0x8E), (0x9E, 0x9E), (0xA5, 0xA6)], false⟩,
  -- Cannon Lake
  ⟨.palmCove, .intel, 6, [(0x66, 0x66)], false⟩,
  -- Ice Lake, 0x9D: the host cores of the NNP-I accelerators
  ⟨.sunnyCove, .intel, 6, [(0x6A, 0x6A), (0x6C, 0x6C), (0x7D, 0x7E), (0x9D, 0x9D)], false⟩,
  ⟨.bonnell, .intel, 6, [(0x1C, 0x1C), (0x26, 0x26)], false⟩,
  ⟨.saltwell, .intel, 6, [(0x27, 0x27), (0x35, 0x36)], false⟩,
  ⟨.silvermont, .intel, 6, [(0x37, 0x37), (0x4A, 0x4A), (0x4D, 0x4D), (0x5A, 0x5A), (0x5D, 0x5D)],
    false⟩,
  ⟨.airmont, .intel, 6, [(0x4C, 0x4C), (0x75, 0x75)], false⟩,
  ⟨.goldmont, .intel, 6, [(0x5C, 0x5C), (0x5F, 0x5F)], false⟩,
  ⟨.goldmontPlus, .intel, 6, [(0x7A, 0x7A)], false⟩,
  ⟨.knightsLanding, .intel, 6, [(0x57, 0x57)], false⟩,
  ⟨.knightsMill, .intel, 6, [(0x85, 0x85)], false⟩,
  -- Pentium 4 up to Northwood and Gallatin; from Prescott to Cedar Mill
  ⟨.willamette, .intel, 15, [(0, 2)], false⟩,
  ⟨.prescott, .intel, 15, [(3, 4), (6, 6)], false⟩]

/-- AMD's processors, and Hygon's. -/
def amdRows : List Row := [
  ⟨.k5, .amd, 5, [(0, 2)], true⟩,
  ⟨.k6, .amd, 5, [(6, 8), (0x0D, 0x0D)], true⟩,
  ⟨.geode, .amd, 5, [(0x0A, 0x0A)], true⟩,
  ⟨.k7, .amd, 6, [(0, 0xFF)], true⟩,
  ⟨.k8, .amd, 0x0F, [(0, 0xFF)], false⟩, ⟨.k8, .amd, 0x11, [(0, 0xFF)], false⟩,
  ⟨.k10, .amd, 0x10, [(0, 0xFF)], false⟩, ⟨.k10, .amd, 0x12, [(0, 0xFF)], false⟩,
  ⟨.bobcat, .amd, 0x14, [(0, 0xFF)], false⟩,
  -- Zambezi, Interlagos
  ⟨.bulldozer, .amd, 0x15, [(0x00, 0x01), (0x03, 0x0F)], false⟩,
  -- Vishera; Trinity and Richland
  ⟨.piledriver, .amd, 0x15, [(0x02, 0x02), (0x10, 0x2F)], false⟩,
  -- Kaveri, Godavari
  ⟨.steamroller, .amd, 0x15, [(0x30, 0x4F)], false⟩,
  -- Carrizo and Bristol Ridge: models 60h-6Fh; Stoney Ridge: models 70h-7Fh
  ⟨.excavator, .amd, 0x15, [(0x60, 0x7F)], false⟩,
  ⟨.jaguar, .amd, 0x16, [(0x00, 0x2F)], false⟩,
  ⟨.puma, .amd, 0x16, [(0x30, 0xFF)], false⟩,
  -- Summit and Pinnacle Ridge 00h-0Fh; Raven Ridge 10h-1Fh; Dali 20h-2Fh; Fenghuang 50h-5Fh
  ⟨.zen, .amd, 0x17, [(0x00, 0x2F), (0x50, 0x5F)], false⟩,
  -- Rome 30h; Xbox 40h; Renoir 60h; Matisse 70h; Van Gogh 90h; Mendocino A0h
  ⟨.zen2, .amd, 0x17, [(0x30, 0x4F), (0x60, 0x7F), (0x90, 0xAF)], false⟩,
  -- Milan 00h; Vermeer 20h; Trento 30h; Rembrandt 40h; Cezanne 50h
  ⟨.zen3, .amd, 0x19, [(0x00, 0x0F), (0x20, 0x5F)], false⟩,
  -- Genoa 10h; Raphael 60h; Phoenix 70h; Instinct MI300A 90h; Bergamo A0h
  ⟨.zen4, .amd, 0x19, [(0x10, 0x1F), (0x60, 0x7F), (0x90, 0xAF)], false⟩,
  ⟨.zen5, .amd, 0x1A, [(0, 0xFF)], false⟩,
  ⟨.dhyana, .hygon, 0x18, [(0, 0xFF)], false⟩]

def rows : List Row := intelRows ++ amdRows

/-- The row is about processors of this vendor, family and model; processors that cannot run 64-bit
code do not count in a 64-bit build. -/
def Row.Covers (r : Row) (x86_32 : Bool) (v : Vendor) (family model : Nat) : Prop :=
  r.vendor = v ∧ r.family = family ∧ (r.only32 = true → x86_32 = true) ∧
    ∃ p ∈ r.models, p.1 ≤ model ∧ model ≤ p.2

instance (r : Row) (b : Bool) (v : Vendor) (f m : Nat) : Decidable (r.Covers b v f m) := by
  unfold Row.Covers; exact inferInstance

/-- Processors of this vendor, family and model have this microarchitecture. -/
def Has (x86_32 : Bool) (v : Vendor) (family model : Nat) (u : Uarch) : Prop :=
  ∃ r ∈ rows, r.uarch = u ∧ r.Covers x86_32 v family model

/-- Vendor, family and range of models of processors that the decoder does not know although their
microarchitecture has an enumerator: NNP-I; models of Carrizo, Bristol Ridge and Stoney Ridge other
than 60h, 65h, 70h; Dali; Fenghuang; Mendocino; MI300A; Dhyana. -/
def missed : List (Vendor × Nat × Nat × Nat) := [
  (.intel, 6, 0x9D, 0x9D),
  (.amd, 0x15, 0x61, 0x64), (.amd, 0x15, 0x66, 0x6F), (.amd, 0x15, 0x71, 0x7F),
  (.amd, 0x17, 0x20, 0x2F), (.amd, 0x17, 0x50, 0x5F), (.amd, 0x17, 0xA0, 0xAF),
  (.amd, 0x19, 0x90, 0x9F),
  (.hygon, 0x18, 0x00, 0xFF)]

def Missed (v : Vendor) (family model : Nat) : Prop :=
  ∃ g ∈ missed, g.1 = v ∧ g.2.1 = family ∧ g.2.2.1 ≤ model ∧ model ≤ g.2.2.2

instance (v : Vendor) (f m : Nat) : Decidable (Missed v f m) := by
  unfold Missed; exact inferInstance

/-- The fields of the signature that are reserved for its family are zero, as they are in all
processors. -/
def PlainSignature (eax : Nat) : Prop :=
  (eax / 256 % 16 = 15 ∨ eax / 1048576 % 256 = 0) ∧
  (eax / 256 % 16 = 6 ∨ eax / 256 % 16 = 15 ∨ eax / 65536 % 16 = 0)

instance (eax : Nat) : Decidable (PlainSignature eax) := by unfold PlainSignature; exact inferInstance

end Verif.X86Cores
