import Verif.Base

/-!
# Model of the CPUID leaves read by x86 detection: vendor, signature, microarchitecture

Registers are naturals; values of real registers are below `2^32` (hypothesis `Regs.Ok` where it
matters).  The answers of the CPUID instruction are a parameter.
-/

set_option autoImplicit false

namespace Verif.X86Cpuid

/-- `struct cpuid_regs`, src/x86/api.h:9-14. -/
structure Regs where
  eax : Nat
  ebx : Nat
  ecx : Nat
  edx : Nat
deriving DecidableEq, Repr

/-- The answers of the CPUID instruction, `cpuid` and `cpuidex` of src/x86/cpuid.h:16-64.
Leaf 2 may have to be executed several times and give different answers, so its answers are
numbered by execution. -/
structure Cpuid where
  leaf : Nat → Regs
  sub : Nat → Nat → Regs
  leaf2 : Nat → Regs

/-- How the library was compiled: for 32-bit x86 (`CPUINFO_ARCH_X86`), for Android. -/
structure Target where
  x86_32 : Bool
  android : Bool
deriving DecidableEq, Repr

/-- `bit_length`, src/cpuinfo/utils.h:8-21; `__builtin_clz(x)` is `31 - log2 x` for `x ≠ 0`. -/
def bitLength (n : Nat) : Nat :=
  let nMinus1 := (n + U32MAX) % U32
  if nMinus1 = 0 then 0 else 32 - (31 - Nat.log2 nMinus1)

/-- The vendors of `enum cpuinfo_vendor` that x86 code uses, include/cpuinfo.h:155-308. -/
inductive Vendor
  | unknown | intel | amd | via | hygon | rdc | dmp | transmeta | cyrix | rise | nsc | sis | nexgen
  | umc
deriving DecidableEq, Repr

/-- The cases of `cpuinfo_x86_decode_vendor` on ebx that only builds for 32-bit x86 have,
src/x86/vendor.c:117-184. -/
def decodeVendor32 (ebx ecx edx : Nat) : Vendor :=
  if ebx = 0x69444D41 then (if edx = 0x74656273 ∧ ecx = 0x21726574 then .amd else .unknown)
  else if ebx = 0x20444D41 then (if edx = 0x45425349 ∧ ecx = 0x52455454 then .amd else .unknown)
  else if ebx = 0x20414956 then (if edx = 0x20414956 ∧ ecx = 0x20414956 then .via else .unknown)
  else if ebx = 0x6E617254 then
    if edx = 0x74656D73 ∧ ecx = 0x55504361 then .transmeta else .unknown
  else if ebx = 0x69727943 then (if edx = 0x736E4978 ∧ ecx = 0x64616574 then .cyrix else .unknown)
  else if ebx = 0x65736952 then (if edx = 0x65736952 ∧ ecx = 0x65736952 then .rise else .unknown)
  else if ebx = 0x646F6547 then (if edx = 0x79622065 ∧ ecx = 0x43534E20 then .nsc else .unknown)
  else if ebx = 0x20536953 then (if edx = 0x20536953 ∧ ecx = 0x20536953 then .sis else .unknown)
  else if ebx = 0x4778654E then (if edx = 0x72446E65 ∧ ecx = 0x6E657669 then .nexgen else .unknown)
  else if ebx = 0x20434D55 then (if edx = 0x20434D55 ∧ ecx = 0x20434D55 then .umc else .unknown)
  else if ebx = 0x74726F56 then (if edx = 0x36387865 ∧ ecx = 0x436F5320 then .dmp else .unknown)
  else .unknown

/-- `cpuinfo_x86_decode_vendor`, src/x86/vendor.c:73-187 (constants: lines 6-71). -/
def decodeVendor (t : Target) (ebx ecx edx : Nat) : Vendor :=
  if ebx = 0x756E6547 then
    if edx = 0x49656E69 then (if ecx = 0x6C65746E then .intel else .unknown)
    else if t.x86_32 ∧ edx = 0x54656E69 then (if ecx = 0x3638784D then .transmeta else .unknown)
    else if t.x86_32 ∧ edx = 0x20656E69 then (if ecx = 0x43445220 then .rdc else .unknown)
    else .unknown
  else if ebx = 0x68747541 then
    if edx = 0x69746E65 ∧ ecx = 0x444D4163 then .amd else .unknown
  else if ebx = 0x746E6543 then
    if edx = 0x48727561 ∧ ecx = 0x736C7561 then .via else .unknown
  else if ebx = 0x6F677948 then
    if edx = 0x6E65476E ∧ ecx = 0x656E6975 then .hygon else .unknown
  else if t.x86_32 then decodeVendor32 ebx ecx edx
  else .unknown

/-- `struct cpuinfo_x86_model_info`, src/x86/api.h:36-46. -/
structure ModelInfo where
  model : Nat
  family : Nat
  baseModel : Nat
  baseFamily : Nat
  stepping : Nat
  extendedModel : Nat
  extendedFamily : Nat
  processorType : Nat
deriving DecidableEq, Repr

/-- `cpuinfo_x86_decode_model_info`, src/x86/info.c:6-18. -/
def decodeModelInfo (eax : Nat) : ModelInfo :=
  let stepping := eax &&& 0xF
  let baseModel := (eax >>> 4) &&& 0xF
  let baseFamily := (eax >>> 8) &&& 0xF
  let processorType := (eax >>> 12) &&& 0x3
  let extendedModel := (eax >>> 16) &&& 0xF
  let extendedFamily := (eax >>> 20) &&& 0xFF
  { stepping, baseModel, baseFamily, processorType, extendedModel, extendedFamily
    family := baseFamily + extendedFamily
    model := baseModel + extendedModel <<< 4 }

/-- The x86 part of `enum cpuinfo_uarch`, include/cpuinfo.h. -/
inductive Uarch
  | unknown
  | p5 | quark | p6 | dothan | yonah | conroe | penryn | nehalem | sandyBridge | ivyBridge | haswell
  | broadwell | skyLake | palmCove | sunnyCove | bonnell | saltwell | silvermont | airmont
  | goldmont | goldmontPlus | knightsLanding | knightsMill | willamette | prescott
  | k5 | k6 | geode | k7 | k8 | k10 | bobcat | bulldozer | piledriver | steamroller | excavator
  | puma | jaguar | zen | zen2 | zen3 | zen4 | zen5 | dhyana
deriving DecidableEq, Repr

/-- The Intel part of `cpuinfo_x86_decode_uarch`, src/x86/uarch.c:10-254. -/
def intelUarch (t : Target) (family model : Nat) : Uarch :=
  if family = 0x05 then
    if t.x86_32 then
      if model ∈ [0x01, 0x02, 0x03, 0x04] then .p5
      else if model = 0x09 then .quark
      else .unknown
    else .unknown
  else if family = 0x06 then
    if t.x86_32 ∧ model ∈ [0x01, 0x03, 0x05, 0x06, 0x07, 0x08, 0x0A, 0x0B] then .p6
    else if t.x86_32 ∧ model ∈ [0x09, 0x0D, 0x15] then .dothan
    else if t.x86_32 ∧ model = 0x0E then .yonah
    else if model ∈ [0x0F, 0x16] then .conroe
    else if model ∈ [0x17, 0x1D] then .penryn
    else if model ∈ [0x1A, 0x1E, 0x1F, 0x2E, 0x25, 0x2C, 0x2F] then .nehalem
    else if model ∈ [0x2A, 0x2D] then .sandyBridge
    else if model ∈ [0x3A, 0x3E] then .ivyBridge
    else if model ∈ [0x3C, 0x3F, 0x45, 0x46] then .haswell
    else if model ∈ [0x3D, 0x47, 0x4F, 0x56] then .broadwell
    else if model ∈ [0x4E, 0x55, 0x5E, 0x8E, 0x9E, 0xA5, 0xA6] then .skyLake
    else if model = 0x66 then .palmCove
    else if model ∈ [0x6A, 0x6C, 0x7D, 0x7E] then .sunnyCove
    else if model ∈ [0x1C, 0x26] then .bonnell
    else if model ∈ [0x27, 0x35, 0x36] then .saltwell
    else if model ∈ [0x37, 0x4A, 0x4D, 0x5A, 0x5D] then .silvermont
    else if model ∈ [0x4C, 0x75] then .airmont
    else if model ∈ [0x5C, 0x5F] then .goldmont
    else if model = 0x7A then .goldmontPlus
    else if model = 0x57 then .knightsLanding
    else if model = 0x85 then .knightsMill
    else .unknown
  else if family = 0x0F then
    if model ∈ [0x00, 0x01, 0x02] then .willamette
    else if model ∈ [0x03, 0x04, 0x06] then .prescott
    else .unknown
  else .unknown

/-- The AMD part of `cpuinfo_x86_decode_uarch`, src/x86/uarch.c:255-393. -/
def amdUarch (t : Target) (family model extendedModel : Nat) : Uarch :=
  if t.x86_32 ∧ family = 0x5 then
    if model ∈ [0x00, 0x01, 0x02] then .k5
    else if model ∈ [0x06, 0x07, 0x08, 0x0D] then .k6
    else if model = 0x0A then .geode
    else .unknown
  else if t.x86_32 ∧ family = 0x6 then .k7
  else if family ∈ [0xF, 0x11] then .k8
  else if family ∈ [0x10, 0x12] then .k10
  else if family = 0x14 then .bobcat
  else if family = 0x15 then
    if model ∈ [0x00, 0x01] then .bulldozer
    else if model ∈ [0x02, 0x10, 0x13] then .piledriver
    else if model ∈ [0x38, 0x30] then .steamroller
    else if model ∈ [0x60, 0x65, 0x70] then .excavator
    else if extendedModel = 0x0 then .bulldozer
    else if extendedModel ∈ [0x1, 0x2] then .piledriver
    else if extendedModel ∈ [0x3, 0x4] then .steamroller
    else .unknown
  else if family = 0x16 then (if extendedModel ≥ 0x03 then .puma else .jaguar)
  else if family = 0x17 then
    if extendedModel ∈ [0x0, 0x1] then .zen
    else if extendedModel ∈ [0x3, 0x4, 0x6, 0x7, 0x9] then .zen2
    else .unknown
  else if family = 0x19 then
    if extendedModel ∈ [0x0, 0x2, 0x3, 0x4, 0x5] then .zen3
    else if extendedModel ∈ [0x1, 0x6, 0x7, 0xA] then .zen4
    else .unknown
  else if family = 0x1A then .zen5
  else .unknown

/-- `cpuinfo_x86_decode_uarch`, src/x86/uarch.c:6-404. -/
def decodeUarch (t : Target) (vendor : Vendor) (m : ModelInfo) : Uarch :=
  match vendor with
  | .intel => intelUarch t m.family m.model
  | .amd => amdUarch t m.family m.model m.extendedModel
  | .hygon => if m.family = 0x00 then .dhyana else .unknown
  | _ => .unknown

end Verif.X86Cpuid
