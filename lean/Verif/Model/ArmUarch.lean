import Verif.Model.ArmMidr

/-!
# Model of src/arm/uarch.c

`cpuinfo_arm_decode_vendor_uarch` as lookups in the tables its `switch` statements spell out.  The
caller hands over zeroed variables (`cpuinfo_arm_linux_processor` entries come from `calloc`,
src/arm/linux/init.c:150), so what is not assigned is `unknown`, which is 0.  Enumerators are the
numbers of include/cpuinfo.h; log messages are left out.
-/

set_option autoImplicit false

namespace Verif.ArmUarch
open ArmMidr

/-! `enum cpuinfo_vendor`, include/cpuinfo.h:156-308. -/
namespace Vendor
/-- See the heading. -/
def unknown : Nat := 0
@[inherit_doc unknown] def intel : Nat := 1
@[inherit_doc unknown] def arm : Nat := 3
@[inherit_doc unknown] def qualcomm : Nat := 4
@[inherit_doc unknown] def samsung : Nat := 6
@[inherit_doc unknown] def nvidia : Nat := 7
@[inherit_doc unknown] def cavium : Nat := 12
@[inherit_doc unknown] def broadcom : Nat := 13
@[inherit_doc unknown] def apm : Nat := 14
@[inherit_doc unknown] def huawei : Nat := 15
@[inherit_doc unknown] def marvell : Nat := 31
end Vendor

/-! `enum cpuinfo_uarch`, include/cpuinfo.h:317-605; those of ARM processors. -/
namespace Uarch
/-- See the heading. -/
def unknown : Nat := 0
@[inherit_doc unknown] def xscale : Nat := 0x00100600
@[inherit_doc unknown] def arm7 : Nat := 0x00300100
@[inherit_doc unknown] def arm9 : Nat := 0x00300101
@[inherit_doc unknown] def arm11 : Nat := 0x00300102
@[inherit_doc unknown] def cortexA5 : Nat := 0x00300205
@[inherit_doc unknown] def cortexA7 : Nat := 0x00300207
@[inherit_doc unknown] def cortexA8 : Nat := 0x00300208
@[inherit_doc unknown] def cortexA9 : Nat := 0x00300209
@[inherit_doc unknown] def cortexA12 : Nat := 0x00300212
@[inherit_doc unknown] def cortexA15 : Nat := 0x00300215
@[inherit_doc unknown] def cortexA17 : Nat := 0x00300217
@[inherit_doc unknown] def cortexA32 : Nat := 0x00300332
@[inherit_doc unknown] def cortexA35 : Nat := 0x00300335
@[inherit_doc unknown] def cortexA53 : Nat := 0x00300353
@[inherit_doc unknown] def cortexA55r0 : Nat := 0x00300354
@[inherit_doc unknown] def cortexA55 : Nat := 0x00300355
@[inherit_doc unknown] def cortexA57 : Nat := 0x00300357
@[inherit_doc unknown] def cortexA65 : Nat := 0x00300365
@[inherit_doc unknown] def cortexA72 : Nat := 0x00300372
@[inherit_doc unknown] def cortexA73 : Nat := 0x00300373
@[inherit_doc unknown] def cortexA75 : Nat := 0x00300375
@[inherit_doc unknown] def cortexA76 : Nat := 0x00300376
@[inherit_doc unknown] def cortexA77 : Nat := 0x00300377
@[inherit_doc unknown] def cortexA78 : Nat := 0x00300378
@[inherit_doc unknown] def neoverseN1 : Nat := 0x00300400
@[inherit_doc unknown] def neoverseE1 : Nat := 0x00300401
@[inherit_doc unknown] def neoverseV1 : Nat := 0x00300402
@[inherit_doc unknown] def neoverseN2 : Nat := 0x00300403
@[inherit_doc unknown] def neoverseV2 : Nat := 0x00300404
@[inherit_doc unknown] def cortexX1 : Nat := 0x00300501
@[inherit_doc unknown] def cortexX2 : Nat := 0x00300502
@[inherit_doc unknown] def cortexX3 : Nat := 0x00300503
@[inherit_doc unknown] def cortexA510 : Nat := 0x00300551
@[inherit_doc unknown] def cortexA710 : Nat := 0x00300571
@[inherit_doc unknown] def cortexA715 : Nat := 0x00300572
@[inherit_doc unknown] def scorpion : Nat := 0x00400100
@[inherit_doc unknown] def krait : Nat := 0x00400101
@[inherit_doc unknown] def kryo : Nat := 0x00400102
@[inherit_doc unknown] def falkor : Nat := 0x00400103
@[inherit_doc unknown] def saphira : Nat := 0x00400104
@[inherit_doc unknown] def oryon : Nat := 0x00400105
@[inherit_doc unknown] def denver : Nat := 0x00500100
@[inherit_doc unknown] def denver2 : Nat := 0x00500101
@[inherit_doc unknown] def carmel : Nat := 0x00500102
@[inherit_doc unknown] def exynosM1 : Nat := 0x00600100
@[inherit_doc unknown] def exynosM2 : Nat := 0x00600101
@[inherit_doc unknown] def exynosM3 : Nat := 0x00600102
@[inherit_doc unknown] def exynosM4 : Nat := 0x00600103
@[inherit_doc unknown] def exynosM5 : Nat := 0x00600104
@[inherit_doc unknown] def thunderx : Nat := 0x00800100
@[inherit_doc unknown] def thunderx2 : Nat := 0x00800200
@[inherit_doc unknown] def pj4 : Nat := 0x00900100
@[inherit_doc unknown] def brahmaB15 : Nat := 0x00A00100
@[inherit_doc unknown] def brahmaB53 : Nat := 0x00A00101
@[inherit_doc unknown] def xgene : Nat := 0x00B00100
@[inherit_doc unknown] def taishanV110 : Nat := 0x00C00100
end Uarch

/-- A `switch` whose cases assign vendor and microarchitecture: the entry of the value, or the
`default` branch, which keeps `vendor` and leaves the microarchitecture alone. -/
def select (table : List (Nat × Nat × Nat)) (vendor value : Nat) : Nat × Nat :=
  (table.lookup value).getD (vendor, Uarch.unknown)

/-- `case 'A'`, the parts of 32-bit builds, src/arm/uarch.c:18-49. -/
def armParts32 : List (Nat × Nat × Nat) :=
  [(0xC05, Vendor.arm, Uarch.cortexA5), (0xC07, Vendor.arm, Uarch.cortexA7),
   (0xC08, Vendor.arm, Uarch.cortexA8), (0xC09, Vendor.arm, Uarch.cortexA9),
   (0xC0C, Vendor.arm, Uarch.cortexA12), (0xC0E, Vendor.arm, Uarch.cortexA17),
   (0xC0D, Vendor.arm, Uarch.cortexA12), (0xC0F, Vendor.arm, Uarch.cortexA15)]

/-- `case 'A'`, the parts of all builds, src/arm/uarch.c:50-127 (without the part 0xD05, whose
microarchitecture depends on the variant). -/
def armParts : List (Nat × Nat × Nat) :=
  [(0xD01, Vendor.arm, Uarch.cortexA32), (0xD03, Vendor.arm, Uarch.cortexA53),
   (0xD04, Vendor.arm, Uarch.cortexA35), (0xD06, Vendor.arm, Uarch.cortexA65),
   (0xD07, Vendor.arm, Uarch.cortexA57), (0xD08, Vendor.arm, Uarch.cortexA72),
   (0xD09, Vendor.arm, Uarch.cortexA73), (0xD0A, Vendor.arm, Uarch.cortexA75),
   (0xD0B, Vendor.arm, Uarch.cortexA76), (0xD0C, Vendor.arm, Uarch.neoverseN1),
   (0xD0D, Vendor.arm, Uarch.cortexA77), (0xD0E, Vendor.arm, Uarch.cortexA76),
   (0xD40, Vendor.arm, Uarch.neoverseV1), (0xD41, Vendor.arm, Uarch.cortexA78),
   (0xD44, Vendor.arm, Uarch.cortexX1), (0xD46, Vendor.arm, Uarch.cortexA510),
   (0xD47, Vendor.arm, Uarch.cortexA710), (0xD48, Vendor.arm, Uarch.cortexX2),
   (0xD49, Vendor.arm, Uarch.neoverseN2), (0xD4D, Vendor.arm, Uarch.cortexA715),
   (0xD4E, Vendor.arm, Uarch.cortexX3), (0xD4F, Vendor.arm, Uarch.neoverseV2)]

/-- `case 'A'`, the part of 64-bit builds, src/arm/uarch.c:114-118. -/
def armParts64 : List (Nat × Nat × Nat) := [(0xD4A, Vendor.arm, Uarch.neoverseE1)]

/-- The families of old ARM cores in 32-bit builds, by `part >> 8`, src/arm/uarch.c:128-146. -/
def armFamilies32 : List (Nat × Nat × Nat) :=
  [(7, Vendor.arm, Uarch.arm7), (9, Vendor.arm, Uarch.arm9), (11, Vendor.arm, Uarch.arm11)]

/-- `case 'A'`, src/arm/uarch.c:15-147.  The variant of part 0xD05 is src/arm/uarch.c:59-65. -/
def decodeArm (a : Arch) (midr : Nat) : Nat × Nat :=
  if getPart midr = 0xD05 then
    (Vendor.arm, if midr &&& variantMask = 0 then Uarch.cortexA55r0 else Uarch.cortexA55)
  else
    match a with
    | .arm =>
      match (armParts32 ++ armParts).lookup (getPart midr) with
      | some r => r
      | none => select armFamilies32 Vendor.arm (getPart midr >>> 8)
    | .arm64 => select (armParts ++ armParts64) Vendor.arm (getPart midr)

/-- `case 'B'`, src/arm/uarch.c:148-171. -/
def broadcomParts (a : Arch) : List (Nat × Nat × Nat) :=
  [(0x00F, Vendor.broadcom, Uarch.brahmaB15), (0x100, Vendor.broadcom, Uarch.brahmaB53)] ++
  match a with
  | .arm => []
  | .arm64 => [(0x516, Vendor.cavium, Uarch.thunderx2)]

/-- `case 'C'`, 64-bit builds, src/arm/uarch.c:172-190. -/
def caviumParts : List (Nat × Nat × Nat) :=
  [(0x0A0, Vendor.cavium, Uarch.thunderx), (0x0A1, Vendor.cavium, Uarch.thunderx),
   (0x0A2, Vendor.cavium, Uarch.thunderx), (0x0A3, Vendor.cavium, Uarch.thunderx),
   (0x0AF, Vendor.cavium, Uarch.thunderx2)]

/-- `case 'H'`, src/arm/uarch.c:191-208. -/
def huaweiParts (a : Arch) : List (Nat × Nat × Nat) :=
  (match a with
  | .arm => []
  | .arm64 => [(0xD01, Vendor.huawei, Uarch.taishanV110)]) ++
  [(0xD40, Vendor.arm, Uarch.cortexA76)]

/-- `case 'i'`, 32-bit builds, by `part >> 8`, src/arm/uarch.c:209-223. -/
def intelFamilies : List (Nat × Nat × Nat) :=
  [(2, Vendor.intel, Uarch.xscale), (4, Vendor.intel, Uarch.xscale), (6, Vendor.intel, Uarch.xscale)]

/-- `case 'N'`, src/arm/uarch.c:224-240. -/
def nvidiaParts : List (Nat × Nat × Nat) :=
  [(0x000, Vendor.nvidia, Uarch.denver), (0x003, Vendor.nvidia, Uarch.denver2),
   (0x004, Vendor.nvidia, Uarch.carmel)]

/-- `case 'P'`, src/arm/uarch.c:241-252. -/
def apmParts : List (Nat × Nat × Nat) := [(0x000, Vendor.apm, Uarch.xgene)]

/-- `case 'Q'`, src/arm/uarch.c:253-350. -/
def qualcommParts (a : Arch) (vfpv4 : Bool) : List (Nat × Nat × Nat) :=
  (match a with
  | .arm =>
    [(0x00F, if vfpv4 then (Vendor.arm, Uarch.cortexA5) else (Vendor.qualcomm, Uarch.scorpion)),
     (0x02D, Vendor.qualcomm, Uarch.scorpion), (0x04D, Vendor.qualcomm, Uarch.krait),
     (0x06F, Vendor.qualcomm, Uarch.krait)]
  | .arm64 => []) ++
  [(0x201, Vendor.qualcomm, Uarch.kryo), (0x205, Vendor.qualcomm, Uarch.kryo),
   (0x211, Vendor.qualcomm, Uarch.kryo), (0x800, Vendor.arm, Uarch.cortexA73),
   (0x801, Vendor.arm, Uarch.cortexA53), (0x802, Vendor.arm, Uarch.cortexA75),
   (0x803, Vendor.arm, Uarch.cortexA55r0), (0x804, Vendor.arm, Uarch.cortexA76),
   (0x805, Vendor.arm, Uarch.cortexA55)] ++
  match a with
  | .arm => []
  | .arm64 =>
    [(0x001, Vendor.qualcomm, Uarch.oryon), (0xC00, Vendor.qualcomm, Uarch.falkor),
     (0xC01, Vendor.qualcomm, Uarch.saphira)]

/-- `case 'S'`, by variant and part in place, src/arm/uarch.c:351-406. -/
def samsungCores : List (Nat × Nat × Nat) :=
  [(0x00100010, Vendor.samsung, Uarch.exynosM1), (0x00400010, Vendor.samsung, Uarch.exynosM2),
   (0x00100020, Vendor.samsung, Uarch.exynosM3), (0x00100030, Vendor.samsung, Uarch.exynosM4),
   (0x00100040, Vendor.samsung, Uarch.exynosM5)]

/-- `case 'V'`, 32-bit builds, src/arm/uarch.c:407-421. -/
def marvellParts : List (Nat × Nat × Nat) :=
  [(0x581, Vendor.marvell, Uarch.pj4), (0x584, Vendor.marvell, Uarch.pj4)]

/-- `cpuinfo_arm_decode_vendor_uarch`, src/arm/uarch.c:7-429: vendor and microarchitecture of a
MIDR; `vfpv4` is an argument of 32-bit builds only. -/
def decode (a : Arch) (midr : Nat) (vfpv4 : Bool) : Nat × Nat :=
  match getImplementer midr with
  | 0x41 => decodeArm a midr
  | 0x42 => select (broadcomParts a) Vendor.broadcom (getPart midr)
  | 0x43 =>
    match a with
    | .arm64 => select caviumParts Vendor.cavium (getPart midr)
    | .arm => (Vendor.unknown, Uarch.unknown)
  | 0x48 => select (huaweiParts a) Vendor.huawei (getPart midr)
  | 0x69 =>
    match a with
    | .arm => select intelFamilies Vendor.intel (getPart midr >>> 8)
    | .arm64 => (Vendor.unknown, Uarch.unknown)
  | 0x4E => select nvidiaParts Vendor.nvidia (getPart midr)
  | 0x50 => select apmParts Vendor.apm (getPart midr)
  | 0x51 => select (qualcommParts a vfpv4) Vendor.qualcomm (getPart midr)
  | 0x53 => select samsungCores Vendor.samsung (midr &&& (variantMask ||| partMask))
  | 0x56 =>
    match a with
    | .arm => select marvellParts Vendor.marvell (getPart midr)
    | .arm64 => (Vendor.unknown, Uarch.unknown)
  | _ => (Vendor.unknown, Uarch.unknown)

end Verif.ArmUarch
