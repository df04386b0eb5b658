import Verif.Model.X86Processor

/-!
# Model of src/x86/isa.c and of the `cpuinfo_has_x86_*` functions of include/cpuinfo.h
-/

set_option autoImplicit false

namespace Verif.X86Cpuid

/-- The fields of `struct cpuinfo_x86_isa`, include/cpuinfo.h:755-869. -/
inductive Feature
  | rdtsc | rdtscp | rdpid | sysenter | syscall | msr | clzero | clflush | clflushopt | mwait
  | mwaitx | emmx | fxsave | xsave | fpu | mmx | mmxPlus | threeDNow | threeDNowPlus
  | threeDNowGeode | prefetch | prefetchw | prefetchwt1 | daz | sse | sse2 | sse3 | ssse3
  | sse4_1 | sse4_2 | sse4a | misalignedSse | avx | avxvnni | fma3 | fma4 | xop | f16c | avx2
  | avx512f | avx512pf | avx512er | avx512cd | avx512dq | avx512bw | avx512vl | avx512ifma
  | avx512vbmi | avx512vbmi2 | avx512bitalg | avx512vpopcntdq | avx512vnni | avx512bf16
  | avx512fp16 | avx512vp2intersect | avx512_4vnniw | avx512_4fmaps | avx10_1 | avx10_2
  | amxBf16 | amxTile | amxInt8 | amxFp16 | avxVnniInt8 | avxVnniInt16 | avxNeConvert | hle
  | rtm | xtest | mpx | cmov | cmpxchg8b | cmpxchg16b | clwb | movbe | lahfSahf | fsGsBase
  | lzcnt | popcnt | tbm | bmi | bmi2 | adx | aes | vaes | pclmulqdq | vpclmulqdq | gfni
  | rdrand | rdseed | sha | rng | ace | ace2 | phe | pmm | lwp
deriving DecidableEq, Repr

/-- What `cpuinfo_x86_detect_isa` reads. -/
structure IsaSource where
  basic : Regs
  ext : Regs
  sf0 : Regs
  sf1 : Regs
  sf2 : Regs
  cap : Regs
  padlock : Regs
  avxRegs : Bool
  avx512Regs : Bool
  mpxRegs : Bool
  mxcsrMask : Nat

/-- `(valid & mask) == mask ? (enabled & mask) == mask : false`, src/x86/isa.c:80-116. -/
def regsEnabled (valid enabled mask : Nat) : Bool :=
  if valid &&& mask = mask then enabled &&& mask == mask else false

/-- `xcr0_valid_bits`, src/x86/isa.c:67-71. -/
def xcr0Valid (c : Cpuid) (maxBase : Nat) : Nat :=
  if maxBase ≥ 0xD then (c.sub 0xD 0).edx <<< 32 ||| (c.sub 0xD 0).eax else 0

/-- One of the flags `avx_regs`, `avx512_regs`, `mpx_regs`, src/x86/isa.c:56-117. -/
def osRegs (c : Cpuid) (xcr0 maxBase basicEcx mask : Nat) : Bool :=
  if basicEcx &&& 0x0C000000 = 0x0C000000 then regsEnabled (xcr0Valid c maxBase) xcr0 mask else false

/-- The Padlock leaf, zeros where the code leaves the flags alone, src/x86/isa.c:754-760. -/
def padlockInfo (c : Cpuid) (v : Vendor) : Regs :=
  if v = .via then
    if (c.leaf 0xC0000000).eax ≥ 0xC0000001 then c.leaf 0xC0000001 else ⟨0, 0, 0, 0⟩
  else ⟨0, 0, 0, 0⟩

/-- The leaves and registers read, src/x86/isa.c:45-117 and 754-760.  `xcr0` is the answer of
XGETBV, `mxcsrMask` that of FXSAVE. -/
def isaSource (c : Cpuid) (xcr0 mxcsrMask : Nat) (basic ext : Regs) (maxBase maxExtended : Nat)
    (v : Vendor) : IsaSource :=
  { basic, ext
    sf0 := if maxBase ≥ 7 then c.sub 7 0 else ⟨0, 0, 0, 0⟩
    sf1 := if maxBase ≥ 7 then c.sub 7 1 else ⟨0, 0, 0, 0⟩
    sf2 := if maxBase ≥ 7 then c.sub 0x24 0 else ⟨0, 0, 0, 0⟩
    cap := if maxExtended ≥ 0x80000008 then c.leaf 0x80000008 else ⟨0, 0, 0, 0⟩
    padlock := padlockInfo c v
    avxRegs := osRegs c xcr0 maxBase basic.ecx 0x06
    avx512Regs := osRegs c xcr0 maxBase basic.ecx 0xE6
    mpxRegs := osRegs c xcr0 maxBase basic.ecx 0x18
    mxcsrMask }

/-- `!!(x & mask)`. -/
def flag (x mask : Nat) : Bool := x &&& mask != 0

/-- The vendors with the EMMX bit, src/x86/isa.c:184-194. -/
def cyrixOrNsc (t : Target) (v : Vendor) : Bool := t.x86_32 && (v == .cyrix || v == .nsc)

/-- `isa.prefetch`, src/x86/isa.c:258-279. -/
def isaPrefetch (s : IsaSource) (v : Vendor) : Bool :=
  match v with
  | .intel => false
  | .amd | .hygon => (s.ext.ecx &&& 0x00000100 ||| s.ext.edx &&& 0xE0000000) != 0
  | _ => flag s.ext.edx 0xC0000000

/-- `isa.prefetchw`, src/x86/isa.c:293-307. -/
def isaPrefetchw (s : IsaSource) (v : Vendor) : Bool :=
  match v with
  | .amd | .hygon => (s.ext.ecx &&& 0x00000100 ||| s.ext.edx &&& 0xE0000000) != 0
  | _ => (s.ext.ecx &&& 0x00000100 ||| s.ext.edx &&& 0xC0000000) != 0

/-- The flags that `cpuinfo_x86_detect_isa` computes, src/x86/isa.c:118-832 (line beside each).
Flags that exist only in 32-bit or only in 64-bit builds are false in the other. -/
def isaFlag (t : Target) (s : IsaSource) (v : Vendor) (u : Uarch) : Feature → Bool
  | .rdtsc => t.x86_32 && flag (s.basic.edx ||| s.ext.edx) 0x00000010 -- 123
  | .rdtscp => flag s.ext.edx 0x08000000 -- 823
  | .rdpid => flag s.sf0.ecx 0x00400000 -- 829
  | .sysenter => flag s.basic.edx 0x00000800 -- 130
  | .syscall => t.x86_32 && flag s.ext.edx 0x00000800 -- 137
  | .msr => flag (s.basic.edx ||| s.ext.edx) 0x00000020 -- 145
  | .clzero => flag s.cap.ebx 0x00000001 -- 152
  | .clflush => flag s.basic.edx 0x00080000 -- 158
  | .clflushopt => flag s.sf0.ebx 0x00800000 -- 164
  | .mwait => flag s.basic.ecx 0x00000008 -- 170
  | .mwaitx => flag s.ext.ecx 0x20000000 -- 176
  | .emmx => cyrixOrNsc t v && flag s.ext.edx 0x01000000 -- 188
  | .fxsave => !cyrixOrNsc t v && flag (s.basic.edx ||| s.ext.edx) 0x01000000 -- 192
  | .xsave => flag s.basic.ecx 0x04000000 -- 200
  | .fpu => t.x86_32 && flag (s.basic.edx ||| s.ext.edx) 0x00000001 -- 208
  | .mmx => t.x86_32 && flag (s.basic.edx ||| s.ext.edx) 0x00800000 -- 215
  | .mmxPlus => t.x86_32 && (s.basic.edx &&& 0x02000000 ||| s.ext.edx &&& 0x00400000) != 0 -- 222
  | .threeDNow => flag s.ext.edx 0x80000000 -- 229
  | .threeDNowPlus => flag s.ext.edx 0x40000000 -- 235
  | .threeDNowGeode => t.x86_32 && flag s.ext.edx 0x40000000 && decide (u = .geode) -- 242
  | .prefetch => isaPrefetch s v -- 259-279
  | .prefetchw => isaPrefetchw s v -- 295-306
  | .prefetchwt1 => flag s.sf0.ecx 0x00000001 -- 314
  | .daz => -- 336-360
    t.x86_32 && (flag s.basic.ecx 0x00000001 ||
      (flag s.basic.edx 0x02000000 && (!cyrixOrNsc t v && flag (s.basic.edx ||| s.ext.edx) 0x01000000) &&
        flag s.mxcsrMask 0x00000040))
  | .sse => t.x86_32 && flag s.basic.edx 0x02000000 -- 321
  | .sse2 => t.x86_32 && flag s.basic.edx 0x04000000 -- 327
  | .sse3 => flag s.basic.ecx 0x00000001 -- 334
  | .ssse3 => flag s.basic.ecx 0x00000200 -- 366
  | .sse4_1 => flag s.basic.ecx 0x00080000 -- 372
  | .sse4_2 => flag s.basic.ecx 0x00100000 -- 378
  | .sse4a => flag s.ext.ecx 0x00000040 -- 384
  | .misalignedSse => flag s.ext.ecx 0x00000080 -- 390
  | .avx => s.avxRegs && flag s.basic.ecx 0x10000000 -- 396
  | .avxvnni => s.avxRegs && flag s.sf1.eax 0x00000010 -- 546
  | .fma3 => s.avxRegs && flag s.basic.ecx 0x00001000 -- 402
  | .fma4 => s.avxRegs && flag s.ext.ecx 0x00010000 -- 408
  | .xop => s.avxRegs && flag s.ext.ecx 0x00000800 -- 414
  | .f16c => s.avxRegs && flag s.basic.ecx 0x20000000 -- 420
  | .avx2 => s.avxRegs && flag s.sf0.ebx 0x00000020 -- 426
  | .avx512f => s.avx512Regs && flag s.sf0.ebx 0x00010000 -- 432
  | .avx512pf => s.avx512Regs && flag s.sf0.ebx 0x04000000 -- 450
  | .avx512er => s.avx512Regs && flag s.sf0.ebx 0x08000000 -- 456
  | .avx512cd => s.avx512Regs && flag s.sf0.ebx 0x10000000 -- 462
  | .avx512dq => s.avx512Regs && flag s.sf0.ebx 0x00020000 -- 468
  | .avx512bw => s.avx512Regs && flag s.sf0.ebx 0x40000000 -- 474
  | .avx512vl => s.avx512Regs && flag s.sf0.ebx 0x80000000 -- 480
  | .avx512ifma => s.avx512Regs && flag s.sf0.ebx 0x00200000 -- 486
  | .avx512vbmi => s.avx512Regs && flag s.sf0.ecx 0x00000002 -- 492
  | .avx512vbmi2 => s.avx512Regs && flag s.sf0.ecx 0x00000040 -- 498
  | .avx512bitalg => s.avx512Regs && flag s.sf0.ecx 0x00001000 -- 504
  | .avx512vpopcntdq => s.avx512Regs && flag s.sf0.ecx 0x00004000 -- 510
  | .avx512vnni => s.avx512Regs && flag s.sf0.ecx 0x00000800 -- 516
  | .avx512bf16 => s.avx512Regs && flag s.sf1.eax 0x00000020 -- 552
  | .avx512fp16 => s.avx512Regs && flag s.sf0.edx 0x00800000 -- 540
  | .avx512vp2intersect => s.avx512Regs && flag s.sf0.edx 0x00000100 -- 534
  | .avx512_4vnniw => s.avx512Regs && flag s.sf0.edx 0x00000004 -- 522
  | .avx512_4fmaps => s.avx512Regs && flag s.sf0.edx 0x00000008 -- 528
  | .avx10_1 => s.avx512Regs && flag s.sf1.edx 0x00080000 -- 438
  | .avx10_2 => decide (s.sf2.ebx &&& 0x000000FF ≥ 2) && (s.avx512Regs && flag s.sf1.edx 0x00080000) -- 444
  | .amxBf16 => s.avx512Regs && flag s.sf0.edx 0x00400000 -- 558
  | .amxTile => s.avx512Regs && flag s.sf0.edx 0x01000000 -- 564
  | .amxInt8 => s.avx512Regs && flag s.sf0.edx 0x02000000 -- 570
  | .amxFp16 => s.avx512Regs && flag s.sf1.eax 0x00200000 -- 576
  | .avxVnniInt8 => s.avxRegs && flag s.sf1.edx 0x00000010 -- 582
  | .avxVnniInt16 => s.avxRegs && flag s.sf1.edx 0x00000400 -- 588
  | .avxNeConvert => s.avxRegs && flag s.sf1.edx 0x00000020 -- 594
  | .hle => flag s.sf0.ebx 0x00000010 -- 600
  | .rtm => flag s.sf0.ebx 0x00000800 -- 606
  | .xtest => flag s.sf0.ebx 0x00000010 || flag s.sf0.ebx 0x00000800 -- 612
  | .mpx => s.mpxRegs && flag s.sf0.ebx 0x00004000 -- 618
  | .cmov => t.x86_32 && flag (s.basic.edx ||| s.ext.edx) 0x00008000 -- 626
  | .cmpxchg8b => t.x86_32 && flag (s.basic.edx ||| s.ext.edx) 0x00000100 -- 633
  | .cmpxchg16b => flag s.basic.ecx 0x00002000 -- 640
  | .clwb => flag s.sf0.ebx 0x01000000 -- 646
  | .movbe => flag s.basic.ecx 0x00400000 -- 652
  | .lahfSahf => !t.x86_32 && flag s.ext.ecx 0x00000001 -- 661
  | .fsGsBase => flag s.sf0.ebx 0x00000001 -- 668
  | .lzcnt => flag s.ext.ecx 0x00000020 -- 674
  | .popcnt => flag s.basic.ecx 0x00800000 -- 680
  | .tbm => flag s.ext.ecx 0x00200000 -- 686
  | .bmi => flag s.sf0.ebx 0x00000008 -- 692
  | .bmi2 => flag s.sf0.ebx 0x00000100 -- 698
  | .adx => flag s.sf0.ebx 0x00080000 -- 704
  | .aes => flag s.basic.ecx 0x02000000 -- 710
  | .vaes => flag s.sf0.ecx 0x00000200 -- 716
  | .pclmulqdq => flag s.basic.ecx 0x00000002 -- 722
  | .vpclmulqdq => flag s.sf0.ecx 0x00000400 -- 728
  | .gfni => flag s.sf0.ecx 0x00000100 -- 734
  | .rdrand => flag s.basic.ecx 0x40000000 -- 740
  | .rdseed => flag s.sf0.ebx 0x00040000 -- 746
  | .sha => flag s.sf0.ebx 0x20000000 -- 752
  | .rng => s.padlock.edx &&& 0x0000000C == 0x0000000C -- 769
  | .ace => s.padlock.edx &&& 0x000000C0 == 0x000000C0 -- 779
  | .ace2 => s.padlock.edx &&& 0x00000300 == 0x00000300 -- 789
  | .phe => s.padlock.edx &&& 0x00000C00 == 0x00000C00 -- 799
  | .pmm => s.padlock.edx &&& 0x00003000 == 0x00003000 -- 809
  | .lwp => flag s.ext.ecx 0x00008000 -- 817

/-- `cpuinfo_isa` as `cpuinfo_x86_init_processor` leaves it, src/x86/init.c:11, 15-67. -/
def initIsa (t : Target) (c : Cpuid) (xcr0 mxcsrMask : Nat) : Feature → Bool :=
  let leaf0 := c.leaf 0
  let vendor := decodeVendor t leaf0.ebx leaf0.ecx leaf0.edx
  if leaf0.eax ≥ 1 then
    isaFlag t
      (isaSource c xcr0 mxcsrMask (c.leaf 1) (extendedInfo c) leaf0.eax (maxExtendedIndex c) vendor)
      vendor (decodeUarch t vendor (decodeModelInfo (c.leaf 1).eax))
  else fun _ => false

/-- The functions `cpuinfo_has_x86_*`, include/cpuinfo.h:874-1660 (line beside each); `none` for
fields without such a function. -/
def hasX86 (t : Target) (isa : Feature → Bool) : Feature → Option Bool
  | .rdtsc => some (if t.x86_32 && !t.android then isa .rdtsc else true) -- 874
  | .rdtscp => some (isa .rdtscp) -- 888
  | .rdpid => some (isa .rdpid) -- 896
  | .clzero => some (isa .clzero) -- 904
  | .mwait => some (isa .mwait) -- 912
  | .mwaitx => some (isa .mwaitx) -- 920
  | .fxsave => some (isa .fxsave) -- 928
  | .xsave => some (isa .xsave) -- 936
  | .fpu => some (if t.x86_32 && !t.android then isa .fpu else true) -- 944
  | .mmx => some (if t.x86_32 && !t.android then isa .mmx else true) -- 958
  | .mmxPlus => some (if t.x86_32 && !t.android then isa .mmxPlus else true) -- 972
  | .threeDNow => some (isa .threeDNow) -- 986
  | .threeDNowPlus => some (isa .threeDNowPlus) -- 994
  | .threeDNowGeode => some (if t.x86_32 && !t.android then isa .threeDNowGeode else false) -- 1002
  | .prefetch => some (isa .prefetch) -- 1016
  | .prefetchw => some (isa .prefetchw) -- 1024
  | .prefetchwt1 => some (isa .prefetchwt1) -- 1032
  | .daz => some (if t.x86_32 && !t.android then isa .daz else true) -- 1040
  | .sse => some (if t.x86_32 && !t.android then isa .sse else true) -- 1054
  | .sse2 => some (if t.x86_32 && !t.android then isa .sse2 else true) -- 1068
  | .sse3 => some (if t.android then true else isa .sse3) -- 1082
  | .ssse3 => some (if t.android then true else isa .ssse3) -- 1094
  | .sse4_1 => some (if !t.x86_32 && t.android then true else isa .sse4_1) -- 1106
  | .sse4_2 => some (if !t.x86_32 && t.android then true else isa .sse4_2) -- 1120
  | .sse4a => some (isa .sse4a) -- 1134
  | .misalignedSse => some (isa .misalignedSse) -- 1142
  | .avx => some (isa .avx) -- 1150
  | .avxvnni => some (isa .avxvnni) -- 1158
  | .fma3 => some (isa .fma3) -- 1166
  | .fma4 => some (isa .fma4) -- 1174
  | .xop => some (isa .xop) -- 1182
  | .f16c => some (isa .f16c) -- 1190
  | .avx2 => some (isa .avx2) -- 1198
  | .avx512f => some (isa .avx512f) -- 1206
  | .avx512pf => some (isa .avx512pf) -- 1214
  | .avx512er => some (isa .avx512er) -- 1222
  | .avx512cd => some (isa .avx512cd) -- 1230
  | .avx512dq => some (isa .avx512dq) -- 1238
  | .avx512bw => some (isa .avx512bw) -- 1246
  | .avx512vl => some (isa .avx512vl) -- 1254
  | .avx512ifma => some (isa .avx512ifma) -- 1262
  | .avx512vbmi => some (isa .avx512vbmi) -- 1270
  | .avx512vbmi2 => some (isa .avx512vbmi2) -- 1278
  | .avx512bitalg => some (isa .avx512bitalg) -- 1286
  | .avx512vpopcntdq => some (isa .avx512vpopcntdq) -- 1294
  | .avx512vnni => some (isa .avx512vnni) -- 1302
  | .avx512bf16 => some (isa .avx512bf16) -- 1310
  | .avx512fp16 => some (isa .avx512fp16) -- 1318
  | .avx512vp2intersect => some (isa .avx512vp2intersect) -- 1326
  | .avx512_4vnniw => some (isa .avx512_4vnniw) -- 1334
  | .avx512_4fmaps => some (isa .avx512_4fmaps) -- 1342
  | .amxBf16 => some (isa .amxBf16) -- 1370
  | .amxTile => some (isa .amxTile) -- 1378
  | .amxInt8 => some (isa .amxInt8) -- 1386
  | .amxFp16 => some (isa .amxFp16) -- 1394
  | .avxVnniInt8 => some (isa .avxVnniInt8) -- 1406
  | .avxVnniInt16 => some (isa .avxVnniInt16) -- 1418
  | .avxNeConvert => some (isa .avxNeConvert) -- 1434
  | .avx10_1 => some (isa .avx10_1) -- 1442
  | .avx10_2 => some (isa .avx10_2) -- 1450
  | .hle => some (isa .hle) -- 1458
  | .rtm => some (isa .rtm) -- 1466
  | .xtest => some (isa .xtest) -- 1474
  | .mpx => some (isa .mpx) -- 1482
  | .cmov => some (if t.x86_32 then isa .cmov else true) -- 1490
  | .cmpxchg8b => some (if t.x86_32 then isa .cmpxchg8b else true) -- 1500
  | .cmpxchg16b => some (if t.x86_32 then false else isa .cmpxchg16b) -- 1510
  | .clwb => some (isa .clwb) -- 1518
  | .movbe => some (isa .movbe) -- 1526
  | .lahfSahf => some (if t.x86_32 then true else isa .lahfSahf) -- 1534
  | .lzcnt => some (isa .lzcnt) -- 1544
  | .popcnt => some (if !t.x86_32 && t.android then true else isa .popcnt) -- 1552
  | .tbm => some (isa .tbm) -- 1566
  | .bmi => some (isa .bmi) -- 1574
  | .bmi2 => some (isa .bmi2) -- 1582
  | .adx => some (isa .adx) -- 1590
  | .aes => some (isa .aes) -- 1598
  | .vaes => some (isa .vaes) -- 1606
  | .pclmulqdq => some (isa .pclmulqdq) -- 1614
  | .vpclmulqdq => some (isa .vpclmulqdq) -- 1622
  | .gfni => some (isa .gfni) -- 1630
  | .rdrand => some (isa .rdrand) -- 1638
  | .rdseed => some (isa .rdseed) -- 1646
  | .sha => some (isa .sha) -- 1654
  | _ => none

end Verif.X86Cpuid
