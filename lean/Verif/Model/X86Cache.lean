import Verif.Model.X86Cpuid
import Verif.Model.X86Init

/-!
# Model of src/x86/cache

The TLB descriptions, the trace cache and the prefetch size are left out: no query of the library
gives access to them.
-/

set_option autoImplicit false

namespace Verif.X86Cpuid
open X86Init (CacheDesc)

/-- The cache levels of `struct cpuinfo_x86_caches`, src/x86/api.h:26-34. -/
structure Caches where
  l1i : CacheDesc
  l1d : CacheDesc
  l2 : CacheDesc
  l3 : CacheDesc
  l4 : CacheDesc
deriving DecidableEq, Repr

/-- The fields of `Caches`. -/
inductive Slot
  | l1i | l1d | l2 | l3 | l4
deriving DecidableEq, Repr

/-- Reading a field. -/
def Caches.get (c : Caches) : Slot → CacheDesc
  | .l1i => c.l1i
  | .l1d => c.l1d
  | .l2 => c.l2
  | .l3 => c.l3
  | .l4 => c.l4

/-- Assignment to a field. -/
def Caches.put (c : Caches) (d : CacheDesc) : Slot → Caches
  | .l1i => { c with l1i := d }
  | .l1d => { c with l1d := d }
  | .l2 => { c with l2 := d }
  | .l3 => { c with l3 := d }
  | .l4 => { c with l4 := d }

/-- `CPUINFO_CACHE_UNIFIED`, include/cpuinfo.h:107. -/
def flagUnified : Nat := 0x1
/-- `CPUINFO_CACHE_INCLUSIVE`, include/cpuinfo.h:108. -/
def flagInclusive : Nat := 0x2
/-- `CPUINFO_CACHE_COMPLEX_INDEXING`, include/cpuinfo.h:109. -/
def flagComplexIndexing : Nat := 0x4

/-- The cases of `cpuinfo_x86_decode_cache_descriptor` that fill one cache level whatever the
vendor, src/x86/cache/descriptor.c (line of each case beside it): descriptor, level, and size,
associativity, sets, partitions, line size, flags, APIC bits of the level. -/
def descriptorTable : List (Nat × Slot × CacheDesc) :=
  [(0x06, .l1i, ⟨8 * 1024, 4, 64, 1, 32, 0, 0⟩),  -- line 103
   (0x08, .l1i, ⟨16 * 1024, 4, 128, 1, 32, 0, 0⟩),  -- line 119
   (0x09, .l1i, ⟨32 * 1024, 4, 128, 1, 64, 0, 0⟩),  -- line 135
   (0x0A, .l1d, ⟨8 * 1024, 2, 128, 1, 32, 0, 0⟩),  -- line 151
   (0x0C, .l1d, ⟨16 * 1024, 4, 128, 1, 32, 0, 0⟩),  -- line 181
   (0x0D, .l1d, ⟨16 * 1024, 4, 64, 1, 64, 0, 0⟩),  -- line 197
   (0x0E, .l1d, ⟨24 * 1024, 6, 64, 1, 64, 0, 0⟩),  -- line 213
   (0x1D, .l2, ⟨128 * 1024, 2, 1024, 1, 64, flagInclusive, 0⟩),  -- line 229
   (0x21, .l2, ⟨256 * 1024, 8, 512, 1, 64, flagInclusive, 0⟩),  -- line 244
   (0x22, .l3, ⟨512 * 1024, 4, 2048, 1, 64, flagInclusive, 0⟩),  -- line 261
   (0x23, .l3, ⟨1024 * 1024, 8, 2048, 1, 64, flagInclusive, 0⟩),  -- line 278
   (0x24, .l2, ⟨1024 * 1024, 16, 1024, 1, 64, flagInclusive, 0⟩),  -- line 295
   (0x25, .l3, ⟨2 * 1024 * 1024, 8, 4096, 1, 64, flagInclusive, 0⟩),  -- line 310
   (0x29, .l3, ⟨4 * 1024 * 1024, 8, 8192, 1, 64, flagInclusive, 0⟩),  -- line 327
   (0x2C, .l1d, ⟨32 * 1024, 8, 64, 1, 64, 0, 0⟩),  -- line 344
   (0x30, .l1i, ⟨32 * 1024, 8, 64, 1, 64, 0, 0⟩),  -- line 360
   (0x39, .l2, ⟨128 * 1024, 4, 512, 1, 64, flagInclusive, 0⟩),  -- line 376
   (0x3A, .l2, ⟨192 * 1024, 6, 512, 1, 64, flagInclusive, 0⟩),  -- line 387
   (0x3B, .l2, ⟨128 * 1024, 2, 1024, 1, 64, flagInclusive, 0⟩),  -- line 398
   (0x3C, .l2, ⟨256 * 1024, 4, 1024, 1, 64, flagInclusive, 0⟩),  -- line 409
   (0x3D, .l2, ⟨384 * 1024, 6, 1024, 1, 64, flagInclusive, 0⟩),  -- line 420
   (0x3E, .l2, ⟨512 * 1024, 4, 2048, 1, 64, flagInclusive, 0⟩),  -- line 431
   (0x41, .l2, ⟨128 * 1024, 4, 1024, 1, 32, flagInclusive, 0⟩),  -- line 452
   (0x42, .l2, ⟨256 * 1024, 4, 2048, 1, 32, flagInclusive, 0⟩),  -- line 469
   (0x43, .l2, ⟨512 * 1024, 4, 4096, 1, 32, flagInclusive, 0⟩),  -- line 486
   (0x44, .l2, ⟨1024 * 1024, 4, 8192, 1, 32, flagInclusive, 0⟩),  -- line 503
   (0x45, .l2, ⟨2 * 1024 * 1024, 4, 16384, 1, 32, flagInclusive, 0⟩),  -- line 520
   (0x46, .l3, ⟨4 * 1024 * 1024, 4, 16384, 1, 64, flagInclusive, 0⟩),  -- line 537
   (0x47, .l3, ⟨8 * 1024 * 1024, 8, 16384, 1, 64, flagInclusive, 0⟩),  -- line 554
   (0x48, .l2, ⟨3 * 1024 * 1024, 12, 4096, 1, 64, flagInclusive, 0⟩),  -- line 571
   (0x4A, .l3, ⟨6 * 1024 * 1024, 12, 8192, 1, 64, flagInclusive, 0⟩),  -- line 621
   (0x4B, .l3, ⟨8 * 1024 * 1024, 16, 8192, 1, 64, flagInclusive, 0⟩),  -- line 638
   (0x4C, .l3, ⟨12 * 1024 * 1024, 12, 16384, 1, 64, flagInclusive, 0⟩),  -- line 655
   (0x4D, .l3, ⟨16 * 1024 * 1024, 16, 16384, 1, 64, flagInclusive, 0⟩),  -- line 672
   (0x4E, .l2, ⟨6 * 1024 * 1024, 24, 4096, 1, 64, flagInclusive, 0⟩),  -- line 689
   (0x60, .l1d, ⟨16 * 1024, 8, 32, 1, 64, 0, 0⟩),  -- line 871
   (0x66, .l1d, ⟨8 * 1024, 4, 32, 1, 64, 0, 0⟩),  -- line 928
   (0x67, .l1d, ⟨16 * 1024, 4, 64, 1, 64, 0, 0⟩),  -- line 942
   (0x68, .l1d, ⟨32 * 1024, 4, 128, 1, 64, 0, 0⟩),  -- line 956
   (0x78, .l2, ⟨1024 * 1024, 4, 4096, 1, 64, flagInclusive, 0⟩),  -- line 1094
   (0x79, .l2, ⟨128 * 1024, 8, 256, 1, 64, flagInclusive, 0⟩),  -- line 1111
   (0x7A, .l2, ⟨256 * 1024, 8, 512, 1, 64, flagInclusive, 0⟩),  -- line 1128
   (0x7B, .l2, ⟨512 * 1024, 8, 1024, 1, 64, flagInclusive, 0⟩),  -- line 1145
   (0x7C, .l2, ⟨1024 * 1024, 8, 2048, 1, 64, flagInclusive, 0⟩),  -- line 1162
   (0x7D, .l2, ⟨2 * 1024 * 1024, 8, 4096, 1, 64, flagInclusive, 0⟩),  -- line 1179
   (0x7F, .l2, ⟨512 * 1024, 2, 4096, 1, 64, flagInclusive, 0⟩),  -- line 1196
   (0x82, .l2, ⟨256 * 1024, 4, 2048, 1, 32, flagInclusive, 0⟩),  -- line 1248
   (0x83, .l2, ⟨512 * 1024, 8, 2048, 1, 32, flagInclusive, 0⟩),  -- line 1265
   (0x84, .l2, ⟨1024 * 1024, 8, 4096, 1, 32, flagInclusive, 0⟩),  -- line 1282
   (0x85, .l2, ⟨2 * 1024 * 1024, 8, 8192, 1, 32, flagInclusive, 0⟩),  -- line 1299
   (0x86, .l2, ⟨512 * 1024, 4, 2048, 1, 64, flagInclusive, 0⟩),  -- line 1316
   (0x87, .l2, ⟨1024 * 1024, 8, 2048, 1, 64, flagInclusive, 0⟩),  -- line 1333
   (0xD0, .l3, ⟨512 * 1024, 4, 2048, 1, 64, flagInclusive, 0⟩),  -- line 1553
   (0xD1, .l3, ⟨1024 * 1024, 4, 4096, 1, 64, flagInclusive, 0⟩),  -- line 1570
   (0xD2, .l3, ⟨2 * 1024 * 2014, 4, 8192, 1, 64, flagInclusive, 0⟩),  -- line 1587
   (0xD6, .l3, ⟨1024 * 1024, 8, 2048, 1, 64, flagInclusive, 0⟩),  -- line 1604
   (0xD7, .l3, ⟨2 * 1024 * 1024, 8, 4096, 1, 64, flagInclusive, 0⟩),  -- line 1621
   (0xD8, .l3, ⟨4 * 1024 * 1024, 8, 8192, 1, 64, flagInclusive, 0⟩),  -- line 1638
   (0xDC, .l3, ⟨3 * 512 * 1024, 12, 2048, 1, 64, flagInclusive, 0⟩),  -- line 1655
   (0xDD, .l3, ⟨3 * 1024 * 1024, 12, 4096, 1, 64, flagInclusive, 0⟩),  -- line 1672
   (0xDE, .l3, ⟨6 * 1024 * 1024, 12, 8192, 1, 64, flagInclusive, 0⟩),  -- line 1689
   (0xE2, .l3, ⟨2 * 1024 * 1024, 16, 2048, 1, 64, flagInclusive, 0⟩),  -- line 1706
   (0xE3, .l3, ⟨4 * 1024 * 1024, 16, 4096, 1, 64, flagInclusive, 0⟩),  -- line 1723
   (0xE4, .l3, ⟨8 * 1024 * 1024, 16, 8192, 1, 64, flagInclusive, 0⟩),  -- line 1740
   (0xEA, .l3, ⟨12 * 1024 * 1024, 24, 8192, 1, 64, flagInclusive, 0⟩),  -- line 1757
   (0xEB, .l3, ⟨18 * 1024 * 1024, 24, 12288, 1, 64, flagInclusive, 0⟩),  -- line 1774
   (0xEC, .l3, ⟨24 * 1024 * 1024, 24, 16384, 1, 64, flagInclusive, 0⟩)]  -- line 1791

/-- `cpuinfo_x86_decode_cache_descriptor`, src/x86/cache/descriptor.c:6-1827. Bytes without a row
describe TLBs, trace caches or prefetching, or have no case. -/
def decodeDescriptor (t : Target) (vendor : Vendor) (m : ModelInfo) (b : Byte) (c : Caches) :
    Caches :=
  if b = 0x49 then
    if vendor = .intel ∧ m.model = 0x06 ∧ m.family = 0x0F then
      { c with l3 := ⟨4 * 1024 * 1024, 16, 4096, 1, 64, flagInclusive, 0⟩ }
    else
      { c with l2 := ⟨4 * 1024 * 1024, 16, 4096, 1, 64, flagInclusive, 0⟩ }
  else if b = 0x80 then
    if t.x86_32 ∧ ¬t.android ∧ (vendor = .cyrix ∨ vendor = .nsc) then
      { c with
        l1i := ⟨16 * 1024, 4, 256, 1, 16, flagUnified, 0⟩
        l1d := ⟨16 * 1024, 4, 256, 1, 16, flagUnified, 0⟩ }
    else
      { c with l2 := ⟨512 * 1024, 8, 1024, 1, 64, flagInclusive, 0⟩ }
  else
    match descriptorTable.find? fun r => r.1 == b with
    | some (_, s, d) => c.put d s
    | none => c

/-- The bytes of a register in memory order. -/
def regBytes (r : Nat) : Bytes :=
  [r &&& 0xFF, (r >>> 8) &&& 0xFF, (r >>> 16) &&& 0xFF, (r >>> 24) &&& 0xFF]

/-- `union cpuinfo_x86_cache_descriptors`, src/x86/cache/init.c:9-12. -/
def Regs.bytes (r : Regs) : Bytes :=
  regBytes r.eax ++ regBytes r.ebx ++ regBytes r.ecx ++ regBytes r.edx

/-- The loop over the bytes 1 to 15 of one leaf-2 answer, src/x86/cache/init.c:49-71. -/
def decodeLeaf2 (t : Target) (vendor : Vendor) (m : ModelInfo) (r : Regs) (c : Caches) : Caches :=
  (r.bytes.drop 1).foldl (fun c b => if b ≠ 0 then decodeDescriptor t vendor m b c else c) c

/-- The iterations over leaf 2, src/x86/cache/init.c:48-75: `left` more answers, the next one
being number `k`. -/
def leaf2Loop (t : Target) (vendor : Vendor) (m : ModelInfo) (leaf2 : Nat → Regs) :
    (left k : Nat) → Caches → Caches
  | 0, _, c => c
  | left + 1, k, c => leaf2Loop t vendor m leaf2 left (k + 1) (decodeLeaf2 t vendor m (leaf2 k) c)

/-- Product of `uint32_t` values. -/
def mul32 (a b : Nat) : Nat := a * b % U32

/-- The cache description of one sub-leaf, src/x86/cache/deterministic.c:27-43 and the initializers
(`.size` etc.), the same as in 152-170. -/
def subleafDesc (r : Regs) (flags : Nat) : CacheDesc :=
  let sets := (1 + r.ecx) % U32
  let lineSize := 1 + (r.ebx &&& 0xFFF)
  let partitions := 1 + ((r.ebx >>> 12) &&& 0x3FF)
  let associativity := 1 + (r.ebx >>> 22)
  let processors := 1 + ((r.eax >>> 14) &&& 0xFFF)
  { size := mul32 (mul32 (mul32 associativity partitions) lineSize) sets
    associativity, sets, partitions, lineSize, flags
    apicBits := bitLength processors }

/-- `cpuinfo_x86_decode_deterministic_cache_parameters`, src/x86/cache/deterministic.c:15-144:
`none` is the result `false`; otherwise the caches and `*package_cores_max`. -/
def decodeLeaf4 (r : Regs) (c : Caches) : Option (Caches × Nat) :=
  let type := r.eax &&& 0x1F
  if type = 0 then none
  else
    let level := (r.eax >>> 5) &&& 0x7
    let packageCoresMax := 1 + (r.eax >>> 26)
    let flags := if r.edx &&& 0x2 ≠ 0 then flagInclusive else 0
    let flags := if r.edx &&& 0x4 ≠ 0 then flags ||| flagComplexIndexing else flags
    let c :=
      if level = 1 then
        if type = 3 then
          let d := subleafDesc r (flags ||| flagUnified)
          { c with l1i := d, l1d := d }
        else if type = 1 then { c with l1d := subleafDesc r flags }
        else if type = 2 then { c with l1i := subleafDesc r flags }
        else c
      else if level = 2 then
        if type = 3 then { c with l2 := subleafDesc r (flags ||| flagUnified) }
        else if type = 1 then { c with l2 := subleafDesc r flags }
        else c
      else if level = 3 then
        if type = 3 then { c with l3 := subleafDesc r (flags ||| flagUnified) }
        else if type = 1 then { c with l3 := subleafDesc r flags }
        else c
      else if level = 4 then
        if type = 3 then { c with l4 := subleafDesc r (flags ||| flagUnified) }
        else if type = 1 then { c with l4 := subleafDesc r flags }
        else c
      else c
    some (c, packageCoresMax)

/-- `cpuinfo_x86_decode_cache_properties`, src/x86/cache/deterministic.c:146-247; `none` is the
result `false`. -/
def decodeLeaf8000001D (r : Regs) (c : Caches) : Option Caches :=
  let type := r.eax &&& 0x1F
  if type = 0 then none
  else
    let level := (r.eax >>> 5) &&& 0x7
    let flags := if r.edx &&& 0x2 ≠ 0 then flagInclusive else 0
    some <|
      if level = 1 then
        if type = 3 then
          let d := subleafDesc r (flags ||| flagUnified)
          { c with l1i := d, l1d := d }
        else if type = 1 then { c with l1d := subleafDesc r flags }
        else if type = 2 then { c with l1i := subleafDesc r flags }
        else c
      else if level = 2 then
        if type = 3 then { c with l2 := subleafDesc r (flags ||| flagUnified) }
        else if type = 1 then { c with l2 := subleafDesc r flags }
        else c
      else if level = 3 then
        if type = 3 then { c with l3 := subleafDesc r (flags ||| flagUnified) }
        else if type = 1 then { c with l3 := subleafDesc r flags }
        else c
      else c

/-- The loop over the sub-leaves of leaf 4, src/x86/cache/init.c:79-84; `none` when it has not
ended after `fuel` sub-leaves. -/
def leaf4Loop (sub : Nat → Regs) : (fuel i : Nat) → Caches × Nat → Option (Caches × Nat)
  | 0, _, _ => none
  | fuel + 1, i, s =>
    match decodeLeaf4 (sub i) s.1 with
    | none => some s
    | some s => leaf4Loop sub fuel ((i + 1) % U32) s

/-- The loop over the sub-leaves of leaf 0x8000001D, src/x86/cache/init.c:91-95. -/
def leaf8000001DLoop (sub : Nat → Regs) : (fuel i : Nat) → Caches → Option Caches
  | 0, _, _ => none
  | fuel + 1, i, c =>
    match decodeLeaf8000001D (sub i) c with
    | none => some c
    | some c => leaf8000001DLoop sub fuel ((i + 1) % U32) c

/-- The part of `cpuinfo_x86_detect_cache` for the leaves 2 and 4, src/x86/cache/init.c:42-88: the
caches and `*log2_package_cores_max`. -/
def detectCacheBase (t : Target) (cpu : Cpuid) (fuel maxBase : Nat) (vendor : Vendor)
    (m : ModelInfo) (c : Caches) (log2PackageCoresMax : Nat) : Option (Caches × Nat) :=
  if maxBase ≥ 2 then
    let c := leaf2Loop t vendor m cpu.leaf2 ((cpu.leaf2 0).eax &&& 0xFF) 0 c
    if vendor ≠ .amd ∧ vendor ≠ .hygon ∧ maxBase ≥ 4 then
      match leaf4Loop (cpu.sub 4) fuel 0 (c, 0) with
      | none => none
      | some (c, packageCoresMax) =>
        some (c, if packageCoresMax ≠ 0 then bitLength packageCoresMax else log2PackageCoresMax)
    else some (c, log2PackageCoresMax)
  else some (c, log2PackageCoresMax)

/-- `cpuinfo_x86_detect_cache`, src/x86/cache/init.c:21-97: the caches and
`*log2_package_cores_max`; `none` when a loop has not ended after `fuel` sub-leaves. -/
def detectCache (t : Target) (cpu : Cpuid) (fuel maxBase maxExtended : Nat)
    (amdTopologyExtensions : Bool) (vendor : Vendor) (m : ModelInfo) (c : Caches)
    (log2PackageCoresMax : Nat) : Option (Caches × Nat) :=
  match detectCacheBase t cpu fuel maxBase vendor m c log2PackageCoresMax with
  | none => none
  | some (c, log2PackageCoresMax) =>
    if amdTopologyExtensions ∧ maxExtended ≥ 0x8000001D then
      match leaf8000001DLoop (cpu.sub 0x8000001D) fuel 0 c with
      | none => none
      | some c => some (c, log2PackageCoresMax)
    else some (c, log2PackageCoresMax)

end Verif.X86Cpuid
