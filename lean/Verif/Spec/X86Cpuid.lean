import Verif.Model.X86Cache
import Verif.Model.X86Topology

/-!
# What the CPUID leaves mean, as the processor manuals describe them
-/

set_option autoImplicit false

namespace Verif.Spec
open X86Cpuid

/-- Registers are 32 bits wide. -/
def RegsOk (r : Regs) : Prop := r.eax < U32 ∧ r.ebx < U32 ∧ r.ecx < U32 ∧ r.edx < U32

/-- The four characters a register holds, lowest byte first. -/
def chars (r : Nat) : Bytes := [r % 256, r / 256 % 256, r / 65536 % 256, r / 16777216 % 256]

/-- The vendor strings (registers ebx, edx, ecx in this order).  The second group is only known to
builds for 32-bit x86. -/
def knownVendors (t : Target) : List (Bytes × Vendor) :=
  [(b!"GenuineIntel", .intel), (b!"AuthenticAMD", .amd), (b!"CentaurHauls", .via),
   (b!"HygonGenuine", .hygon)] ++
  if t.x86_32 then
    [(b!"GenuineTMx86", .transmeta), (b!"Genuine  RDC", .rdc), (b!"AMDisbetter!", .amd),
     (b!"AMD ISBETTER", .amd), (b!"VIA VIA VIA ", .via), (b!"TransmetaCPU", .transmeta),
     (b!"CyrixInstead", .cyrix), (b!"RiseRiseRise", .rise), (b!"Geode by NSC", .nsc),
     (b!"SiS SiS SiS ", .sis), (b!"NexGenDriven", .nexgen), (b!"UMC UMC UMC ", .umc),
     (b!"Vortex86 SoC", .dmp)]
  else []

/-- The display family: the extended family is added exactly when the family is 15. -/
def displayFamily (eax : Nat) : Nat :=
  if eax / 256 % 16 = 15 then 15 + eax / 1048576 % 256 else eax / 256 % 16

/-- The display model: the extended model counts exactly when the family is 6 or 15. -/
def displayModel (eax : Nat) : Nat :=
  if eax / 256 % 16 = 6 ∨ eax / 256 % 16 = 15 then eax / 16 % 16 + 16 * (eax / 65536 % 16)
  else eax / 16 % 16

/-- The vendor that makes processors of a microarchitecture. -/
def MadeBy : Uarch → Vendor → Prop
  | .unknown, _ => False
  | .k5, v | .k6, v | .geode, v | .k7, v | .k8, v | .k10, v | .bobcat, v | .bulldozer, v
  | .piledriver, v | .steamroller, v | .excavator, v | .puma, v | .jaguar, v | .zen, v | .zen2, v
  | .zen3, v | .zen4, v | .zen5, v => v = .amd
  | .dhyana, v => v = .hygon
  | _, v => v = .intel

/-- `k` bits are just enough to number `n` things. -/
def IsBits (n k : Nat) : Prop := n ≤ 2 ^ k ∧ ∀ j, n ≤ 2 ^ j → k ≤ j

/-- Leaf 0xB: type and shift of one level. -/
def level (r : Regs) : Nat × Nat := (r.ecx / 256 % 256, r.eax % 32)

/-- The levels the leaf enumerates, up to the first invalid one (type 0). -/
def Levels (leafB : Nat → Regs) (ls : List (Nat × Nat)) : Prop :=
  (∀ i, i < ls.length → ls[i]? = some (level (leafB i)) ∧ (level (leafB i)).1 ≠ 0) ∧
    (level (leafB ls.length)).1 = 0

/-- Neither an SMT nor a core level. -/
def OtherLevels (ls : List (Nat × Nat)) : Prop := ∀ l ∈ ls, l.1 ≠ 1 ∧ l.1 ≠ 2

/-- The orders of levels that processors use: SMT before core, or only core, or nothing; other
levels (which leaf 0xB does not define) only behind them. -/
def UsualLevels (ls : List (Nat × Nat)) : Prop :=
  OtherLevels ls ∨
    (∃ s rest, ls = (2, s) :: rest ∧ OtherLevels rest) ∨
    ∃ s₁ s₂ rest, ls = (1, s₁) :: (2, s₂) :: rest ∧ OtherLevels rest

/-- The registers of a leaf-2 answer that hold descriptors: those whose bit 31 is clear, without
the lowest byte of eax, which is an iteration count. -/
def validDescriptors (r : Regs) : Bytes :=
  (if r.eax.testBit 31 then [] else (chars r.eax).drop 1) ++
  (if r.ebx.testBit 31 then [] else chars r.ebx) ++
  (if r.ecx.testBit 31 then [] else chars r.ecx) ++
  if r.edx.testBit 31 then [] else chars r.edx

/-- The kinds of caches of the deterministic cache leaves: type 1 data, 2 instructions,
3 unified. -/
inductive Fills (maxLevel : Nat) : (type level : Nat) → Slot → Prop
  | l1d : Fills maxLevel 1 1 .l1d
  | l1i : Fills maxLevel 2 1 .l1i
  | unified_l1d : Fills maxLevel 3 1 .l1d
  | unified_l1i : Fills maxLevel 3 1 .l1i
  | l2 (type : Nat) (h : type = 1 ∨ type = 3) : Fills maxLevel type 2 .l2
  | l3 (type : Nat) (h : type = 1 ∨ type = 3) : Fills maxLevel type 3 .l3
  | l4 (type : Nat) (h : type = 1 ∨ type = 3) (hl : 4 ≤ maxLevel) : Fills maxLevel type 4 .l4

/-- Type and level of a deterministic cache sub-leaf. -/
def cacheType (r : Regs) : Nat := r.eax % 32
/-- See `cacheType`. -/
def cacheLevel (r : Regs) : Nat := r.eax / 32 % 8

/-- The sub-leaf fills the cache level (`maxLevel`: the highest level of the leaf). -/
def SubleafFills (maxLevel : Nat) (r : Regs) (s : Slot) : Prop :=
  Fills maxLevel (cacheType r) (cacheLevel r) s

/-- The cache that a deterministic cache sub-leaf describes.  `complex`: whether the leaf has the
complex-indexing bit. -/
structure Describes (complex : Bool) (r : Regs) (d : X86Init.CacheDesc) : Prop where
  lineSize : d.lineSize = r.ebx % 4096 + 1
  partitions : d.partitions = r.ebx / 4096 % 1024 + 1
  associativity : d.associativity = r.ebx / 4194304 + 1
  sets : d.sets = (r.ecx + 1) % U32
  size : d.size = d.associativity * d.partitions * d.lineSize * d.sets % U32
  sharing : IsBits (r.eax / 16384 % 4096 + 1) d.apicBits
  unified : d.flags.testBit 0 = (cacheType r == 3)
  inclusive : d.flags.testBit 1 = r.edx.testBit 1
  complexIndexing : d.flags.testBit 2 = (complex && r.edx.testBit 2)
  otherFlags : d.flags < 8

/-- The leaf enumerates `n` sub-leaves: the first null one is number `n`. -/
def Subleaves (sub : Nat → Regs) (n : Nat) : Prop :=
  (∀ i < n, cacheType (sub i) ≠ 0) ∧ cacheType (sub n) = 0

/-- Sub-leaf `i` is the last of the `n` sub-leaves that fills the level. -/
def LastFills (maxLevel : Nat) (sub : Nat → Regs) (n : Nat) (s : Slot) (i : Nat) : Prop :=
  i < n ∧ SubleafFills maxLevel (sub i) s ∧ ∀ j, i < j → j < n → ¬SubleafFills maxLevel (sub j) s

/-- What Intel documents (SDM volume 2, application note 485) about the cache descriptors of
leaf 2, as quoted in the comments of src/x86/cache/descriptor.c: descriptor, level, size in KB,
associativity, line size. -/
def documentedDescriptors : List (Nat × Slot × Nat × Nat × Nat) :=
  [(0x06, .l1i, 8, 4, 32),
   (0x08, .l1i, 16, 4, 32),
   (0x09, .l1i, 32, 4, 64),
   (0x0A, .l1d, 8, 2, 32),
   (0x0C, .l1d, 16, 4, 32),
   (0x0D, .l1d, 16, 4, 64),
   (0x0E, .l1d, 24, 6, 64),
   (0x1D, .l2, 128, 2, 64),
   (0x21, .l2, 256, 8, 64),
   (0x22, .l3, 512, 4, 64),
   (0x23, .l3, 1024, 8, 64),
   (0x24, .l2, 1024, 16, 64),
   (0x25, .l3, 2048, 8, 64),
   (0x29, .l3, 4096, 8, 64),
   (0x2C, .l1d, 32, 8, 64),
   (0x30, .l1i, 32, 8, 64),
   (0x41, .l2, 128, 4, 32),
   (0x42, .l2, 256, 4, 32),
   (0x43, .l2, 512, 4, 32),
   (0x44, .l2, 1024, 4, 32),
   (0x45, .l2, 2048, 4, 32),
   (0x46, .l3, 4096, 4, 64),
   (0x47, .l3, 8192, 8, 64),
   (0x48, .l2, 3072, 12, 64),
   (0x49, .l2, 4096, 16, 64),
   (0x49, .l3, 4096, 16, 64),
   (0x4A, .l3, 6144, 12, 64),
   (0x4B, .l3, 8192, 16, 64),
   (0x4C, .l3, 12288, 12, 64),
   (0x4D, .l3, 16384, 16, 64),
   (0x4E, .l2, 6144, 24, 64),
   (0x60, .l1d, 16, 8, 64),
   (0x66, .l1d, 8, 4, 64),
   (0x67, .l1d, 16, 4, 64),
   (0x68, .l1d, 32, 4, 64),
   (0x78, .l2, 1024, 4, 64),
   (0x79, .l2, 128, 8, 64),
   (0x7A, .l2, 256, 8, 64),
   (0x7B, .l2, 512, 8, 64),
   (0x7C, .l2, 1024, 8, 64),
   (0x7D, .l2, 2048, 8, 64),
   (0x7F, .l2, 512, 2, 64),
   (0x80, .l2, 512, 8, 64),
   (0x82, .l2, 256, 8, 32),
   (0x83, .l2, 512, 8, 32),
   (0x84, .l2, 1024, 8, 32),
   (0x85, .l2, 2048, 8, 32),
   (0x86, .l2, 512, 4, 64),
   (0x87, .l2, 1024, 8, 64),
   (0xD0, .l3, 512, 4, 64),
   (0xD1, .l3, 1024, 4, 64),
   (0xD2, .l3, 2048, 4, 64),
   (0xD6, .l3, 1024, 8, 64),
   (0xD7, .l3, 2048, 8, 64),
   (0xD8, .l3, 4096, 8, 64),
   (0xDC, .l3, 1536, 12, 64),
   (0xDD, .l3, 3072, 12, 64),
   (0xDE, .l3, 6144, 12, 64),
   (0xE2, .l3, 2048, 16, 64),
   (0xE3, .l3, 4096, 16, 64),
   (0xE4, .l3, 8192, 16, 64),
   (0xEA, .l3, 12288, 24, 64),
   (0xEB, .l3, 18432, 24, 64),
   (0xEC, .l3, 24576, 24, 64)]

end Verif.Spec
