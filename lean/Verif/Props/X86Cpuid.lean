import Verif.Proof.X86Topology
import Verif.Props.X86Init

/-!
# C23–C26, C29, C30, C59–C63: what the CPUID leaves are decoded to

The answers of the CPUID instruction are arbitrary.  Loops over sub-leaves end at the first null
sub-leaf; the theorems hold for every bound `fuel` on the number of rounds that is larger than the
number of sub-leaves.
-/

set_option autoImplicit false

namespace Verif.Props
open Spec X86Cpuid
open X86Init (Topology CacheDesc)

/-! ## C29, C30, C62: vendor, signature, microarchitecture -/

/-- **C29.** A known vendor is reported exactly when the twelve characters of leaf 0 are one of
its vendor strings. -/
theorem C29_vendor_exact (t : Target) (ebx ecx edx : Nat) (hb : ebx < U32) (hc : ecx < U32)
    (hd : edx < U32) (v : Vendor) (hv : v ≠ .unknown) :
    decodeVendor t ebx ecx edx = v ↔ (chars ebx ++ chars edx ++ chars ecx, v) ∈ knownVendors t :=
  decodeVendor_chars t ebx ecx edx hb hc hd v hv

/-- **C29.** The vendor is unknown exactly when the characters are no known vendor string. -/
theorem C29_unknown_exact (t : Target) (ebx ecx edx : Nat) (hb : ebx < U32) (hc : ecx < U32)
    (hd : edx < U32) :
    decodeVendor t ebx ecx edx = .unknown ↔
      ∀ v, (chars ebx ++ chars edx ++ chars ecx, v) ∉ knownVendors t := by
  constructor
  · intro h v hm
    have hv := knownVendors_known t _ hm
    have := (decodeVendor_chars t ebx ecx edx hb hc hd v hv).mpr hm
    rw [h] at this
    exact hv this.symm
  · intro h
    cases hv : decodeVendor t ebx ecx edx
    case unknown => rfl
    all_goals
      exact absurd ((decodeVendor_chars t ebx ecx edx hb hc hd _ (by decide)).mp hv) (h _)

/-- "GenuineIntel" in both builds; "Genuine  RDC" only in 32-bit builds. -/
example :
    decodeVendor ⟨false, false⟩ 0x756E6547 0x6C65746E 0x49656E69 = .intel ∧
    decodeVendor ⟨true, false⟩ 0x756E6547 0x43445220 0x20656E69 = .rdc ∧
    decodeVendor ⟨false, false⟩ 0x756E6547 0x43445220 0x20656E69 = .unknown := by decide

/-- **C30, what holds.** The fields of the signature are its bit fields, they are in their
documented ranges, and family and model are the documented display family and model whenever the
extended fields that do not count are zero. -/
theorem C30_signature_partial (eax : Nat) :
    let m := decodeModelInfo eax
    m.stepping = eax % 16 ∧ m.processorType = eax / 4096 % 4 ∧
    m.family ≤ 270 ∧ m.model ≤ 255 ∧ m.stepping ≤ 15 ∧
    m.extendedModel = eax / 65536 % 16 ∧ m.extendedFamily = eax / 1048576 % 256 ∧
    ((eax / 256 % 16 = 15 ∨ eax / 1048576 % 256 = 0) → m.family = displayFamily eax) ∧
    ((eax / 256 % 16 = 6 ∨ eax / 256 % 16 = 15 ∨ eax / 65536 % 16 = 0) →
      m.model = displayModel eax) := by
  simp only [modelInfo_eq, displayFamily, displayModel]
  refine ⟨trivial, trivial, by omega, by omega, by omega, trivial, trivial, ?_, ?_⟩
  · intro h; split <;> omega
  · intro h; split <;> omega

/-- An Ice Lake client signature: family 6, model 0x7E, stepping 5. -/
example : (decodeModelInfo 0x706E5).family = 6 ∧ (decodeModelInfo 0x706E5).model = 0x7E ∧
    (decodeModelInfo 0x706E5).stepping = 5 ∧ displayFamily 0x706E5 = 6 ∧
    displayModel 0x706E5 = 0x7E := by decide

/-- **C30 is violated.** The extended family and model are added whatever the family is: signature
0x00130512 (family 5, model 1, with reserved extended bits set) is decoded as family 6, model
0x31. -/
theorem C30_violated :
    ∃ eax < U32, (decodeModelInfo eax).family ≠ displayFamily eax ∧
      (decodeModelInfo eax).model ≠ displayModel eax :=
  ⟨0x00130512, by decide, by decide, by decide⟩

/-- **C62 is violated.** No signature of a Hygon Dhyana processor (family 0x18) is reported as
Dhyana; the microarchitecture is unknown for every signature with a non-zero family. -/
theorem C62_violated (t : Target) (eax : Nat) (h : displayFamily eax = 0x18) :
    decodeUarch t .hygon (decodeModelInfo eax) = .unknown := by
  have : (decodeModelInfo eax).family ≠ 0 := by
    simp only [modelInfo_eq]
    simp only [displayFamily] at h
    split at h <;> omega
  simp [decodeUarch, this]

/-- The signature of a Hygon C86 7185. -/
example : displayFamily 0x00900F01 = 0x18 := by decide

/-- Unknown or made by the vendor. -/
def UnknownOr (v : Vendor) (u : Uarch) : Prop := u = .unknown ∨ MadeBy u v

theorem unknownOr_ite (v : Vendor) (c : Prop) [Decidable c] (x y : Uarch) (hx : UnknownOr v x)
    (hy : UnknownOr v y) : UnknownOr v (if c then x else y) := by
  split
  · exact hx
  · exact hy

theorem unknownOr_intel (t : Target) (f m : Nat) : UnknownOr .intel (intelUarch t f m) := by
  unfold intelUarch
  repeat' apply unknownOr_ite
  all_goals first
    | exact Or.inl rfl
    | exact Or.inr rfl

theorem unknownOr_amd (t : Target) (f m x : Nat) : UnknownOr .amd (amdUarch t f m x) := by
  unfold amdUarch
  repeat' apply unknownOr_ite
  all_goals first
    | exact Or.inl rfl
    | exact Or.inr rfl

/-- **C62, what holds.** A known microarchitecture is only reported for processors of the vendor
that makes it. -/
theorem C62_vendor_partial (t : Target) (v : Vendor) (m : ModelInfo)
    (h : decodeUarch t v m ≠ .unknown) : MadeBy (decodeUarch t v m) v := by
  cases v
  case intel => exact (unknownOr_intel t m.family m.model).resolve_left h
  case amd => exact (unknownOr_amd t m.family m.model m.extendedModel).resolve_left h
  case hygon =>
    simp only [decodeUarch] at h ⊢
    split
    · rfl
    · next h0 => simp [h0] at h
  all_goals exact absurd rfl h

/-- A Zen 3 signature (family 0x19, model 0x21). -/
example : decodeUarch ⟨false, false⟩ .amd (decodeModelInfo 0x00A20F12) = .zen3 ∧
    decodeUarch ⟨false, false⟩ .intel (decodeModelInfo 0x00A20F12) = .unknown := by decide

/-! ## C23, C59: the extended topology leaf -/

section Levels
variable (c : Cpuid) (fuel maxBase maxExt : Nat) (leaf1 : Regs) (t : Topology)
  (hx : leaf1.ecx.testBit 21 = true) (hb : 11 ≤ maxBase) (ls : List (Nat × Nat))
  (hu : ls.length < U32) (hf : ls.length < fuel)
include hx hb hu hf

theorem levels_fold (hl : Levels (c.sub 11) ls) :
    detectTopology c fuel maxBase maxExt leaf1 t = some (foldLevels ls 0 ⟨0, 0, 0, 0⟩) := by
  rw [detectTopology_x2apic c fuel maxBase maxExt leaf1 t hx hb,
    levelLoop_spec (c.sub 11) ls hl hu fuel 0 0 _ (Nat.zero_le _) (by omega)]
  rfl

/-- **C23, what is computed.** When leaf 0xB lists an SMT level with shift `s₁` and then a core
level with shift `s₂`, the SMT field is the documented one (bits 0 to `s₁ - 1`), and the core field
starts where it should but is `s₂` bits long. -/
theorem C23_smt_then_core (s₁ s₂ : Nat) (rest : List (Nat × Nat)) (ho : OtherLevels rest)
    (hls : ls = (1, s₁) :: (2, s₂) :: rest) (hl : Levels (c.sub 11) ls) :
    detectTopology c fuel maxBase maxExt leaf1 t = some ⟨0, s₁, s₁, s₂⟩ := by
  rw [levels_fold c fuel maxBase maxExt leaf1 t hx hb ls hu hf hl, hls, foldLevels, foldLevels,
    foldLevels_other rest ho]
  have h0 := (hl.1 0 (by rw [hls]; simp)).1
  rw [hls] at h0
  have hs : s₁ < 32 := by
    have : s₁ = (c.sub 11 0).eax % 32 := congrArg Prod.snd (Option.some.inj h0)
    omega
  simp [applyLevel, Nat.mod_eq_of_lt (show s₁ < U32 by omega)]

/-- **C23, what holds.** With a shift of 0 for the SMT level, or with only one of the levels, the
fields are the documented ones: SMT covers the bits below the first shift, core the bits from
there to the second shift.  Missing for the full C23: SMT and core levels both with non-zero
shifts (false, see `C23_violated`). -/
theorem C23_fields_partial (hl : Levels (c.sub 11) ls) :
    (∀ s₂ rest, OtherLevels rest → ls = (1, 0) :: (2, s₂) :: rest →
      detectTopology c fuel maxBase maxExt leaf1 t = some ⟨0, 0, 0, s₂⟩) ∧
    (∀ s₁ rest, OtherLevels rest → ls = (1, s₁) :: rest →
      detectTopology c fuel maxBase maxExt leaf1 t = some ⟨0, s₁, 0, 0⟩) ∧
    (∀ s₂ rest, OtherLevels rest → ls = (2, s₂) :: rest →
      detectTopology c fuel maxBase maxExt leaf1 t = some ⟨0, 0, 0, s₂⟩) := by
  refine ⟨fun s₂ rest ho hls =>
    C23_smt_then_core c fuel maxBase maxExt leaf1 t hx hb ls hu hf 0 s₂ rest ho hls hl, ?_, ?_⟩
  all_goals
    intro s rest ho hls
    rw [levels_fold c fuel maxBase maxExt leaf1 t hx hb ls hu hf hl, hls, foldLevels,
      foldLevels_other rest ho]
    rfl

/-- **C59, what is computed.** An extended topology leaf that lists no level erases what the
legacy leaves said. -/
theorem C59_legacy_erased (hls : ls = []) (hl : Levels (c.sub 11) ls) :
    detectTopology c fuel maxBase maxExt leaf1 t = some ⟨0, 0, 0, 0⟩ := by
  rw [levels_fold c fuel maxBase maxExt leaf1 t hx hb ls hu hf hl, hls]
  rfl

end Levels

/-- **C59, what holds.** Without x2APIC, or without leaf 0xB, the topology is that of the legacy
leaves whatever leaf 0xB would answer. -/
theorem C59_legacy_kept_partial (c : Cpuid) (fuel maxBase maxExt : Nat) (leaf1 : Regs)
    (t : Topology) (hx : leaf1.ecx.testBit 21 = false ∨ maxBase < 11) :
    detectTopology c fuel maxBase maxExt leaf1 t = some (legacyTopology c maxExt leaf1 t) :=
  detectTopology_legacy c fuel maxBase maxExt leaf1 t hx

/-! ## C24: the legacy leaves -/

section Legacy
variable (c : Cpuid) (fuel maxBase maxExt : Nat) (leaf1 : Regs) (t : Topology)
  (hx : leaf1.ecx.testBit 21 = false ∨ maxBase < 11)
include hx

/-- **C24.** Without the HTT bit the fields stay as leaf 4 left them. -/
theorem C24_no_htt (h : leaf1.edx.testBit 28 = false) :
    detectTopology c fuel maxBase maxExt leaf1 t = some t := by
  rw [detectTopology_legacy c fuel maxBase maxExt leaf1 t hx,
    legacyTopology_no_htt c maxExt leaf1 t h]

/-- **C24.** The SMT field starts at bit 0 and the core field where the SMT field ends. -/
theorem C24_low_fields (ht : LowFields t) :
    ∃ t', detectTopology c fuel maxBase maxExt leaf1 t = some t' ∧ LowFields t' :=
  ⟨_, detectTopology_legacy c fuel maxBase maxExt leaf1 t hx, legacyTopology_low c maxExt leaf1 t ht⟩

/-- **C24, AMD.** In legacy mode there is no SMT field, and the core field is just wide enough
for the number of cores in leaf 0x80000008, or, without that leaf, for the number of logical
processors in leaf 1. -/
theorem C24_amd (h : leaf1.edx.testBit 28 = true) (h1 : 0x80000001 ≤ maxExt)
    (ha : (c.leaf 0x80000001).ecx.testBit 1 = true) (ht : t = ⟨0, 0, 0, t.coreLength⟩) :
    ∃ n, detectTopology c fuel maxBase maxExt leaf1 t = some ⟨0, 0, 0, n⟩ ∧
      (0x80000008 ≤ maxExt → IsBits ((c.leaf 0x80000008).ecx % 256 + 1) n) ∧
      (maxExt < 0x80000008 → leaf1.ebx / 65536 % 256 ≠ 0 → IsBits (leaf1.ebx / 65536 % 256) n) := by
  rw [detectTopology_legacy c fuel maxBase maxExt leaf1 t hx]
  by_cases h8 : 0x80000008 ≤ maxExt
  · refine ⟨_, ?_, fun _ => isBits_bitLength ((c.leaf 0x80000008).ecx % 256 + 1) (by omega)
      (by omega), fun h => absurd h8 (by omega)⟩
    rw [legacyTopology_amd c maxExt leaf1 t h h8 ha, ht]
  · rw [legacyTopology_amd_old c maxExt leaf1 t h h1 (by omega) ha]
    by_cases h0 : leaf1.ebx / 65536 % 256 = 0
    · rw [if_pos h0]
      exact ⟨t.coreLength, congrArg some ht, fun h => absurd h h8, fun _ h => absurd h0 h⟩
    · rw [if_neg h0]
      refine ⟨bitLength (leaf1.ebx / 65536 % 256), ?_, fun h => absurd h h8, fun _ _ =>
        isBits_bitLength (leaf1.ebx / 65536 % 256) (by omega) (by omega)⟩
      rw [ht]

/-- **C24, Intel.** If the core field (of leaf 4) is not wider than needed for the number of
logical processors in leaf 1, SMT and core field together are just wide enough for that number.
Missing for the full C24: a wider core field (false, see `C24_violated`). -/
theorem C24_intel_partial (h : leaf1.edx.testBit 28 = true)
    (ha : maxExt < 0x80000001 ∨ (c.leaf 0x80000001).ecx.testBit 1 = false)
    (h0 : leaf1.ebx / 65536 % 256 ≠ 0) (hw : ∀ k, IsBits (leaf1.ebx / 65536 % 256) k → t.coreLength ≤ k)
    (ht : t = ⟨0, 0, 0, t.coreLength⟩) :
    ∃ n, detectTopology c fuel maxBase maxExt leaf1 t = some ⟨0, n, n, t.coreLength⟩ ∧
      IsBits (leaf1.ebx / 65536 % 256) (n + t.coreLength) := by
  have hb := isBits_bitLength (leaf1.ebx / 65536 % 256) (by omega) (by omega)
  have hw := hw _ hb
  have h8 := bitLength_le (leaf1.ebx / 65536 % 256) 8 (by omega) (by decide) (by omega)
  refine ⟨bitLength (leaf1.ebx / 65536 % 256) - t.coreLength, ?_, ?_⟩
  · rw [detectTopology_legacy c fuel maxBase maxExt leaf1 t hx,
      legacyTopology_intel c maxExt leaf1 t h ha, if_neg h0]
    have e : sub32 (bitLength (leaf1.ebx / 65536 % 256)) t.coreLength =
        bitLength (leaf1.ebx / 65536 % 256) - t.coreLength := by
      unfold sub32; omega
    rw [e, ht]
  · rw [Nat.sub_add_cancel hw]; exact hb

end Legacy

/-! ## C25: the deterministic cache leaves -/

/-- **C25.** A null sub-leaf of leaf 4 is recognised as the end of the list; any other sub-leaf
fills exactly the cache levels of its type and level with the geometry, flags and sharing bits it
describes and leaves the others alone.  Unsupported types and levels fill nothing. -/
theorem C25_leaf4 (r : Regs) (hr : RegsOk r) (c : Caches) :
    (cacheType r = 0 → decodeLeaf4 r c = none) ∧
    (cacheType r ≠ 0 → ∃ c', decodeLeaf4 r c = some (c', r.eax / 67108864 + 1) ∧
      ∀ s, (SubleafFills 4 r s → Describes true r (c'.get s)) ∧
        (¬SubleafFills 4 r s → c'.get s = c.get s)) :=
  decodeLeaf4_spec r hr c

/-- **C25.** The same for the AMD leaf 0x8000001D, which has no fourth level and no
complex-indexing bit. -/
theorem C25_leaf8000001D (r : Regs) (hr : RegsOk r) (c : Caches) :
    (cacheType r = 0 → decodeLeaf8000001D r c = none) ∧
    (cacheType r ≠ 0 → ∃ c', decodeLeaf8000001D r c = some c' ∧
      ∀ s, (SubleafFills 3 r s → Describes false r (c'.get s)) ∧
        (¬SubleafFills 3 r s → c'.get s = c.get s)) :=
  decodeLeaf8000001D_spec r hr c

/-- **C25.** The size is exact when it fits 32 bits. -/
theorem C25_exact_size (complex : Bool) (r : Regs) (d : CacheDesc) (h : Describes complex r d)
    (hs : r.ecx + 1 < U32)
    (hfit : (r.ebx / 4194304 + 1) * (r.ebx / 4096 % 1024 + 1) * (r.ebx % 4096 + 1) *
      (r.ecx + 1) < U32) :
    d.size = (r.ebx / 4194304 + 1) * (r.ebx / 4096 % 1024 + 1) * (r.ebx % 4096 + 1) *
      (r.ecx + 1) := by
  rw [h.size, h.associativity, h.partitions, h.lineSize, h.sets, Nat.mod_eq_of_lt hs,
    Nat.mod_eq_of_lt hfit]

section DetectCache
variable (t : Target) (cpu : Cpuid) (fuel maxBase maxExt : Nat) (ext : Bool) (v : Vendor)
  (m : ModelInfo) (c : Caches) (l0 n4 n8 : Nat)
  (hok4 : ∀ i, RegsOk (cpu.sub 4 i)) (hok8 : ∀ i, RegsOk (cpu.sub 0x8000001D i))
  (h4 : Subleaves (cpu.sub 4) n4) (h8 : Subleaves (cpu.sub 0x8000001D) n8)
  (hu4 : n4 < U32) (hu8 : n8 < U32) (hf4 : n4 < fuel) (hf8 : n8 < fuel)
include hok4 hok8 h4 h8 hu4 hu8 hf4 hf8

/-- **C25.** On processors of other vendors than AMD and Hygon, without AMD's topology extensions,
enumeration of leaf 4 ends at the first null sub-leaf, and every cache level that some sub-leaf
fills is as the last such sub-leaf describes it.  The number of APIC id bits for cores comes from
the last sub-leaf. -/
theorem C25_detect_leaf4 (hv : v ≠ .amd ∧ v ≠ .hygon) (hb : 4 ≤ maxBase)
    (hx : ext = false ∨ maxExt < 0x8000001D) :
    ∃ c' l, detectCache t cpu fuel maxBase maxExt ext v m c l0 = some (c', l) ∧
      (∀ s i, LastFills 4 (cpu.sub 4) n4 s i → Describes true (cpu.sub 4 i) (c'.get s)) ∧
      (n4 ≠ 0 → IsBits ((cpu.sub 4 (n4 - 1)).eax / 67108864 + 1) l) ∧ (n4 = 0 → l = l0) := by
  obtain ⟨c4, c8, l, e, h1, -, -, h2⟩ := detectCache_spec t cpu fuel maxBase maxExt ext v m c l0 n4
    n8 hok4 hok8 (fun _ => h4) (fun _ => h8) hu4 hu8 hf4 hf8
  obtain ⟨ha, hl⟩ := h1 ⟨hv.1, hv.2, hb⟩
  have hx' : ¬(ext = true ∧ 0x8000001D ≤ maxExt) := by
    rintro ⟨rfl, h⟩
    rcases hx with h' | h'
    · cases h'
    · omega
  obtain rfl := h2 hx'
  refine ⟨c8, l, e, fun s i hi => (ha s).1 i hi, fun hn => ?_, fun hn => by rw [hl, if_pos hn]⟩
  rw [hl, if_neg hn]
  have := (hok4 (n4 - 1)).1
  exact isBits_bitLength _ (by omega) (by omega)

/-- **C25.** With AMD's topology extensions, enumeration of leaf 0x8000001D ends at the first null
sub-leaf, and every cache level that some sub-leaf fills is as the last such sub-leaf describes
it. -/
theorem C25_detect_leaf8000001D (hx : ext = true) (hm : 0x8000001D ≤ maxExt) :
    ∃ c' l, detectCache t cpu fuel maxBase maxExt ext v m c l0 = some (c', l) ∧
      ∀ s i, LastFills 3 (cpu.sub 0x8000001D) n8 s i →
        Describes false (cpu.sub 0x8000001D i) (c'.get s) := by
  obtain ⟨c4, c8, l, e, -, -, h2, -⟩ := detectCache_spec t cpu fuel maxBase maxExt ext v m c l0 n4
    n8 hok4 hok8 (fun _ => h4) (fun _ => h8) hu4 hu8 hf4 hf8
  exact ⟨c8, l, e, fun s i hi => (h2 ⟨hx, hm⟩ s).1 i hi⟩

/-- **C26, all caches.** Whatever the leaves say, as long as leaf 2 does not list descriptor 0xD2:
every cache level that detection starts without has a size that is the product of its geometry
(modulo 2^32, like all the arithmetic). -/
theorem C26_detected_geometry_partial
    (h2 : 2 ≤ maxBase → ∀ i < (cpu.leaf2 0).eax % 256, 0xD2 ∉ (cpu.leaf2 i).bytes.drop 1)
    (hc : ∀ s, (c.get s).size =
      (c.get s).associativity * (c.get s).partitions * (c.get s).lineSize * (c.get s).sets % U32) :
    ∃ c' l, detectCache t cpu fuel maxBase maxExt ext v m c l0 = some (c', l) ∧ ∀ s,
      (c'.get s).size = (c'.get s).associativity * (c'.get s).partitions * (c'.get s).lineSize *
        (c'.get s).sets % U32 := by
  obtain ⟨c4, c8, l, e, h1, h1', h3, h3'⟩ := detectCache_spec t cpu fuel maxBase maxExt ext v m c l0
    n4 n8 hok4 hok8 (fun _ => h4) (fun _ => h8) hu4 hu8 hf4 hf8
  refine ⟨c8, l, e, ?_⟩
  have step : ∀ (k : Nat) (b : Bool) (sub : Nat → Regs) (n : Nat) (x y : Caches),
      After k b sub n x y →
      (∀ s, (x.get s).size = (x.get s).associativity * (x.get s).partitions *
        (x.get s).lineSize * (x.get s).sets % U32) →
      ∀ s, (y.get s).size = (y.get s).associativity * (y.get s).partitions *
        (y.get s).lineSize * (y.get s).sets % U32 := by
    intro k b sub n x y ha hx s
    rcases lastFills_or k sub n s with ⟨i, hi⟩ | hi
    · exact ((ha s).1 i hi).size
    · rw [(ha s).2 hi]; exact hx s
  have e2 : ∀ s, ((afterLeaf2 t cpu maxBase v m c).get s).size =
      ((afterLeaf2 t cpu maxBase v m c).get s).associativity *
      ((afterLeaf2 t cpu maxBase v m c).get s).partitions *
      ((afterLeaf2 t cpu maxBase v m c).get s).lineSize *
      ((afterLeaf2 t cpu maxBase v m c).get s).sets % U32 := by
    intro s
    unfold afterLeaf2
    split
    · next hb =>
      refine leaf2Loop_inv (fun _ d => d.size = d.associativity * d.partitions * d.lineSize *
        d.sets % U32) t v m _ _ _ c hc ?_ s
      intro i hi b hb' _ s d hd
      have hne : b ≠ 0xD2 := by
        rintro rfl
        rw [Nat.zero_add] at hb'
        exact h2 hb i hi hb'
      exact effect_geometry t v m b s d hd hne
    · exact hc s
  have e4 : ∀ s, (c4.get s).size = (c4.get s).associativity * (c4.get s).partitions *
      (c4.get s).lineSize * (c4.get s).sets % U32 := by
    by_cases hv : UsesLeaf4 v maxBase
    · exact step _ _ _ _ _ _ (h1 hv).1 e2
    · rw [(h1' hv).1]; exact e2
  by_cases hx : ext = true ∧ 0x8000001D ≤ maxExt
  · exact step _ _ _ _ _ _ (h3 hx) e4
  · rw [h3' hx]; exact e4

end DetectCache

/-! ## C26, C60, C61: the descriptors of leaf 2 -/

/-- **C26, what holds.** Every cache level that a descriptor other than 0xD2 fills has the size its
geometry gives; the other levels are left alone. -/
theorem C26_descriptor_geometry_partial (t : Target) (v : Vendor) (m : ModelInfo) (b : Byte)
    (hb : b ≠ 0xD2) (c : Caches) (s : Slot) :
    (decodeDescriptor t v m b c).get s = c.get s ∨
    ∃ d, (∀ c', (decodeDescriptor t v m b c').get s = d) ∧
      d.size = d.associativity * d.sets * d.partitions * d.lineSize ∧ d.size ≠ 0 := by
  rcases decodeDescriptor_get t v m b c s with ⟨d, hd, e⟩ | ⟨-, e⟩
  · right
    refine ⟨d, fun c' => ?_, (effect_ok t v m b s d hd).2 hb, effect_pos t v m b s d hd⟩
    rcases decodeDescriptor_get t v m b c' s with ⟨d', hd', e'⟩ | ⟨h, -⟩
    · rw [e']; exact effect_functional t v m b s d' d hd' hd
    · exact absurd hd (h d)
  · exact Or.inl e

/-- **C26 is violated** by descriptor 0xD2, whatever the vendor and the model: its size is given
as 2·1024·2014 bytes, its geometry is that of a 2 MB cache. -/
theorem C26_violated (t : Target) (v : Vendor) (m : ModelInfo) (c : Caches) :
    let d := (decodeDescriptor t v m 0xD2 c).get .l3
    d.size = 4124672 ∧ d.associativity * d.sets * d.partitions * d.lineSize = 2097152 := by
  have : decodeDescriptor t v m 0xD2 c = c.put ⟨4124672, 4, 8192, 1, 64, 2, 0⟩ .l3 := by
    rw [decodeDescriptor, if_neg (by decide), if_neg (by decide)]
    have : (descriptorTable.find? fun r => r.1 == 0xD2) =
        some (0xD2, .l3, ⟨4124672, 4, 8192, 1, 64, 2, 0⟩) := by decide +kernel
    rw [this]
  rw [this]
  simp only [get_put, if_true]
  exact ⟨trivial, by decide⟩

/-- **C61, what holds.** Every descriptor that Intel documents as a cache, except 0x82 and 0xD2,
fills the documented level with the documented size, associativity and line size on Intel
processors; 0x49 is the level 3 cache it documents for family 15, model 6 and the level 2 cache
for all others. -/
theorem C61_documented_partial (t : Target) (m : ModelInfo) (c : Caches) (b : Byte) (s : Slot)
    (kb ways line : Nat) (h : (b, s, kb, ways, line) ∈ documentedDescriptors)
    (hb : b ≠ 0x82 ∧ b ≠ 0xD2)
    (h49 : b = 0x49 → (s = .l3 ↔ m.family = 0x0F ∧ m.model = 0x06)) :
    let d := (decodeDescriptor t .intel m b c).get s
    d.size = kb * 1024 ∧ d.associativity = ways ∧ d.lineSize = line ∧
      ∀ s' ≠ s, (decodeDescriptor t .intel m b c).get s' = c.get s' := by
  by_cases e49 : b = 0x49
  · subst e49
    have h49 := h49 rfl
    have hrow : (s = .l2 ∨ s = .l3) ∧ kb = 4096 ∧ ways = 16 ∧ line = 64 := by
      have : ∀ r ∈ documentedDescriptors, r.1 = 0x49 →
          (r.2.1 = .l2 ∨ r.2.1 = .l3) ∧ r.2.2.1 = 4096 ∧ r.2.2.2.1 = 16 ∧ r.2.2.2.2 = 64 := by
        decide +kernel
      exact this _ h rfl
    obtain ⟨hs, rfl, rfl, rfl⟩ := hrow
    by_cases hm : m.model = 0x06 ∧ m.family = 0x0F
    · have : s = .l3 := h49.mpr ⟨hm.2, hm.1⟩
      subst this
      have e : decodeDescriptor t .intel m 0x49 c =
          c.put ⟨4194304, 16, 4096, 1, 64, 2, 0⟩ .l3 := by
        rw [decodeDescriptor, if_pos rfl, if_pos ⟨rfl, hm⟩]; rfl
      rw [e]
      exact ⟨rfl, rfl, rfl, fun s' hs' => by rw [get_put, if_neg hs']⟩
    · have : s = .l2 := by
        rcases hs with h | h
        · exact h
        · exact absurd (h49.mp h) fun h => hm ⟨h.2, h.1⟩
      subst this
      have e : decodeDescriptor t .intel m 0x49 c =
          c.put ⟨4194304, 16, 4096, 1, 64, 2, 0⟩ .l2 := by
        rw [decodeDescriptor, if_pos rfl, if_neg (fun h => hm h.2)]; rfl
      rw [e]
      exact ⟨rfl, rfl, rfl, fun s' hs' => by rw [get_put, if_neg hs']⟩
  by_cases e80 : b = 0x80
  · subst e80
    have hrow : s = .l2 ∧ kb = 512 ∧ ways = 8 ∧ line = 64 := by
      have : ∀ r ∈ documentedDescriptors, r.1 = 0x80 →
          r.2.1 = .l2 ∧ r.2.2.1 = 512 ∧ r.2.2.2.1 = 8 ∧ r.2.2.2.2 = 64 := by
        decide +kernel
      exact this _ h rfl
    obtain ⟨rfl, rfl, rfl, rfl⟩ := hrow
    have e : decodeDescriptor t .intel m 0x80 c =
        c.put ⟨524288, 8, 1024, 1, 64, 2, 0⟩ .l2 := by
      rw [decodeDescriptor, if_neg (by decide), if_pos rfl, if_neg (by simp)]; rfl
    rw [e]
    exact ⟨rfl, rfl, rfl, fun s' hs' => by rw [get_put, if_neg hs']⟩
  · have hrow : ∀ r ∈ documentedDescriptors, r.1 ≠ 0x82 → r.1 ≠ 0xD2 → r.1 ≠ 0x49 → r.1 ≠ 0x80 →
        ∃ x ∈ descriptorTable.find? (fun x => x.1 == r.1), x.2.1 = r.2.1 ∧
          x.2.2.size = r.2.2.1 * 1024 ∧ x.2.2.associativity = r.2.2.2.1 ∧
          x.2.2.lineSize = r.2.2.2.2 := by
      decide +kernel
    obtain ⟨⟨b', s', d⟩, hf, h1, h2, h3, h4⟩ := hrow _ h hb.1 hb.2 e49 e80
    dsimp only at h1 h2 h3 h4
    subst h1
    have e : decodeDescriptor t .intel m b c = c.put d s' := by
      rw [decodeDescriptor, if_neg e49, if_neg e80]
      rw [Option.mem_def] at hf
      rw [hf]
    rw [e]
    simp only [get_put]
    exact ⟨by simpa using h2, by simpa using h3, by simpa using h4,
      fun x hx => by rw [if_neg hx]⟩

/-- **C61.** No other descriptor fills a cache level, except the undocumented 0x39 to 0x3E. -/
theorem C61_undocumented (t : Target) (v : Vendor) (m : ModelInfo) (c : Caches) (b : Byte)
    (h : ∀ r ∈ documentedDescriptors, r.1 ≠ b) (h3 : ¬(0x39 ≤ b ∧ b ≤ 0x3E)) :
    decodeDescriptor t v m b c = c := by
  have h49 : b ≠ 0x49 := fun e => h (0x49, .l2, 4096, 16, 64) (by decide +kernel) e.symm
  have h80 : b ≠ 0x80 := fun e => h (0x80, .l2, 512, 8, 64) (by decide +kernel) e.symm
  rw [decodeDescriptor, if_neg h49, if_neg h80]
  cases hf : descriptorTable.find? fun r => r.1 == b with
  | none => rfl
  | some x =>
    exfalso
    have hx : x.1 = b := by simpa using List.find?_some hf
    have hall : ∀ x ∈ descriptorTable, (∃ r ∈ documentedDescriptors, r.1 = x.1) ∨
        (0x39 ≤ x.1 ∧ x.1 ≤ 0x3E) := by decide +kernel
    rcases hall x (List.mem_of_find?_eq_some hf) with ⟨r, hr, e⟩ | hr
    · exact h r hr (e.trans hx)
    · exact h3 (hx ▸ hr)

/-- **C61 is violated** by the descriptors 0x82 (documented as 8-way, reported as 4-way) and 0xD2
(documented as 2 MB, reported as 4124672 bytes). -/
theorem C61_violated (t : Target) (m : ModelInfo) (c : Caches) :
    (0x82, .l2, 256, 8, 32) ∈ documentedDescriptors ∧
    ((decodeDescriptor t .intel m 0x82 c).get .l2).associativity = 4 ∧
    (0xD2, .l3, 2048, 4, 64) ∈ documentedDescriptors ∧
    ((decodeDescriptor t .intel m 0xD2 c).get .l3).size = 4124672 := by
  have e : decodeDescriptor t .intel m 0x82 c = c.put ⟨262144, 4, 2048, 1, 32, 2, 0⟩ .l2 := by
    rw [decodeDescriptor, if_neg (by decide), if_neg (by decide)]
    have : (descriptorTable.find? fun r => r.1 == 0x82) =
        some (0x82, .l2, ⟨262144, 4, 2048, 1, 32, 2, 0⟩) := by decide +kernel
    rw [this]
  rw [e]
  exact ⟨by decide +kernel, rfl, by decide +kernel, (C26_violated t .intel m c).1⟩

/-- **C60, what holds.** If no register of the leaf-2 answers is marked invalid (bit 31), every
cache level after leaf 2 is as before or as some valid descriptor byte describes it.  Missing for
the full C60: answers with invalid registers (false, see `C60_violated`). -/
theorem C60_valid_registers_partial (t : Target) (cpu : Cpuid) (fuel : Nat) (v : Vendor)
    (m : ModelInfo) (c : Caches) (l0 : Nat)
    (hvalid : ∀ i, (cpu.leaf2 i).eax.testBit 31 = false ∧ (cpu.leaf2 i).ebx.testBit 31 = false ∧
      (cpu.leaf2 i).ecx.testBit 31 = false ∧ (cpu.leaf2 i).edx.testBit 31 = false) :
    ∃ c', detectCache t cpu fuel 2 0 false v m c l0 = some (c', l0) ∧
      ∀ s, c'.get s = c.get s ∨
        ∃ i < (cpu.leaf2 0).eax % 256, ∃ b ∈ validDescriptors (cpu.leaf2 i), b ≠ 0 ∧
          ∀ c'', (decodeDescriptor t v m b c'').get s = c'.get s := by
  refine ⟨afterLeaf2 t cpu 2 v m c, ?_, ?_⟩
  · simp [detectCache, detectCacheBase, afterLeaf2, and_FF]
  · intro s
    have hbytes : ∀ i, (cpu.leaf2 i).bytes.drop 1 = validDescriptors (cpu.leaf2 i) := by
      intro i
      obtain ⟨h1, h2, h3, h4⟩ := hvalid i
      simp only [validDescriptors, h1, h2, h3, h4]
      simp [Regs.bytes, regBytes, chars, and_FF, Nat.shiftRight_eq_div_pow]
    refine leaf2Loop_inv (fun s d => d = c.get s ∨
        ∃ i < (cpu.leaf2 0).eax % 256, ∃ b ∈ validDescriptors (cpu.leaf2 i), b ≠ 0 ∧
          ∀ c'', (decodeDescriptor t v m b c'').get s = d) t v m _ _ _ c (fun _ => Or.inl rfl) ?_ s
    intro i hi b hb hb0 s d hd
    rw [Nat.zero_add, hbytes] at hb
    refine Or.inr ⟨i, hi, b, hb, hb0, fun c'' => ?_⟩
    rcases decodeDescriptor_get t v m b c'' s with ⟨d', hd', e'⟩ | ⟨h, -⟩
    · rw [e']; exact effect_functional t v m b s d' d hd' hd
    · exact absurd hd (h d)

theorem leaf2Loop_fold (t : Target) (v : Vendor) (m : ModelInfo) (leaf2 : Nat → Regs)
    (hvalid : ∀ i, (leaf2 i).bytes.drop 1 = validDescriptors (leaf2 i)) :
    ∀ (n k : Nat) (c : Caches), leaf2Loop t v m leaf2 n k c =
      (((List.range' k n).flatMap fun i => validDescriptors (leaf2 i)).filter (· ≠ 0)).foldl
        (fun c b => decodeDescriptor t v m b c) c := by
  intro n
  induction n with
  | zero => intro k c; rfl
  | succ n ih =>
    intro k c
    rw [leaf2Loop, ih, List.range'_succ, List.flatMap_cons, List.filter_append, List.foldl_append]
    congr 1
    rw [decodeLeaf2, hvalid, List.foldl_filter]
    simp

/-- **C60, what holds, exactly.** If no register is marked invalid, the caches after leaf 2 are the
result of applying all descriptors of all answers, the iteration count excepted, one after the
other, null descriptors skipped. -/
theorem C60_all_descriptors_partial (t : Target) (cpu : Cpuid) (fuel : Nat) (v : Vendor)
    (m : ModelInfo) (c : Caches) (l0 : Nat)
    (hvalid : ∀ i, (cpu.leaf2 i).eax.testBit 31 = false ∧ (cpu.leaf2 i).ebx.testBit 31 = false ∧
      (cpu.leaf2 i).ecx.testBit 31 = false ∧ (cpu.leaf2 i).edx.testBit 31 = false) :
    detectCache t cpu fuel 2 0 false v m c l0 = some
      ((((List.range ((cpu.leaf2 0).eax % 256)).flatMap fun i =>
        validDescriptors (cpu.leaf2 i)).filter (· ≠ 0)).foldl
        (fun c b => decodeDescriptor t v m b c) c, l0) := by
  have hbytes : ∀ i, (cpu.leaf2 i).bytes.drop 1 = validDescriptors (cpu.leaf2 i) := by
    intro i
    obtain ⟨h1, h2, h3, h4⟩ := hvalid i
    simp only [validDescriptors, h1, h2, h3, h4]
    simp [Regs.bytes, regBytes, chars, and_FF, Nat.shiftRight_eq_div_pow]
  simp [detectCache, detectCacheBase, and_FF, leaf2Loop_fold t v m cpu.leaf2 hbytes,
    List.range_eq_range']

/-- Leaf 2 with one valid descriptor (0x2C, a 32 KB level 1 data cache) and a register marked
invalid. -/
def invalidRegister : Cpuid :=
  { leaf := fun _ => ⟨2, 0x756E6547, 0x6C65746E, 0x49656E69⟩
    sub := fun _ _ => ⟨0, 0, 0, 0⟩
    leaf2 := fun _ => ⟨0x00002C01, 0, 0, 0x80000000⟩ }

/-- **C60 is violated.** A register marked invalid is decoded all the same: its highest byte, 0x80,
is taken for a 512 KB level 2 cache, which no valid register describes. -/
theorem C60_violated :
    validDescriptors (invalidRegister.leaf2 0) = [0x2C, 0, 0, 0, 0, 0, 0, 0, 0, 0, 0] ∧
    detectCache ⟨false, false⟩ invalidRegister 1 2 0 false .intel (decodeModelInfo 0) zeroCaches 0 =
      some (⟨zeroCacheDesc, ⟨32768, 8, 64, 1, 64, 0, 0⟩, ⟨524288, 8, 1024, 1, 64, 2, 0⟩,
        zeroCacheDesc, zeroCacheDesc⟩, 0) := by
  decide +kernel

/-! ## The whole of `cpuinfo_x86_init_processor` -/

/-- What the CPUID instruction answers to the questions of detection: the deterministic cache
leaves list `n4` and `n8` sub-leaves, the extended topology leaf the levels `ls`, and loops are
allowed to run long enough. -/
structure Answers (c : Cpuid) (fuel n4 n8 : Nat) (ls : List (Nat × Nat)) : Prop where
  ok4 : ∀ i, RegsOk (c.sub 4 i)
  ok8 : ∀ i, RegsOk (c.sub 0x8000001D i)
  leaf4 : Subleaves (c.sub 4) n4
  leaf8 : Subleaves (c.sub 0x8000001D) n8
  levels : Levels (c.sub 11) ls
  small4 : n4 < U32
  small8 : n8 < U32
  smallB : ls.length < U32
  fuel4 : n4 < fuel
  fuel8 : n8 < fuel
  fuelB : ls.length < fuel

theorem foldLevels_usual (leafB : Nat → Regs) (ls : List (Nat × Nat)) (hl : Levels leafB ls)
    (h : UsualLevels ls) :
    LowFields (foldLevels ls 0 ⟨0, 0, 0, 0⟩) ∧ (foldLevels ls 0 ⟨0, 0, 0, 0⟩).threadLength < 32 ∧
      (foldLevels ls 0 ⟨0, 0, 0, 0⟩).coreLength < 32 := by
  have hs : ∀ (i : Nat) (l : Nat × Nat), ls[i]? = some l → l.2 < 32 := by
    intro i l hi
    have hlt : i < ls.length := by
      rw [List.getElem?_eq_some_iff] at hi; exact hi.1
    have : l = level (leafB i) := Option.some.inj (hi.symm.trans (hl.1 i hlt).1)
    rw [this]
    exact Nat.mod_lt _ (by decide)
  rcases h with h | ⟨s, rest, rfl, h⟩ | ⟨s₁, s₂, rest, rfl, h⟩
  · rw [foldLevels_other ls h]
    exact ⟨⟨rfl, rfl⟩, by decide, by decide⟩
  · rw [foldLevels, foldLevels_other rest h]
    exact ⟨⟨rfl, rfl⟩, Nat.zero_lt_succ _, hs 0 (2, s) rfl⟩
  · have h1 : s₁ < 32 := hs 0 (1, s₁) rfl
    have h2 : s₂ < 32 := hs 1 (2, s₂) rfl
    rw [foldLevels, foldLevels, foldLevels_other rest h]
    simp only [applyLevel, if_true, LowFields, Nat.zero_add,
      Nat.mod_eq_of_lt (show s₁ < U32 by omega)]
    exact ⟨⟨rfl, rfl⟩, h1, h2⟩

/-- **C24 (and C22), what CPUID detection hands on.** For all answers of CPUID with the usual order
of levels, detection ends, and the SMT and core fields lie next to each other from bit 0 on and
are, like the sharing fields of all caches, narrower than 32 bits.  Missing for the full claim:
answers where leaf 4 claims more cores than leaf 1 claims logical processors (false, see
`C24_violated`), and levels in other orders. -/
theorem C24_fields_partial (t : Target) (c : Cpuid) (fuel n4 n8 : Nat) (ls : List (Nat × Nat))
    (ha : Answers c fuel n4 n8 ls) (hu : UsualLevels ls)
    (hfit : n4 = 0 ∨ (c.leaf 1).ebx / 65536 % 256 = 0 ∨
      (c.sub 4 (n4 - 1)).eax / 67108864 + 1 ≤ (c.leaf 1).ebx / 65536 % 256) :
    ∃ d, initProcessor t c fuel = some d ∧ LowFields d.cpu.topology ∧ NarrowFields d.cpu := by
  unfold initProcessor
  dsimp only
  by_cases hb : ¬(c.leaf 0).eax ≥ 1
  · rw [if_neg hb]
    refine ⟨_, rfl, ⟨rfl, rfl⟩, ?_⟩
    repeat' apply And.intro
    all_goals exact Nat.zero_lt_succ _
  rw [if_pos (Decidable.of_not_not hb)]
  generalize hext : ((extendedInfo c).ecx &&& 0x00400000 != 0) = ext
  generalize hv : decodeVendor t (c.leaf 0).ebx (c.leaf 0).ecx (c.leaf 0).edx = v
  generalize hm : decodeModelInfo (c.leaf 1).eax = m
  obtain ⟨c4, c8, l, e, h1, h1', h3, h3'⟩ := detectCache_spec t c fuel (c.leaf 0).eax
    (maxExtendedIndex c) ext v m zeroCaches 0 n4 n8 ha.ok4 ha.ok8 (fun _ => ha.leaf4)
    (fun _ => ha.leaf8) ha.small4 ha.small8 ha.fuel4 ha.fuel8
  rw [e]
  dsimp only
  have hz : ∀ s, (zeroCaches.get s).apicBits ≤ 12 := by intro s; cases s <;> decide
  have hb2 := afterLeaf2_bits t c (c.leaf 0).eax v m zeroCaches hz
  have hb4 : ∀ s, (c4.get s).apicBits ≤ 12 := by
    by_cases h : UsesLeaf4 v (c.leaf 0).eax
    · exact after_bits (h1 h).1 hb2
    · rw [(h1' h).1]; exact hb2
  have hb8 : ∀ s, (c8.get s).apicBits ≤ 12 := by
    by_cases h : ext = true ∧ 0x8000001D ≤ maxExtendedIndex c
    · exact after_bits (h3 h) hb4
    · rw [h3' h]; exact hb4
  have hl : l ≤ 6 ∧ ((c.leaf 1).ebx / 65536 % 256 ≠ 0 →
      l ≤ bitLength ((c.leaf 1).ebx / 65536 % 256)) := by
    have hzero : l = 0 → l ≤ 6 ∧ ((c.leaf 1).ebx / 65536 % 256 ≠ 0 →
      l ≤ bitLength ((c.leaf 1).ebx / 65536 % 256)) := by rintro rfl; exact ⟨by omega, by omega⟩
    by_cases h : UsesLeaf4 v (c.leaf 0).eax
    · have hl := (h1 h).2
      by_cases hn : n4 = 0
      · rw [if_pos hn] at hl; exact hzero hl
      · rw [if_neg hn] at hl
        have hr := (ha.ok4 (n4 - 1)).1
        rw [hl]
        refine ⟨bitLength_le _ 6 (by omega) (by decide) (by omega), fun h0 => ?_⟩
        have hle : (c.sub 4 (n4 - 1)).eax / 67108864 + 1 ≤ (c.leaf 1).ebx / 65536 % 256 := by
          rcases hfit with h | h | h
          · exact absurd h hn
          · exact absurd h h0
          · exact h
        exact IsBits.mono (isBits_bitLength ((c.sub 4 (n4 - 1)).eax / 67108864 + 1) (by omega)
          (by omega)) (isBits_bitLength ((c.leaf 1).ebx / 65536 % 256) (by omega) (by omega)) hle
    · exact hzero (h1' h).2
  have key : ∃ top, detectTopology c fuel (c.leaf 0).eax (maxExtendedIndex c) (c.leaf 1)
      ⟨0, 0, 0, l⟩ = some top ∧ LowFields top ∧ top.threadLength < 32 ∧ top.coreLength < 32 := by
    by_cases hx : (c.leaf 1).ecx.testBit 21 = true ∧ 11 ≤ (c.leaf 0).eax
    · refine ⟨_, levels_fold c fuel _ _ _ _ hx.1 hx.2 ls ha.smallB ha.fuelB ha.levels, ?_⟩
      exact foldLevels_usual _ ls ha.levels hu
    · have hx' : (c.leaf 1).ecx.testBit 21 = false ∨ (c.leaf 0).eax < 11 := by
        cases hb : (c.leaf 1).ecx.testBit 21
        · exact Or.inl rfl
        · exact Or.inr (Nat.lt_of_not_le fun h => hx ⟨hb, h⟩)
      refine ⟨_, detectTopology_legacy c fuel _ _ _ _ hx',
        legacyTopology_low c _ _ _ ⟨rfl, rfl⟩, ?_,
        legacyTopology_core_lt c _ _ _ (show l < 32 by omega)⟩
      cases hh : (c.leaf 1).edx.testBit 28
      · rw [legacyTopology_no_htt c _ _ _ hh]; exact Nat.zero_lt_succ _
      by_cases hamd : 0x80000001 ≤ maxExtendedIndex c ∧ (c.leaf 0x80000001).ecx.testBit 1 = true
      · by_cases h8 : 0x80000008 ≤ maxExtendedIndex c
        · rw [legacyTopology_amd c _ _ _ hh h8 hamd.2]; exact Nat.zero_lt_succ _
        · rw [legacyTopology_amd_old c _ _ _ hh hamd.1 (by omega) hamd.2]
          split <;> exact Nat.zero_lt_succ _
      · rw [legacyTopology_intel c _ _ _ hh (by
          cases hb : (c.leaf 0x80000001).ecx.testBit 1
          · exact Or.inr rfl
          · exact Or.inl (Nat.lt_of_not_le fun h => hamd ⟨h, hb⟩))]
        split
        · exact Nat.zero_lt_succ _
        · next h0 =>
          have h8 := bitLength_le ((c.leaf 1).ebx / 65536 % 256) 8 (by omega) (by decide) (by omega)
          have := hl.2 h0
          dsimp only [sub32]
          omega
  obtain ⟨top, e', hlow, ht, hc⟩ := key
  rw [e']
  refine ⟨_, rfl, hlow, ht, hc, ?_⟩
  have hb8' : ∀ s, (c8.get s).apicBits < 32 := fun s => Nat.lt_of_le_of_lt (hb8 s) (by decide)
  exact ⟨hb8' .l1i, hb8' .l1d, hb8' .l2, hb8' .l3, hb8' .l4⟩

/-- **C22, from CPUID on.** Detection on x86 Linux neither executes undefined behaviour nor fails
for lack of anything but memory, for all answers of CPUID as in `C24_fields_partial` and all file
contents from which a usable processor with a proper APIC id was gathered. -/
theorem C22_from_cpuid_partial (t : Target) (c : Cpuid) (fuel n4 n8 : Nat)
    (ls : List (Nat × Nat)) (ha : Answers c fuel n4 n8 ls) (hu : UsualLevels ls)
    (hfit : n4 = 0 ∨ (c.leaf 1).ebx / 65536 % 256 = 0 ∨
      (c.sub 4 (n4 - 1)).eax / 67108864 + 1 ≤ (c.leaf 1).ebx / 65536 % 256) (e : X86Init.Env)
    (hs : QSorts e.sort) (tab : List X86Cpuinfo.LinuxProc) (mask : Nat)
    (hg : X86Init.gather e = some (some (tab, mask)))
    (husable : ∃ p ∈ tab, X86Init.bitmaskAll p.flags mask = true ∧ p.apicId ≠ U32MAX)
    (he : (initProcessor t c fuel).map (·.cpu) = some e.cpu) :
    X86Init.linuxInit e ≠ none ∧
      ((∀ i, e.alloc i = true) → ∃ pub, X86Init.linuxInit e = some (some pub)) := by
  obtain ⟨d, hd, hlow, hn⟩ := C24_fields_partial t c fuel n4 n8 ls ha hu hfit
  rw [hd] at he
  have he : d.cpu = e.cpu := by simpa using he
  exact C22_no_fault_partial e hs (he ▸ hlow) (he ▸ hn) tab mask hg husable

/-- **C23, end to end.** On a processor whose extended topology leaf lists SMT with shift `s₁` and
core with shift `s₂`, two published processors share a core iff their APIC ids agree from bit
`s₁` on, as documented, but share a package iff they agree from bit `s₁ + s₂` on, where `s₂` is
documented. -/
theorem C23_package_sharing (t : Target) (c : Cpuid) (fuel n4 n8 s₁ s₂ : Nat)
    (rest : List (Nat × Nat)) (ha : Answers c fuel n4 n8 ((1, s₁) :: (2, s₂) :: rest))
    (ho : OtherLevels rest) (hb : 11 ≤ (c.leaf 0).eax) (hx : (c.leaf 1).ecx.testBit 21 = true)
    (e : X86Init.Env) (hs : QSorts e.sort)
    (he : (initProcessor t c fuel).map (·.cpu) = some e.cpu) (pub : X86Init.Published)
    (h : X86Init.linuxInit e = some (some pub)) (i j : Nat) (p q : X86Init.Processor)
    (hp : pub.processors[i]? = some p) (hq : pub.processors[j]? = some q) :
    (p.core = q.core ↔ AgreeFrom s₁ p.apicId q.apicId) ∧
    (p.package = q.package ↔ AgreeFrom (s₁ + s₂) p.apicId q.apicId) := by
  have ht : e.cpu.topology = ⟨0, s₁, s₁, s₂⟩ := by
    unfold initProcessor at he
    dsimp only at he
    rw [if_pos (by omega)] at he
    cases hc : detectCache t c fuel (c.leaf 0).eax (maxExtendedIndex c)
        ((extendedInfo c).ecx &&& 0x00400000 != 0)
        (decodeVendor t (c.leaf 0).ebx (c.leaf 0).ecx (c.leaf 0).edx)
        (decodeModelInfo (c.leaf 1).eax) zeroCaches 0 with
    | none => rw [hc] at he; cases he
    | some r =>
      rw [hc] at he
      dsimp only at he
      rw [C23_smt_then_core c fuel _ _ _ _ hx hb _ ha.smallB ha.fuelB s₁ s₂ rest ho rfl ha.levels]
        at he
      simp only [Option.map_some, Option.some.injEq] at he
      rw [← he]
  have hlow : LowFields e.cpu.topology := by rw [ht]; exact ⟨rfl, rfl⟩
  obtain ⟨llc, hllc⟩ : ∃ llc, LastLevelBits e.cpu llc := by
    by_cases h4 : e.cpu.l4.size = 0
    · by_cases h3 : e.cpu.l3.size = 0
      · by_cases h2 : e.cpu.l2.size = 0
        · by_cases h1 : e.cpu.l1d.size = 0
          · exact ⟨_, .none h4 h3 h2 h1⟩
          · exact ⟨_, .l1 h4 h3 h2 h1⟩
        · exact ⟨_, .l2 h4 h3 h2⟩
      · exact ⟨_, .l3 h4 h3⟩
    · exact ⟨_, .l4 h4⟩
  have := C18_sharing_iff_apic_agrees e hs hlow pub h llc hllc i j p q hp hq
  rw [ht] at this
  exact ⟨this.1, this.2.1⟩

/-- A processor with two threads per core and up to eight cores per package: leaf 0xB lists SMT
with shift 1 and core with shift 4. -/
def smtCpuid : Cpuid :=
  { leaf := fun n =>
      if n = 0 then ⟨11, 0x756E6547, 0x6C65746E, 0x49656E69⟩
      else if n = 1 then ⟨0x000206C2, 0x00100800, 0x00200000, 0x10000000⟩
      else ⟨0, 0, 0, 0⟩
    sub := fun n i =>
      if n = 11 then
        if i = 0 then ⟨1, 2, 0x100, 0⟩ else if i = 1 then ⟨4, 16, 0x201, 0⟩ else ⟨0, 0, i, 0⟩
      else ⟨0, 0, 0, 0⟩
    leaf2 := fun _ => ⟨1, 0, 0, 0⟩ }

/-- Two packages of such a processor, with one core each in use. -/
def smtEnv : X86Init.Env :=
  { exampleEnv with
    presentMax := (some b!"0-3\n", fun _ => some 3), present := (some b!"0-3\n", fun _ => some 3)
    cpuinfo := (some b!"processor\t: 0\napicid\t\t: 0\n\nprocessor\t: 1\napicid\t\t: 1\n\nprocessor\t: 2\napicid\t\t: 16\n\nprocessor\t: 3\napicid\t\t: 17\n", fun _ => some 64)
    cpu :=
      { topology := ⟨0, 1, 1, 4⟩, l1i := zeroCacheDesc, l1d := zeroCacheDesc, l2 := zeroCacheDesc,
        l3 := zeroCacheDesc, l4 := zeroCacheDesc } }

/-- The hypotheses of the theorems above are met. -/
theorem smtCpuid_answers : Answers smtCpuid 3 0 0 [(1, 1), (2, 4)] := by
  have hz : RegsOk ⟨0, 0, 0, 0⟩ := by unfold RegsOk; decide
  refine ⟨fun i => hz, fun i => hz, ⟨fun i hi => absurd hi (by omega), by decide⟩,
    ⟨fun i hi => absurd hi (by omega), by decide⟩, ⟨?_, by decide⟩, by decide, by decide, by decide,
    by decide, by decide, by decide⟩
  intro i hi
  have : i = 0 ∨ i = 1 := by
    simp only [List.length_cons, List.length_nil] at hi; omega
  rcases this with rfl | rfl <;> decide

example : UsualLevels [(1, 1), (2, 4)] :=
  Or.inr (Or.inr ⟨1, 4, [], rfl, by intro l hl; cases hl⟩)

/-- **C23 is violated.** A two-package machine is published as one package: leaf 0xB says that
packages differ from bit 4 on, and the APIC ids of the first and the last processor do. -/
theorem C23_violated :
    Answers smtCpuid 3 0 0 [(1, 1), (2, 4)] ∧
    (initProcessor ⟨false, false⟩ smtCpuid 3).map (·.cpu) = some smtEnv.cpu ∧
    published smtEnv (fun pub => (pub.packagesCount, pub.processors.map fun p => (p.apicId, p.package)))
      = some (1, [(0, 0), (1, 0), (16, 0), (17, 0)]) ∧
    ¬AgreeFrom 4 0 16 := by
  refine ⟨smtCpuid_answers, by decide +kernel, by decide +kernel, ?_⟩
  intro h
  have := h 4 (Nat.le_refl 4)
  revert this
  decide

/-- A processor with x2APIC and leaf 0xB but no levels in it (as hypervisors report it): leaf 4
says that there are 4 cores per package. -/
def noLevelsCpuid : Cpuid :=
  { smtCpuid with
    sub := fun n i => if n = 4 ∧ i = 0 then ⟨0x0C000021, 0x01C0003F, 63, 0⟩ else ⟨0, 0, 0, 0⟩ }

/-- One package of such a processor. -/
def noLevelsEnv : X86Init.Env :=
  { exampleEnv with
    presentMax := (some b!"0-3\n", fun _ => some 3), present := (some b!"0-3\n", fun _ => some 3)
    cpuinfo := (some b!"processor\t: 0\napicid\t\t: 0\n\nprocessor\t: 1\napicid\t\t: 1\n\nprocessor\t: 2\napicid\t\t: 2\n\nprocessor\t: 3\napicid\t\t: 3\n", fun _ => some 64)
    cpu :=
      { topology := ⟨0, 0, 0, 0⟩, l1i := zeroCacheDesc, l1d := ⟨32768, 8, 64, 1, 64, 0, 0⟩,
        l2 := zeroCacheDesc, l3 := zeroCacheDesc, l4 := zeroCacheDesc } }

/-- **C59 is violated.** With x2APIC and an empty leaf 0xB, four cores that leaves 1 and 4 place in
one package are published as four packages. -/
theorem C59_violated :
    Levels (noLevelsCpuid.sub 11) [] ∧
    legacyTopology noLevelsCpuid 0 (noLevelsCpuid.leaf 1) ⟨0, 0, 0, 2⟩ = ⟨0, 2, 2, 2⟩ ∧
    (initProcessor ⟨false, false⟩ noLevelsCpuid 3).map (·.cpu) = some noLevelsEnv.cpu ∧
    published noLevelsEnv (fun pub => (pub.packagesCount, pub.coresCount)) = some (4, 4) := by
  refine ⟨⟨fun i hi => absurd hi (by simp), by decide⟩, by decide +kernel, by decide +kernel,
    by decide +kernel⟩

/-- A processor without x2APIC whose leaf 4 says 2 cores and whose leaf 1 says 1 logical
processor. -/
def underflowCpuid : Cpuid :=
  { leaf := fun n =>
      if n = 0 then ⟨4, 0x756E6547, 0x6C65746E, 0x49656E69⟩
      else if n = 1 then ⟨0x000206C2, 0x00010800, 0, 0x10000000⟩
      else ⟨0, 0, 0, 0⟩
    sub := fun n i => if n = 4 ∧ i = 0 then ⟨0x04000021, 0x01C0003F, 63, 0⟩ else ⟨0, 0, 0, 0⟩
    leaf2 := fun _ => ⟨1, 0, 0, 0⟩ }

/-- The same. -/
def underflowEnv : X86Init.Env :=
  { noLevelsEnv with
    cpu :=
      { topology := ⟨0, 4294967295, 4294967295, 1⟩, l1i := zeroCacheDesc
        l1d := ⟨32768, 8, 64, 1, 64, 0, 0⟩
        l2 := zeroCacheDesc, l3 := zeroCacheDesc, l4 := zeroCacheDesc } }

/-- **C24 is violated.** When leaf 4 claims more cores than leaf 1 claims logical processors, the
width of the SMT field wraps around to 2^32 - 1, and detection then shifts by that amount, which
is undefined behaviour. -/
theorem C24_violated :
    (initProcessor ⟨false, false⟩ underflowCpuid 3).map (·.cpu) = some underflowEnv.cpu ∧
    (X86Init.linuxInit underflowEnv).isNone = true := by
  exact ⟨by decide +kernel, by decide +kernel⟩

/-- A case of `C24_intel_partial`: 4 cores, 16 logical processors. -/
example : detectTopology noLevelsCpuid 3 4 0 (noLevelsCpuid.leaf 1) ⟨0, 0, 0, 2⟩ =
    some ⟨0, 2, 2, 2⟩ := by decide +kernel

/-- A case of `C25_detect_leaf4`: a 32 KB level 1 data cache. -/
example : SubleafFills 4 (noLevelsCpuid.sub 4 0) .l1d ∧ cacheType (noLevelsCpuid.sub 4 1) = 0 :=
  ⟨.l1d, by decide⟩

/-! ## C63: only existing leaves matter -/

/-- The two processors answer alike to all leaves that the first one says it has. -/
structure SameLeaves (c c' : Cpuid) : Prop where
  max_base : c'.leaf 0 = c.leaf 0
  max_extended : c'.leaf 0x80000000 = c.leaf 0x80000000
  base : ∀ n ≤ (c.leaf 0).eax, c'.leaf n = c.leaf n ∧ c'.sub n = c.sub n ∧
    (n = 2 → c'.leaf2 = c.leaf2)
  extended : ∀ n, 0x80000000 ≤ n → n ≤ (c.leaf 0x80000000).eax →
    c'.leaf n = c.leaf n ∧ c'.sub n = c.sub n

theorem maxExtendedIndex_le (c : Cpuid) (n : Nat) (h0 : 0 < n) (h : n ≤ maxExtendedIndex c) :
    n ≤ (c.leaf 0x80000000).eax := by
  unfold maxExtendedIndex at h
  split at h <;> omega

/-- **C63.** Whatever the CPUID instruction answers to leaves beyond the maxima that leaves 0 and
0x80000000 give has no influence on vendor, microarchitecture, signature, caches and topology. -/
theorem C63_only_existing_leaves (t : Target) (c c' : Cpuid) (h : SameLeaves c c') (fuel : Nat) :
    initProcessor t c' fuel = initProcessor t c fuel := by
  have hmax : maxExtendedIndex c' = maxExtendedIndex c := by
    simp only [maxExtendedIndex, h.max_extended]
  have hle : ∀ n, 0x80000000 ≤ n → n ≤ maxExtendedIndex c →
      c'.leaf n = c.leaf n ∧ c'.sub n = c.sub n := fun n hn hm =>
    h.extended n hn (maxExtendedIndex_le c n (by omega) hm)
  have hext : extendedInfo c' = extendedInfo c := by
    simp only [extendedInfo, hmax]
    split
    · next hm => exact (hle _ (by decide) hm).1
    · rfl
  unfold initProcessor
  dsimp only
  rw [h.max_base, hmax, hext]
  by_cases hb : (c.leaf 0).eax ≥ 1
  · rw [if_pos hb, if_pos hb, (h.base 1 hb).1]
    have hcache : ∀ (x : Bool) (v : Vendor) (m : ModelInfo) (k : Caches) (l : Nat),
        detectCache t c' fuel (c.leaf 0).eax (maxExtendedIndex c) x v m k l =
          detectCache t c fuel (c.leaf 0).eax (maxExtendedIndex c) x v m k l := by
      intro x v m k l
      have hbase : detectCacheBase t c' fuel (c.leaf 0).eax v m k l =
          detectCacheBase t c fuel (c.leaf 0).eax v m k l := by
        unfold detectCacheBase
        by_cases h2 : (c.leaf 0).eax ≥ 2
        · rw [if_pos h2, if_pos h2, (h.base 2 h2).2.2 rfl]
          dsimp only
          by_cases h4 : v ≠ .amd ∧ v ≠ .hygon ∧ (c.leaf 0).eax ≥ 4
          · rw [if_pos h4, if_pos h4, (h.base 4 h4.2.2).2.1]
          · rw [if_neg h4, if_neg h4]
        · rw [if_neg h2, if_neg h2]
      unfold detectCache
      rw [hbase]
      cases detectCacheBase t c fuel (c.leaf 0).eax v m k l with
      | none => rfl
      | some r =>
        dsimp only
        by_cases h8 : x = true ∧ maxExtendedIndex c ≥ 0x8000001D
        · rw [if_pos h8, if_pos h8, (hle _ (by decide) h8.2).2]
        · rw [if_neg h8, if_neg h8]
    have hlegacy : ∀ top, legacyTopology c' (maxExtendedIndex c) (c.leaf 1) top =
        legacyTopology c (maxExtendedIndex c) (c.leaf 1) top := by
      intro top
      unfold legacyTopology
      by_cases h1 : maxExtendedIndex c ≥ 0x80000001
      · rw [(hle _ (by decide) h1).1]
        by_cases h8 : maxExtendedIndex c ≥ 0x80000008
        · rw [(hle _ (by decide) h8).1]
        · simp only [if_neg h8]
      · simp only [decide_eq_false h1, Bool.false_and, Bool.false_eq_true, if_false]
    have htop : ∀ top, detectTopology c' fuel (c.leaf 0).eax (maxExtendedIndex c) (c.leaf 1) top =
        detectTopology c fuel (c.leaf 0).eax (maxExtendedIndex c) (c.leaf 1) top := by
      intro top
      unfold detectTopology
      rw [hlegacy]
      dsimp only
      by_cases hB : (c.leaf 1).ecx &&& 0x00200000 ≠ 0 ∧ (c.leaf 0).eax ≥ 0xB
      · rw [if_pos hB, if_pos hB, (h.base 11 hB.2).2.1]
      · rw [if_neg hB, if_neg hB]
    rw [hcache]
    cases detectCache t c fuel (c.leaf 0).eax (maxExtendedIndex c) _ _ _ _ _ with
    | none => rfl
    | some r =>
      dsimp only
      rw [htop]
  · rw [if_neg hb, if_neg hb]

/-- A processor that answers differently to a leaf beyond its maximum. -/
example : SameLeaves smtCpuid
    { smtCpuid with leaf := fun n => if n = 0x80000001 then ⟨1, 1, 1, 1⟩ else smtCpuid.leaf n } := by
  refine ⟨rfl, rfl, fun n hn => ⟨?_, rfl, fun _ => rfl⟩, fun n hn hm => ⟨?_, rfl⟩⟩
  · have : n ≤ 11 := hn
    exact if_neg (by omega)
  · have : n ≤ 0 := hm
    omega

/-- **C29, C30, C62 for the whole of detection.** The published vendor and microarchitecture are
those of the string in leaf 0 and the signature in leaf 1. -/
theorem C29_whole_processor (t : Target) (c : Cpuid) (fuel : Nat) (d : Detected)
    (h : initProcessor t c fuel = some d) :
    d.vendor = decodeVendor t (c.leaf 0).ebx (c.leaf 0).ecx (c.leaf 0).edx ∧
    (1 ≤ (c.leaf 0).eax → d.cpuid = (c.leaf 1).eax ∧
      d.uarch = decodeUarch t d.vendor (decodeModelInfo (c.leaf 1).eax) ∧
      d.clflushSize = (c.leaf 1).ebx / 256 % 256 * 8) ∧
    ((c.leaf 0).eax = 0 → d.uarch = .unknown ∧ d.cpuid = 0) := by
  unfold initProcessor at h
  dsimp only at h
  by_cases hb : (c.leaf 0).eax ≥ 1
  · rw [if_pos hb] at h
    split at h
    · cases h
    split at h
    · cases h
    obtain rfl := Option.some.inj h
    refine ⟨rfl, fun _ => ⟨rfl, rfl, ?_⟩, fun h => absurd hb (by omega)⟩
    dsimp only
    rw [and_FF, Nat.shiftRight_eq_div_pow]
  · rw [if_neg hb] at h
    obtain rfl := Option.some.inj h
    exact ⟨rfl, fun h => absurd h hb, fun _ => ⟨rfl, rfl⟩⟩

end Verif.Props
