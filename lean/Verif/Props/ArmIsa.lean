import Verif.Proof.ArmIsa
import Verif.Props.ArmInit

/-!
# C55, C106–C108: instruction set queries of ARM on Linux

The theorems are about what `cpuinfo_has_arm_*` answer after a run of initialization that gathers the
processors, for every machine description, every answer of the C library and every chipset decoder.
-/

set_option autoImplicit false

namespace Verif.Props
open Spec ArmMidr ArmCpuinfo ArmClusters ArmInit ArmChipset ArmIsa

/-! ## C55 -/

section
variable (e : Env) (s : Source) (hs : Answers e.config.arch s)
include hs

/-- **C55, C106 (basis).** If initialization succeeds, the instruction set is detected, and from one
set of feature words, identity, architecture and chipset. -/
theorem C55_basis (pub : Published) (h : linuxInit e = some (some pub)) :
    ∃ i b, linuxIsa e s = some (some i) ∧ DecidesFrom e s b := by
  have hg : ∃ r, gather e = some (some r) := by
    unfold linuxInit at h
    cases hg : gather e with
    | none => rw [hg] at h; cases h
    | some r =>
      cases r with
      | none => rw [hg] at h; cases h
      | some r => exact ⟨r, rfl⟩
  obtain ⟨⟨t, hw, rev⟩, hg⟩ := hg
  have : ∃ i, linuxIsa e s = some (some i) := by
    unfold linuxIsa
    rw [hg]
    cases harch : e.config.arch with
    | arm =>
      rw [harch] at hs
      obtain ⟨f, hf, -⟩ := features32_words t hs
      exact ⟨_, by simp only [Option.bind_eq_bind, Option.bind_some, detectIsa, hf]; rfl⟩
    | arm64 => exact ⟨_, by simp only [Option.bind_eq_bind, Option.bind_some, detectIsa]; rfl⟩
  obtain ⟨i, hi⟩ := this
  obtain ⟨b, hb⟩ := basis_of_isa hs hi
  exact ⟨i, b, hi, hb⟩

/-- **C55.** On 64-bit ARM, every query answers yes exactly under its condition on the kernel's feature
words, on the core and its variant, and on the chipset. -/
theorem C55_answers (ha : e.config.arch = .arm64) (i : Isa) (h : linuxIsa e s = some (some i)) (b : Basis)
    (hb : DecidesFrom e s b) (q : Query) : has .arm64 i q = true ↔ Has64 b q := by
  rw [isa_of_basis hs hb, ha] at h
  cases h
  exact answers64 b _ q

/-- **C55 (vector length).** The reported SVE vector length in bits is eight times the length in bytes
that `prctl` reports in the lower 16 bits of its answer, 0 if it fails. -/
theorem C55_vector_length (ha : e.config.arch = .arm64) (i : Isa) (h : linuxIsa e s = some (some i)) :
    (s.vectorLength < 0 → maxSveLength .arm64 i = 0) ∧
    (∀ n : Nat, s.vectorLength = n → maxSveLength .arm64 i = n % 65536 * 8) := by
  obtain ⟨b, hb⟩ := basis_of_isa hs h
  rw [isa_of_basis hs hb, ha] at h
  cases h
  refine ⟨fun h => ?_, fun n h => ?_⟩
  · show svelen s.vectorLength * 8 % U32 = 0
    unfold svelen
    rw [if_pos h]
  · show svelen s.vectorLength * 8 % U32 = _
    unfold svelen
    rw [if_neg (by omega), h, Int.toNat_natCast,
      show n &&& 0xffff = _ from Nat.and_two_pow_sub_one_eq_mod n 16]
    show n % 65536 * 8 % 4294967296 = n % 65536 * 8
    omega

end

/-- The core types with dot products. -/
def dotTypes64 : List Nat :=
  [0x00300355, 0x00300365, 0x00300376, 0x00300377, 0x00300400, 0x00300401, 0x00300402, 0x00300403,
   0x00300404, 0x00600103, 0x00600104]

/-- The core types with FP16 arithmetics. -/
def fp16Types64 : List Nat :=
  [0x00300354, 0x00300355, 0x00300365, 0x00300375, 0x00300376, 0x00300377, 0x00300400, 0x00300402,
   0x00300403, 0x00300404, 0x00600103, 0x00600104]

/-- The core types with dot products that run 32-bit programs. -/
def dotTypes32 : List Nat :=
  [0x00300355, 0x00300376, 0x00300377, 0x00300378, 0x00300400, 0x00300402, 0x00300403, 0x00300404,
   0x00300501, 0x00300502, 0x00300503, 0x00300551, 0x00300571, 0x00300572, 0x00600103, 0x00600104]

/-- The core types with FP16 arithmetics that run 32-bit programs. -/
def fp16Types32 : List Nat := 0x00300354 :: 0x00300375 :: dotTypes32

/-- **C55 (core types, 64-bit).** The two tables of core identities agree: whatever the kernel says, dot
products are reported if the core is decoded as Cortex-A55 (not revision 0), A65, A76, A77, Neoverse N1,
E1, V1, N2, V2, Exynos M4 or M5; FP16 arithmetics and RDM for these except Neoverse E1, and for
Cortex-A55 revision 0 and Cortex-A75, except on Exynos 9810.  Cortex-A55 revision 0 made by ARM has no
dot products. -/
theorem C55_core_types (e : Env) (s : Source) (hs : Answers e.config.arch s)
    (ha : e.config.arch = .arm64) (i : Isa) (h : linuxIsa e s = some (some i)) (b : Basis)
    (hb : DecidesFrom e s b) (f : Bool) :
    ((ArmUarch.decode .arm64 b.midr f).2 ∈ dotTypes64 → has .arm64 i .neonDot = true) ∧
    ((ArmUarch.decode .arm64 b.midr f).2 ∈ fp16Types64 → ¬ IsExynos9810 b.chipset →
      has .arm64 i .fp16Arith = true ∧ has .arm64 i .neonFp16Arith = true ∧ has .arm64 i .neonRdm = true) ∧
    ((ArmUarch.decode .arm64 b.midr f).2 = 0x00300354 → b.midr / 16777216 % 256 = 0x41 →
      has .arm64 i .neonDot = false) := by
  have A := C55_answers e s hs ha i h b hb
  refine ⟨fun hu => ?_, fun hu hx => ?_, fun hu hi => ?_⟩
  · have := core_of_type dotTypes64 ((0x41, 0xD05) :: dotKnown64) (by decide) (by decide +kernel) _ _ _ hu
    rw [A]
    rcases List.mem_cons.mp this with hc | hc
    · rw [a55_type _ _ _ hc] at hu
      refine .inr (.inl ⟨hc, ?_⟩)
      by_contra h0
      rw [if_pos (by omega)] at hu
      exact absurd hu (by decide)
    · exact .inl hc
  · have := core_of_type fp16Types64 fp16Known64 (by decide) (by decide +kernel) _ _ _ hu
    exact ⟨(A _).mpr ⟨hx, .inl this⟩, (A _).mpr ⟨hx, .inl this⟩, (A _).mpr ⟨hx, .inl this⟩⟩
  · have := core_of_type [0x00300354] [(0x41, 0xD05), (0x51, 0x803)] (by decide) (by decide +kernel) _ _ _
      (List.mem_singleton.mpr hu)
    have hc : coreOf b.midr = (0x41, 0xD05) := by
      simp only [List.mem_cons, List.not_mem_nil, or_false] at this
      rcases this with hc | hc
      · exact hc
      · have := congrArg Prod.fst hc
        have hi : (coreOf b.midr).1 = 0x41 := hi
        omega
    rw [a55_type _ _ _ hc] at hu
    have h0 : variantOf b.midr = 0 := by
      by_contra h0
      rw [if_neg h0] at hu
      exact absurd hu (by decide)
    rw [Bool.eq_false_iff, ne_eq, A]
    rintro (h1 | ⟨-, h1⟩ | ⟨h1, -⟩ | ⟨h1, -⟩)
    · rw [hc] at h1; exact absurd h1 (by decide)
    · omega
    · rw [hc] at h1; exact absurd h1 (by decide)
    · exact h1 hc

/-! ## C106 -/

/-- **C106.** On 32-bit ARM, every query answers yes exactly under its condition. -/
theorem C106_answers (e : Env) (s : Source) (hs : Answers e.config.arch s) (ha : e.config.arch = .arm)
    (i : Isa) (h : linuxIsa e s = some (some i)) (b : Basis) (hb : DecidesFrom e s b) (q : Query) :
    has .arm i q = true ↔ Has32 s.target b q := by
  rw [isa_of_basis hs hb, ha] at h
  cases h
  exact answers32 _ b q

/-- What a program relies on when it is told of a feature: the features in it. -/
def implied32 : List (Query × Query) :=
  [(.v8, .v7mp), (.v7mp, .v7), (.v7, .v6k), (.v6k, .v6), (.v6, .v5e), (.v8, .idiv), (.v8, .thumb2),
   (.thumb2, .thumb), (.v8, .neonV8), (.neonV8, .neonFma), (.neonFma, .neonFp16), (.neonFp16, .neon),
   (.neon, .vfpv3D32), (.neon, .v7), (.vfpv3D32, .vfpv3), (.vfpv3Fp16D32, .vfpv3Fp16),
   (.vfpv3Fp16D32, .vfpv3D32), (.vfpv3Fp16, .vfpv3), (.vfpv4, .vfpv3Fp16), (.vfpv4D32, .vfpv4),
   (.vfpv4D32, .vfpv3Fp16D32), (.neonFma, .vfpv4D32), (.v8, .vfpv4D32), (.wmmx2, .wmmx),
   (.neonDot, .v8), (.fp16Arith, .neonFp16Arith), (.neonFp16Arith, .v8), (.neonRdm, .v8), (.aes, .v8),
   (.pmull, .v8), (.sha1, .v8), (.sha2, .v8), (.crc32, .v8)]

/-- **C106 (implications, 32-bit).** A reported feature comes with the features it includes. -/
theorem C106_implications (e : Env) (s : Source) (hs : Answers e.config.arch s)
    (ha : e.config.arch = .arm) (i : Isa) (h : linuxIsa e s = some (some i)) (x : Query × Query)
    (hx : x ∈ implied32) (hq : has .arm i x.1 = true) : has .arm i x.2 = true := by
  obtain ⟨b, hb⟩ := basis_of_isa hs h
  have A := C106_answers e s hs ha i h b hb
  rw [A] at hq ⊢
  have v12 : b.hwcap.testBit 12 = true → b.Vfpv3Bits := fun h => ⟨12, by decide, h⟩
  have v16 : b.hwcap.testBit 16 = true → b.Vfpv3Bits := fun h => ⟨16, by decide, h⟩
  have v19 : b.hwcap.testBit 19 = true → b.Vfpv3Bits := fun h => ⟨19, by decide, h⟩
  have v7 : b.Vfpv3Bits → b.V7 := fun h => .inr (.inr (.inl h))
  have v8 : b.V8 → b.V7 := fun h => .inl h
  have c : ∀ k < 5, b.hwcap2.testBit k = true → b.V8 := fun k hk h => .inr ⟨k, hk, h⟩
  have c0 := c 0 (by decide)
  have c1 := c 1 (by decide)
  have c2 := c 2 (by decide)
  have c3 := c 3 (by decide)
  have c4 := c 4 (by decide)
  clear c A hb h hs ha
  simp only [implied32, List.mem_cons, List.not_mem_nil, or_false] at hx
  rcases hx with hx | hx | hx | hx | hx | hx | hx | hx | hx | hx | hx | hx | hx | hx | hx | hx | hx | hx |
    hx | hx | hx | hx | hx | hx | hx | hx | hx | hx | hx | hx | hx | hx | hx <;>
  subst hx <;> dsimp only [Has32] at hq ⊢
  case inr.inr.inr.inr.inr.inr.inr.inr.inr.inr.inr.inr.inr.inr.inr.inr.inr.inr.inr.inr.inr.inr.inr.inl =>
    exact ⟨hq.1, hq.2.1, hq.2.2.1, by omega⟩
  all_goals grind

/-- **C106 (VFPv3 and division without ARMv7).** VFPv3 is reported without ARMv7 only by a build for
ARMv7, division only on Krait. -/
theorem C106_below_v7 (e : Env) (s : Source) (hs : Answers e.config.arch s) (ha : e.config.arch = .arm)
    (i : Isa) (h : linuxIsa e s = some (some i)) (h7 : has .arm i .v7 = false) :
    (has .arm i .vfpv3 = true → 7 ≤ s.target.armArch) ∧
    (has .arm i .idiv = true → ∃ t hw rev midr, Reads e t hw rev ∧ LastIdentity t midr ∧
      coreOf midr ∈ kraits) := by
  obtain ⟨b, hb⟩ := basis_of_isa hs h
  have A := C106_answers e s hs ha i h b hb
  have n7 : ¬ b.V7 := fun hh => by
    rw [(A .v7).mpr hh] at h7; cases h7
  rw [A, A]
  constructor
  · rintro (h | h | ⟨-, h | h⟩)
    · exact absurd (.inl h) n7
    · exact absurd (.inr (.inr (.inl h))) n7
    · exact absurd h n7
    · exact h
  · rintro (h | h | h)
    · exact absurd (.inl h) n7
    · exact absurd (.inr (.inr (.inr (.inl h.1)))) n7
    · obtain ⟨t, hw, rev, hr, hm, -⟩ := hb
      exact ⟨t, hw, rev, _, hr, hm, h⟩

/-- **C106 (core types, 32-bit).** On ARMv8, dot products are reported if the core is decoded as one of
`dotTypes32`, except on chipsets where they fail; FP16 arithmetics and RDM if it is decoded as one of
`fp16Types32`, except on Exynos 9810. -/
theorem C106_core_types (e : Env) (s : Source) (hs : Answers e.config.arch s)
    (ha : e.config.arch = .arm) (i : Isa) (h : linuxIsa e s = some (some i)) (b : Basis)
    (hb : DecidesFrom e s b) (f : Bool) (h8 : has .arm i .v8 = true) :
    ((ArmUarch.decode .arm b.midr f).2 ∈ dotTypes32 → ¬ DotFails b.chipset →
      has .arm i .neonDot = true) ∧
    ((ArmUarch.decode .arm b.midr f).2 ∈ fp16Types32 → ¬ IsExynos9810 b.chipset →
      has .arm i .fp16Arith = true ∧ has .arm i .neonFp16Arith = true ∧ has .arm i .neonRdm = true) := by
  have A := C106_answers e s hs ha i h b hb
  have v8 : b.V8 := (A .v8).mp h8
  refine ⟨fun hu hx => ?_, fun hu hx => ?_⟩
  · have := core_of_type dotTypes32 ((0x41, 0xD05) :: dotKnown32) (by decide) (by decide +kernel) _ _ _ hu
    rw [A]
    rcases List.mem_cons.mp this with hc | hc
    · rw [a55_type _ _ _ hc] at hu
      refine ⟨v8, hx, .inr (.inl ⟨hc, ?_⟩)⟩
      by_contra h0
      rw [if_pos (by omega)] at hu
      exact absurd hu (by decide)
    · exact ⟨v8, hx, .inl hc⟩
  · have := core_of_type fp16Types32 fp16Known32 (by decide) (by decide +kernel) _ _ _ hu
    exact ⟨(A _).mpr ⟨v8, hx, this⟩, (A _).mpr ⟨v8, hx, this⟩, (A _).mpr ⟨v8, hx, this⟩⟩

/-! ## C107 -/

/-- **C107.** With Android's C library or glibc, the answers are those for one pair of feature words:
the words that `getauxval` returns; if it is missing, the last `AT_HWCAP` and `AT_HWCAP2` entries of
`/proc/self/auxv`; if that cannot be read, the features that all processors list in /proc/cpuinfo.
Missing: other C libraries (see `C107_violated`). -/
theorem C107_sources_partial (e : Env) (s : Source) (hs : Answers e.config.arch s)
    (ha : e.config.arch = .arm) (hl : s.libc ≠ .other) (i : Isa) (h : linuxIsa e s = some (some i)) :
    ∃ t hw rev b, Reads e t hw rev ∧ (∀ q, has .arm i q = true ↔ Has32 s.target b q) ∧
      (∀ v, s.auxval = some v → b.hwcap = v.1 % U32 ∧ b.hwcap2 = v.2 % U32) ∧
      (∀ entries, s.auxval = none → AuxvReadable s.auxv entries →
        b.hwcap = auxvValue 16 entries ∧ b.hwcap2 = auxvValue 26 entries) ∧
      (s.auxval = none → (¬ ∃ entries, AuxvReadable s.auxv entries) →
        ∀ k, (b.hwcap.testBit k = true ↔
            (∃ p ∈ t, Featured p) ∧ ∀ p ∈ t, Featured p → p.features.testBit k = true) ∧
          (b.hwcap2.testBit k = true ↔
            (∃ p ∈ t, Featured p) ∧ ∀ p ∈ t, Featured p → p.features2.testBit k = true)) := by
  obtain ⟨b, hb⟩ := basis_of_isa hs h
  have A := C106_answers e s hs ha i h b hb
  obtain ⟨t, hw, rev, hr, -, -, -, hf⟩ := hb
  rw [ha] at hf hs
  have hw' := words_unique hs hf
  refine ⟨t, hw, rev, b, hr, A, fun v hv => ?_, fun es hn hes => ?_, fun hn hno => ?_⟩
  · have := words_unique hs (FeatureWords.auxval (t := t) v hl hv)
    rw [hw'] at this
    exact Prod.ext_iff.mp (Option.some.inj this)
  · have hA : s.libc = .android := by
      cases hc : s.libc with
      | android => rfl
      | glibc => exact absurd hn (hs.2 (.inr hc))
      | other => exact absurd hc hl
    have := words_unique hs (FeatureWords.auxv (t := t) es hA hn hes)
    rw [hw'] at this
    exact Prod.ext_iff.mp (Option.some.inj this)
  · have hA : s.libc = .android := by
      cases hc : s.libc with
      | android => rfl
      | glibc => exact absurd hn (hs.2 (.inr hc))
      | other => exact absurd hc hl
    have := words_unique hs (FeatureWords.lines (t := t) _ _ hA hn hno (intersect_none t))
    rw [hw'] at this
    obtain ⟨e1, e2⟩ := Prod.ext_iff.mp (Option.some.inj this)
    dsimp only at e1 e2
    rw [e1, e2]
    exact intersect_none t

/-! ## C108 -/

/-- **C108 (the core, not its revision, decides).** Two 64-bit machines with the same feature words
and chipset, whose last identified processors have the same implementer, part and variant, get the same
answers. -/
theorem C108_same_core (e e' : Env) (s s' : Source) (hs : Answers e.config.arch s)
    (hs' : Answers e'.config.arch s') (ha : e.config.arch = .arm64) (ha' : e'.config.arch = .arm64)
    (i i' : Isa) (h : linuxIsa e s = some (some i)) (h' : linuxIsa e' s' = some (some i'))
    (b b' : Basis) (hb : DecidesFrom e s b) (hb' : DecidesFrom e' s' b')
    (hw : b.hwcap = b'.hwcap) (hw2 : b.hwcap2 = b'.hwcap2) (hc : b.chipset = b'.chipset)
    (hm : coreOf b.midr = coreOf b'.midr) (hv : variantOf b.midr = variantOf b'.midr) (q : Query) :
    has .arm64 i q = has .arm64 i' q := by
  rw [Bool.eq_iff_iff, C55_answers e s hs ha i h b hb, C55_answers e' s' hs' ha' i' h' b' hb']
  unfold Has64
  rw [hw, hw2, hc, hm, hv]

/-- **C108 (machines with one core type).** If all completely described processors have the same
implementer, part and variant, the answers are those for any of them, whatever the order.
Missing: machines with several core types (see `C108_violated`). -/
theorem C108_one_core_partial (e : Env) (s : Source) (hs : Answers e.config.arch s)
    (ha : e.config.arch = .arm64) (i : Isa) (h : linuxIsa e s = some (some i)) (b : Basis)
    (hb : DecidesFrom e s b) (t : List Proc) (hw rev : Bytes) (hr : Reads e t hw rev)
    (hone : ∀ p ∈ t, ∀ p' ∈ t, Usable p → Complete p → Usable p' → Complete p' →
      coreOf p.midr = coreOf p'.midr ∧ variantOf p.midr = variantOf p'.midr)
    (p : Proc) (hp : p ∈ t) (hu : Usable p) (hcm : Complete p) (q : Query) :
    has .arm64 i q = true ↔ Has64 { b with midr := p.midr } q := by
  rw [C55_answers e s hs ha i h b hb]
  obtain ⟨t', hw', rev', hr', hm, -⟩ := hb
  have ht : t' = t := by
    have : gather e = _ := hr'
    rw [show gather e = _ from hr] at this
    cases this; rfl
  subst ht
  rcases hm with ⟨j, p', hj, hu', hc', hm', -⟩ | ⟨-, hno⟩
  · obtain ⟨e1, e2⟩ := hone p hp p' (List.mem_of_getElem? hj) hu hcm hu' hc'
    unfold Has64
    rw [e1, e2, hm']
  · exact absurd ⟨hu, hcm⟩ (hno p hp)

/-! ## Examples -/

private def aiBlock (arch features n impl part variant : Bytes) : Bytes :=
  b!"processor\t: " ++ n ++ b!"\nFeatures\t: " ++ features ++ b!"\nCPU implementer\t: 0x" ++ impl ++
    b!"\nCPU architecture: " ++ arch ++ b!"\nCPU variant\t: 0x" ++ variant ++ b!"\nCPU part\t: 0x" ++
    part ++ b!"\nCPU revision\t: 1\n\n"

private def aiFile (b : Bytes) : File := (some b, fun _ => some 4096)
private def aiNone : File := (none, fun _ => none)

/-- A machine with two processors. -/
private def aiMachine (a : Arch) (cpuinfo : Bytes) : Env :=
  { config := ⟨a, false⟩
    kernelMax := aiFile b!"7\n", possibleMax := aiFile b!"0-1\n", presentMax := aiFile b!"0-1\n"
    possible := aiFile b!"0-1\n", present := aiFile b!"0-1\n", cpuinfo := aiFile cpuinfo
    maxFrequency := fun _ => aiNone, minFrequency := fun _ => aiNone
    packageId := fun _ => aiFile b!"0\n"
    clusterCpus := fun _ => aiNone
    coreSiblings := fun _ => aiFile b!"0-1\n"
    hardware := List.replicate 64 1, revision := List.replicate 9 2
    junk := ⟨0, 0, 0, 0⟩, junk' := ⟨0, 0, 0, 0⟩
    dec := ArmCache.decoders .arm64 (fun _ _ _ => ⟨.unknown, .unknown, 0, []⟩)
    sort := armSort .arm64, alloc := fun _ => true }

private def aiA76 (n : Bytes) : Bytes := aiBlock b!"8" b!"fp asimd" n b!"41" b!"d0b" b!"3"
private def aiA55 (n : Bytes) : Bytes := aiBlock b!"8" b!"fp asimd" n b!"41" b!"d05" b!"0"
private def aiA7 (n : Bytes) : Bytes :=
  aiBlock b!"7" b!"half thumb fastmult vfp edsp neon vfpv3 tls vfpv4 idiva idivt" n b!"41" b!"c07" b!"0"

/-- Cortex-A76 and Cortex-A55 r0, in both orders, and twice Cortex-A7. -/
private def aiBigLast : Env := aiMachine .arm64 (aiA55 b!"0" ++ aiA76 b!"1")
private def aiLittleLast : Env := aiMachine .arm64 (aiA76 b!"0" ++ aiA55 b!"1")
private def aiOld : Env := aiMachine .arm (aiA7 b!"0" ++ aiA7 b!"1")

/-- A kernel that reports floating point, NEON, AES and CRC32 only. -/
private def aiSource (l : Libc) (v : Option (Nat × Nat)) (file : File) : Source :=
  ⟨l, v, file, ⟨7, 0, 0⟩, -1⟩

private def aiAnswers (e : Env) (s : Source) (qs : List Query) : Option (List Bool) :=
  ((linuxIsa e s).bind id).map fun i => qs.map (has e.config.arch i)

private theorem ai_answers {e : Env} {s : Source} {qs : List Query} {x : List Bool}
    (h : aiAnswers e s qs = some x) :
    ∃ i, linuxIsa e s = some (some i) ∧ qs.map (has e.config.arch i) = x := by
  unfold aiAnswers at h
  obtain ⟨i, hp, hx⟩ := Option.map_eq_some_iff.mp h
  obtain ⟨r, hr, hid⟩ := Option.bind_eq_some_iff.mp hp
  cases hid
  exact ⟨i, hr, hx⟩

private theorem ai_known (a : Arch) (l : Libc) (v : Nat × Nat) : Answers a (aiSource l (some v) aiNone) :=
  ⟨fun c h => (by cases h), fun _ h => (by cases h)⟩

/-- **C108 is violated.** On a machine with a Cortex-A76 and a Cortex-A55 r0, under a kernel that
reports no dot products, they are reported if the Cortex-A76 is processor 1, though processor 0 does not
have them; and not if the Cortex-A76 is processor 0. -/
theorem C108_violated :
    ∃ (e e' : Env) (s : Source) (i i' : Isa),
      Answers .arm64 s ∧ e.config.arch = .arm64 ∧ e'.config.arch = .arm64 ∧
      linuxIsa e s = some (some i) ∧ linuxIsa e' s = some (some i') ∧
      e.cpuinfo.1 = some (aiA55 b!"0" ++ aiA76 b!"1") ∧
      e'.cpuinfo.1 = some (aiA76 b!"0" ++ aiA55 b!"1") ∧
      has .arm64 i .neonDot = true ∧ has .arm64 i' .neonDot = false := by
  have h : aiAnswers aiBigLast (aiSource .glibc (some (0x8b, 0)) aiNone) [.neonDot] = some [true] := by
    decide +kernel
  have h' : aiAnswers aiLittleLast (aiSource .glibc (some (0x8b, 0)) aiNone) [.neonDot] = some [false] := by
    decide +kernel
  obtain ⟨i, hi, hx⟩ := ai_answers h
  obtain ⟨i', hi', hx'⟩ := ai_answers h'
  exact ⟨aiBigLast, aiLittleLast, _, i, i', ai_known _ _ _, rfl, rfl, hi, hi', rfl, rfl,
    (List.cons.inj hx).1, (List.cons.inj hx').1⟩

/-- **C107 is violated.** With another C library (musl), a 32-bit program on two Cortex-A7 cores is
told that they have neither NEON nor VFPv4 nor division, although /proc/cpuinfo lists them and
`/proc/self/auxv` would be readable. -/
theorem C107_violated :
    ∃ (e : Env) (s : Source) (i : Isa) (entries : List (Nat × Nat)),
      Answers .arm s ∧ e.config.arch = .arm ∧ s.libc = .other ∧ AuxvReadable s.auxv entries ∧
      (auxvValue 16 entries).testBit 12 = true ∧
      (∃ t hw rev, Reads e t hw rev ∧ t.length = 2 ∧ ∀ p ∈ t, Featured p ∧ p.features.testBit 12 = true) ∧
      linuxIsa e s = some (some i) ∧
      [Query.v7, .thumb2, .neon, .vfpv3, .vfpv4, .idiv].map (has .arm i) =
        [true, false, false, false, false, false] := by
  have hx : aiAnswers aiOld (aiSource .other none (aiFile (auxvText [(16, 0x7b0d6), (26, 0)])))
      [.v7, .thumb2, .neon, .vfpv3, .vfpv4, .idiv] = some [true, false, false, false, false, false] := by
    decide +kernel
  obtain ⟨i, hi, hx⟩ := ai_answers hx
  have hg : ((gather aiOld).bind id).map (fun r => decide (r.1.length = 2 ∧
      ∀ p ∈ r.1, p.flags.testBit 12 = true ∧ p.flags.testBit 22 = true ∧ p.features.testBit 12 = true)) =
      some true := by decide +kernel
  obtain ⟨r, hr, hg⟩ := Option.map_eq_some_iff.mp hg
  obtain ⟨r', hr', hid⟩ := Option.bind_eq_some_iff.mp hr
  cases hid
  obtain ⟨g1, g2⟩ := of_decide_eq_true hg
  refine ⟨aiOld, _, i, [(16, 0x7b0d6), (26, 0)], ⟨?_, ?_⟩, rfl, rfl, ⟨rfl, by decide, ?_, ?_⟩, by decide,
    ⟨r.1, r.2.1, r.2.2, hr', g1, fun p hp => ⟨⟨(g2 p hp).1, (g2 p hp).2.1⟩, (g2 p hp).2.2⟩⟩, hi, hx⟩
  · intro c hc
    cases hc
    decide
  · rintro (h | h) <;> cases h
  · intro i _
    exact ⟨4096, rfl, by decide⟩
  · exact fun h => by cases h

/-- The same machine with glibc, with Android's `/proc/self/auxv`, and with Android's /proc/cpuinfo
only. -/
example :
    aiAnswers aiOld (aiSource .glibc (some (0x7b0d6, 0)) aiNone)
      [.v8, .v7mp, .thumb2, .neon, .vfpv3D32, .vfpv4, .idiv, .neonDot] =
      some [false, true, true, true, true, true, true, false] ∧
    aiAnswers aiOld (aiSource .android none (aiFile (auxvText [(16, 0x7b0d6), (26, 0)])))
      [.v8, .v7mp, .thumb2, .neon, .vfpv3D32, .vfpv4, .idiv, .neonDot] =
      some [false, true, true, true, true, true, true, false] ∧
    aiAnswers aiOld (aiSource .android none aiNone)
      [.v8, .v7mp, .thumb2, .neon, .vfpv3D32, .vfpv4, .idiv, .neonDot] =
      some [false, true, true, true, true, true, true, false] :=
  ⟨by decide +kernel, by decide +kernel, by decide +kernel⟩

/-- Two Cortex-A76 cores under an old kernel: one core type, all hypotheses of the C55 and C108 theorems
are met, and the basis is theirs. -/
example : ∃ i b, linuxIsa (aiMachine .arm64 (aiA76 b!"0" ++ aiA76 b!"1"))
      (aiSource .glibc (some (0x8b, 0)) aiNone) = some (some i) ∧
    DecidesFrom (aiMachine .arm64 (aiA76 b!"0" ++ aiA76 b!"1"))
      (aiSource .glibc (some (0x8b, 0)) aiNone) b ∧
    [Query.aes, .crc32, .sha1, .neonDot, .fp16Arith, .sve].map (has .arm64 i) =
      [true, true, false, true, true, false] ∧
    Has64 b .neonDot ∧ ¬ Has64 b .sha1 := by
  have h : aiAnswers (aiMachine .arm64 (aiA76 b!"0" ++ aiA76 b!"1"))
      (aiSource .glibc (some (0x8b, 0)) aiNone) [.aes, .crc32, .sha1, .neonDot, .fp16Arith, .sve] =
      some [true, true, false, true, true, false] := by decide +kernel
  obtain ⟨i, hi, hx⟩ := ai_answers h
  obtain ⟨b, hb⟩ := basis_of_isa (ai_known _ _ _) hi
  have A := C55_answers _ _ (ai_known _ _ _) rfl i hi b hb
  obtain ⟨h1, h2⟩ := List.cons.inj hx
  obtain ⟨h2, h3⟩ := List.cons.inj h2
  obtain ⟨h3, h4⟩ := List.cons.inj h3
  obtain ⟨h4, h5⟩ := List.cons.inj h4
  refine ⟨i, b, hi, hb, hx, (A _).mp h4, fun h => ?_⟩
  exact Bool.false_ne_true (h3.symm.trans ((A _).mpr h))

/-- A vector length of 32 bytes. -/
example : ∃ i, linuxIsa aiBigLast { aiSource .glibc (some (0x40008b, 0)) aiNone with vectorLength := 0x30020 } =
    some (some i) ∧ has .arm64 i .sve = true ∧ maxSveLength .arm64 i = 256 := by
  have h : ((linuxIsa aiBigLast { aiSource .glibc (some (0x40008b, 0)) aiNone with
      vectorLength := 0x30020 }).bind id).map (fun i => (has .arm64 i .sve, maxSveLength .arm64 i)) =
      some (true, 256) := by decide +kernel
  obtain ⟨i, hp, hx⟩ := Option.map_eq_some_iff.mp h
  obtain ⟨r, hr, hid⟩ := Option.bind_eq_some_iff.mp hp
  cases hid
  exact ⟨i, hr, congrArg Prod.fst hx, congrArg Prod.snd hx⟩

end Verif.Props
