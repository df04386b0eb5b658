import Verif.Proof.X86Isa
import Verif.Props.X86Cpuid

/-!
# C27, C28, C64–C66: the x86 instruction-set flags

The answers of CPUID, the value of XCR0 and the MXCSR mask are arbitrary.
-/

set_option autoImplicit false

namespace Verif.Props
open Spec X86Cpuid

/-! ## C64: flags and documented bits -/

/-- **C64, what holds.** On a processor with leaf 1, every flag that the build has is reported
exactly when a leaf that exists advertises it and the operating system has enabled the register
state it needs, except for VAES, VPCLMULQDQ and AMX (see C65). -/
theorem C64_exact_partial (t : Target) (c : Cpuid) (xcr0 mx : Nat) (h1 : 1 ≤ (c.leaf 0).eax)
    (f : Feature) (d : FeatureDoc) (hd : featureDoc f = some d)
    (hx : f ∉ [Feature.vaes, .vpclmulqdq, .amxBf16, .amxTile, .amxInt8, .amxFp16]) :
    initIsa t c xcr0 mx f = true ↔
      InBuild t f ∧ (∃ b ∈ d.anyOf, Advertises c b) ∧ Enables c xcr0 d.state :=
  initIsa_exact t c xcr0 mx h1 f d hd hx

/-- **C64.** Without leaf 1 nothing is reported. -/
theorem C64_no_leaf1 (t : Target) (c : Cpuid) (xcr0 mx : Nat) (h1 : (c.leaf 0).eax = 0)
    (f : Feature) : initIsa t c xcr0 mx f = false := by
  simp [initIsa, h1]

/-- **C64.** FXSAVE and Cyrix's EMMX share a bit of the extended leaf; the vendor decides. -/
theorem C64_fxsave_emmx (t : Target) (c : Cpuid) (xcr0 mx : Nat) (h1 : 1 ≤ (c.leaf 0).eax) :
    let v := decodeVendor t (c.leaf 0).ebx (c.leaf 0).ecx (c.leaf 0).edx
    (initIsa t c xcr0 mx .emmx = true ↔
      (v = .cyrix ∨ v = .nsc) ∧ Advertises c (0x80000001, 0, .edx, 24)) ∧
    (initIsa t c xcr0 mx .fxsave = true ↔ ¬ (v = .cyrix ∨ v = .nsc) ∧
      (Advertises c (1, 0, .edx, 24) ∨ Advertises c (0x80000001, 0, .edx, 24))) := by
  intro v
  have hv : t.x86_32 = false → v ≠ .cyrix ∧ v ≠ .nsc := by
    intro ht
    constructor <;>
    · intro hh
      have hm := (decodeVendor_regs t _ _ _ _ (by decide)).mp hh
      simp [vendorRegs, ht] at hm
  have hcy : cyrixOrNsc t v = true ↔ (v = .cyrix ∨ v = .nsc) := by
    cases ht : t.x86_32
    · have := hv ht
      simp [cyrixOrNsc, ht, this.1, this.2]
    · simp [cyrixOrNsc, ht]
  have hcy' : cyrixOrNsc t v = false ↔ ¬ (v = .cyrix ∨ v = .nsc) := by
    rw [← hcy]; simp
  simp only [initIsa]
  rw [if_pos (show (c.leaf 0).eax ≥ 1 from h1)]
  constructor
  · simp only [isaFlag, Bool.and_eq_true, flag_24]
    rw [hcy, adv_ext_edx]; rfl
  · simp only [isaFlag, Bool.and_eq_true, flag_24, Bool.not_eq_true']
    rw [hcy', adv_ext_edx, adv_1_edx _ h1, Nat.testBit_or, Bool.or_eq_true]; rfl

/-- **C64.** PREFETCH is reported for AMD and Hygon if 3DNow! prefetch, 3DNow!, extended 3DNow! or
64-bit mode is advertised, never for Intel, and for the others if 3DNow! is; PREFETCHW likewise,
but with the prefetch bit counting for all vendors. -/
theorem C64_prefetch (t : Target) (c : Cpuid) (xcr0 mx : Nat) (h1 : 1 ≤ (c.leaf 0).eax) :
    let v := decodeVendor t (c.leaf 0).ebx (c.leaf 0).ecx (c.leaf 0).edx
    let has := fun r k => Advertises c (0x80000001, 0, r, k)
    (initIsa t c xcr0 mx .prefetch = true ↔
      v ≠ .intel ∧ (has .edx 30 ∨ has .edx 31 ∨
        ((v = .amd ∨ v = .hygon) ∧ (has .ecx 8 ∨ has .edx 29)))) ∧
    (initIsa t c xcr0 mx .prefetchw = true ↔
      has .ecx 8 ∨ has .edx 30 ∨ has .edx 31 ∨ ((v = .amd ∨ v = .hygon) ∧ has .edx 29)) := by
  intro v has
  have hE : (0xE0000000 : Nat) = 2 ^ 29 ||| (2 ^ 30 ||| 2 ^ 31) := by decide
  have hC : (0xC0000000 : Nat) = 2 ^ 30 ||| 2 ^ 31 := by decide
  have h8 : ∀ x, flag x 0x100 = x.testBit 8 := flag_8
  have hor : ∀ x a b, flag x (a ||| b) = (flag x a || flag x b) := by
    intro x a b
    have := or_flags x x a b
    rw [← this]
    unfold flag
    rw [Nat.and_or_distrib_left]
  have flE : ∀ x, flag x 0xE0000000 = (x.testBit 29 || (x.testBit 30 || x.testBit 31)) := by
    intro x; rw [hE, hor, hor, flag_pow, flag_pow, flag_pow]
  have flC : ∀ x, flag x 0xC0000000 = (x.testBit 30 || x.testBit 31) := by
    intro x; rw [hC, hor, flag_pow, flag_pow]
  simp only [initIsa]
  rw [if_pos (show (c.leaf 0).eax ≥ 1 from h1)]
  have hb : ∀ r k, has r k ↔ (r.of (extendedInfo c)).testBit k = true := by
    intro r k
    cases r
    · exact adv_ext_eax c 0 k
    · exact adv_ext_ebx c 0 k
    · exact adv_ext_ecx c 0 k
    · exact adv_ext_edx c 0 k
  simp only [hb, Reg.of, isaFlag, isaPrefetch, isaPrefetchw, or_flags, h8, flE, flC]
  show ((match v with | .intel => _ | .amd | .hygon => _ | _ => _) = true ↔ _) ∧
    ((match v with | .amd | .hygon => _ | _ => _) = true ↔ _)
  simp only [isaSource]
  cases v <;> simp [Bool.or_eq_true] <;>
    (cases (extendedInfo c).ecx.testBit 8 <;> cases (extendedInfo c).edx.testBit 29 <;>
      cases (extendedInfo c).edx.testBit 30 <;> cases (extendedInfo c).edx.testBit 31 <;> simp)

/-- **C64.** Padlock features are reported for VIA processors with a Padlock leaf that shows the
unit both present and enabled. -/
theorem C64_padlock (t : Target) (c : Cpuid) (xcr0 mx : Nat) (h1 : 1 ≤ (c.leaf 0).eax)
    (f : Feature) (k : Nat)
    (hf : (f, k) ∈ [(Feature.rng, 2), (.ace, 6), (.ace2, 8), (.phe, 10), (.pmm, 12)]) :
    initIsa t c xcr0 mx f = true ↔
      decodeVendor t (c.leaf 0).ebx (c.leaf 0).ecx (c.leaf 0).edx = .via ∧
      0xC0000001 ≤ (c.leaf 0xC0000000).eax ∧
      (c.leaf 0xC0000001).edx.testBit k = true ∧ (c.leaf 0xC0000001).edx.testBit (k + 1) = true := by
  have key : ∀ (v : Vendor) (m : Nat), m = maskOf [k, k + 1] →
      (((padlockInfo c v).edx &&& m == m) = true ↔ v = .via ∧
        0xC0000001 ≤ (c.leaf 0xC0000000).eax ∧ (c.leaf 0xC0000001).edx.testBit k = true ∧
        (c.leaf 0xC0000001).edx.testBit (k + 1) = true) := by
    intro v m hm
    rw [beq_iff_eq, hm, and_maskOf]
    unfold padlockInfo
    by_cases hv : v = .via
    · rw [if_pos hv]
      by_cases hl : (c.leaf 0xC0000000).eax ≥ 0xC0000001
      · rw [if_pos hl]
        have hl' : 3221225473 ≤ (c.leaf 3221225472).eax := hl
        simp [hv, hl']
      · rw [if_neg hl]
        have hl' : ¬ 3221225473 ≤ (c.leaf 3221225472).eax := hl
        simp only [hl', false_and, and_false, iff_false]
        exact fun hh => by simpa using hh k (by simp)
    · rw [if_neg hv]
      simp only [hv, false_and, iff_false]
      exact fun hh => by simpa using hh k (by simp)
  simp only [initIsa]
  rw [if_pos (show (c.leaf 0).eax ≥ 1 from h1)]
  simp only [List.mem_cons, List.not_mem_nil, or_false, Prod.mk.injEq] at hf
  rcases hf with ⟨rfl, rfl⟩ | ⟨rfl, rfl⟩ | ⟨rfl, rfl⟩ | ⟨rfl, rfl⟩ | ⟨rfl, rfl⟩
  · exact key _ 0x0000000C (by decide)
  · exact key _ 0x000000C0 (by decide)
  · exact key _ 0x00000300 (by decide)
  · exact key _ 0x00000C00 (by decide)
  · exact key _ 0x00003000 (by decide)

/-- **C64.** In 32-bit builds, denormals-as-zero is reported with SSE3, or with SSE and FXSAVE if
FXSAVE shows the bit in the MXCSR mask; the Geode extensions with extended 3DNow! on a Geode. -/
theorem C64_daz_geode (t : Target) (c : Cpuid) (xcr0 mx : Nat) (h32 : t.x86_32 = true) :
    let isa := initIsa t c xcr0 mx
    (isa .daz = true ↔
      isa .sse3 = true ∨ (isa .sse = true ∧ isa .fxsave = true ∧ mx.testBit 6 = true)) ∧
    (1 ≤ (c.leaf 0).eax →
      (isa .threeDNowGeode = true ↔ isa .threeDNowPlus = true ∧
        decodeUarch t (decodeVendor t (c.leaf 0).ebx (c.leaf 0).ecx (c.leaf 0).edx)
          (decodeModelInfo (c.leaf 1).eax) = .geode)) := by
  intro isa
  by_cases h1 : (c.leaf 0).eax ≥ 1
  · simp only [isa, initIsa, if_pos h1, isaFlag, h32, Bool.true_and, Bool.or_eq_true,
      Bool.and_eq_true, decide_eq_true_eq, and_assoc]
    refine ⟨?_, fun _ => ?_⟩
    rotate_left
    · trivial
    rw [show ∀ x, flag x 0x40 = x.testBit 6 from flag_6]
    rfl
  · constructor
    · simp [isa, initIsa, h1]
    · intro h; exact absurd h h1

/-- **C64.** Nothing outside the existing leaves matters for the flags, AVX10.2 and Padlock aside:
two processors that agree on them, in XCR0 and the MXCSR mask have the same flags. -/
theorem C64_only_existing_leaves_partial (t : Target) (c c' : Cpuid) (xcr0 mx : Nat)
    (hl : ∀ n, n = 0 ∨ n = 0x80000000 ∨ LeafExists c n → c.leaf n = c'.leaf n)
    (hs : ∀ n i, LeafExists c n → c.sub n i = c'.sub n i)
    (f : Feature) (hf : f ∉ [Feature.avx10_2, .rng, .ace, .ace2, .phe, .pmm]) :
    initIsa t c xcr0 mx f = initIsa t c' xcr0 mx f := by
  have h0 := hl 0 (.inl rfl)
  have h8 := hl 0x80000000 (.inr (.inl rfl))
  have hme : maxExtendedIndex c = maxExtendedIndex c' := by unfold maxExtendedIndex; rw [h8]
  have hbase : ∀ n, n < 0x80000000 → n ≤ (c.leaf 0).eax → LeafExists c n := by
    intro n hn hle
    unfold LeafExists; rw [if_pos hn]; exact hle
  have hextl : ∀ n, 0x80000000 < n → maxExtendedIndex c ≥ n → LeafExists c n := by
    intro n hn hle
    unfold LeafExists; rw [if_neg (by omega)]
    unfold maxExtendedIndex at hle
    split at hle
    · exact hle
    · omega
  have hei : extendedInfo c = extendedInfo c' := by
    unfold extendedInfo
    rw [← hme]
    by_cases h : maxExtendedIndex c ≥ 0x80000001
    · rw [if_pos h, if_pos h]; exact hl _ (.inr (.inr (hextl _ (by decide) h)))
    · rw [if_neg h, if_neg h]
  simp only [initIsa]
  rw [← h0]
  by_cases h1 : (c.leaf 0).eax ≥ 1
  · rw [if_pos h1, if_pos h1, ← hei, ← hme, ← hl 1 (.inr (.inr (hbase 1 (by decide) h1)))]
    have hreg : ∀ m, osRegs c xcr0 (c.leaf 0).eax (c.leaf 1).ecx m =
        osRegs c' xcr0 (c.leaf 0).eax (c.leaf 1).ecx m := by
      intro m
      unfold osRegs xcr0Valid
      by_cases h : (c.leaf 0).eax ≥ 0xD
      · rw [hs 0xD 0 (hbase _ (by decide) h)]
      · rw [if_neg h, if_neg h]
    have hsf : ∀ i, (if (c.leaf 0).eax ≥ 7 then c.sub 7 i else ⟨0, 0, 0, 0⟩) =
        (if (c.leaf 0).eax ≥ 7 then c'.sub 7 i else (⟨0, 0, 0, 0⟩ : Regs)) := by
      intro i
      by_cases h : (c.leaf 0).eax ≥ 7
      · rw [if_pos h, if_pos h]; exact hs 7 i (hbase _ (by decide) h)
      · rw [if_neg h, if_neg h]
    have hcap : (if maxExtendedIndex c ≥ 0x80000008 then c.leaf 0x80000008 else ⟨0, 0, 0, 0⟩) =
        (if maxExtendedIndex c ≥ 0x80000008 then c'.leaf 0x80000008
          else (⟨0, 0, 0, 0⟩ : Regs)) := by
      by_cases h : maxExtendedIndex c ≥ 0x80000008
      · rw [if_pos h, if_pos h]; exact hl _ (.inr (.inr (hextl _ (by decide) h)))
      · rw [if_neg h, if_neg h]
    cases f <;> (first | (exfalso; revert hf; decide) | skip) <;>
      simp only [isaFlag, isaSource, isaPrefetch, isaPrefetchw, hreg, hsf, hcap]
  · rw [if_neg h1, if_neg h1]

/-! ## C27: operating system support -/

/-- The AVX-class features: 256-bit vectors. -/
def avxClass : List Feature :=
  [.avx, .fma3, .f16c, .avx2, .xop, .fma4, .avxvnni, .avxVnniInt8, .avxVnniInt16, .avxNeConvert]

/-- The AVX-512 and AVX10 features: 512-bit vectors and mask registers. -/
def avx512Class : List Feature :=
  [.avx512f, .avx512pf, .avx512er, .avx512cd, .avx512dq, .avx512bw, .avx512vl, .avx512ifma,
    .avx512vbmi, .avx512vbmi2, .avx512bitalg, .avx512vpopcntdq, .avx512vnni, .avx512bf16,
    .avx512fp16, .avx512vp2intersect, .avx512_4vnniw, .avx512_4fmaps, .avx10_1, .avx10_2]

/-- **C28.** AVX10.2 is reported exactly with AVX10.1 and a version of at least 2 in leaf 0x24. -/
theorem C28_avx10 (t : Target) (c : Cpuid) (xcr0 mx : Nat) :
    initIsa t c xcr0 mx .avx10_2 = true ↔
      initIsa t c xcr0 mx .avx10_1 = true ∧ 2 ≤ (c.sub 0x24 0).ebx % 256 := by
  simp only [initIsa]
  by_cases h1 : (c.leaf 0).eax ≥ 1
  · rw [if_pos h1]
    simp only [isaFlag, isaSource, Bool.and_eq_true, decide_eq_true_eq, ge_iff_le, and_FF]
    by_cases h7 : 7 ≤ (c.leaf 0).eax
    · rw [if_pos h7, if_pos h7]; exact And.comm
    · rw [if_neg h7, if_neg h7]
      simp [flag]
  · rw [if_neg h1]; simp

/-- **C27.** A reported AVX-class feature is advertised, and the operating system has enabled the
SSE and AVX state (bits 1 and 2 of XCR0, valid and set, with XSAVE and OSXSAVE). -/
theorem C27_avx_needs_os (t : Target) (c : Cpuid) (xcr0 mx : Nat) (f : Feature)
    (hf : f ∈ avxClass) (h : initIsa t c xcr0 mx f = true) :
    (∃ d b, featureDoc f = some d ∧ b ∈ d.anyOf ∧ Advertises c b) ∧
    (c.leaf 1).ecx.testBit 26 = true ∧ (c.leaf 1).ecx.testBit 27 = true ∧ 0xD ≤ (c.leaf 0).eax ∧
    ∀ k ∈ [1, 2], (c.sub 0xD 0).eax.testBit k = true ∧ xcr0.testBit k = true := by
  have h1 : 1 ≤ (c.leaf 0).eax := by
    rcases Nat.eq_zero_or_pos (c.leaf 0).eax with h0 | hp
    · rw [C64_no_leaf1 t c xcr0 mx h0 f] at h; cases h
    · exact hp
  have hdoc : ∃ l, featureDoc f = some ⟨l, [1, 2]⟩ ∧
      f ∉ [Feature.vaes, .vpclmulqdq, .amxBf16, .amxTile, .amxInt8, .amxFp16] := by
    simp only [avxClass, List.mem_cons, List.not_mem_nil, or_false] at hf
    rcases hf with rfl | rfl | rfl | rfl | rfl | rfl | rfl | rfl | rfl | rfl <;>
      exact ⟨_, rfl, by decide⟩
  obtain ⟨l, hd, hx⟩ := hdoc
  obtain ⟨_, ⟨b, hb, ha⟩, he⟩ := (initIsa_exact t c xcr0 mx h1 f _ hd hx).mp h
  obtain ⟨e1, e2, e3, e4⟩ := he (by simp)
  exact ⟨⟨_, b, hd, hb, ha⟩, e1, e2, e3, e4⟩

/-- **C27, C28.** A reported AVX-512 or AVX10 feature has the full state enabled: SSE, AVX, mask
registers and both halves of the 512-bit registers (bits 1, 2, 5, 6, 7 of XCR0). -/
theorem C27_avx512_needs_os (t : Target) (c : Cpuid) (xcr0 mx : Nat) (f : Feature)
    (hf : f ∈ avx512Class) (h : initIsa t c xcr0 mx f = true) :
    (∃ b, Advertises c b ∧ (f ≠ .avx10_2 → ∃ d, featureDoc f = some d ∧ b ∈ d.anyOf)) ∧
    (c.leaf 1).ecx.testBit 26 = true ∧ (c.leaf 1).ecx.testBit 27 = true ∧ 0xD ≤ (c.leaf 0).eax ∧
    ∀ k ∈ [1, 2, 5, 6, 7], (c.sub 0xD 0).eax.testBit k = true ∧ xcr0.testBit k = true := by
  have h1 : 1 ≤ (c.leaf 0).eax := by
    rcases Nat.eq_zero_or_pos (c.leaf 0).eax with h0 | hp
    · rw [C64_no_leaf1 t c xcr0 mx h0 f] at h; cases h
    · exact hp
  have hdoc : ∃ g, initIsa t c xcr0 mx g = true ∧ (f ≠ .avx10_2 → g = f) ∧
      ∃ l, featureDoc g = some ⟨l, [1, 2, 5, 6, 7]⟩ ∧
      g ∉ [Feature.vaes, .vpclmulqdq, .amxBf16, .amxTile, .amxInt8, .amxFp16] := by
    by_cases hf2 : f = .avx10_2
    · subst hf2
      exact ⟨.avx10_1, ((C28_avx10 t c xcr0 mx).mp h).1, fun hh => absurd rfl hh, _, rfl, by decide⟩
    · refine ⟨f, h, fun _ => rfl, ?_⟩
      simp only [avx512Class, List.mem_cons, List.not_mem_nil, or_false] at hf
      rcases hf with rfl | rfl | rfl | rfl | rfl | rfl | rfl | rfl | rfl | rfl | rfl | rfl | rfl |
        rfl | rfl | rfl | rfl | rfl | rfl | rfl <;>
        first | exact absurd rfl hf2 | exact ⟨_, rfl, by decide⟩
  obtain ⟨g, hg, hgf, l, hd, hx⟩ := hdoc
  obtain ⟨_, ⟨b, hb, ha⟩, he⟩ := (initIsa_exact t c xcr0 mx h1 g _ hd hx).mp hg
  obtain ⟨e1, e2, e3, e4⟩ := he (by simp)
  exact ⟨⟨b, ha, fun hn => ⟨_, hgf hn ▸ hd, hb⟩⟩, e1, e2, e3, e4⟩

/-- **C27.** Without OSXSAVE the value of XCR0, which cannot be read then, has no influence, and
without FXSAVE the MXCSR mask has none. -/
theorem C27_unreadable_registers (t : Target) (c : Cpuid) (xcr0 xcr0' mx mx' : Nat) (f : Feature) :
    ((c.leaf 1).ecx.testBit 27 = false → initIsa t c xcr0 mx f = initIsa t c xcr0' mx f) ∧
    (initIsa t c xcr0 mx .fxsave = false → initIsa t c xcr0 mx f = initIsa t c xcr0 mx' f) := by
  constructor
  · intro h
    have hreg : ∀ x m, osRegs c x (c.leaf 0).eax (c.leaf 1).ecx m = false := by
      intro x m
      unfold osRegs
      rw [if_neg]
      intro hh
      rw [show (0x0C000000 : Nat) = maskOf [26, 27] by decide, and_maskOf] at hh
      rw [hh 27 (by decide)] at h
      cases h
    simp only [initIsa, isaSource, hreg]
  · intro h
    simp only [initIsa] at h ⊢
    by_cases h1 : (c.leaf 0).eax ≥ 1
    · rw [if_pos h1] at h ⊢
      rw [if_pos h1]
      have hfx : (!cyrixOrNsc t (decodeVendor t (c.leaf 0).ebx (c.leaf 0).ecx (c.leaf 0).edx) &&
          flag ((c.leaf 1).edx ||| (extendedInfo c).edx) 16777216) = false := h
      cases f <;> first
        | rfl
        | (simp only [isaFlag, isaSource, hfx, Bool.and_false, Bool.false_and])
    · rw [if_neg h1, if_neg h1]

/-! ## C28, C65: what the code gets wrong -/

/-- A processor with AVX-512, AVX10.1, VAES and AMX whose highest basic leaf is `m`; XCR0
components `x` are valid, OSXSAVE as given.  To higher leaves it answers, as Intel processors do,
with data of other leaves. -/
def bigCpuid (m x leaf1ecx : Nat) : Cpuid :=
  { leaf := fun n =>
      if n = 0 then ⟨m, 0x756E6547, 0x6C65746E, 0x49656E69⟩
      else if n = 1 then ⟨0x000806F8, 0x00100800, leaf1ecx, 0x178BFBFF⟩
      else ⟨0, 0, 0, 0⟩
    sub := fun n i =>
      if n = 7 then
        if i = 0 then ⟨1, 0xF1BF07AB, 0x00415F4E, 0x03C00000⟩
        else if i = 1 then ⟨0x00200030, 0, 0, 0x00080000⟩ else ⟨0, 0, 0, 0⟩
      else if n = 13 then ⟨x, 0, 0, 0⟩
      else if n = 36 ∧ i = 0 then ⟨0, 2, 0, 0⟩
      else ⟨0, 0, 0, 0⟩
    leaf2 := fun _ => ⟨1, 0, 0, 0⟩ }

/-- The hypotheses of C64 and C27 are met by a processor with AVX-512 and all state enabled. -/
example :
    let isa := initIsa ⟨false, false⟩ (bigCpuid 0x24 0x600E7 0x7FFEFBBF) 0x600E7 0
    isa .avx512f = true ∧ isa .avx10_2 = true ∧ isa .avx2 = true ∧ isa .vaes = true ∧
    isa .fma4 = false ∧ isa .sse = false ∧ isa .sse4_2 = true ∧ isa .avx512bf16 = true ∧
    Advertises (bigCpuid 0x24 0x600E7 0x7FFEFBBF) (7, 0, .ebx, 16) ∧
    Enables (bigCpuid 0x24 0x600E7 0x7FFEFBBF) 0x600E7 [1, 2, 5, 6, 7] := by
  unfold Advertises Enables LeafExists
  decide +kernel

/-- **C28 is false of the code**: AVX10.2 is reported from leaf 0x24 on a processor whose highest
leaf is 0x20, so that leaf 0x24 does not exist. -/
theorem C28_violated :
    initIsa ⟨false, false⟩ (bigCpuid 0x20 0x600E7 0x7FFEFBBF) 0x600E7 0 .avx10_2 = true ∧
    ¬ LeafExists (bigCpuid 0x20 0x600E7 0x7FFEFBBF) 0x24 := by
  unfold LeafExists
  decide +kernel

/-- **C28, what holds.** Without leaf 7 neither AVX10 version is reported. -/
theorem C28_avx10_leaf7_partial (t : Target) (c : Cpuid) (xcr0 mx : Nat)
    (h : initIsa t c xcr0 mx .avx10_2 = true) :
    initIsa t c xcr0 mx .avx10_1 = true ∧ 7 ≤ (c.leaf 0).eax := by
  have h' := ((C28_avx10 t c xcr0 mx).mp h).1
  obtain ⟨_, _, _, hD, _⟩ := C27_avx512_needs_os t c xcr0 mx .avx10_1 (by decide) h'
  exact ⟨h', by omega⟩

/-- **C65 is false of the code**: VAES and VPCLMULQDQ are reported without OSXSAVE and with no
register state enabled; AMX is reported though the operating system has not enabled the tile
state, and not reported where it has enabled that but not the AVX-512 state. -/
theorem C65_violated :
    (∃ c, initIsa ⟨false, false⟩ c 0 0 .vaes = true ∧
      initIsa ⟨false, false⟩ c 0 0 .vpclmulqdq = true ∧
      initIsa ⟨false, false⟩ c 0 0 .avx = false ∧ (c.leaf 1).ecx.testBit 27 = false) ∧
    (∃ c, initIsa ⟨false, false⟩ c 0xE7 0 .amxTile = true ∧ ¬ Enables c 0xE7 [17, 18]) ∧
    (∃ c, initIsa ⟨false, false⟩ c 0x60007 0 .amxTile = false ∧
      Advertises c (7, 0, .edx, 24) ∧ Enables c 0x60007 [17, 18]) := by
  refine ⟨⟨bigCpuid 0x24 0x600E7 0, ?_⟩, ⟨bigCpuid 0x24 0x600E7 0x7FFEFBBF, ?_⟩,
    ⟨bigCpuid 0x24 0x600E7 0x7FFEFBBF, ?_⟩⟩
  · decide +kernel
  · unfold Enables LeafExists; decide +kernel
  · unfold Advertises Enables LeafExists; decide +kernel

/-- **C65, what holds.** VAES and VPCLMULQDQ are reported exactly as advertised, hence rightly
where the AVX state is enabled; AMX is reported exactly as advertised where the AVX-512 state is
enabled, hence rightly where tile and AVX-512 state are enabled together. -/
theorem C65_as_advertised_partial (t : Target) (c : Cpuid) (xcr0 mx : Nat)
    (h1 : 1 ≤ (c.leaf 0).eax) :
    (∀ f ∈ [Feature.vaes, .vpclmulqdq], ∃ b, featureDoc f = some ⟨[b], [1, 2]⟩ ∧
      (initIsa t c xcr0 mx f = true ↔ Advertises c b)) ∧
    (∀ f ∈ [Feature.amxBf16, .amxTile, .amxInt8, .amxFp16],
      ∃ b, featureDoc f = some ⟨[b], [17, 18]⟩ ∧
        (initIsa t c xcr0 mx f = true ↔ Advertises c b ∧ Enables c xcr0 [1, 2, 5, 6, 7])) := by
  have hsf := adv_7_ecx c 0
  have hsd := adv_7_edx c 0
  have hsa := adv_7_eax c 1
  simp only [List.forall_mem_cons, List.not_mem_nil, false_implies, implies_true, and_true]
  simp only [initIsa]
  rw [if_pos (show (c.leaf 0).eax ≥ 1 from h1)]
  refine ⟨⟨⟨_, rfl, ?_⟩, ⟨_, rfl, ?_⟩⟩, ⟨_, rfl, ?_⟩, ⟨_, rfl, ?_⟩, ⟨_, rfl, ?_⟩, ⟨_, rfl, ?_⟩⟩
  · rw [hsf]; simp only [isaFlag, flag_9, isaSource]
  · rw [hsf]; simp only [isaFlag, flag_10, isaSource]
  all_goals rw [← osRegs_avx512]
  · rw [hsd]; simp only [isaFlag, flag_22, isaSource, Bool.and_eq_true, and_comm]
  · rw [hsd]; simp only [isaFlag, flag_24, isaSource, Bool.and_eq_true, and_comm]
  · rw [hsd]; simp only [isaFlag, flag_25, isaSource, Bool.and_eq_true, and_comm]
  · rw [hsa]; simp only [isaFlag, flag_21, isaSource, Bool.and_eq_true, and_comm]

/-! ## C66: the functions -/

/-- Features that every processor of the build's target has: x86-64 and Android's ABIs. -/
def baseline (t : Target) : List Feature :=
  (if t.x86_32 then [.lahfSahf] else [.cmov, .cmpxchg8b]) ++
  (if t.x86_32 && !t.android then []
    else [.rdtsc, .fpu, .mmx, .mmxPlus, .daz, .sse, .sse2]) ++
  (if t.android then [.sse3, .ssse3] else []) ++
  (if !t.x86_32 && t.android then [.sse4_1, .sse4_2, .popcnt] else [])

/-- Features that the build's target has no use for. -/
def neverReported (t : Target) : List Feature :=
  (if t.x86_32 && !t.android then [] else [.threeDNowGeode]) ++
  (if t.x86_32 then [.cmpxchg16b] else [])

/-- Fields of the table of flags without a function. -/
def noFunction : List Feature :=
  [.msr, .syscall, .pmm, .emmx, .rng, .lwp, .ace, .fsGsBase, .clflushopt, .ace2, .clflush,
    .sysenter, .phe]

/-- **C66.** A function `cpuinfo_has_x86_*` returns the detected flag, except that it is constantly
true for the target's baseline and false for what the target cannot use. -/
theorem C66_functions (t : Target) (isa : Feature → Bool) (f : Feature) (hf : f ∉ noFunction) :
    hasX86 t isa f =
      some (decide (f ∈ baseline t) || (!decide (f ∈ neverReported t) && isa f)) := by
  obtain ⟨a, b⟩ := t
  cases a <;> cases b <;> cases f <;>
    first
      | (exfalso; revert hf; decide)
      | (simp [hasX86, baseline, neverReported])

/-- **C66.** No function returns a flag that the build never sets: where the flag of the feature
does not exist in the build, the function is constant. -/
theorem C66_no_unset_flag (t : Target) (isa isa' : Feature → Bool) (f : Feature)
    (hf : f ∉ noFunction) (hb : ¬ InBuild t f) : hasX86 t isa f = hasX86 t isa' f := by
  obtain ⟨a, b⟩ := t
  revert hb
  cases a <;> cases b <;> cases f <;>
    first
      | (exfalso; revert hf; decide)
      | (intro _; rfl)
      | (intro hb; exact absurd (by simp [InBuild, only32]) hb)

/-- Both cases occur: SSE2 is constantly true in 64-bit builds and detected in 32-bit ones. -/
example : ¬ InBuild ⟨false, false⟩ .sse2 ∧
    hasX86 ⟨false, false⟩ (fun _ => false) .sse2 = some true ∧
    hasX86 ⟨true, false⟩ (fun _ => false) .sse2 = some false := by
  unfold InBuild; decide

end Verif.Props
