import Verif.Spec.X86Isa
import Verif.Proof.X86Cpuid

/-!
# Lemmas about the x86 instruction-set flags
-/

set_option autoImplicit false

namespace Verif.X86Cpuid
open Spec

theorem flag_pow (x k : Nat) : flag x (2 ^ k) = x.testBit k := by
  have h := and_bit x k
  unfold flag
  by_cases ht : x.testBit k
  · rw [ht]; simpa using h.mpr ht
  · have : ¬ (x &&& 2 ^ k ≠ 0) := fun hh => ht (h.mp hh)
    rw [Bool.not_eq_true] at ht
    rw [ht]; simpa using this

theorem flag_0 (x : Nat) : flag x 0x00000001 = x.testBit 0 := flag_pow x 0
theorem flag_1 (x : Nat) : flag x 0x00000002 = x.testBit 1 := flag_pow x 1
theorem flag_2 (x : Nat) : flag x 0x00000004 = x.testBit 2 := flag_pow x 2
theorem flag_3 (x : Nat) : flag x 0x00000008 = x.testBit 3 := flag_pow x 3
theorem flag_4 (x : Nat) : flag x 0x00000010 = x.testBit 4 := flag_pow x 4
theorem flag_5 (x : Nat) : flag x 0x00000020 = x.testBit 5 := flag_pow x 5
theorem flag_6 (x : Nat) : flag x 0x00000040 = x.testBit 6 := flag_pow x 6
theorem flag_7 (x : Nat) : flag x 0x00000080 = x.testBit 7 := flag_pow x 7
theorem flag_8 (x : Nat) : flag x 0x00000100 = x.testBit 8 := flag_pow x 8
theorem flag_9 (x : Nat) : flag x 0x00000200 = x.testBit 9 := flag_pow x 9
theorem flag_10 (x : Nat) : flag x 0x00000400 = x.testBit 10 := flag_pow x 10
theorem flag_11 (x : Nat) : flag x 0x00000800 = x.testBit 11 := flag_pow x 11
theorem flag_12 (x : Nat) : flag x 0x00001000 = x.testBit 12 := flag_pow x 12
theorem flag_13 (x : Nat) : flag x 0x00002000 = x.testBit 13 := flag_pow x 13
theorem flag_14 (x : Nat) : flag x 0x00004000 = x.testBit 14 := flag_pow x 14
theorem flag_15 (x : Nat) : flag x 0x00008000 = x.testBit 15 := flag_pow x 15
theorem flag_16 (x : Nat) : flag x 0x00010000 = x.testBit 16 := flag_pow x 16
theorem flag_17 (x : Nat) : flag x 0x00020000 = x.testBit 17 := flag_pow x 17
theorem flag_18 (x : Nat) : flag x 0x00040000 = x.testBit 18 := flag_pow x 18
theorem flag_19 (x : Nat) : flag x 0x00080000 = x.testBit 19 := flag_pow x 19
theorem flag_20 (x : Nat) : flag x 0x00100000 = x.testBit 20 := flag_pow x 20
theorem flag_21 (x : Nat) : flag x 0x00200000 = x.testBit 21 := flag_pow x 21
theorem flag_22 (x : Nat) : flag x 0x00400000 = x.testBit 22 := flag_pow x 22
theorem flag_23 (x : Nat) : flag x 0x00800000 = x.testBit 23 := flag_pow x 23
theorem flag_24 (x : Nat) : flag x 0x01000000 = x.testBit 24 := flag_pow x 24
theorem flag_25 (x : Nat) : flag x 0x02000000 = x.testBit 25 := flag_pow x 25
theorem flag_26 (x : Nat) : flag x 0x04000000 = x.testBit 26 := flag_pow x 26
theorem flag_27 (x : Nat) : flag x 0x08000000 = x.testBit 27 := flag_pow x 27
theorem flag_28 (x : Nat) : flag x 0x10000000 = x.testBit 28 := flag_pow x 28
theorem flag_29 (x : Nat) : flag x 0x20000000 = x.testBit 29 := flag_pow x 29
theorem flag_30 (x : Nat) : flag x 0x40000000 = x.testBit 30 := flag_pow x 30
theorem flag_31 (x : Nat) : flag x 0x80000000 = x.testBit 31 := flag_pow x 31

theorem and_or_eq_iff (x a b : Nat) :
    x &&& (a ||| b) = a ||| b ↔ x &&& a = a ∧ x &&& b = b := by
  constructor
  · intro h
    constructor <;>
    · apply Nat.eq_of_testBit_eq
      intro i
      have := congrArg (fun n => n.testBit i) h
      simp only [Nat.testBit_and, Nat.testBit_or] at this ⊢
      revert this
      cases x.testBit i <;> cases a.testBit i <;> cases b.testBit i <;> decide
  · rintro ⟨h1, h2⟩
    rw [Nat.and_or_distrib_left, h1, h2]

theorem and_pow_eq_iff (x k : Nat) : x &&& 2 ^ k = 2 ^ k ↔ x.testBit k = true := by
  constructor
  · intro h
    have := congrArg (fun n => n.testBit k) h
    simpa [Nat.testBit_and, Nat.testBit_two_pow_self] using this
  · intro h
    apply Nat.eq_of_testBit_eq
    intro i
    rw [Nat.testBit_and]
    by_cases hi : k = i
    · subst hi; rw [h]; simp
    · rw [Nat.testBit_two_pow_of_ne hi]; simp

/-- A mask given by its bits. -/
def maskOf : List Nat → Nat
  | [] => 0
  | k :: l => 2 ^ k ||| maskOf l

theorem and_maskOf (x : Nat) (l : List Nat) :
    x &&& maskOf l = maskOf l ↔ ∀ k ∈ l, x.testBit k = true := by
  induction l with
  | nil => simp [maskOf]
  | cons k l ih => rw [maskOf, and_or_eq_iff, and_pow_eq_iff, ih]; simp

theorem xcr0Valid_bit (c : Cpuid) (m k : Nat) (hk : k < 32) :
    (xcr0Valid c m).testBit k = true ↔ m ≥ 0xD ∧ (c.sub 0xD 0).eax.testBit k = true := by
  unfold xcr0Valid
  split
  · rename_i h
    have : ¬ 32 ≤ k := by omega
    simp [Nat.testBit_or, Nat.testBit_shiftLeft, this, h]
  · rename_i h
    simp only [Nat.zero_testBit, Bool.false_eq_true, false_iff]
    exact fun hh => h hh.1

theorem osRegs_iff (c : Cpuid) (xcr0 : Nat) (l : List Nat) (hl : ∀ k ∈ l, k < 32) (hne : l ≠ []) :
    osRegs c xcr0 (c.leaf 0).eax (c.leaf 1).ecx (maskOf l) = true ↔ Enables c xcr0 l := by
  have h0 : (0x0C000000 : Nat) = maskOf [26, 27] := by decide
  unfold osRegs Enables regsEnabled
  simp only [h0, and_maskOf]
  have hd : LeafExists c 0xD ↔ (c.leaf 0).eax ≥ 0xD := by
    unfold LeafExists; rw [if_pos (by decide)]
  rw [hd]
  by_cases hx : ∀ k ∈ [26, 27], (c.leaf 1).ecx.testBit k = true
  · rw [if_pos hx]
    have h26 : (c.leaf 1).ecx.testBit 26 = true := hx _ (by decide)
    have h27 : (c.leaf 1).ecx.testBit 27 = true := hx _ (by decide)
    by_cases hv : ∀ k ∈ l, (xcr0Valid c (c.leaf 0).eax).testBit k = true
    · rw [if_pos hv]
      rw [beq_iff_eq, and_maskOf]
      constructor
      · intro h _
        obtain ⟨k, hk⟩ := List.exists_mem_of_ne_nil l hne
        exact ⟨h26, h27, ((xcr0Valid_bit c _ k (hl k hk)).mp (hv k hk)).1,
          fun k hk => ⟨((xcr0Valid_bit c _ k (hl k hk)).mp (hv k hk)).2, h k hk⟩⟩
      · intro h k hk
        exact ((h hne).2.2.2 k hk).2
    · rw [if_neg hv]
      constructor
      · intro h; cases h
      · intro h
        refine absurd (fun k hk => ?_) hv
        exact (xcr0Valid_bit c _ k (hl k hk)).mpr ⟨(h hne).2.2.1, ((h hne).2.2.2 k hk).1⟩
  · rw [if_neg hx]
    constructor
    · intro h; cases h
    · intro h
      refine absurd (fun k hk => ?_) hx
      simp only [List.mem_cons, List.not_mem_nil, or_false] at hk
      rcases hk with rfl | rfl
      · exact (h hne).1
      · exact (h hne).2.1

theorem osRegs_avx (c : Cpuid) (xcr0 : Nat) :
    osRegs c xcr0 (c.leaf 0).eax (c.leaf 1).ecx 0x06 = true ↔ Enables c xcr0 [1, 2] :=
  osRegs_iff c xcr0 [1, 2] (by decide) (by decide)

theorem osRegs_avx512 (c : Cpuid) (xcr0 : Nat) :
    osRegs c xcr0 (c.leaf 0).eax (c.leaf 1).ecx 0xE6 = true ↔ Enables c xcr0 [1, 2, 5, 6, 7] :=
  osRegs_iff c xcr0 [1, 2, 5, 6, 7] (by decide) (by decide)

theorem osRegs_mpx (c : Cpuid) (xcr0 : Nat) :
    osRegs c xcr0 (c.leaf 0).eax (c.leaf 1).ecx 0x18 = true ↔ Enables c xcr0 [3, 4] :=
  osRegs_iff c xcr0 [3, 4] (by decide) (by decide)

theorem enables_nil (c : Cpuid) (xcr0 : Nat) : Enables c xcr0 [] ↔ True := by
  simp [Enables]

theorem adv_1_eax (c : Cpuid) (h : 1 ≤ (c.leaf 0).eax) (j k : Nat) :
    Advertises c (1, j, .eax, k) ↔ (c.leaf 1).eax.testBit k = true := by
  simp [Advertises, LeafExists, Reg.of, h]

theorem adv_7_eax (c : Cpuid) (j k : Nat) : Advertises c (7, j, .eax, k) ↔
    (if (c.leaf 0).eax ≥ 7 then c.sub 7 j else ⟨0, 0, 0, 0⟩).eax.testBit k = true := by
  by_cases h : 7 ≤ (c.leaf 0).eax <;> simp [Advertises, LeafExists, Reg.of, h]

theorem adv_ext_eax (c : Cpuid) (j k : Nat) :
    Advertises c (0x80000001, j, .eax, k) ↔ (extendedInfo c).eax.testBit k = true := by
  unfold extendedInfo maxExtendedIndex
  by_cases h : 0x80000001 ≤ (c.leaf 0x80000000).eax
  · have h' : 0x80000000 ≤ (c.leaf 0x80000000).eax := by omega
    simp [Advertises, LeafExists, Reg.of, h, h']
  · by_cases h' : 0x80000000 ≤ (c.leaf 0x80000000).eax <;>
      simp [Advertises, LeafExists, Reg.of, h, h']

theorem adv_1_ebx (c : Cpuid) (h : 1 ≤ (c.leaf 0).eax) (j k : Nat) :
    Advertises c (1, j, .ebx, k) ↔ (c.leaf 1).ebx.testBit k = true := by
  simp [Advertises, LeafExists, Reg.of, h]

theorem adv_7_ebx (c : Cpuid) (j k : Nat) : Advertises c (7, j, .ebx, k) ↔
    (if (c.leaf 0).eax ≥ 7 then c.sub 7 j else ⟨0, 0, 0, 0⟩).ebx.testBit k = true := by
  by_cases h : 7 ≤ (c.leaf 0).eax <;> simp [Advertises, LeafExists, Reg.of, h]

theorem adv_ext_ebx (c : Cpuid) (j k : Nat) :
    Advertises c (0x80000001, j, .ebx, k) ↔ (extendedInfo c).ebx.testBit k = true := by
  unfold extendedInfo maxExtendedIndex
  by_cases h : 0x80000001 ≤ (c.leaf 0x80000000).eax
  · have h' : 0x80000000 ≤ (c.leaf 0x80000000).eax := by omega
    simp [Advertises, LeafExists, Reg.of, h, h']
  · by_cases h' : 0x80000000 ≤ (c.leaf 0x80000000).eax <;>
      simp [Advertises, LeafExists, Reg.of, h, h']

theorem adv_1_ecx (c : Cpuid) (h : 1 ≤ (c.leaf 0).eax) (j k : Nat) :
    Advertises c (1, j, .ecx, k) ↔ (c.leaf 1).ecx.testBit k = true := by
  simp [Advertises, LeafExists, Reg.of, h]

theorem adv_7_ecx (c : Cpuid) (j k : Nat) : Advertises c (7, j, .ecx, k) ↔
    (if (c.leaf 0).eax ≥ 7 then c.sub 7 j else ⟨0, 0, 0, 0⟩).ecx.testBit k = true := by
  by_cases h : 7 ≤ (c.leaf 0).eax <;> simp [Advertises, LeafExists, Reg.of, h]

theorem adv_ext_ecx (c : Cpuid) (j k : Nat) :
    Advertises c (0x80000001, j, .ecx, k) ↔ (extendedInfo c).ecx.testBit k = true := by
  unfold extendedInfo maxExtendedIndex
  by_cases h : 0x80000001 ≤ (c.leaf 0x80000000).eax
  · have h' : 0x80000000 ≤ (c.leaf 0x80000000).eax := by omega
    simp [Advertises, LeafExists, Reg.of, h, h']
  · by_cases h' : 0x80000000 ≤ (c.leaf 0x80000000).eax <;>
      simp [Advertises, LeafExists, Reg.of, h, h']

theorem adv_1_edx (c : Cpuid) (h : 1 ≤ (c.leaf 0).eax) (j k : Nat) :
    Advertises c (1, j, .edx, k) ↔ (c.leaf 1).edx.testBit k = true := by
  simp [Advertises, LeafExists, Reg.of, h]

theorem adv_7_edx (c : Cpuid) (j k : Nat) : Advertises c (7, j, .edx, k) ↔
    (if (c.leaf 0).eax ≥ 7 then c.sub 7 j else ⟨0, 0, 0, 0⟩).edx.testBit k = true := by
  by_cases h : 7 ≤ (c.leaf 0).eax <;> simp [Advertises, LeafExists, Reg.of, h]

theorem adv_ext_edx (c : Cpuid) (j k : Nat) :
    Advertises c (0x80000001, j, .edx, k) ↔ (extendedInfo c).edx.testBit k = true := by
  unfold extendedInfo maxExtendedIndex
  by_cases h : 0x80000001 ≤ (c.leaf 0x80000000).eax
  · have h' : 0x80000000 ≤ (c.leaf 0x80000000).eax := by omega
    simp [Advertises, LeafExists, Reg.of, h, h']
  · by_cases h' : 0x80000000 ≤ (c.leaf 0x80000000).eax <;>
      simp [Advertises, LeafExists, Reg.of, h, h']

theorem adv_cap (c : Cpuid) (j k : Nat) : Advertises c (0x80000008, j, .ebx, k) ↔
    (if maxExtendedIndex c ≥ 0x80000008 then c.leaf 0x80000008
      else ⟨0, 0, 0, 0⟩).ebx.testBit k = true := by
  unfold maxExtendedIndex
  by_cases h : 0x80000008 ≤ (c.leaf 0x80000000).eax
  · have h' : 0x80000000 ≤ (c.leaf 0x80000000).eax := by omega
    simp [Advertises, LeafExists, Reg.of, h, h']
  · by_cases h' : 0x80000000 ≤ (c.leaf 0x80000000).eax <;>
      simp [Advertises, LeafExists, Reg.of, h, h']

theorem or_flags (a b m n : Nat) :
    ((a &&& m ||| b &&& n) != 0) = (flag a m || flag b n) := by
  unfold flag
  rw [Bool.eq_iff_iff]
  simp only [bne_iff_ne, Bool.or_eq_true, ne_eq, Nat.or_eq_zero_iff,
    Classical.not_and_iff_not_or_not]

/-- Every documented flag outside `except` is exact. -/
theorem initIsa_exact (t : Target) (c : Cpuid) (xcr0 mx : Nat) (h1 : 1 ≤ (c.leaf 0).eax)
    (f : Feature) (d : FeatureDoc) (hd : featureDoc f = some d)
    (hx : f ∉ [Feature.vaes, .vpclmulqdq, .amxBf16, .amxTile, .amxInt8, .amxFp16]) :
    initIsa t c xcr0 mx f = true ↔
      InBuild t f ∧ (∃ b ∈ d.anyOf, Advertises c b) ∧ Enables c xcr0 d.state := by
  simp only [initIsa]
  rw [if_pos (show (c.leaf 0).eax ≥ 1 from h1)]
  cases f <;> (first | (cases hd; done) | skip) <;>
    (first | (exfalso; revert hx; decide) | skip) <;>
    (simp only [featureDoc, Option.some.injEq] at hd; subst hd) <;>
    simp [isaFlag, isaSource, InBuild, only32, or_flags, osRegs_avx, osRegs_avx512, osRegs_mpx,
      enables_nil, adv_1_ecx _ h1, adv_1_edx _ h1, adv_7_eax, adv_7_ebx, adv_7_ecx, adv_7_edx,
      adv_ext_ecx, adv_ext_edx, adv_cap, flag_0, flag_1, flag_2, flag_3, flag_4, flag_5, flag_6,
      flag_7, flag_8, flag_9, flag_10, flag_11, flag_12, flag_13, flag_14, flag_15, flag_16,
      flag_17, flag_18, flag_19, flag_20, flag_21, flag_22, flag_23, flag_24, flag_25, flag_26,
      flag_27, flag_28, flag_29, flag_30, flag_31, and_comm, -ge_iff_le]

end Verif.X86Cpuid
