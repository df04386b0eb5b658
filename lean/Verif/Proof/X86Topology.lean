import Verif.Model.X86Processor
import Verif.Proof.X86Cache
import Verif.Spec.X86Init

/-!
# Lemmas about the topology leaves and about `cpuinfo_x86_init_processor` as a whole
-/

set_option autoImplicit false

namespace Verif.X86Cpuid
open Spec
open X86Init (Topology CacheDesc)

/-- The loop over the levels as a fold over the list of levels. -/
def foldLevels : List (Nat × Nat) → Nat → Topology → Topology
  | [], _, t => t
  | l :: ls, total, t => foldLevels ls ((total + l.2) % U32) (applyLevel l.1 l.2 total t)

theorem level_type (r : Regs) : (r.ecx >>> 8) &&& 0xFF = (level r).1 := by
  rw [and_FF, Nat.shiftRight_eq_div_pow]; rfl

theorem level_shift (r : Regs) : r.eax &&& 0x1F = (level r).2 := and_1F _

theorem levelLoop_spec (leafB : Nat → Regs) (ls : List (Nat × Nat)) (h : Levels leafB ls)
    (hu : ls.length < U32) : ∀ (fuel i total : Nat) (t : Topology), i ≤ ls.length →
      ls.length < fuel + i →
      levelLoop leafB fuel i total t = some (foldLevels (ls.drop i) total t) := by
  intro fuel
  induction fuel with
  | zero => intro i total t hi hf; omega
  | succ fuel ih =>
    intro i total t hi hf
    simp only [levelLoop, level_type, level_shift]
    by_cases hin : i = ls.length
    · subst hin
      rw [if_pos h.2, List.drop_length, h.2]
      rfl
    · have hi' : i < ls.length := by omega
      obtain ⟨h1, h2⟩ := h.1 i hi'
      rw [if_neg h2, Nat.mod_eq_of_lt (by omega : i + 1 < U32), ih (i + 1) _ _ hi' (by omega)]
      have : ls.drop i = level (leafB i) :: ls.drop (i + 1) := by
        rw [List.getElem?_eq_getElem hi'] at h1
        rw [List.drop_eq_getElem_cons hi', Option.some.inj h1]
      rw [this]
      rfl

theorem foldLevels_other (ls : List (Nat × Nat)) (h : OtherLevels ls) (total : Nat)
    (t : Topology) : foldLevels ls total t = t := by
  induction ls generalizing total t with
  | nil => rfl
  | cons l ls ih =>
    obtain ⟨h1, h2⟩ := h l (List.mem_cons_self ..)
    have e : applyLevel l.1 l.2 total t = t := by simp [applyLevel, h1, h2]
    rw [foldLevels, e, ih fun x hx => h x (List.mem_cons_of_mem _ hx)]

theorem and_two_pow_cases (x k : Nat) : x &&& 2 ^ k = 0 ↔ x.testBit k = false := by
  have := and_bit x k
  cases h : x.testBit k <;> simp_all

/-- The extended topology leaf is used. -/
theorem detectTopology_x2apic (c : Cpuid) (fuel maxBase maxExt : Nat) (leaf1 : Regs)
    (t : Topology) (hx : leaf1.ecx.testBit 21 = true) (hb : 11 ≤ maxBase) :
    detectTopology c fuel maxBase maxExt leaf1 t = levelLoop (c.sub 11) fuel 0 0 ⟨0, 0, 0, 0⟩ := by
  have : leaf1.ecx &&& 0x00200000 ≠ 0 := (and_bit leaf1.ecx 21).mpr hx
  simp only [detectTopology]
  rw [if_pos ⟨this, hb⟩]

/-- The extended topology leaf is not used. -/
theorem detectTopology_legacy (c : Cpuid) (fuel maxBase maxExt : Nat) (leaf1 : Regs)
    (t : Topology) (hx : leaf1.ecx.testBit 21 = false ∨ maxBase < 11) :
    detectTopology c fuel maxBase maxExt leaf1 t = some (legacyTopology c maxExt leaf1 t) := by
  simp only [detectTopology]
  rw [if_neg]
  rintro ⟨h1, h2⟩
  rcases hx with h | h
  · have := (and_bit leaf1.ecx 21).mp h1
    rw [h] at this; cases this
  · exact absurd h (by omega)

/-- The test for AMD's legacy multi-core mode. -/
theorem amdCmp (x y : Nat) :
    (decide (x ≥ 0x80000001) && (y &&& 0x00000002 != 0)) = true ↔
      0x80000001 ≤ x ∧ y.testBit 1 = true := by
  have := and_bit y 1
  simp only [Bool.and_eq_true, decide_eq_true_eq, bne_iff_ne, ge_iff_le]
  exact and_congr_right fun _ => this

theorem legacyTopology_no_htt (c : Cpuid) (maxExt : Nat) (leaf1 : Regs) (t : Topology)
    (h : leaf1.edx.testBit 28 = false) : legacyTopology c maxExt leaf1 t = t := by
  simp only [legacyTopology]
  rw [if_pos ((and_two_pow_cases leaf1.edx 28).mpr h)]

theorem legacyTopology_amd (c : Cpuid) (maxExt : Nat) (leaf1 : Regs) (t : Topology)
    (h : leaf1.edx.testBit 28 = true) (hx : 0x80000008 ≤ maxExt)
    (ha : (c.leaf 0x80000001).ecx.testBit 1 = true) :
    legacyTopology c maxExt leaf1 t =
      { t with coreLength := bitLength ((c.leaf 0x80000008).ecx % 256 + 1) } := by
  simp only [legacyTopology]
  rw [if_neg (fun h0 => by
      rw [(and_two_pow_cases leaf1.edx 28).mp h0] at h; cases h),
    if_pos ((amdCmp maxExt _).mpr ⟨by omega, ha⟩), if_pos hx, and_FF,
    Nat.add_comm 1]

theorem legacyTopology_amd_old (c : Cpuid) (maxExt : Nat) (leaf1 : Regs) (t : Topology)
    (h : leaf1.edx.testBit 28 = true) (hx : 0x80000001 ≤ maxExt) (hx8 : maxExt < 0x80000008)
    (ha : (c.leaf 0x80000001).ecx.testBit 1 = true) :
    legacyTopology c maxExt leaf1 t =
      if leaf1.ebx / 65536 % 256 = 0 then t
      else { t with coreLength := bitLength (leaf1.ebx / 65536 % 256) } := by
  have e : (leaf1.ebx >>> 16) &&& 0xFF = leaf1.ebx / 65536 % 256 := by
    rw [and_FF, Nat.shiftRight_eq_div_pow]
  simp only [legacyTopology]
  rw [if_neg (fun h0 => by
      rw [(and_two_pow_cases leaf1.edx 28).mp h0] at h; cases h),
    if_pos ((amdCmp maxExt _).mpr ⟨hx, ha⟩), if_neg (by omega), e]
  split <;> simp_all

theorem legacyTopology_intel (c : Cpuid) (maxExt : Nat) (leaf1 : Regs) (t : Topology)
    (h : leaf1.edx.testBit 28 = true)
    (ha : maxExt < 0x80000001 ∨ (c.leaf 0x80000001).ecx.testBit 1 = false) :
    legacyTopology c maxExt leaf1 t =
      if leaf1.ebx / 65536 % 256 = 0 then t
      else
        { t with
          coreOffset := sub32 (bitLength (leaf1.ebx / 65536 % 256)) t.coreLength
          threadLength := sub32 (bitLength (leaf1.ebx / 65536 % 256)) t.coreLength } := by
  have e : (leaf1.ebx >>> 16) &&& 0xFF = leaf1.ebx / 65536 % 256 := by
    rw [and_FF, Nat.shiftRight_eq_div_pow]
  simp only [legacyTopology]
  rw [if_neg (fun h0 => by
      rw [(and_two_pow_cases leaf1.edx 28).mp h0] at h; cases h),
    if_neg (fun h1 => by
      have := (amdCmp maxExt _).mp h1
      rcases ha with h2 | h2
      · omega
      · rw [h2] at this; cases this.2), e]
  split <;> simp_all

theorem legacyTopology_low (c : Cpuid) (maxExt : Nat) (leaf1 : Regs) (t : Topology)
    (h : LowFields t) : LowFields (legacyTopology c maxExt leaf1 t) := by
  obtain ⟨h1, h2⟩ := h
  simp only [legacyTopology]
  repeat' split
  · exact ⟨h1, h2⟩
  · exact ⟨h1, h2⟩
  · exact ⟨h1, h2⟩
  · exact ⟨h1, h2⟩
  · exact ⟨h1, rfl⟩
  · exact ⟨h1, h2⟩

theorem legacyTopology_core_lt (c : Cpuid) (maxExt : Nat) (leaf1 : Regs) (t : Topology)
    (h : t.coreLength < 32) : (legacyTopology c maxExt leaf1 t).coreLength < 32 := by
  have b : ∀ x, 0 < x → x ≤ 256 → bitLength x < 32 := fun x h0 h1 =>
    Nat.lt_of_le_of_lt (bitLength_le x 8 h0 (by decide) h1) (by decide)
  simp only [legacyTopology, and_FF]
  repeat' split
  · exact h
  · dsimp only
    exact b _ (by omega) (by omega)
  · dsimp only
    exact b _ (by omega) (by omega)
  · exact h
  · exact h
  · exact h

/-! ### `cpuinfo_x86_detect_cache` -/

/-- Leaf 4 is used. -/
def UsesLeaf4 (vendor : Vendor) (maxBase : Nat) : Prop :=
  vendor ≠ .amd ∧ vendor ≠ .hygon ∧ 4 ≤ maxBase

/-- The caches after leaf 2. -/
def afterLeaf2 (t : Target) (cpu : Cpuid) (maxBase : Nat) (vendor : Vendor) (m : ModelInfo)
    (c : Caches) : Caches :=
  if 2 ≤ maxBase then leaf2Loop t vendor m cpu.leaf2 ((cpu.leaf2 0).eax % 256) 0 c else c

/-- The stages of `cpuinfo_x86_detect_cache`. -/
theorem detectCache_spec (t : Target) (cpu : Cpuid) (fuel maxBase maxExt : Nat) (ext : Bool)
    (vendor : Vendor) (m : ModelInfo) (c : Caches) (l0 n4 n8 : Nat)
    (hok4 : ∀ i, RegsOk (cpu.sub 4 i)) (hok8 : ∀ i, RegsOk (cpu.sub 0x8000001D i))
    (h4 : UsesLeaf4 vendor maxBase → Subleaves (cpu.sub 4) n4)
    (h8 : ext = true ∧ 0x8000001D ≤ maxExt → Subleaves (cpu.sub 0x8000001D) n8)
    (hu4 : n4 < U32) (hu8 : n8 < U32) (hf4 : n4 < fuel) (hf8 : n8 < fuel) :
    ∃ c4 c8 l, detectCache t cpu fuel maxBase maxExt ext vendor m c l0 = some (c8, l) ∧
      (UsesLeaf4 vendor maxBase →
        After 4 true (cpu.sub 4) n4 (afterLeaf2 t cpu maxBase vendor m c) c4 ∧
        l = if n4 = 0 then l0 else bitLength ((cpu.sub 4 (n4 - 1)).eax / 67108864 + 1)) ∧
      (¬UsesLeaf4 vendor maxBase → c4 = afterLeaf2 t cpu maxBase vendor m c ∧ l = l0) ∧
      (ext = true ∧ 0x8000001D ≤ maxExt → After 3 false (cpu.sub 0x8000001D) n8 c4 c8) ∧
      (¬(ext = true ∧ 0x8000001D ≤ maxExt) → c8 = c4) := by
  have hmain : ∃ c4 l,
      detectCacheBase t cpu fuel maxBase vendor m c l0 = some (c4, l) ∧
      (UsesLeaf4 vendor maxBase →
        After 4 true (cpu.sub 4) n4 (afterLeaf2 t cpu maxBase vendor m c) c4 ∧
        l = if n4 = 0 then l0 else bitLength ((cpu.sub 4 (n4 - 1)).eax / 67108864 + 1)) ∧
      (¬UsesLeaf4 vendor maxBase → c4 = afterLeaf2 t cpu maxBase vendor m c ∧ l = l0) := by
    simp only [detectCacheBase, and_FF, afterLeaf2]
    by_cases hb : 2 ≤ maxBase
    · rw [if_pos hb, if_pos hb]
      by_cases hv : UsesLeaf4 vendor maxBase
      · rw [if_pos (show vendor ≠ .amd ∧ vendor ≠ .hygon ∧ maxBase ≥ 4 from hv)]
        obtain ⟨c', e, ha⟩ := leaf4Loop_spec (cpu.sub 4) hok4 n4 (h4 hv) hu4
          (leaf2Loop t vendor m cpu.leaf2 ((cpu.leaf2 0).eax % 256) 0 c) 0 fuel 0 _ 0
          (Nat.zero_le _) (by omega) (after_zero _ _ _ _) (by simp)
        rw [e]
        refine ⟨_, _, rfl, fun _ => ⟨ha, ?_⟩, fun h => absurd hv h⟩
        by_cases hn : n4 = 0
        · simp [hn]
        · rw [if_neg hn, if_neg hn]; simp
      · rw [if_neg (show ¬(vendor ≠ .amd ∧ vendor ≠ .hygon ∧ maxBase ≥ 4) from hv)]
        exact ⟨_, _, rfl, fun h => absurd h hv, fun _ => ⟨rfl, rfl⟩⟩
    · rw [if_neg hb, if_neg hb]
      exact ⟨_, _, rfl, fun h => absurd h.2.2 (by omega), fun _ => ⟨rfl, rfl⟩⟩
  obtain ⟨c4, l, e, h1, h2⟩ := hmain
  unfold detectCache
  simp only [e]
  by_cases hx : ext = true ∧ 0x8000001D ≤ maxExt
  · rw [if_pos (show ext = true ∧ maxExt ≥ 0x8000001D from hx)]
    obtain ⟨c', e', ha⟩ := leaf8000001DLoop_spec (cpu.sub 0x8000001D) hok8 n8 (h8 hx) hu8 c4 fuel 0
      _ (Nat.zero_le _) (by omega) (after_zero _ _ _ _)
    rw [e']
    exact ⟨c4, c', l, rfl, h1, h2, fun _ => ha, fun h => absurd hx h⟩
  · rw [if_neg (show ¬(ext = true ∧ maxExt ≥ 0x8000001D) from hx)]
    exact ⟨c4, c4, l, rfl, h1, h2, fun h => absurd h hx, fun _ => rfl⟩

/-- After the sub-leaves, some sub-leaf was the last to fill the level, or none filled it. -/
theorem lastFills_or (m : Nat) (sub : Nat → Regs) (n : Nat) (s : Slot) :
    (∃ i, LastFills m sub n s i) ∨ ∀ i < n, ¬SubleafFills m (sub i) s := by
  induction n with
  | zero => right; intro i h; omega
  | succ n ih =>
    by_cases h : SubleafFills m (sub n) s
    · left; exact ⟨n, by omega, h, fun j h1 h2 => by omega⟩
    · rcases ih with ⟨i, h1, h2, h3⟩ | h1
      · left
        refine ⟨i, by omega, h2, fun j hj1 hj2 => ?_⟩
        by_cases hj : j = n
        · rw [hj]; exact h
        · exact h3 j hj1 (by omega)
      · right
        intro i hi
        by_cases hj : i = n
        · rw [hj]; exact h
        · exact h1 i (by omega)

theorem describes_bits {k : Bool} {r : Regs} {d : CacheDesc} (h : Describes k r d) :
    d.apicBits ≤ 12 := h.sharing.2 12 (by omega)

theorem after_bits {m : Nat} {k : Bool} {sub : Nat → Regs} {n : Nat} {c c' : Caches}
    (h : After m k sub n c c') (hc : ∀ s, (c.get s).apicBits ≤ 12) (s : Slot) :
    (c'.get s).apicBits ≤ 12 := by
  rcases lastFills_or m sub n s with ⟨i, hi⟩ | hi
  · exact describes_bits ((h s).1 i hi)
  · rw [(h s).2 hi]; exact hc s

theorem effect_ok (t : Target) (v : Vendor) (m : ModelInfo) (b : Byte) (s : Slot) (d : CacheDesc)
    (h : (s, d) ∈ effect t v m b) :
    d.apicBits = 0 ∧
      (b ≠ 0xD2 → d.size = d.associativity * d.sets * d.partitions * d.lineSize) := by
  have ht : ∀ r ∈ descriptorTable, r.2.2.apicBits = 0 ∧ (r.1 ≠ 0xD2 →
      r.2.2.size = r.2.2.associativity * r.2.2.sets * r.2.2.partitions * r.2.2.lineSize) := by
    decide +kernel
  unfold effect at h
  split at h
  · split at h <;> simp only [List.mem_singleton, Prod.mk.injEq] at h <;>
      (obtain ⟨rfl, rfl⟩ := h; exact ⟨rfl, fun _ => by decide⟩)
  split at h
  · split at h
    · simp only [List.mem_cons, Prod.mk.injEq, List.not_mem_nil, or_false] at h
      rcases h with ⟨rfl, rfl⟩ | ⟨rfl, rfl⟩ <;> exact ⟨rfl, fun _ => by decide⟩
    · simp only [List.mem_singleton, Prod.mk.injEq] at h
      obtain ⟨rfl, rfl⟩ := h
      exact ⟨rfl, fun _ => by decide⟩
  cases hf : descriptorTable.find? fun r => r.1 == b with
  | none => rw [hf] at h; simp at h
  | some r =>
    rw [hf] at h
    obtain ⟨b', s', d'⟩ := r
    simp only [List.mem_singleton, Prod.mk.injEq] at h
    obtain ⟨rfl, rfl⟩ := h
    have hb : b' = b := by simpa using List.find?_some hf
    have := ht _ (List.mem_of_find?_eq_some hf)
    subst hb
    exact this

theorem effect_pos (t : Target) (v : Vendor) (m : ModelInfo) (b : Byte) (s : Slot) (d : CacheDesc)
    (h : (s, d) ∈ effect t v m b) : d.size ≠ 0 := by
  have ht : ∀ r ∈ descriptorTable, r.2.2.size ≠ 0 := by decide +kernel
  unfold effect at h
  split at h
  · split at h <;> simp only [List.mem_singleton, Prod.mk.injEq] at h <;>
      (obtain ⟨rfl, rfl⟩ := h; decide)
  split at h
  · split at h
    · simp only [List.mem_cons, Prod.mk.injEq, List.not_mem_nil, or_false] at h
      rcases h with ⟨rfl, rfl⟩ | ⟨rfl, rfl⟩ <;> decide
    · simp only [List.mem_singleton, Prod.mk.injEq] at h
      obtain ⟨rfl, rfl⟩ := h
      decide
  cases hf : descriptorTable.find? fun r => r.1 == b with
  | none => rw [hf] at h; simp at h
  | some r =>
    rw [hf] at h
    obtain ⟨b', s', d'⟩ := r
    simp only [List.mem_singleton, Prod.mk.injEq] at h
    obtain ⟨rfl, rfl⟩ := h
    exact ht _ (List.mem_of_find?_eq_some hf)

theorem effect_geometry (t : Target) (v : Vendor) (m : ModelInfo) (b : Byte) (s : Slot)
    (d : CacheDesc) (h : (s, d) ∈ effect t v m b) (hb : b ≠ 0xD2) :
    d.size = d.associativity * d.partitions * d.lineSize * d.sets % U32 := by
  have ht : ∀ r ∈ descriptorTable, r.1 ≠ 0xD2 → r.2.2.size =
      r.2.2.associativity * r.2.2.partitions * r.2.2.lineSize * r.2.2.sets % U32 := by
    decide +kernel
  unfold effect at h
  split at h
  · split at h <;> simp only [List.mem_singleton, Prod.mk.injEq] at h <;>
      (obtain ⟨rfl, rfl⟩ := h; decide)
  split at h
  · split at h
    · simp only [List.mem_cons, Prod.mk.injEq, List.not_mem_nil, or_false] at h
      rcases h with ⟨rfl, rfl⟩ | ⟨rfl, rfl⟩ <;> decide
    · simp only [List.mem_singleton, Prod.mk.injEq] at h
      obtain ⟨rfl, rfl⟩ := h
      decide
  cases hf : descriptorTable.find? fun r => r.1 == b with
  | none => rw [hf] at h; simp at h
  | some r =>
    rw [hf] at h
    obtain ⟨b', s', d'⟩ := r
    simp only [List.mem_singleton, Prod.mk.injEq] at h
    obtain ⟨rfl, rfl⟩ := h
    have hb' : b' = b := by simpa using List.find?_some hf
    exact ht _ (List.mem_of_find?_eq_some hf) (hb' ▸ hb)

theorem effect_functional (t : Target) (v : Vendor) (m : ModelInfo) (b : Byte) (s : Slot)
    (d d' : CacheDesc) (h : (s, d) ∈ effect t v m b) (h' : (s, d') ∈ effect t v m b) : d = d' := by
  by_cases h1 : b = 0x49
  · unfold effect at h h'
    rw [if_pos h1] at h h'
    split at h <;> simp_all
  by_cases h2 : b = 0x80
  · unfold effect at h h'
    rw [if_neg h1, if_pos h2] at h h'
    by_cases h3 : t.x86_32 = true ∧ ¬t.android = true ∧ (v = .cyrix ∨ v = .nsc)
    · rw [if_pos h3] at h h'
      simp only [List.mem_cons, Prod.mk.injEq, List.not_mem_nil, or_false] at h h'
      rcases h with ⟨rfl, rfl⟩ | ⟨rfl, rfl⟩ <;> simp_all
    · rw [if_neg h3] at h h'
      simp_all
  · unfold effect at h h'
    rw [if_neg h1, if_neg h2] at h h'
    cases hf : descriptorTable.find? fun r => r.1 == b <;> simp_all

/-- A property of single levels that descriptors establish is kept by leaf 2. -/
theorem decodeLeaf2_inv (P : Slot → CacheDesc → Prop) (t : Target) (v : Vendor) (m : ModelInfo)
    (r : Regs) (c : Caches) (hc : ∀ s, P s (c.get s))
    (hP : ∀ b ∈ r.bytes.drop 1, b ≠ 0 → ∀ s d, (s, d) ∈ effect t v m b → P s d) :
    ∀ s, P s ((decodeLeaf2 t v m r c).get s) := by
  unfold decodeLeaf2
  revert hP
  generalize r.bytes.drop 1 = bs
  induction bs generalizing c with
  | nil => intro _; exact hc
  | cons b bs ih =>
    intro hP
    rw [List.foldl_cons]
    apply ih
    · intro s
      split
      · next hb =>
        rcases decodeDescriptor_get t v m b c s with ⟨d, hd, e⟩ | ⟨-, e⟩
        · rw [e]; exact hP b (List.mem_cons_self ..) hb s d hd
        · rw [e]; exact hc s
      · exact hc s
    · intro b' hb'
      exact hP b' (List.mem_cons_of_mem _ hb')

theorem leaf2Loop_inv (P : Slot → CacheDesc → Prop) (t : Target) (v : Vendor) (m : ModelInfo)
    (leaf2 : Nat → Regs) (left k : Nat) (c : Caches) (hc : ∀ s, P s (c.get s))
    (hP : ∀ i, i < left → ∀ b ∈ (leaf2 (k + i)).bytes.drop 1, b ≠ 0 →
      ∀ s d, (s, d) ∈ effect t v m b → P s d) :
    ∀ s, P s ((leaf2Loop t v m leaf2 left k c).get s) := by
  induction left generalizing k c with
  | zero => exact hc
  | succ left ih =>
    rw [leaf2Loop]
    apply ih
    · exact decodeLeaf2_inv P t v m _ c hc fun b hb => hP 0 (by omega) b (by simpa using hb)
    · intro i hi b hb
      refine hP (i + 1) (by omega) b ?_
      rwa [← Nat.add_assoc, Nat.add_right_comm]

theorem afterLeaf2_bits (t : Target) (cpu : Cpuid) (maxBase : Nat) (v : Vendor) (m : ModelInfo)
    (c : Caches) (hc : ∀ s, (c.get s).apicBits ≤ 12) (s : Slot) :
    ((afterLeaf2 t cpu maxBase v m c).get s).apicBits ≤ 12 := by
  unfold afterLeaf2
  split
  · refine leaf2Loop_inv (fun _ d => d.apicBits ≤ 12) t v m _ _ _ c hc ?_ s
    intro i _ b _ _ s d hd
    rw [(effect_ok t v m b s d hd).1]
    omega
  · exact hc s

end Verif.X86Cpuid
