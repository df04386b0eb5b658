import Verif.Proof.ArmDecode

/-!
# The numbers of sets of decoded ARM caches
-/

set_option autoImplicit false

namespace Verif.ArmCache
open Spec ArmMidr ArmChipset ArmInit ArmUarch
open X86Init (Cache zeroCache)

/-- The number of sets of an assigned cache will be a power of two. -/
def Pow (c : Cache) : Prop :=
  0 < c.associativity * c.lineSize ∧ c.associativity * c.lineSize < U32 ∧
    ∃ n, n < 16 ∧ c.size = 2 ^ n * (c.associativity * c.lineSize)

instance (c : Cache) : Decidable (Pow c) := by
  unfold Pow
  refine @instDecidableAnd _ _ _ (@instDecidableAnd _ _ _ ?_)
  exact decidable_of_iff (∃ n, ∃ (_ : n < 16), c.size = 2 ^ n * (c.associativity * c.lineSize))
    ⟨fun ⟨n, h, h'⟩ => ⟨n, h, h'⟩, fun ⟨n, h, h'⟩ => ⟨n, h, h'⟩⟩

/-- It will be a power of two, or that times the number of cores. -/
def PowC (cores : Nat) (c : Cache) : Prop :=
  0 < c.associativity * c.lineSize ∧ c.associativity * c.lineSize < U32 ∧
    ∃ n, c.size = 2 ^ n * (c.associativity * c.lineSize) ∨
      c.size = cores * 2 ^ n * (c.associativity * c.lineSize)

theorem Pow.c {c : Cache} (h : Pow c) (cores : Nat) : PowC cores c :=
  ⟨h.1, h.2.1, let ⟨n, _, h⟩ := h.2.2; ⟨n, .inl h⟩⟩

/-- The numbers of sets of all four caches. -/
structure Sets (cores : Nat) (c : Caches) : Prop where
  l1i : Pow c.l1i
  l1d : Pow c.l1d
  l2 : c.l2.size ≠ 0 → PowC cores c.l2
  l3 : c.l3.size ≠ 0 → PowC cores c.l3

/-- The same where the number of cores does not matter. -/
def Sets1 (c : Caches) : Prop :=
  Pow c.l1i ∧ Pow c.l1d ∧ (c.l2.size ≠ 0 → Pow c.l2) ∧ (c.l3.size ≠ 0 → Pow c.l3)

instance (c : Caches) : Decidable (Sets1 c) := by unfold Sets1; infer_instance

theorem Sets1.all {c : Caches} (h : Sets1 c) (cores : Nat) : Sets cores c :=
  ⟨h.1, h.2.1, fun hh => (h.2.2.1 hh).c cores, fun hh => (h.2.2.2 hh).c cores⟩

section
variable {cores : Nat} (hc : cores < 4096)
include hc

theorem powC_scaled {s a l : Nat} (f n : Nat) (h1 : 0 < a * l) (h2 : a * l < U32)
    (h3 : s = 2 ^ n * (a * l)) (h4 : s ≤ 1048576) : PowC cores (cache (cores * s) a l f) := by
  refine ⟨h1, h2, n, .inr ?_⟩
  have : cores * s < U32 := by
    have : cores * s ≤ 4095 * 1048576 := Nat.mul_le_mul (by omega) h4
    omega
  show (cores * s) % U32 = cores * 2 ^ n * (a * l)
  rw [Nat.mod_eq_of_lt this, h3, Nat.mul_assoc]

theorem sets_scaled2 {i d : Cache} {s a l : Nat} (f n : Nat) (hi : Pow i) (hd : Pow d)
    (h1 : 0 < a * l) (h2 : a * l < U32) (h3 : s = 2 ^ n * (a * l)) (h4 : s ≤ 1048576) :
    Sets cores ⟨i, d, cache (cores * s) a l f, zeroCache⟩ :=
  ⟨hi, hd, fun _ => powC_scaled hc f n h1 h2 h3 h4, fun h => absurd rfl h⟩

omit hc in
theorem sets_a53 (midr : Nat) (chipset : Chipset) (clusterId : Nat) :
    Sets1 (cortexA53 midr chipset clusterId) := by
  unfold cortexA53
  have h1 : ∀ s ∈ [k 512, k 1024],
      Sets1 ⟨cache (k 32) 2 64, cache (k 32) 4 64, cache s 16 64, zeroCache⟩ := by decide
  have h2 : ∀ s ∈ [(k 16, k 256), (k 16, k 512), (k 32, k 256), (k 32, k 512), (k 32, k 1024)],
      Sets1 ⟨cache s.1 2 64, cache s.1 4 64, cache s.2 16 64, zeroCache⟩ := by decide
  split
  · exact h1 _ (a53SilverL2_mem _ _)
  · exact h2 _ (a53Sizes_mem _ _)

omit hc in
theorem sets_a73 (midr : Nat) (chipset : Chipset) : Sets1 (cortexA73 midr chipset) := by
  have h : ∀ s ∈ [(k 64, k 2048), (k 64, k 1024), (k 32, k 512)],
      Sets1 ⟨cache (k 64) 4 64, cache s.1 (s.1 >>> 12) 64, cache s.2 16 64 inclusive, zeroCache⟩ := by
    decide
  exact h _ (a73Sizes_mem _ _)

omit hc in
theorem sets_a76 (chipset : Chipset) : Sets1 (cortexA76 chipset) := by
  have h : ∀ s ∈ [(k 512, k 4096), (k 256, k 1024)],
      Sets1 ⟨cache (k 64) 4 64, cache (k 64) 4 64, cache s.1 8 64 inclusive, cache s.2 16 64⟩ := by
    decide
  exact h _ (a76Sizes_mem _)

omit hc in
theorem sets_neoverse (uarch midr : Nat) : Sets1 (neoverse uarch midr) := by
  have h : ∀ s ∈ [1024, 256], Sets1 ⟨cache (k 64) 4 64, cache (k 64) 4 64,
      cache (s * 1024) 8 64 inclusive, cache (0 * 1024) 16 64⟩ := by decide
  unfold neoverse
  split
  · exact h 1024 (by simp)
  · exact h 256 (by simp)

theorem sets_taishan : Sets cores (taishanV110 cores) :=
  ⟨show Pow (cache (k 64) 4 128) by decide, show Pow (cache (k 64) 4 128) by decide,
   fun _ => Pow.c (show Pow (cache (k 512) 8 128 inclusive) by decide) cores,
   fun _ => powC_scaled hc 0 9 (by decide) (by decide) (by decide) (by decide)⟩

theorem sets_generic (version : Nat) : Sets cores (generic cores version) := by
  unfold generic
  repeat' split
  · exact sets_scaled2 hc 0 9 (by decide) (by decide) (by decide) (by decide) (by decide) (by decide)
  · exact sets_scaled2 hc 0 9 (by decide) (by decide) (by decide) (by decide) (by decide) (by decide)
  · exact Sets1.all (by decide) cores

theorem sets_cases32 {uarch : Nat} {chipset : Chipset} {c : Caches}
    (h : cases32 uarch cores chipset = some c) : Sets cores c := by
  unfold cases32 at h
  repeat' split at h
  all_goals cases h
  · exact Sets1.all (by decide) cores
  · unfold cortexA7
    rw [Nat.mul_comm (k 128) cores]
    exact sets_scaled2 hc 0 8 (by decide) (by decide) (by decide) (by decide) (by decide) (by decide)
  · unfold cortexA8
    split <;> exact Sets1.all (by decide) cores
  · exact Sets1.all (by decide) cores
  all_goals
    exact sets_scaled2 hc 0 9 (by decide) (by decide) (by decide) (by decide) (by decide) (by decide)

theorem sets_casesAll {uarch midr : Nat} {chipset : Chipset} {clusterId : Nat} {c : Caches}
    (h : casesAll uarch cores midr chipset clusterId = some c) : Sets cores c := by
  unfold casesAll at h
  rcases ite_some h with ⟨-, rfl⟩ | h
  · exact Sets1.all (by decide) cores
  rcases ite_some h with ⟨-, rfl⟩ | h
  · exact (sets_a53 _ _ _).all cores
  rcases ite_some h with ⟨-, rfl⟩ | h
  · unfold cortexA55
    repeat' split
    all_goals exact Sets1.all (by decide) cores
  rcases ite_some h with ⟨-, rfl⟩ | h
  · exact sets_scaled2 hc _ 9 (by decide) (by decide) (by decide) (by decide) (by decide) (by decide)
  rcases ite_some h with ⟨-, rfl⟩ | h
  · exact Sets1.all (by decide) cores
  rcases ite_some h with ⟨-, rfl⟩ | h
  · unfold cortexA72
    split <;> exact Sets1.all (by decide) cores
  rcases ite_some h with ⟨-, rfl⟩ | h
  · exact (sets_a73 _ _).all cores
  rcases ite_some h with ⟨-, rfl⟩ | h
  · unfold cortexA75
    repeat' split
    all_goals exact Sets1.all (by decide) cores
  rcases ite_some h with ⟨-, rfl⟩ | h
  · exact (sets_a76 _).all cores
  rcases ite_some h with ⟨-, rfl⟩ | h
  · exact Sets1.all (by decide) cores
  rcases ite_some h with ⟨-, rfl⟩ | h
  · exact (sets_neoverse _ _).all cores
  rcases ite_some h with ⟨-, rfl⟩ | h
  · unfold kryo
    split <;> exact Sets1.all (by decide) cores
  rcases ite_some h with ⟨-, rfl⟩ | h
  · exact Sets1.all (by decide) cores
  rcases ite_some h with ⟨-, rfl⟩ | h
  · exact Sets1.all (by decide) cores
  rcases ite_some h with ⟨-, rfl⟩ | h
  · exact Sets1.all (by decide) cores
  cases h

theorem sets_known {t : Target} {uarch midr : Nat} {chipset : Chipset} {clusterId : Nat}
    {c : Caches} (hx : t = .armOld → uarch = Uarch.xscale → XscaleParts midr)
    (hth : ¬ (uarch = Uarch.thunderx ∧ t = .arm64))
    (h : known t uarch cores midr chipset clusterId = some c) : Sets cores c := by
  unfold known at h
  rw [Option.or_eq_some_iff] at h
  rcases h with h | ⟨-, h⟩
  · cases t with
    | armOld =>
      rw [Option.or_eq_some_iff] at h
      rcases h with h | ⟨-, h⟩
      · unfold oldCases at h
        split at h
        · rename_i hu
          cases h
          unfold xscale
          rcases hx rfl hu with hx | hx | hx <;> rw [hx] <;> exact Sets1.all (by decide) cores
        · split at h
          · cases h; exact Sets1.all (by decide) cores
          · cases h
      · exact sets_cases32 hc h
    | armV7 => exact sets_cases32 hc h
    | arm64 =>
      have h : cases64 uarch cores = some c := h
      unfold cases64 at h
      split at h
      · next hu => exact absurd ⟨hu, rfl⟩ hth
      · split at h
        · cases h; exact sets_taishan hc
        · cases h
    | armV8 => cases h
    | arm64Android => cases h
  · exact sets_casesAll hc h

end

/-- The number of sets that is computed. -/
theorem withSets_sets {c d : Cache} (h : withSets c = some d) {m : Nat}
    (h1 : 0 < c.associativity * c.lineSize) (h2 : c.associativity * c.lineSize < U32)
    (hm : c.size = m * (c.associativity * c.lineSize)) : d.sets = m := by
  unfold withSets at h
  split at h
  · cases h
  · cases h
    show c.size / _ = m
    rw [Nat.mod_eq_of_lt h2, hm, Nat.mul_div_cancel m h1]

theorem Pow.sets {c d : Cache} (h : Pow c) (hd : withSets c = some d) : ∃ n, d.sets = 2 ^ n := by
  obtain ⟨h1, h2, n, -, hn⟩ := h
  exact ⟨n, withSets_sets hd h1 h2 hn⟩

theorem PowC.sets {cores : Nat} {c d : Cache} (h : PowC cores c) (hd : withSets c = some d) :
    ∃ n, d.sets = 2 ^ n ∨ d.sets = cores * 2 ^ n := by
  obtain ⟨h1, h2, n, hn | hn⟩ := h
  · exact ⟨n, .inl (withSets_sets hd h1 h2 hn)⟩
  · exact ⟨n, .inr (withSets_sets hd h1 h2 hn)⟩

/-- The numbers of sets of finished caches. -/
theorem finish_sets {cores : Nat} {c d : Caches} (hs : Sets cores c) (h : finish c = some d) :
    (∃ n, d.l1i.sets = 2 ^ n) ∧ (∃ n, d.l1d.sets = 2 ^ n) ∧
    (d.l2.size ≠ 0 → ∃ n, d.l2.sets = 2 ^ n ∨ d.l2.sets = cores * 2 ^ n) ∧
    (d.l3.size ≠ 0 → d.l2.size ≠ 0 → ∃ n, d.l3.sets = 2 ^ n ∨ d.l3.sets = cores * 2 ^ n) := by
  unfold finish at h
  simp only [Option.bind_eq_bind, Option.bind_eq_some_iff] at h
  obtain ⟨i, hi, dd, hd, h⟩ := h
  split at h
  · next h2 =>
    cases h
    exact ⟨hs.l1i.sets hi, hs.l1d.sets hd, fun hh => absurd h2 hh, fun _ hh => absurd h2 hh⟩
  · next h2 =>
    rw [Option.bind_eq_some_iff] at h
    obtain ⟨s, hs2, h⟩ := h
    split at h
    · next h3 =>
      cases h
      exact ⟨hs.l1i.sets hi, hs.l1d.sets hd, fun _ => (hs.l2 h2).sets hs2, fun hh => absurd h3 hh⟩
    · next h3 =>
      rw [Option.bind_eq_some_iff] at h
      obtain ⟨u, hu, h⟩ := h
      cases h
      exact ⟨hs.l1i.sets hi, hs.l1d.sets hd, fun _ => (hs.l2 h2).sets hs2, fun _ _ => (hs.l3 h3).sets hu⟩

/-- Decoding ends only if the part number is one of an XScale. -/
theorem xscale_of_decode {cores midr clusterId version : Nat} {chipset : Chipset} {c : Caches}
    (h : decode .armOld Uarch.xscale cores midr chipset clusterId version = some c) :
    XscaleParts midr := by
  have e : known .armOld Uarch.xscale cores midr chipset clusterId = some (xscale midr) := rfl
  unfold decode at h
  rw [e] at h
  have h : finish (xscale midr) = some c := h
  unfold XscaleParts
  unfold xscale at h
  split at h
  · next hh => exact .inl hh
  · next hh => exact .inr (.inl hh)
  · next hh => exact .inr (.inr hh)
  · cases h

end Verif.ArmCache
