import Verif.Model.ArmCache
import Verif.Spec.ArmCache

/-!
# Decoding of ARM caches and microarchitectures
-/

set_option autoImplicit false

namespace Verif.ArmCache
open Spec ArmMidr ArmChipset ArmInit ArmUarch
open X86Init (Cache zeroCache)

/-- An assigned cache whose number of sets can be computed without remainder. -/
structure Geo (c : Cache) : Prop where
  pos : 0 < c.associativity * c.lineSize
  lt : c.associativity * c.lineSize < U32
  dvd : c.associativity * c.lineSize ∣ c.size
  line : c.lineSize = 32 ∨ c.lineSize = 64 ∨ c.lineSize = 128

/-- What every case of the switch assigns. -/
structure Raw (c : Caches) : Prop where
  l1i : Geo c.l1i
  l1i0 : 0 < c.l1i.size
  l1d : Geo c.l1d
  l1d0 : 0 < c.l1d.size
  l2 : c.l2.size ≠ 0 → Geo c.l2
  l3 : c.l3.size ≠ 0 → Geo c.l3 ∧ c.l2.size ≠ 0

instance (c : Cache) : Decidable (Geo c) :=
  decidable_of_iff (0 < c.associativity * c.lineSize ∧ c.associativity * c.lineSize < U32 ∧
    c.associativity * c.lineSize ∣ c.size ∧
    (c.lineSize = 32 ∨ c.lineSize = 64 ∨ c.lineSize = 128))
    ⟨fun h => ⟨h.1, h.2.1, h.2.2.1, h.2.2.2⟩, fun h => ⟨h.1, h.2, h.3, h.4⟩⟩

instance (c : Caches) : Decidable (Raw c) :=
  decidable_of_iff (Geo c.l1i ∧ 0 < c.l1i.size ∧ Geo c.l1d ∧ 0 < c.l1d.size ∧
    (c.l2.size ≠ 0 → Geo c.l2) ∧ (c.l3.size ≠ 0 → Geo c.l3 ∧ c.l2.size ≠ 0))
    ⟨fun h => ⟨h.1, h.2.1, h.2.2.1, h.2.2.2.1, h.2.2.2.2.1, h.2.2.2.2.2⟩,
     fun h => ⟨h.1, h.2, h.3, h.4, h.5, h.6⟩⟩

/-- A size that is a multiple of the number of cores. -/
theorem geo_scaled {s a l : Nat} (f : Nat) (hl : l = 32 ∨ l = 64 ∨ l = 128) (h1 : 0 < a * l)
    (h2 : a * l < U32) (h3 : a * l ∣ U32) (h4 : a * l ∣ s) (cores : Nat) :
    Geo (cache (cores * s) a l f) :=
  ⟨h1, h2, (Nat.dvd_mod_iff h3).mpr (Nat.dvd_trans h4 (Nat.dvd_mul_left s cores)), hl⟩

theorem raw_scaled2 {i d : Cache} {s a l : Nat} (f : Nat) (hi : Geo i) (hi0 : 0 < i.size)
    (hd : Geo d) (hd0 : 0 < d.size) (hl : l = 32 ∨ l = 64 ∨ l = 128) (h1 : 0 < a * l) (h2 : a * l < U32)
    (h3 : a * l ∣ U32) (h4 : a * l ∣ s) (cores : Nat) :
    Raw ⟨i, d, cache (cores * s) a l f, zeroCache⟩ :=
  ⟨hi, hi0, hd, hd0, fun _ => geo_scaled f hl h1 h2 h3 h4 cores, fun h => absurd rfl h⟩

theorem a53SilverL2_mem (chipset : Chipset) (clusterId : Nat) :
    a53SilverL2 chipset clusterId ∈ [k 512, k 1024] := by
  unfold a53SilverL2
  repeat' split
  all_goals simp

theorem a53Sizes_mem (chipset : Chipset) (clusterId : Nat) :
    a53Sizes chipset clusterId ∈ [(k 16, k 256), (k 16, k 512), (k 32, k 256), (k 32, k 512),
      (k 32, k 1024)] := by
  unfold a53Sizes
  repeat' split
  all_goals simp

theorem a73Sizes_mem (midr : Nat) (chipset : Chipset) :
    a73Sizes midr chipset ∈ [(k 64, k 2048), (k 64, k 1024), (k 32, k 512)] := by
  unfold a73Sizes
  repeat' split
  all_goals simp

theorem a76Sizes_mem (chipset : Chipset) :
    a76Sizes chipset ∈ [(k 512, k 4096), (k 256, k 1024)] := by
  unfold a76Sizes
  repeat' split
  all_goals simp

theorem raw_a53 (midr : Nat) (chipset : Chipset) (clusterId : Nat) :
    Raw (cortexA53 midr chipset clusterId) := by
  unfold cortexA53
  have h1 : ∀ s ∈ [k 512, k 1024],
      Raw ⟨cache (k 32) 2 64, cache (k 32) 4 64, cache s 16 64, zeroCache⟩ := by decide
  have h2 : ∀ s ∈ [(k 16, k 256), (k 16, k 512), (k 32, k 256), (k 32, k 512), (k 32, k 1024)],
      Raw ⟨cache s.1 2 64, cache s.1 4 64, cache s.2 16 64, zeroCache⟩ := by decide
  split
  · exact h1 _ (a53SilverL2_mem _ _)
  · exact h2 _ (a53Sizes_mem _ _)

theorem raw_a55 (midr : Nat) (chipset : Chipset) : Raw (cortexA55 midr chipset) := by
  unfold cortexA55
  repeat' split
  all_goals decide

theorem raw_a73 (midr : Nat) (chipset : Chipset) : Raw (cortexA73 midr chipset) := by
  have h : ∀ s ∈ [(k 64, k 2048), (k 64, k 1024), (k 32, k 512)],
      Raw ⟨cache (k 64) 4 64, cache s.1 (s.1 >>> 12) 64, cache s.2 16 64 inclusive, zeroCache⟩ := by
    decide
  exact h _ (a73Sizes_mem _ _)

theorem raw_a76 (chipset : Chipset) : Raw (cortexA76 chipset) := by
  have h : ∀ s ∈ [(k 512, k 4096), (k 256, k 1024)],
      Raw ⟨cache (k 64) 4 64, cache (k 64) 4 64, cache s.1 8 64 inclusive, cache s.2 16 64⟩ := by
    decide
  exact h _ (a76Sizes_mem _)

theorem raw_neoverse (uarch midr : Nat) : Raw (neoverse uarch midr) := by
  have h : ∀ s ∈ [1024, 256], Raw ⟨cache (k 64) 4 64, cache (k 64) 4 64,
      cache (s * 1024) 8 64 inclusive, cache (0 * 1024) 16 64⟩ := by decide
  unfold neoverse
  split
  · exact h 1024 (by simp)
  · exact h 256 (by simp)

theorem raw_taishan (cores : Nat) : Raw (taishanV110 cores) :=
  ⟨show Geo (cache (k 64) 4 128) by decide, show 0 < (cache (k 64) 4 128).size by decide,
   show Geo (cache (k 64) 4 128) by decide, show 0 < (cache (k 64) 4 128).size by decide,
   fun _ => show Geo (cache (k 512) 8 128 inclusive) by decide,
   fun _ => ⟨geo_scaled 0 (by decide) (by decide) (by decide) (by decide) (by decide) cores,
     show (cache (k 512) 8 128 inclusive).size ≠ 0 by decide⟩⟩

theorem raw_generic (cores version : Nat) : Raw (generic cores version) := by
  unfold generic
  repeat' split
  · exact raw_scaled2 0 (by decide) (by decide) (by decide) (by decide) (by decide) (by decide)
      (by decide) (by decide) (by decide) cores
  · exact raw_scaled2 0 (by decide) (by decide) (by decide) (by decide) (by decide) (by decide)
      (by decide) (by decide) (by decide) cores
  · decide

theorem raw_cases32 {uarch cores : Nat} {chipset : Chipset} {c : Caches}
    (h : cases32 uarch cores chipset = some c) : Raw c := by
  unfold cases32 at h
  repeat' split at h
  all_goals cases h
  · decide
  · unfold cortexA7
    rw [Nat.mul_comm (k 128) cores]
    exact raw_scaled2 0 (by decide) (by decide) (by decide) (by decide) (by decide) (by decide)
      (by decide) (by decide) (by decide) cores
  · unfold cortexA8
    split <;> decide
  · decide
  all_goals
    exact raw_scaled2 0 (by decide) (by decide) (by decide) (by decide) (by decide) (by decide)
      (by decide) (by decide) (by decide) cores

theorem ite_some {p : Prop} [Decidable p] {a c : Caches} {b : Option Caches}
    (h : (if p then some a else b) = some c) : (p ∧ a = c) ∨ b = some c := by
  by_cases hp : p
  · rw [if_pos hp] at h; exact .inl ⟨hp, Option.some.inj h⟩
  · rw [if_neg hp] at h; exact .inr h

theorem raw_casesAll {uarch cores midr : Nat} {chipset : Chipset} {clusterId : Nat} {c : Caches}
    (h : casesAll uarch cores midr chipset clusterId = some c) : Raw c := by
  unfold casesAll at h
  rcases ite_some h with ⟨-, rfl⟩ | h
  · decide
  rcases ite_some h with ⟨-, rfl⟩ | h
  · exact raw_a53 _ _ _
  rcases ite_some h with ⟨-, rfl⟩ | h
  · exact raw_a55 _ _
  rcases ite_some h with ⟨-, rfl⟩ | h
  · exact raw_scaled2 _ (by decide) (by decide) (by decide) (by decide) (by decide) (by decide)
      (by decide) (by decide) (by decide) cores
  rcases ite_some h with ⟨-, rfl⟩ | h
  · decide
  rcases ite_some h with ⟨-, rfl⟩ | h
  · unfold cortexA72
    split <;> decide
  rcases ite_some h with ⟨-, rfl⟩ | h
  · exact raw_a73 _ _
  rcases ite_some h with ⟨-, rfl⟩ | h
  · unfold cortexA75
    repeat' split
    all_goals decide
  rcases ite_some h with ⟨-, rfl⟩ | h
  · exact raw_a76 _
  rcases ite_some h with ⟨-, rfl⟩ | h
  · decide
  rcases ite_some h with ⟨-, rfl⟩ | h
  · exact raw_neoverse _ _
  rcases ite_some h with ⟨-, rfl⟩ | h
  · unfold kryo
    split <;> decide
  rcases ite_some h with ⟨-, rfl⟩ | h
  · decide
  rcases ite_some h with ⟨-, rfl⟩ | h
  · decide
  rcases ite_some h with ⟨-, rfl⟩ | h
  · decide
  cases h

/-- The parts for which the XScale case knows the caches. -/
def XscaleParts (midr : Nat) : Prop :=
  getPart midr >>> 8 = 2 ∨ getPart midr >>> 8 = 4 ∨ getPart midr >>> 8 = 6

theorem raw_old {uarch midr : Nat} {c : Caches} (hx : uarch = Uarch.xscale → XscaleParts midr)
    (h : oldCases uarch midr = some c) : Raw c := by
  unfold oldCases at h
  split at h
  · rename_i hu
    cases h
    unfold xscale
    rcases hx hu with hx | hx | hx <;> rw [hx] <;> decide
  · split at h
    · cases h; decide
    · cases h

theorem raw_known {t : Target} {uarch cores midr : Nat} {chipset : Chipset} {clusterId : Nat}
    {c : Caches} (hx : uarch = Uarch.xscale → XscaleParts midr)
    (h : known t uarch cores midr chipset clusterId = some c) : Raw c := by
  unfold known at h
  rw [Option.or_eq_some_iff] at h
  rcases h with h | ⟨-, h⟩
  · cases t with
    | armOld =>
      rw [Option.or_eq_some_iff] at h
      rcases h with h | ⟨-, h⟩
      · exact raw_old hx h
      · exact raw_cases32 h
    | armV7 => exact raw_cases32 h
    | arm64 =>
      have h : cases64 uarch cores = some c := h
      unfold cases64 at h
      repeat' split at h
      all_goals cases h
      · decide
      · exact raw_taishan _
    | armV8 => cases h
    | arm64Android => cases h
  · exact raw_casesAll h

theorem raw_known' {t : Target} {uarch cores midr : Nat} {chipset : Chipset} {clusterId : Nat}
    {c : Caches} (ht : t ≠ .armOld) (h : known t uarch cores midr chipset clusterId = some c) :
    Raw c := by
  by_cases hu : uarch = Uarch.xscale
  · subst hu
    cases t with
    | armOld => exact absurd rfl ht
    | armV7 => cases h
    | armV8 => cases h
    | arm64 => cases h
    | arm64Android => cases h
  · exact raw_known (fun h => absurd h hu) h

/-- What `finish` does with a cache whose geometry is right. -/
theorem withSets_geo {c : Cache} (h : Geo c) (h0 : 0 < c.size) :
    ∃ d, withSets c = some d ∧ Consistent d ∧ d.size = c.size ∧ d.associativity = c.associativity ∧
      d.lineSize = c.lineSize ∧ d.flags = c.flags := by
  obtain ⟨h1, h2, ⟨m, h3⟩, -⟩ := h
  have e : (c.associativity * c.lineSize) % U32 = c.associativity * c.lineSize := Nat.mod_eq_of_lt h2
  have ed : c.size / (c.associativity * c.lineSize) = m := by
    rw [h3, Nat.mul_div_cancel_left m h1]
  refine ⟨{ c with sets := c.size / ((c.associativity * c.lineSize) % U32), partitions := 1 },
    by unfold withSets; rw [if_neg (by omega)], ⟨h0, ?_, ?_, ?_, rfl, ?_⟩, rfl, rfl, rfl, rfl⟩
  · show 0 < c.size / _
    rw [e, ed]
    rcases Nat.eq_zero_or_pos m with rfl | h
    · rw [Nat.mul_zero] at h3; omega
    · exact h
  · exact Nat.pos_of_mul_pos_right h1
  · exact Nat.pos_of_mul_pos_left h1
  · show c.size / _ * c.associativity * c.lineSize * 1 = c.size
    rw [e, ed, Nat.mul_one, Nat.mul_assoc, Nat.mul_comm m, ← h3]

/-- A finished cache against the assigned one. -/
structure Same (d c : Cache) : Prop where
  size : d.size = c.size
  associativity : d.associativity = c.associativity
  lineSize : d.lineSize = c.lineSize
  flags : d.flags = c.flags

theorem finish_raw {c : Caches} (h : Raw c) :
    ∃ d, finish c = some d ∧ Consistent d.l1i ∧ Consistent d.l1d ∧
      (d.l2.size ≠ 0 → Consistent d.l2) ∧ (d.l3.size ≠ 0 → Consistent d.l3 ∧ d.l2.size ≠ 0) ∧
      Same d.l1i c.l1i ∧ Same d.l1d c.l1d ∧ Same d.l2 c.l2 ∧ Same d.l3 c.l3 := by
  obtain ⟨i, hi, ci, i1, i2, i3, i4⟩ := withSets_geo h.l1i h.l1i0
  obtain ⟨d, hd, cd, d1, d2, d3, d4⟩ := withSets_geo h.l1d h.l1d0
  unfold finish
  rw [hi, hd]
  dsimp only [Option.bind_eq_bind, Option.bind_some]
  by_cases h2 : c.l2.size = 0
  · rw [if_pos h2]
    have h3 : c.l3.size = 0 := by
      by_cases h3 : c.l3.size = 0
      · exact h3
      · exact absurd h2 (h.l3 h3).2
    exact ⟨_, rfl, ci, cd, fun hh => absurd h2 hh, fun hh => absurd h3 hh, ⟨i1, i2, i3, i4⟩,
      ⟨d1, d2, d3, d4⟩, ⟨rfl, rfl, rfl, rfl⟩, ⟨rfl, rfl, rfl, rfl⟩⟩
  · obtain ⟨s, hs, cs, s1, s2, s3, s4⟩ := withSets_geo (h.l2 h2) (by omega)
    rw [if_neg h2, hs]
    dsimp only [Option.bind_some]
    by_cases h3 : c.l3.size = 0
    · rw [if_pos h3]
      exact ⟨_, rfl, ci, cd, fun _ => cs, fun hh => absurd h3 hh, ⟨i1, i2, i3, i4⟩,
        ⟨d1, d2, d3, d4⟩, ⟨s1, s2, s3, s4⟩, ⟨rfl, rfl, rfl, rfl⟩⟩
    · obtain ⟨u, hu, cu, u1, u2, u3, u4⟩ := withSets_geo (h.l3 h3).1 (by omega)
      rw [if_neg h3, hu]
      exact ⟨_, rfl, ci, cd, fun _ => cs, fun _ => ⟨cu, fun hh => h2 (s1 ▸ hh)⟩, ⟨i1, i2, i3, i4⟩,
        ⟨d1, d2, d3, d4⟩, ⟨s1, s2, s3, s4⟩, ⟨u1, u2, u3, u4⟩⟩

theorem withSets_size {c d : Cache} (h : withSets c = some d) : d.size = c.size := by
  unfold withSets at h
  split at h
  · cases h
  · cases h; rfl

theorem finish_sizes {c d : Caches} (h : finish c = some d) :
    d.l1i.size = c.l1i.size ∧ d.l1d.size = c.l1d.size ∧ d.l2.size = c.l2.size ∧ d.l3.size = c.l3.size := by
  unfold finish at h
  simp only [Option.bind_eq_bind, Option.bind_eq_some_iff] at h
  obtain ⟨i, hi, dd, hd, h⟩ := h
  split at h
  · cases h
    exact ⟨withSets_size hi, withSets_size hd, rfl, rfl⟩
  · rw [Option.bind_eq_some_iff] at h
    obtain ⟨s, hs, h⟩ := h
    split at h
    · cases h
      exact ⟨withSets_size hi, withSets_size hd, withSets_size hs, rfl⟩
    · rw [Option.bind_eq_some_iff] at h
      obtain ⟨u, hu, h⟩ := h
      cases h
      exact ⟨withSets_size hi, withSets_size hd, withSets_size hs, withSets_size hu⟩

/-- The caches before the numbers of sets are computed. -/
def assigned (t : Target) (uarch cores midr : Nat) (chipset : Chipset) (clusterId version : Nat) : Caches :=
  (known t uarch cores midr chipset clusterId).getD (generic cores version)

theorem raw_assigned (t : Target) {uarch midr : Nat} (cores : Nat) (chipset : Chipset)
    (clusterId version : Nat) (hx : uarch = Uarch.xscale → XscaleParts midr) :
    Raw (assigned t uarch cores midr chipset clusterId version) := by
  unfold assigned
  cases h : known t uarch cores midr chipset clusterId with
  | none => exact raw_generic _ _
  | some c => exact raw_known hx h

/-! ## Microarchitectures -/

theorem select_mem {table : List (Nat × Nat × Nat)} {vendor value : Nat} {r : Nat × Nat}
    (h : select table vendor value = r) : r = (vendor, Uarch.unknown) ∨ (value, r) ∈ table := by
  unfold select at h
  cases hl : table.lookup value with
  | none => rw [hl] at h; exact .inl h.symm
  | some x =>
    rw [hl] at h
    have : x = r := h
    subst this
    right
    clear h
    induction table with
    | nil => cases hl
    | cons y ys ih =>
      obtain ⟨a, b⟩ := y
      rw [List.lookup_cons] at hl
      by_cases he : value = a
      · subst he
        rw [beq_self_eq_true] at hl
        cases hl
        exact List.mem_cons_self
      · rw [beq_false_of_ne he] at hl
        exact List.mem_cons_of_mem _ (ih hl)

theorem lookup_mem {table : List (Nat × Nat × Nat)} {value : Nat} {r : Nat × Nat}
    (h : table.lookup value = some r) : (value, r) ∈ table := by
  rcases select_mem (vendor := r.1 + 1) (show select table (r.1 + 1) value = r by
    unfold select; rw [h]; rfl) with h | h
  · exact absurd (congrArg Prod.fst h) (by simp)
  · exact h

end Verif.ArmCache
