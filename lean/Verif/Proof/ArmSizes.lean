import Verif.Proof.ArmDecode

/-!
# Sizes of decoded ARM caches
-/

set_option autoImplicit false

namespace Verif.ArmCache
open Spec ArmMidr ArmChipset ArmInit ArmUarch
open X86Init (Cache zeroCache)

/-- Larger caches are further away; without L2 cache the L1 data cache is the largest. -/
def Hier (c : Caches) : Prop :=
  (c.l2.size ≠ 0 → c.l1i.size ≤ c.l2.size ∧ c.l1d.size ≤ c.l2.size) ∧
  (c.l3.size ≠ 0 → c.l2.size ≤ c.l3.size) ∧ (c.l2.size = 0 → c.l1i.size ≤ c.l1d.size)

/-- Nothing above `n`. -/
def Under (n : Nat) (c : Caches) : Prop :=
  c.l1i.size ≤ n ∧ c.l1d.size ≤ n ∧ c.l2.size ≤ n ∧ c.l3.size ≤ n

instance (c : Caches) : Decidable (Hier c) := by unfold Hier; infer_instance
instance (n : Nat) (c : Caches) : Decidable (Under n c) := by unfold Under; infer_instance

/-- A property of all cases of the switch. -/
structure Holds (P : Nat → Caches → Prop) (t : Target) (cores midr : Nat) (chipset : Chipset)
    (clusterId : Nat) : Prop where
  xscale : t = .armOld → P Uarch.xscale (xscale midr)
  arm11 : P Uarch.arm11 arm11
  a5 : t = .armOld ∨ t = .armV7 → P Uarch.cortexA5 cortexA5
  a7 : t = .armOld ∨ t = .armV7 → P Uarch.cortexA7 (cortexA7 cores)
  a8 : t = .armOld ∨ t = .armV7 → P Uarch.cortexA8 (cortexA8 chipset)
  a9 : t = .armOld ∨ t = .armV7 → P Uarch.cortexA9 cortexA9
  a15 : t = .armOld ∨ t = .armV7 → P Uarch.cortexA15 (cortexA15 cores)
  a17 : t = .armOld ∨ t = .armV7 → P Uarch.cortexA17 (cortexA17 cores)
  scorpion : P Uarch.scorpion (scorpion cores)
  krait : P Uarch.krait (krait cores)
  thunderx : t = .arm64 → P Uarch.thunderx thunderx
  taishan : t = .arm64 → P Uarch.taishanV110 (taishanV110 cores)
  a35 : P Uarch.cortexA35 cortexA35
  a53 : P Uarch.cortexA53 (cortexA53 midr chipset clusterId)
  a55r0 : P Uarch.cortexA55r0 (cortexA55 midr chipset)
  a55 : P Uarch.cortexA55 (cortexA55 midr chipset)
  a57 : P Uarch.cortexA57 (cortexA57 cores)
  a65 : P Uarch.cortexA65 cortexA65
  a72 : P Uarch.cortexA72 (cortexA72 chipset)
  a73 : P Uarch.cortexA73 (cortexA73 midr chipset)
  a75 : P Uarch.cortexA75 (cortexA75 chipset)
  a76 : P Uarch.cortexA76 (cortexA76 chipset)
  a77 : P Uarch.cortexA77 cortexA77
  n1 : P Uarch.neoverseN1 (neoverse Uarch.neoverseN1 midr)
  v1 : P Uarch.neoverseV1 (neoverse Uarch.neoverseV1 midr)
  n2 : P Uarch.neoverseN2 (neoverse Uarch.neoverseN2 midr)
  v2 : P Uarch.neoverseV2 (neoverse Uarch.neoverseV2 midr)
  kryo : P Uarch.kryo (kryo midr)
  den1 : P Uarch.denver denver
  den2 : P Uarch.denver2 denver
  m1 : P Uarch.exynosM1 exynosM1
  m2 : P Uarch.exynosM2 exynosM1
  m3 : P Uarch.exynosM3 exynosM3

section
variable {P : Nat → Caches → Prop} {t : Target} {cores midr : Nat} {chipset : Chipset}
  {clusterId : Nat} (H : Holds P t cores midr chipset clusterId)
include H

theorem Holds.old {uarch : Nat} {c : Caches} (ht : t = .armOld) (h : oldCases uarch midr = some c) :
    P uarch c := by
  unfold oldCases at h
  rcases ite_some h with ⟨rfl, rfl⟩ | h
  · exact H.xscale ht
  rcases ite_some h with ⟨rfl, rfl⟩ | h
  · exact H.arm11
  cases h

theorem Holds.cases32 {uarch : Nat} {c : Caches} (ht : t = .armOld ∨ t = .armV7)
    (h : cases32 uarch cores chipset = some c) : P uarch c := by
  unfold ArmCache.cases32 at h
  rcases ite_some h with ⟨rfl, rfl⟩ | h
  · exact H.a5 ht
  rcases ite_some h with ⟨rfl, rfl⟩ | h
  · exact H.a7 ht
  rcases ite_some h with ⟨rfl, rfl⟩ | h
  · exact H.a8 ht
  rcases ite_some h with ⟨rfl, rfl⟩ | h
  · exact H.a9 ht
  rcases ite_some h with ⟨rfl, rfl⟩ | h
  · exact H.a15 ht
  rcases ite_some h with ⟨rfl, rfl⟩ | h
  · exact H.a17 ht
  rcases ite_some h with ⟨rfl, rfl⟩ | h
  · exact H.scorpion
  rcases ite_some h with ⟨rfl, rfl⟩ | h
  · exact H.krait
  cases h

theorem Holds.all {uarch : Nat} {c : Caches}
    (h : casesAll uarch cores midr chipset clusterId = some c) : P uarch c := by
  unfold casesAll at h
  rcases ite_some h with ⟨rfl, rfl⟩ | h
  · exact H.a35
  rcases ite_some h with ⟨rfl, rfl⟩ | h
  · exact H.a53
  rcases ite_some h with ⟨rfl | rfl, rfl⟩ | h
  · exact H.a55r0
  · exact H.a55
  rcases ite_some h with ⟨rfl, rfl⟩ | h
  · exact H.a57
  rcases ite_some h with ⟨rfl, rfl⟩ | h
  · exact H.a65
  rcases ite_some h with ⟨rfl, rfl⟩ | h
  · exact H.a72
  rcases ite_some h with ⟨rfl, rfl⟩ | h
  · exact H.a73
  rcases ite_some h with ⟨rfl, rfl⟩ | h
  · exact H.a75
  rcases ite_some h with ⟨rfl, rfl⟩ | h
  · exact H.a76
  rcases ite_some h with ⟨rfl, rfl⟩ | h
  · exact H.a77
  rcases ite_some h with ⟨rfl | rfl | rfl | rfl, rfl⟩ | h
  · exact H.n1
  · exact H.v1
  · exact H.n2
  · exact H.v2
  rcases ite_some h with ⟨rfl, rfl⟩ | h
  · exact H.kryo
  rcases ite_some h with ⟨rfl | rfl, rfl⟩ | h
  · exact H.den1
  · exact H.den2
  rcases ite_some h with ⟨rfl | rfl, rfl⟩ | h
  · exact H.m1
  · exact H.m2
  rcases ite_some h with ⟨rfl, rfl⟩ | h
  · exact H.m3
  cases h

theorem Holds.known {uarch : Nat} {c : Caches}
    (h : known t uarch cores midr chipset clusterId = some c) : P uarch c := by
  unfold ArmCache.known at h
  rw [Option.or_eq_some_iff] at h
  rcases h with h | ⟨-, h⟩
  · cases t with
    | armOld =>
      rw [Option.or_eq_some_iff] at h
      rcases h with h | ⟨-, h⟩
      · exact H.old rfl h
      · exact H.cases32 (.inl rfl) h
    | armV7 => exact H.cases32 (.inr rfl) h
    | arm64 =>
      have h : cases64 uarch cores = some c := h
      unfold cases64 at h
      rcases ite_some h with ⟨rfl, rfl⟩ | h
      · exact H.thunderx rfl
      rcases ite_some h with ⟨rfl, rfl⟩ | h
      · exact H.taishan rfl
      cases h
    | armV8 => cases h
    | arm64Android => cases h
  · exact H.all h

end

theorem xscale_all {P : Caches → Prop} (h : ∀ c ∈
    [(⟨cache (k 16) 32 32, cache (k 16) 4 64, zeroCache, zeroCache⟩ : Caches),
     ⟨cache (k 32) 32 32, cache (k 32) 32 32, zeroCache, zeroCache⟩,
     ⟨cache (k 32) 4 32, cache (k 32) 4 32, cache (k 256) 8 32, zeroCache⟩,
     ⟨zeroCache, zeroCache, zeroCache, zeroCache⟩], P c) (midr : Nat) : P (xscale midr) := by
  unfold xscale
  split <;> exact h _ (by simp)

theorem a53_all {P : Caches → Prop} (h : ∀ s ∈ [(k 16, k 256), (k 16, k 512), (k 32, k 256),
    (k 32, k 512), (k 32, k 1024)],
    P ⟨cache s.1 2 64, cache s.1 4 64, cache s.2 16 64, zeroCache⟩) (midr : Nat) (chipset : Chipset)
    (clusterId : Nat) : P (cortexA53 midr chipset clusterId) := by
  unfold cortexA53
  split
  · have := a53SilverL2_mem chipset clusterId
    simp only [List.mem_cons, List.not_mem_nil, or_false] at this
    rcases this with e | e <;> rw [e]
    · exact h (k 32, k 512) (by simp)
    · exact h (k 32, k 1024) (by simp)
  · exact h _ (a53Sizes_mem chipset clusterId)

theorem a73_all {P : Caches → Prop} (h : ∀ s ∈ [(k 64, k 2048), (k 64, k 1024), (k 32, k 512)],
    P ⟨cache (k 64) 4 64, cache s.1 (s.1 >>> 12) 64, cache s.2 16 64 inclusive, zeroCache⟩)
    (midr : Nat) (chipset : Chipset) : P (cortexA73 midr chipset) :=
  h _ (a73Sizes_mem midr chipset)

theorem a76_all {P : Caches → Prop} (h : ∀ s ∈ [(k 512, k 4096), (k 256, k 1024)],
    P ⟨cache (k 64) 4 64, cache (k 64) 4 64, cache s.1 8 64 inclusive, cache s.2 16 64⟩)
    (chipset : Chipset) : P (cortexA76 chipset) :=
  h _ (a76Sizes_mem chipset)

theorem neoverse_all {P : Caches → Prop} (h : ∀ s ∈ [1024, 256],
    P ⟨cache (k 64) 4 64, cache (k 64) 4 64, cache (s * 1024) 8 64 inclusive, cache (0 * 1024) 16 64⟩)
    (uarch midr : Nat) : P (neoverse uarch midr) := by
  unfold neoverse
  split
  · exact h 1024 (by simp)
  · exact h 256 (by simp)

/-- A cache that grows with the cluster. -/
theorem scaled_size {cores s : Nat} (a l f : Nat) (h : cores * s < U32) :
    (cache (cores * s) a l f).size = cores * s := Nat.mod_eq_of_lt h

theorem hier_scaled {i d : Cache} {s : Nat} (a l f : Nat) (hi : i.size ≤ s) (hd : d.size ≤ s) {cores : Nat}
    (h1 : 1 ≤ cores) (h : cores * s < U32) : Hier ⟨i, d, cache (cores * s) a l f, zeroCache⟩ := by
  have hs : s ≤ cores * s := Nat.le_mul_of_pos_left s h1
  refine ⟨fun _ => ?_, fun h => absurd rfl h, fun h0 => ?_⟩
  · show i.size ≤ (cache (cores * s) a l f).size ∧ d.size ≤ (cache (cores * s) a l f).size
    rw [scaled_size a l f h]
    omega
  · have h0 : (cache (cores * s) a l f).size = 0 := h0
    rw [scaled_size a l f h] at h0
    show i.size ≤ d.size
    omega

theorem hier_holds {t : Target} {cores : Nat} (h1 : 1 ≤ cores) (h2 : cores < 4096) (midr : Nat)
    (chipset : Chipset) (clusterId : Nat) : Holds (fun _ c => Hier c) t cores midr chipset clusterId where
  xscale _ := xscale_all (by decide) _
  arm11 := by decide
  a5 _ := by decide
  a7 _ := by
    unfold cortexA7
    rw [Nat.mul_comm (k 128) cores]
    exact hier_scaled _ _ _ (by decide) (by decide) h1 (by unfold k; omega)
  a8 _ := by unfold cortexA8; split <;> decide
  a9 _ := by decide
  a15 _ := hier_scaled _ _ _ (by decide) (by decide) h1 (by unfold k; omega)
  a17 _ := hier_scaled _ _ _ (by decide) (by decide) h1 (by unfold k; omega)
  scorpion := hier_scaled _ _ _ (by decide) (by decide) h1 (by unfold k; omega)
  krait := hier_scaled _ _ _ (by decide) (by decide) h1 (by unfold k; omega)
  thunderx _ := by decide
  taishan _ := by
    have hs : (taishanV110 cores).l3.size = cores * k 1024 :=
      scaled_size _ _ _ (by unfold k; omega)
    refine ⟨fun _ => (show (cache (k 64) 4 128).size ≤ (cache (k 512) 8 128 inclusive).size ∧
      (cache (k 64) 4 128).size ≤ (cache (k 512) 8 128 inclusive).size by decide), fun _ => ?_,
      fun h => absurd h (show (cache (k 512) 8 128 inclusive).size ≠ 0 by decide)⟩
    rw [hs]
    have : (taishanV110 cores).l2.size = k 512 := rfl
    rw [this]
    unfold k
    omega
  a35 := by decide
  a53 := a53_all (by decide) _ _ _
  a55r0 := by unfold cortexA55; repeat' split
              all_goals decide
  a55 := by unfold cortexA55; repeat' split
            all_goals decide
  a57 := hier_scaled _ _ _ (by decide) (by decide) h1 (by unfold k; omega)
  a65 := by decide
  a72 := by unfold cortexA72; split <;> decide
  a73 := a73_all (by decide) _ _
  a75 := by unfold cortexA75; repeat' split
            all_goals decide
  a76 := a76_all (by decide) _
  a77 := by decide
  n1 := neoverse_all (by decide) _ _
  v1 := neoverse_all (by decide) _ _
  n2 := neoverse_all (by decide) _ _
  v2 := neoverse_all (by decide) _ _
  kryo := by unfold kryo; split <;> decide
  den1 := by decide
  den2 := by decide
  m1 := by decide
  m2 := by decide
  m3 := by decide

theorem hier_generic {cores : Nat} (h1 : 1 ≤ cores) (h2 : cores < 4096) (version : Nat) :
    Hier (generic cores version) := by
  unfold generic
  repeat' split
  · exact hier_scaled _ _ _ (by decide) (by decide) h1 (by unfold k; omega)
  · exact hier_scaled _ _ _ (by decide) (by decide) h1 (by unfold k; omega)
  · decide

theorem hier_assigned (t : Target) (uarch : Nat) {cores : Nat} (h1 : 1 ≤ cores) (h2 : cores < 4096)
    (midr : Nat) (chipset : Chipset) (clusterId version : Nat) :
    Hier (assigned t uarch cores midr chipset clusterId version) := by
  unfold assigned
  cases h : known t uarch cores midr chipset clusterId with
  | none => exact hier_generic h1 h2 _
  | some c => exact (hier_holds h1 h2 midr chipset clusterId).known h

/-! ## Against the fixed bounds -/

theorem under_scaled {i d : Cache} {s : Nat} (a l f : Nat) {n cores : Nat} (hi : i.size ≤ n)
    (hd : d.size ≤ n) (h : cores * s ≤ n) : Under n ⟨i, d, cache (cores * s) a l f, zeroCache⟩ :=
  ⟨hi, hd, Nat.le_trans (Nat.mod_le _ _) h, Nat.zero_le _⟩

/-- What `known` returns, against the bound. -/
def Bounded (uarch : Nat) (c : Caches) : Prop := ∀ n, maxCacheSize uarch = some n → Under n c

theorem Bounded.of {uarch n : Nat} {c : Caches} (h : maxCacheSize uarch = some n) (hu : Under n c) :
    Bounded uarch c := fun m hm => by
  rw [h] at hm
  cases hm
  exact hu

theorem Bounded.free {uarch : Nat} (c : Caches) (h : maxCacheSize uarch = none) : Bounded uarch c :=
  fun m hm => by rw [h] at hm; cases hm

theorem ite_opt {α : Type} {p : Prop} [Decidable p] {a b c : Option α}
    (h : (if p then a else b) = c) : (p ∧ a = c) ∨ b = c := by
  by_cases hp : p
  · rw [if_pos hp] at h; exact .inl ⟨hp, h⟩
  · rw [if_neg hp] at h; exact .inr h

/-- Small bounds are those of few cores. -/
theorem bound_small {uarch n : Nat} (hn : maxCacheSize uarch = some n) :
    uarch ∈ [Uarch.cortexA5, Uarch.cortexA7, Uarch.cortexA8, Uarch.cortexA9, Uarch.cortexA35,
      Uarch.cortexA53, Uarch.cortexA57] ∨ 4194304 ≤ n := by
  unfold maxCacheSize at hn
  rcases ite_opt hn with ⟨-, h⟩ | hn
  · cases h
  rcases ite_opt hn with ⟨rfl, -⟩ | hn
  · exact .inl (by decide)
  rcases ite_opt hn with ⟨h, -⟩ | hn
  · left
    simp only [List.mem_cons, List.not_mem_nil, or_false] at h ⊢
    omega
  rcases ite_opt hn with ⟨-, h⟩ | hn
  · cases h; exact .inr (by decide)
  rcases ite_opt hn with ⟨-, h⟩ | hn
  · cases h; exact .inr (by decide)
  rcases ite_opt hn with ⟨rfl, -⟩ | hn
  · exact .inl (by decide)
  rcases ite_opt hn with ⟨h, -⟩ | hn
  · left
    simp only [List.mem_cons, List.not_mem_nil, or_false] at h ⊢
    omega
  rcases ite_opt hn with ⟨-, h⟩ | hn
  · cases h; exact .inr (by decide)
  rcases ite_opt hn with ⟨-, h⟩ | hn
  · cases h; exact .inr (by decide)
  cases hn
  exact .inr (by decide)

/-- The generic caches fit for all but the smallest cores. -/
theorem bounded_generic {uarch cores : Nat} (version : Nat) (h : cores ≤ 16)
    (h5 : uarch ∉ [Uarch.cortexA5, Uarch.cortexA7, Uarch.cortexA8, Uarch.cortexA9, Uarch.cortexA35,
      Uarch.cortexA53, Uarch.cortexA57]) : Bounded uarch (generic cores version) := by
  intro n hn
  have hk : 4194304 ≤ n := (bound_small hn).resolve_left h5
  unfold generic
  have e1 : (cache (k 32) 4 64).size = 32768 := rfl
  have e2 : (cache (k 16) 4 32).size = 16384 := rfl
  repeat' split
  · exact under_scaled _ _ _ (by omega) (by omega) (by unfold k; omega)
  · exact under_scaled _ _ _ (by omega) (by omega) (by unfold k; omega)
  · exact ⟨by show (cache (k 16) 4 32).size ≤ n; omega, by show (cache (k 16) 4 32).size ≤ n; omega,
      Nat.zero_le _, Nat.zero_le _⟩

theorem bounded_holds (t : Target) (cores midr : Nat) (chipset : Chipset) (clusterId : Nat) :
    Holds (fun u c => BoundApplies t u cores → Bounded u c) t cores midr chipset clusterId where
  xscale _ _ := .free _ (by decide)
  arm11 _ := .free _ (by decide)
  a5 _ _ := .of (n := k 512) (by decide) (by decide)
  a7 _ h := .of (n := k 1024) (by decide) (by
    unfold cortexA7
    rw [Nat.mul_comm (k 128) cores]
    have := h.2.1 (by decide)
    exact under_scaled _ _ _ (by decide) (by decide) (by unfold k; omega))
  a8 _ _ := .of (n := k 1024) (by decide) (by unfold cortexA8; split <;> decide)
  a9 _ _ := .of (n := k 1024) (by decide) (by decide)
  a15 _ h := .of (n := k 4096) (by decide) (by
    have := h.2.1 (by decide)
    exact under_scaled _ _ _ (by decide) (by decide) (by unfold k; omega))
  a17 _ h := .of (n := k 8192) (by decide) (by
    have := h.1
    exact under_scaled _ _ _ (by decide) (by decide) (by unfold k; omega))
  scorpion _ := .free _ (by decide)
  krait _ := .free _ (by decide)
  thunderx ht h := absurd ⟨rfl, ht⟩ h.2.2.2.1
  taishan _ h := .of (n := k 4096) (by decide) (by
    have := h.2.2.1 (by decide)
    exact ⟨show (cache (k 64) 4 128).size ≤ k 4096 by decide,
      show (cache (k 64) 4 128).size ≤ k 4096 by decide,
      show (cache (k 512) 8 128 inclusive).size ≤ k 4096 by decide,
      Nat.le_trans (Nat.mod_le _ _) (by unfold k; omega)⟩)
  a35 _ := .of (n := k 1024) (by decide) (by decide)
  a53 _ := .of (n := k 2048) (by decide) (a53_all (by decide) _ _ _)
  a55r0 _ := .of (n := k 4096) (by decide) (by
    unfold cortexA55
    repeat' split
    all_goals decide)
  a55 _ := .of (n := k 4096) (by decide) (by
    unfold cortexA55
    repeat' split
    all_goals decide)
  a57 h := .of (n := k 2048) (by decide) (by
    have := h.2.2.1 (by decide)
    exact under_scaled _ _ _ (by decide) (by decide) (by unfold k; omega))
  a65 _ := .of (n := k 4096) (by decide) (by decide)
  a72 _ := .of (n := k 4096) (by decide) (by unfold cortexA72; split <;> decide)
  a73 _ := .of (n := k 8192) (by decide) (a73_all (by decide) _ _)
  a75 _ := .of (n := k 4096) (by decide) (by
    unfold cortexA75
    repeat' split
    all_goals decide)
  a76 _ := .of (n := k 4096) (by decide) (a76_all (by decide) _)
  a77 _ := .of (n := k 4096) (by decide) (by decide)
  n1 _ := .of (n := k 4096) (by decide) (neoverse_all (by decide) _ _)
  v1 _ := .of (n := k 4096) (by decide) (neoverse_all (by decide) _ _)
  n2 _ := .of (n := k 4096) (by decide) (neoverse_all (by decide) _ _)
  v2 _ := .of (n := k 4096) (by decide) (neoverse_all (by decide) _ _)
  kryo _ := .free _ (by decide)
  den1 _ := .of (n := k 4096) (by decide) (by decide)
  den2 _ := .of (n := k 4096) (by decide) (by decide)
  m1 _ := .free _ (by decide)
  m2 _ := .free _ (by decide)
  m3 _ := .free _ (by decide)

theorem bounded_assigned {t : Target} {uarch cores : Nat} (hb : BoundApplies t uarch cores)
    (midr : Nat) (chipset : Chipset) (clusterId version : Nat) :
    Bounded uarch (assigned t uarch cores midr chipset clusterId version) := by
  unfold assigned
  cases h : known t uarch cores midr chipset clusterId with
  | some c => exact (bounded_holds t cores midr chipset clusterId).known h hb
  | none =>
    refine bounded_generic version hb.1 fun hm => ?_
    have hc : casesAll uarch cores midr chipset clusterId = none := (Option.or_eq_none_iff.mp h).2
    have h32 : t = .armOld ∨ t = .armV7 → cases32 uarch cores chipset = none := by
      have := (Option.or_eq_none_iff.mp h).1
      rintro (rfl | rfl)
      · exact (Option.or_eq_none_iff.mp this).2
      · exact this
    have ht := hb.2.2.2.2
    simp only [List.mem_cons, List.not_mem_nil, or_false] at hm
    rcases hm with rfl | rfl | rfl | rfl | rfl | rfl | rfl
    · cases h32 (ht (by decide))
    · cases h32 (ht (by decide))
    · cases h32 (ht (by decide))
    · cases h32 (ht (by decide))
    · cases hc
    · cases hc
    · cases hc

end Verif.ArmCache
