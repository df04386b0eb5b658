import Verif.Spec.ArmCores
import Verif.Spec.Tools
import Verif.Props.ArmCache

/-!
# C161: the reported microarchitecture of an ARM core is that of its main ID register
-/

set_option autoImplicit false

namespace Verif.Props
open Spec ArmMidr
open ArmUarch (decode)
open ArmCache (select_mem lookup_mem)

private def isPart (a : Arch) (f : Bool) (i p u : Nat) : Bool :=
  coreParts.any (fun r => r.1 = u && r.2.1 = i && r.2.2.2.has a && decide (p ∈ r.2.2.1)) ||
    (a = .arm && i = 0x51 && p = 0x00F && u = if f then 0x00300205 else 0x00400100)

private theorem of_isPart {a : Arch} {f : Bool} {m : Midr} {u : Nat}
    (h : isPart a f m.implementer m.part u = true) : IsCore a f m u := by
  unfold isPart at h
  rw [Bool.or_eq_true] at h
  rcases h with h | h
  · obtain ⟨r, hr, h⟩ := List.any_eq_true.mp h
    simp only [Bool.and_eq_true, decide_eq_true_eq] at h
    obtain ⟨⟨⟨rfl, h2⟩, h3⟩, h4⟩ := h
    exact .part r.1 r.2.1 r.2.2.1 r.2.2.2 hr h3 h2.symm h4
  · simp only [Bool.and_eq_true, decide_eq_true_eq] at h
    obtain ⟨⟨⟨h1, h2⟩, h3⟩, rfl⟩ := h
    cases f with
    | true => exact .a5 h1 rfl h2 h3
    | false => exact .scorpion h1 rfl h2 h3

private theorem of_table {a : Arch} {f : Bool} {m : Midr} {T : List (Nat × Nat × Nat)} {v : Nat}
    (hT : ∀ x ∈ T, isPart a f m.implementer x.1 x.2.2 = true)
    (hu : (ArmUarch.select T v m.part).2 ≠ 0) : IsCore a f m (ArmUarch.select T v m.part).2 := by
  rcases select_mem (rfl : ArmUarch.select T v m.part = _) with e | e
  · rw [e] at hu
    exact absurd rfl hu
  · exact of_isPart (hT _ e)

private theorem of_family {f : Bool} {m : Midr} {T : List (Nat × Nat × Nat)} {v : Nat}
    (hT : ∀ x ∈ T, (x.2.2, m.implementer, x.1) ∈ coreFamilies)
    (hu : (ArmUarch.select T v (m.part >>> 8)).2 ≠ 0) :
    IsCore .arm f m (ArmUarch.select T v (m.part >>> 8)).2 := by
  rcases select_mem (rfl : ArmUarch.select T v (m.part >>> 8) = _) with e | e
  · rw [e] at hu
    exact absurd rfl hu
  · have := hT _ e
    exact .family _ (by rw [Nat.shiftRight_eq_div_pow] at this ⊢; exact this) rfl

/-- Every reported core type is that of the ID. -/
private theorem sound (a : Arch) (m : Midr) (hm : m.Ok) (f : Bool) (hu : (decode a m.word f).2 ≠ 0) :
    IsCore a f m (decode a m.word f).2 := by
  have hi := getImplementer_word hm
  have hp := getPart_word hm
  have hv := and_variantMask hm
  have hq := and_partMask hm
  unfold decode at hu ⊢
  rw [hp, hi] at hu ⊢
  split at hu
  · rename_i h
    unfold ArmUarch.decodeArm at hu ⊢
    rw [hp, hv] at hu ⊢
    by_cases h5 : m.part = 0xD05
    · rw [if_pos h5]
      by_cases h0 : m.variant = 0
      · rw [h0]
        exact .a55r0 h h5 h0
      · rw [if_neg (show ¬ m.variant * 1048576 = 0 by omega)]
        exact .a55 h h5 h0
    · rw [if_neg h5] at hu ⊢
      cases a with
      | arm =>
        dsimp only at hu ⊢
        cases hl : (ArmUarch.armParts32 ++ ArmUarch.armParts).lookup m.part with
        | some r =>
          dsimp only
          have : ∀ x ∈ ArmUarch.armParts32 ++ ArmUarch.armParts, isPart .arm f 0x41 x.1 x.2.2 = true := by
            cases f <;> decide +kernel
          exact of_isPart (by rw [h]; exact this _ (lookup_mem hl))
        | none =>
          rw [hl] at hu
          dsimp only at hu ⊢
          exact of_family (by rw [h]; decide) hu
      | arm64 =>
        exact of_table (by rw [h]; cases f <;> decide +kernel) hu
  · rename_i h
    exact of_table (by rw [h]; cases a <;> cases f <;> decide +kernel) hu
  · rename_i h
    cases a with
    | arm => exact absurd rfl hu
    | arm64 => exact of_table (by rw [h]; cases f <;> decide +kernel) hu
  · rename_i h
    exact of_table (by rw [h]; cases a <;> cases f <;> decide +kernel) hu
  · rename_i h
    cases a with
    | arm => exact of_family (by rw [h]; decide) hu
    | arm64 => exact absurd rfl hu
  · rename_i h
    exact of_table (by rw [h]; cases a <;> cases f <;> decide +kernel) hu
  · rename_i h
    exact of_table (by rw [h]; cases a <;> cases f <;> decide +kernel) hu
  · rename_i h
    exact of_table (by rw [h]; cases a <;> cases f <;> decide +kernel) hu
  · rename_i h
    rw [Nat.and_or_distrib_left, hv, hq] at hu ⊢
    rcases select_mem (rfl : ArmUarch.select ArmUarch.samsungCores ArmUarch.Vendor.samsung
      (m.variant * 1048576 ||| m.part * 16) = _) with e | e
    · rw [e] at hu
      exact absurd rfl hu
    · have hb : m.variant * 1048576 ||| m.part * 16 = m.variant * 1048576 + m.part * 16 := by
        have := Nat.shiftLeft_add_eq_or_of_lt (b := m.part * 16) (i := 20)
          (show m.part * 16 < 2 ^ 20 by have := hm.2.2.2.1; omega) m.variant
        rw [Nat.shiftLeft_eq] at this
        exact this.symm
      have key : ∀ x ∈ ArmUarch.samsungCores, (x.2.2, x.1 / 1048576, x.1 % 1048576 / 16) ∈ exynosCores := by
        decide
      have := key _ e
      have e1 : (m.variant * 1048576 + m.part * 16) / 1048576 = m.variant := by
        have := hm.2.2.2.1; omega
      have e2 : (m.variant * 1048576 + m.part * 16) % 1048576 / 16 = m.part := by
        have := hm.2.2.2.1; omega
      rw [hb] at this ⊢
      dsimp only at this
      rw [e1, e2] at this
      exact .exynos _ this h
  · rename_i h
    cases a with
    | arm => exact of_table (by rw [h]; cases f <;> decide +kernel) hu
    | arm64 => exact absurd rfl hu
  · exact absurd rfl hu

/-- The core type of an ID is reported. -/
private theorem complete (a : Arch) (m : Midr) (hm : m.Ok) (f : Bool) (u : Nat) (h : IsCore a f m u) :
    (decode a m.word f).2 = u := by
  have ok : ∀ i v p, i < 256 → v < 16 → p < 4096 → (Midr.mk i v 0 p 0).Ok := fun i v p h1 h2 h3 =>
    ⟨h1, h2, Nat.zero_lt_succ _, h3, Nat.zero_lt_succ _⟩
  obtain ⟨k1, k2, k3, k4, k5⟩ := hm
  cases h with
  | part _ i ps b hr hb hi hp =>
    have nr : ∀ r ∈ coreParts, r.2.1 ≠ 0x53 ∧ 0xD05 ∉ r.2.2.1 := by decide +kernel
    have key : ∀ r ∈ coreParts, ∀ p ∈ r.2.2.1, r.2.2.2.has a = true →
        (decode a (Midr.mk r.2.1 0 0 p 0).word f).2 = r.1 := by
      cases a <;> cases f <;> decide +kernel
    have hn := nr _ hr
    rw [C105_fields a m ⟨i, 0, 0, m.part, 0⟩ ⟨k1, k2, k3, k4, k5⟩ (ok _ _ _ (hi ▸ k1) (by decide) k4) f hi rfl
      (fun e => absurd (hi ▸ e) hn.1) (fun _ e => absurd (e ▸ hp) hn.2)]
    exact key _ hr _ hp hb
  | a55r0 hi hp hv =>
    rw [C105_fields a m ⟨0x41, 0, 0, 0xD05, 0⟩ ⟨k1, k2, k3, k4, k5⟩ (ok _ _ _ (by decide) (by decide) (by decide))
      f hi hp (fun e => by omega) (fun _ _ => by simp [hv])]
    cases a <;> cases f <;> decide +kernel
  | a55 hi hp hv =>
    rw [C105_fields a m ⟨0x41, 1, 0, 0xD05, 0⟩ ⟨k1, k2, k3, k4, k5⟩ (ok _ _ _ (by decide) (by decide) (by decide))
      f hi hp (fun e => by omega) (fun _ _ => by simp [hv])]
    cases a <;> cases f <;> decide +kernel
  | a5 ha hf hi hp =>
    subst ha hf
    rw [C105_fields _ m ⟨0x51, 0, 0, 0xF, 0⟩ ⟨k1, k2, k3, k4, k5⟩ (ok _ _ _ (by decide) (by decide) (by decide))
      _ hi hp (fun e => by omega) (fun e => by omega)]
    decide +kernel
  | scorpion ha hf hi hp =>
    subst ha hf
    rw [C105_fields _ m ⟨0x51, 0, 0, 0xF, 0⟩ ⟨k1, k2, k3, k4, k5⟩ (ok _ _ _ (by decide) (by decide) (by decide))
      _ hi hp (fun e => by omega) (fun e => by omega)]
    decide +kernel
  | exynos _ hr hi =>
    have key : ∀ r ∈ exynosCores, (decode a (Midr.mk 0x53 r.2.1 0 r.2.2 0).word f).2 = r.1 := by
      cases a <;> cases f <;> decide +kernel
    rw [C105_fields a m ⟨0x53, m.variant, 0, m.part, 0⟩ ⟨k1, k2, k3, k4, k5⟩ (ok _ _ _ (by decide) k2 k4) f hi rfl
      (fun _ => rfl) (fun e => by omega)]
    have := key (u, m.variant, m.part) hr
    dsimp only at this
    exact this
  | family _ hr ha =>
    subst ha
    have hi := getImplementer_word ⟨k1, k2, k3, k4, k5⟩
    have hp := getPart_word ⟨k1, k2, k3, k4, k5⟩
    have he : m.part >>> 8 = m.part / 256 := Nat.shiftRight_eq_div_pow m.part 8
    have key : ∀ r ∈ coreFamilies, (r.2.1 = 0x41 ∧ r.2.2 < 12 ∧
        (ArmUarch.select ArmUarch.armFamilies32 ArmUarch.Vendor.arm r.2.2).2 = r.1) ∨
        (r.2.1 = 0x69 ∧ (ArmUarch.select ArmUarch.intelFamilies ArmUarch.Vendor.intel r.2.2).2 = r.1) := by
      decide
    unfold decode
    rw [hi]
    rcases key _ hr with ⟨h1, h2, h3⟩ | ⟨h1, h3⟩
    · dsimp only at h1 h2 h3
      rw [h1]
      dsimp only
      unfold ArmUarch.decodeArm
      rw [hp, if_neg (by omega)]
      dsimp only
      have hl : (ArmUarch.armParts32 ++ ArmUarch.armParts).lookup m.part = none := by
        cases hl : (ArmUarch.armParts32 ++ ArmUarch.armParts).lookup m.part with
        | none => rfl
        | some r =>
          have := lookup_mem hl
          have big : ∀ x ∈ ArmUarch.armParts32 ++ ArmUarch.armParts, 12 ≤ x.1 / 256 := by decide
          have := big _ this
          dsimp only at this
          omega
      rw [hl, he]
      exact h3
    · dsimp only at h1 h3
      rw [h1, hp, he]
      exact h3

/-- **C161.** A known microarchitecture is reported exactly for the cores of this type: by implementer and
part, and by variant for Cortex-A55 and Samsung's cores. -/
theorem C161_uarch_iff (a : Arch) (m : Midr) (hm : m.Ok) (vfpv4 : Bool) (u : Nat) (hu : u ≠ 0) :
    (decode a m.word vfpv4).2 = u ↔ IsCore a vfpv4 m u :=
  ⟨fun h => h ▸ sound a m hm vfpv4 (h ▸ hu), complete a m hm vfpv4 u⟩

/-- **C161 (unique).** No ID belongs to two core types, or to the unknown one. -/
theorem C161_unique (a : Arch) (m : Midr) (hm : m.Ok) (vfpv4 : Bool) (u v : Nat)
    (hu : IsCore a vfpv4 m u) (hv : IsCore a vfpv4 m v) : u = v ∧ u ≠ 0 := by
  have e := complete a m hm vfpv4 u hu
  refine ⟨e.symm.trans (complete a m hm vfpv4 v hv), ?_⟩
  have k1 : ∀ r ∈ coreParts, r.1 ≠ 0 := by decide
  have k2 : ∀ r ∈ exynosCores, r.1 ≠ 0 := by decide
  have k3 : ∀ r ∈ coreFamilies, r.1 ≠ 0 := by decide
  cases hu with
  | part _ _ _ _ hr => exact k1 _ hr
  | a55r0 => decide
  | a55 => decide
  | a5 => decide
  | scorpion => decide
  | exynos _ hr => exact k2 _ hr
  | family _ hr => exact k3 _ hr

/-- **C161 (unknown).** The microarchitecture is unknown exactly for IDs of none of these core types. -/
theorem C161_unknown_iff (a : Arch) (m : Midr) (hm : m.Ok) (vfpv4 : Bool) :
    (decode a m.word vfpv4).2 = 0 ↔ ∀ u, ¬ IsCore a vfpv4 m u := by
  constructor
  · intro h u hu
    have := complete a m hm vfpv4 u hu
    exact (C161_unique a m hm vfpv4 u u hu hu).2 (this.symm.trans h)
  · intro h
    by_cases h0 : (decode a m.word vfpv4).2 = 0
    · exact h0
    · exact absurd (sound a m hm vfpv4 h0) (h _)

/-- Core types that the header declares, with ARM's part numbers, and that are never reported. -/
def unreported : List (Bytes × Nat × Nat) :=
  [(b!"cortex_x4", 0x00300504, 0xD82), (b!"cortex_a520", 0x00300552, 0xD80), (b!"cortex_a720", 0x00300573, 0xD81)]

/-- **C161 is violated.** Cortex-A520, Cortex-A720 and Cortex-X4 are declared in the header, but no ID is
decoded to them; the IDs of these cores are decoded to ARM's unknown microarchitecture. -/
theorem C161_violated_declared : ∀ r ∈ unreported, (r.1, r.2.1) ∈ uarchEnum ∧
    (∀ (a : Arch) (m : Midr) (vfpv4 : Bool), m.Ok → (decode a m.word vfpv4).2 ≠ r.2.1) ∧
    ∀ (a : Arch) (m : Midr) (vfpv4 : Bool), m.Ok → m.implementer = 0x41 → m.part = r.2.2 →
      decode a m.word vfpv4 = (3, 0) := by
  intro r hr
  have hen : ∀ r ∈ unreported, (r.1, r.2.1) ∈ uarchEnum := by decide +kernel
  have hne : ∀ r ∈ unreported, r.2.1 ≠ 0 ∧ r.2.2 ≠ 0xD05 ∧ r.2.2 < 4096 := by decide
  have hd : ∀ r ∈ unreported, ∀ (a : Arch) (f : Bool), decode a (Midr.mk 0x41 0 0 r.2.2 0).word f = (3, 0) := by
    intro r hr a f
    revert r
    cases a <;> cases f <;> decide +kernel
  refine ⟨hen r hr, fun a m f hm h => ?_, fun a m f hm hi hp => ?_⟩
  · have := (C161_uarch_iff a m hm f r.2.1 (hne r hr).1).mp h
    have k1 : ∀ r ∈ unreported, ∀ x ∈ coreParts, x.1 ≠ r.2.1 := by decide +kernel
    have k2 : ∀ r ∈ unreported, ∀ x ∈ exynosCores, x.1 ≠ r.2.1 := by decide
    have k3 : ∀ r ∈ unreported, ∀ x ∈ coreFamilies, x.1 ≠ r.2.1 := by decide
    have k4 : ∀ r ∈ unreported, r.2.1 ∉ [0x00300354, 0x00300355, 0x00300205, 0x00400100] := by decide
    have k4 := k4 r hr
    generalize hu : r.2.1 = u at this
    rw [hu] at k4
    cases this with
    | part _ _ _ _ h => exact k1 r hr _ h hu.symm
    | a55r0 => simp at k4
    | a55 => simp at k4
    | a5 => simp at k4
    | scorpion => simp at k4
    | exynos _ h => exact k2 r hr _ h hu.symm
    | family _ h => exact k3 r hr _ h hu.symm
  · rw [C105_fields a m ⟨0x41, 0, 0, r.2.2, 0⟩ hm
      ⟨show 0x41 < 256 by decide, Nat.zero_lt_succ _, Nat.zero_lt_succ _, (hne r hr).2.2, Nat.zero_lt_succ _⟩ f hi hp (fun e => by omega)
      (fun _ e => absurd (hp.symm.trans e) (hne r hr).2.1)]
    exact hd r hr a f

/-- Cortex-A53 r0p3 and Exynos M3. -/
example : IsCore .arm64 false (Midr.of 0x410FD033) 0x00300353 ∧ IsCore .arm64 false (Midr.of 0x531F0020) 0x00600102 :=
  ⟨.part _ 0x41 [0xD03] .both (by decide) rfl (by decide) (by decide), .exynos _ (by decide) (by decide)⟩

end Verif.Props
