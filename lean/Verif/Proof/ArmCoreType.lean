import Verif.Proof.ArmDecode
import Verif.Proof.ArmMidr

/-!
# Decoding of ARM microarchitectures
-/

set_option autoImplicit false

namespace Verif.ArmUarch
open Spec ArmMidr ArmCache

/-- The results a build can give for an implementer, with a part as key. -/
def entries (a : Arch) (f : Bool) (impl : Nat) : List (Nat × Nat × Nat) :=
  match impl with
  | 0x41 =>
    [(0xD05, Vendor.arm, Uarch.cortexA55r0), (0xD05, Vendor.arm, Uarch.cortexA55)] ++
    match a with
    | .arm => armParts32 ++ armParts ++ armFamilies32
    | .arm64 => armParts ++ armParts64
  | 0x42 => broadcomParts a
  | 0x43 => match a with | .arm64 => caviumParts | .arm => []
  | 0x48 => huaweiParts a
  | 0x69 => match a with | .arm => intelFamilies | .arm64 => []
  | 0x4E => nvidiaParts
  | 0x50 => apmParts
  | 0x51 => qualcommParts a f
  | 0x53 => samsungCores
  | 0x56 => match a with | .arm => marvellParts | .arm64 => []
  | _ => []

/-- Implementers that a build does not look at. -/
def foreign (a : Arch) : List Nat := match a with | .arm => [0x43] | .arm64 => [0x69, 0x56]

def defaultVendor (a : Arch) (impl : Nat) : Nat :=
  if impl ∈ foreign a then 0 else implementerVendor impl

theorem getImplementer_eq (midr : Nat) : getImplementer midr = midr / 16777216 % 256 :=
  read_bits midr 24 8

theorem getPart_eq (midr : Nat) : getPart midr = midr / 16 % 4096 := read_bits midr 4 12

theorem variant_eq (midr : Nat) : midr &&& variantMask = midr / 1048576 % 16 * 1048576 :=
  keep_bits midr 20 4

theorem implementerVendor_other {n : Nat} (h1 : n ≠ 0x41) (h2 : n ≠ 0x42) (h3 : n ≠ 0x43) (h4 : n ≠ 0x48)
    (h5 : n ≠ 0x69) (h6 : n ≠ 0x4E) (h7 : n ≠ 0x50) (h8 : n ≠ 0x51) (h9 : n ≠ 0x53) (h10 : n ≠ 0x56) :
    implementerVendor n = 0 := by
  unfold implementerVendor
  simp only [List.lookup_cons, List.lookup_nil, beq_false_of_ne h1, beq_false_of_ne h2,
    beq_false_of_ne h3, beq_false_of_ne h4, beq_false_of_ne h5, beq_false_of_ne h6, beq_false_of_ne h7,
    beq_false_of_ne h8, beq_false_of_ne h9, beq_false_of_ne h10, Option.getD_none]

/-- Either the vendor of the implementer and nothing else, or an entry of its table; the key is the
part, the part's upper digit (old ARM cores, XScale) or variant and part in place (Samsung). -/
theorem decode_key (a : Arch) (midr : Nat) (f : Bool) :
    decode a midr f = (defaultVendor a (getImplementer midr), Uarch.unknown) ∨
    ∃ key, ((getImplementer midr ≠ 0x53 ∧ key = getPart midr) ∨
        (key = getPart midr >>> 8 ∧ (key, decode a midr f) ∈ armFamilies32 ++ intelFamilies) ∨
        (getImplementer midr = 0x53 ∧ key = midr &&& (variantMask ||| partMask))) ∧
      (key, decode a midr f) ∈ entries a f (getImplementer midr) := by
  unfold decode
  split
  · rename_i h
    unfold decodeArm
    rw [h]
    split
    · right
      refine ⟨getPart midr, .inl ⟨by decide, rfl⟩, ?_⟩
      rename_i hp
      rw [hp]
      split
      · exact List.mem_append_left _ (by decide)
      · exact List.mem_append_left _ (by decide)
    · cases a with
      | arm =>
        dsimp only
        split
        · rename_i r hr
          exact .inr ⟨_, .inl ⟨by decide, rfl⟩, List.mem_append_right _ (List.mem_append_left _ (lookup_mem hr))⟩
        · rcases select_mem (rfl : select armFamilies32 Vendor.arm (getPart midr >>> 8) = _) with e | e
          · rw [e]; exact .inl rfl
          · exact .inr ⟨_, .inr (.inl ⟨rfl, List.mem_append_left _ e⟩), List.mem_append_right _ (List.mem_append_right _ e)⟩
      | arm64 =>
        dsimp only
        rcases select_mem (rfl : select (armParts ++ armParts64) Vendor.arm (getPart midr) = _) with e | e
        · rw [e]; exact .inl rfl
        · exact .inr ⟨_, .inl ⟨by decide, rfl⟩, List.mem_append_right _ e⟩
  · rename_i h
    rw [h]
    rcases select_mem (rfl : select (broadcomParts a) Vendor.broadcom (getPart midr) = _) with e | e
    · rw [e]; left; cases a <;> rfl
    · exact .inr ⟨_, .inl ⟨by decide, rfl⟩, e⟩
  · rename_i h
    rw [h]
    cases a with
    | arm => exact .inl rfl
    | arm64 =>
      rcases select_mem (rfl : select caviumParts Vendor.cavium (getPart midr) = _) with e | e
      · left; exact e
      · exact .inr ⟨_, .inl ⟨by decide, rfl⟩, e⟩
  · rename_i h
    rw [h]
    rcases select_mem (rfl : select (huaweiParts a) Vendor.huawei (getPart midr) = _) with e | e
    · rw [e]; left; cases a <;> rfl
    · exact .inr ⟨_, .inl ⟨by decide, rfl⟩, e⟩
  · rename_i h
    rw [h]
    cases a with
    | arm64 => exact .inl rfl
    | arm =>
      rcases select_mem (rfl : select intelFamilies Vendor.intel (getPart midr >>> 8) = _) with e | e
      · left; exact e
      · exact .inr ⟨_, .inr (.inl ⟨rfl, List.mem_append_right _ e⟩), e⟩
  · rename_i h
    rw [h]
    rcases select_mem (rfl : select nvidiaParts Vendor.nvidia (getPart midr) = _) with e | e
    · rw [e]; left; cases a <;> rfl
    · exact .inr ⟨_, .inl ⟨by decide, rfl⟩, e⟩
  · rename_i h
    rw [h]
    rcases select_mem (rfl : select apmParts Vendor.apm (getPart midr) = _) with e | e
    · rw [e]; left; cases a <;> rfl
    · exact .inr ⟨_, .inl ⟨by decide, rfl⟩, e⟩
  · rename_i h
    rw [h]
    rcases select_mem (rfl : select (qualcommParts a f) Vendor.qualcomm (getPart midr) = _) with e | e
    · rw [e]; left; cases a <;> rfl
    · exact .inr ⟨_, .inl ⟨by decide, rfl⟩, e⟩
  · rename_i h
    rw [h]
    rcases select_mem (rfl : select samsungCores Vendor.samsung
      (midr &&& (variantMask ||| partMask)) = _) with e | e
    · rw [e]; left; cases a <;> rfl
    · exact .inr ⟨_, .inr (.inr ⟨rfl, rfl⟩), e⟩
  · rename_i h
    rw [h]
    cases a with
    | arm64 => exact .inl rfl
    | arm =>
      rcases select_mem (rfl : select marvellParts Vendor.marvell (getPart midr) = _) with e | e
      · left; exact e
      · exact .inr ⟨_, .inl ⟨by decide, rfl⟩, e⟩
  · left
    rename_i h1 h2 h3 h4 h5 h6 h7 h8 h9 h10
    have e := implementerVendor_other h1 h2 h3 h4 h5 h6 h7 h8 h9 h10
    unfold defaultVendor
    split
    · rfl
    · rw [e]; rfl

/-- The key is one of three. -/
theorem decode_entry (a : Arch) (midr : Nat) (f : Bool) :
    decode a midr f = (defaultVendor a (getImplementer midr), Uarch.unknown) ∨
    ∃ key, (key = getPart midr ∨ key = getPart midr >>> 8 ∨ key = midr &&& (variantMask ||| partMask)) ∧
      (key, decode a midr f) ∈ entries a f (getImplementer midr) := by
  rcases decode_key a midr f with h | ⟨key, hk, h⟩
  · exact .inl h
  · refine .inr ⟨key, ?_, h⟩
    rcases hk with ⟨_, h⟩ | ⟨h, _⟩ | ⟨_, h⟩
    · exact .inl h
    · exact .inr (.inl h)
    · exact .inr (.inr h)

/-- What holds of all entries for all implementers. -/
theorem entries_all {P : Nat → Nat × Nat × Nat → Bool}
    (h : ∀ i ∈ [0x41, 0x42, 0x43, 0x48, 0x69, 0x4E, 0x50, 0x51, 0x53, 0x56], ∀ a ∈ [Arch.arm, .arm64],
      ∀ f ∈ [true, false], ∀ e ∈ entries a f i, P i e = true)
    {a : Arch} {f : Bool} {impl : Nat} {e : Nat × Nat × Nat} (he : e ∈ entries a f impl) :
    P impl e = true := by
  have ha : a ∈ [Arch.arm, .arm64] := by cases a <;> decide
  have hf : f ∈ [true, false] := by cases f <;> decide
  refine h impl ?_ a ha f hf e he
  unfold entries at he
  split at he
  all_goals first
    | decide
    | cases he

/-- Only Intel's parts are XScale cores. -/
theorem xscale_part {a : Arch} {midr : Nat} {f : Bool} (h : (decode a midr f).2 = Uarch.xscale) :
    XscaleParts midr := by
  by_cases hi : getImplementer midr = 0x69
  · unfold decode at h
    rw [hi] at h
    cases a with
    | arm64 => cases h
    | arm =>
      dsimp only at h
      rcases select_mem (rfl : select intelFamilies Vendor.intel (getPart midr >>> 8) = _) with e | e
      · rw [e] at h; cases h
      · have : ∀ x ∈ intelFamilies, x.1 = 2 ∨ x.1 = 4 ∨ x.1 = 6 := by decide
        exact this _ e
  · rcases decode_entry a midr f with e | ⟨key, -, e⟩
    · rw [e] at h; cases h
    · have := entries_all (P := fun i e => decide (e.2.2 = Uarch.xscale → i = 0x69))
        (by decide +kernel) e
      exact absurd (of_decide_eq_true this h) hi

end Verif.ArmUarch
