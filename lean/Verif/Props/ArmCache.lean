import Verif.Proof.ArmSizes
import Verif.Proof.ArmCoreType
import Verif.Props.ArmInit

/-!
# C44, C104, C105: caches and microarchitectures of ARM cores

The theorems about `ArmCache.decode` and `ArmUarch.decode` are for all arguments; those about
`linuxInit` are for the whole of ARM/Linux detection with these decoders and any chipset decoder.
-/

set_option autoImplicit false

namespace Verif.Props
open Spec ArmMidr ArmCpuinfo ArmClusters ArmInit ArmChipset Runs
open X86Init (bitmaskAll Cache)
open ArmCache (Target decoders)

/-! ## C105 -/

/-- **C105 (vendor).** A known microarchitecture comes with the vendor whose core type it is. -/
theorem C105_vendor_of_uarch (a : Arch) (midr : Nat) (vfpv4 : Bool)
    (h : (ArmUarch.decode a midr vfpv4).2 ≠ 0) :
    uarchVendor (ArmUarch.decode a midr vfpv4).2 = some (ArmUarch.decode a midr vfpv4).1 := by
  rcases ArmUarch.decode_entry a midr vfpv4 with e | ⟨key, -, e⟩
  · rw [e] at h
    exact absurd rfl h
  · have := ArmUarch.entries_all (P := fun _ e => decide (uarchVendor e.2.2 = some e.2.1))
      (by decide +kernel) e
    exact of_decide_eq_true this

/-- **C105 (implementer).** The vendor is that of the implementer, except that Qualcomm and Huawei
also make cores that ARM designed, and Broadcom's part 0x516 is Cavium's ThunderX2.  Without known
microarchitecture it is that of the implementer, except that 32-bit builds do not look at Cavium and
64-bit builds not at Intel and Marvell; all others have no vendor. -/
theorem C105_vendor_of_implementer (a : Arch) (m : Midr) (hm : m.Ok) (vfpv4 : Bool) :
    let r := ArmUarch.decode a m.word vfpv4
    (r.2 ≠ 0 → r.1 = implementerVendor m.implementer ∨
      (m.implementer = 0x48 ∨ m.implementer = 0x51) ∧ r.1 = 3 ∨
      m.implementer = 0x42 ∧ m.part = 0x516 ∧ a = .arm64 ∧ r.1 = 12) ∧
    (r.2 = 0 → r.1 =
      if (a = .arm ∧ m.implementer = 0x43) ∨
         (a = .arm64 ∧ (m.implementer = 0x69 ∨ m.implementer = 0x56)) then 0
      else implementerVendor m.implementer) := by
  have hi : getImplementer m.word = m.implementer := getImplementer_word hm
  have hp : getPart m.word = m.part := getPart_word hm
  rcases ArmUarch.decode_entry a m.word vfpv4 with e | ⟨key, hk, e⟩
  · rw [e, hi]
    refine ⟨fun h => absurd rfl h, fun _ => ?_⟩
    show ArmUarch.defaultVendor a m.implementer = _
    unfold ArmUarch.defaultVendor ArmUarch.foreign
    cases a <;> simp
  · rw [hi] at e
    rw [hp] at hk
    have g := ArmUarch.entries_all (P := fun i e => decide (e.2.2 ≠ 0 ∧
      (e.2.1 = implementerVendor i ∨ (i = 0x48 ∨ i = 0x51) ∧ e.2.1 = 3 ∨
        i = 0x42 ∧ e.1 = 0x516 ∧ e.2.1 = 12))) (by decide +kernel) e
    obtain ⟨hu, h1⟩ := of_decide_eq_true g
    clear g
    dsimp only at hu h1
    refine ⟨fun _ => ?_, fun h0 => absurd h0 hu⟩
    rcases h1 with h1 | h1 | ⟨h1, h2, h3⟩
    · exact .inl h1
    · exact .inr (.inl h1)
    · right; right
      subst h2
      have ha : a = .arm64 := by
        cases a with
        | arm64 => rfl
        | arm =>
          rw [h1] at e
          have : ∀ x ∈ ArmUarch.entries .arm vfpv4 0x42, x.1 ≠ 0x516 := by
            cases vfpv4 <;> decide
          exact absurd rfl (this _ e)
      refine ⟨h1, ?_, ha, h3⟩
      rcases hk with hk | hk | hk
      · exact hk.symm
      · have := hm.2.2.2.1
        rw [Nat.shiftRight_eq_div_pow] at hk
        omega
      · unfold ArmUarch.decode at h3
        rw [hi, h1] at h3
        rcases ArmCache.select_mem (rfl : ArmUarch.select (ArmUarch.broadcomParts a) ArmUarch.Vendor.broadcom
          (getPart m.word) = _) with e' | e'
        · rw [e'] at h3; cases h3
        · rw [hp] at e' h3
          have : ∀ x ∈ ArmUarch.broadcomParts a, x.2.1 = 12 → x.1 = 0x516 := by
            cases a <;> decide
          exact this _ e' h3

/-- **C105 (fields).** Architecture and revision of the register do not matter; the variant matters
only for ARM's part 0xD05 (Cortex-A55, where it is 0 or not) and for Samsung. -/
theorem C105_fields (a : Arch) (m m' : Midr) (hm : m.Ok) (hm' : m'.Ok) (vfpv4 : Bool)
    (h1 : m.implementer = m'.implementer) (h2 : m.part = m'.part)
    (h3 : m.implementer = 0x53 → m.variant = m'.variant)
    (h4 : m.implementer = 0x41 → m.part = 0xD05 → (m.variant = 0 ↔ m'.variant = 0)) :
    ArmUarch.decode a m.word vfpv4 = ArmUarch.decode a m'.word vfpv4 := by
  have hi := getImplementer_word hm
  have hi' := getImplementer_word hm'
  have hp : getPart m.word = getPart m'.word := by rw [getPart_word hm, getPart_word hm', h2]
  have hv := and_variantMask hm
  have hv' := and_variantMask hm'
  have hq := and_partMask hm
  have hq' := and_partMask hm'
  have hs : m.implementer = 0x53 → m.word &&& (variantMask ||| partMask) =
      m'.word &&& (variantMask ||| partMask) := fun h => by
    rw [Nat.and_or_distrib_left, Nat.and_or_distrib_left, hv, hv', hq, hq', h3 h, h2]
  unfold ArmUarch.decode
  rw [hi, hi', ← h1]
  split
  · rename_i h41
    unfold ArmUarch.decodeArm
    rw [hp, hv, hv']
    split
    · rename_i h05
      rw [getPart_word hm', ← h2] at h05
      have := h4 h41 h05
      by_cases h0 : m.variant = 0
      · rw [h0, this.mp h0]
      · have h0' := mt this.mpr h0
        rw [if_neg (show ¬ m.variant * 1048576 = 0 by omega),
          if_neg (show ¬ m'.variant * 1048576 = 0 by omega)]
    · rfl
  · rw [hp]
  · cases a <;> dsimp only <;> rw [hp]
  · rw [hp]
  · cases a <;> dsimp only <;> rw [hp]
  · rw [hp]
  · rw [hp]
  · rw [hp]
  · rename_i h53
    rw [hs h53]
  · cases a <;> dsimp only <;> rw [hp]
  · rfl

/-- **C105 (builds).** If the 32-bit and the 64-bit build both know the core, they agree on it. -/
theorem C105_builds_agree (midr : Nat) (vfpv4 vfpv4' : Bool)
    (h1 : (ArmUarch.decode .arm midr vfpv4).2 ≠ 0) (h2 : (ArmUarch.decode .arm64 midr vfpv4').2 ≠ 0) :
    ArmUarch.decode .arm midr vfpv4 = ArmUarch.decode .arm64 midr vfpv4' := by
  unfold ArmUarch.decode at *
  split at h1
  · rename_i hi
    simp only [hi] at h2 ⊢
    unfold ArmUarch.decodeArm at *
    by_cases h5 : getPart midr = 0xD05
    · rw [if_pos h5, if_pos h5]
    · rw [if_neg h5] at h1 h2 ⊢
      rw [if_neg h5]
      dsimp only at *
      rcases ArmCache.select_mem (rfl : ArmUarch.select (ArmUarch.armParts ++ ArmUarch.armParts64)
        ArmUarch.Vendor.arm (getPart midr) = _) with e | e
      · rw [e] at h2; exact absurd rfl h2
      · split
        · rename_i r hr
          have := ArmCache.lookup_mem hr
          have hall : ∀ x ∈ ArmUarch.armParts32 ++ ArmUarch.armParts,
              ∀ y ∈ ArmUarch.armParts ++ ArmUarch.armParts64, x.1 = y.1 → x.2 = y.2 := by
            decide +kernel
          exact hall _ this _ e rfl
        · rename_i hr
          rw [hr] at h1
          dsimp only at h1
          rcases ArmCache.select_mem (rfl : ArmUarch.select ArmUarch.armFamilies32 ArmUarch.Vendor.arm
            (getPart midr >>> 8) = _) with e' | e'
          · rw [e'] at h1; exact absurd rfl h1
          · have hb : ∀ x ∈ ArmUarch.armFamilies32, x.1 ≤ 11 := by decide
            have hc : ∀ y ∈ ArmUarch.armParts ++ ArmUarch.armParts64, 0xC00 < y.1 := by decide
            have := hb _ e'
            have := hc _ e
            dsimp only at *
            rw [Nat.shiftRight_eq_div_pow] at *
            omega
  · rename_i hi
    simp only [hi] at h2 ⊢
    exact agree_select (by decide) h1 h2
  · exact absurd rfl h1
  · rename_i hi
    simp only [hi] at h2 ⊢
    exact agree_select (by decide) h1 h2
  · rename_i hi
    simp only [hi] at h2
    exact absurd rfl h2
  · rename_i hi
    simp only
  · rename_i hi
    simp only
  · rename_i hi
    simp only [hi] at h2 ⊢
    exact agree_select (by cases vfpv4 <;> cases vfpv4' <;> decide) h1 h2
  · rename_i hi
    simp only
  · rename_i hi
    simp only [hi] at h2
    exact absurd rfl h2
  · exact absurd rfl h1
where
  agree_select {T T' : List (Nat × Nat × Nat)} {v key : Nat}
      (hall : ∀ x ∈ T, ∀ y ∈ T', x.1 = y.1 → x.2 = y.2)
      (h1 : (ArmUarch.select T v key).2 ≠ 0) (h2 : (ArmUarch.select T' v key).2 ≠ 0) :
      ArmUarch.select T v key = ArmUarch.select T' v key := by
    rcases ArmCache.select_mem (rfl : ArmUarch.select T v key = _) with e | e
    · rw [e] at h1; exact absurd rfl h1
    rcases ArmCache.select_mem (rfl : ArmUarch.select T' v key = _) with e' | e'
    · rw [e'] at h2; exact absurd rfl h2
    exact hall _ e _ e' rfl

/-- **C105 (register tests).** The tests of src/arm/midr.h name the core type that is decoded: what
is tested to be a Cortex-A53, say, is decoded as Cortex-A53.  (A Scorpion with VFPv4 is an ARM
Cortex-A5, src/arm/uarch.c:259-270.) -/
theorem C105_register_tests (a : Arch) (midr : Nat) (vfpv4 : Bool) :
    (isCortexA53 midr = true → ArmUarch.decode a midr vfpv4 = (3, 0x00300353)) ∧
    (isQualcommA53Silver midr = true → ArmUarch.decode a midr vfpv4 = (3, 0x00300353)) ∧
    (isQualcommA55Silver midr = true → ArmUarch.decode a midr vfpv4 = (3, 0x00300354)) ∧
    (isKryo280Gold midr = true → ArmUarch.decode a midr vfpv4 = (3, 0x00300373)) ∧
    (isKryoGold midr = true ∨ isKryoSilver midr = true →
      ArmUarch.decode a midr vfpv4 = (4, 0x00400102)) ∧
    (isAmpereAltra midr = true → ArmUarch.decode a midr vfpv4 = (3, 0x00300400)) ∧
    (a = .arm →
      (isArm11 midr = true → ArmUarch.decode a midr vfpv4 = (3, 0x00300102)) ∧
      (isArm1156 midr = true → ArmUarch.decode a midr vfpv4 = (3, 0x00300102)) ∧
      (isCortexA9 midr = true → ArmUarch.decode a midr vfpv4 = (3, 0x00300209)) ∧
      (isKrait midr = true → ArmUarch.decode a midr vfpv4 = (4, 0x00400101)) ∧
      (isScorpion midr = true → vfpv4 = false → ArmUarch.decode a midr vfpv4 = (4, 0x00400100))) := by
  have core : ∀ {mask x : Nat}, mask &&& implementerMask = implementerMask →
      mask &&& partMask = partMask → midr &&& mask = x →
      getImplementer midr = getImplementer x ∧ getPart midr = getPart x := by
    intro mask x h1 h2 h
    subst h
    unfold getImplementer getPart
    rw [Nat.and_assoc, Nat.and_assoc, h1, h2]
    exact ⟨rfl, rfl⟩
  refine ⟨fun h => ?_, fun h => ?_, fun h => ?_, fun h => ?_, fun h => ?_, fun h => ?_, fun ha =>
    ⟨fun h => ?_, fun h => ?_, fun h => ?_, fun h => ?_, fun h hf => ?_⟩⟩
  · obtain ⟨e1, e2⟩ := core (by decide) (by decide) (beq_iff_eq.mp h)
    unfold ArmUarch.decode ArmUarch.decodeArm
    rw [e1, e2]
    cases a <;> rfl
  · obtain ⟨e1, e2⟩ := core (by decide) (by decide) (beq_iff_eq.mp h)
    unfold ArmUarch.decode
    rw [e1, e2]
    cases a <;> rfl
  · obtain ⟨e1, e2⟩ := core (by decide) (by decide) (beq_iff_eq.mp h)
    unfold ArmUarch.decode
    rw [e1, e2]
    cases a <;> rfl
  · obtain ⟨e1, e2⟩ := core (by decide) (by decide) (beq_iff_eq.mp h)
    unfold ArmUarch.decode
    rw [e1, e2]
    cases a <;> rfl
  · rcases h with h | h
    · obtain ⟨e1, e2⟩ := core (by decide) (by decide) (beq_iff_eq.mp h)
      unfold ArmUarch.decode
      rw [e1, e2]
      cases a <;> rfl
    · unfold isKryoSilver at h
      rcases Bool.or_eq_true _ _ ▸ h with h | h
      all_goals
        obtain ⟨e1, e2⟩ := core (by decide) (by decide) (beq_iff_eq.mp h)
        unfold ArmUarch.decode
        rw [e1, e2]
        cases a <;> rfl
  · obtain ⟨e1, e2⟩ := core (by decide) (by decide) (beq_iff_eq.mp h)
    unfold ArmUarch.decode ArmUarch.decodeArm
    rw [e1, e2]
    cases a <;> rfl
  · subst ha
    have h := beq_iff_eq.mp h
    have e1 : midr &&& implementerMask = 0x41000000 := by
      have := congrArg (· &&& implementerMask) h
      rw [Nat.and_assoc] at this
      exact this
    have e2 : midr &&& 0xF000 = 0xB000 := by
      have := congrArg (· &&& 0xF000) h
      rw [Nat.and_assoc] at this
      exact this
    have e3 : midr &&& 0xF000 = midr / 4096 % 16 * 4096 := keep_bits midr 12 4
    have hp : getPart midr >>> 8 = 11 := by
      rw [ArmUarch.getPart_eq, Nat.shiftRight_eq_div_pow]
      omega
    have hi : getImplementer midr = 0x41 := by unfold getImplementer; rw [e1]; rfl
    have hne : getPart midr ≠ 0xD05 := fun hh => by rw [hh] at hp; cases hp
    have hno : (ArmUarch.armParts32 ++ ArmUarch.armParts).lookup (getPart midr) = none := by
      cases hlk : (ArmUarch.armParts32 ++ ArmUarch.armParts).lookup (getPart midr) with
      | none => rfl
      | some r =>
        have hall : ∀ x ∈ ArmUarch.armParts32 ++ ArmUarch.armParts, x.1 >>> 8 ≠ 11 := by decide
        exact absurd hp (hall _ (ArmCache.lookup_mem hlk))
    unfold ArmUarch.decode ArmUarch.decodeArm
    rw [hi]
    dsimp only
    rw [if_neg hne, hno, hp]
    rfl
  · subst ha
    obtain ⟨e1, e2⟩ := core (by decide) (by decide) (beq_iff_eq.mp h)
    unfold ArmUarch.decode ArmUarch.decodeArm
    rw [e1, e2]
    rfl
  · subst ha
    obtain ⟨e1, e2⟩ := core (by decide) (by decide) (beq_iff_eq.mp h)
    unfold ArmUarch.decode ArmUarch.decodeArm
    rw [e1, e2]
    rfl
  · subst ha
    unfold isKrait at h
    rcases Bool.or_eq_true _ _ ▸ h with h | h
    all_goals
      obtain ⟨e1, e2⟩ := core (by decide) (by decide) (beq_iff_eq.mp h)
      unfold ArmUarch.decode
      rw [e1, e2]
      cases vfpv4 <;> rfl
  · subst ha hf
    unfold isScorpion at h
    rcases Bool.or_eq_true _ _ ▸ h with h | h
    all_goals
      obtain ⟨e1, e2⟩ := core (by decide) (by decide) (beq_iff_eq.mp h)
      unfold ArmUarch.decode
      rw [e1, e2]
      rfl

/-- A Snapdragon 845: the big cores are ARM's Cortex-A75, made by Qualcomm. -/
example : (⟨0x51, 7, 15, 0x802, 13⟩ : Midr).Ok ∧ (⟨0x51, 7, 15, 0x802, 13⟩ : Midr).word = 0x517F802D ∧
    ArmUarch.decode .arm64 0x517F802D false = (3, 0x00300375) ∧
    ArmUarch.decode .arm 0x517F802D true = (3, 0x00300375) ∧
    uarchVendor 0x00300375 = some 3 ∧ implementerVendor 0x51 = 4 := by
  refine ⟨⟨by decide, by decide, by decide, by decide, by decide⟩, ?_⟩
  decide +kernel

/-- An unknown core of a known implementer, and one only the 32-bit build knows. -/
example : ArmUarch.decode .arm64 0x410FDFF0 false = (3, 0) ∧
    ArmUarch.decode .arm64 0x69056850 false = (0, 0) ∧
    ArmUarch.decode .arm 0x69056850 false = (1, 0x00100600) := by decide +kernel

/-! ## C44 -/

/-- **C44.** Decoding never divides by zero, and the numbers of every decoded cache fit together:
size = sets × ways × line size without remainder, none of them zero.  There are always L1 caches; an
L3 cache never comes without L2 cache; lines are of 32, 64 or 128 bytes.  This is for every core type,
cluster size, MIDR, chipset, cluster number and architecture version; only for XScale in a build for
ARMv6 or older the part number must be one of an XScale, which `C44_decoded_core` shows. -/
theorem C44_consistent (t : Target) (uarch cores midr : Nat) (chipset : Chipset)
    (clusterId version : Nat)
    (hx : t = .armOld → uarch = ArmUarch.Uarch.xscale →
      getPart midr / 256 = 2 ∨ getPart midr / 256 = 4 ∨ getPart midr / 256 = 6) :
    ∃ c, ArmCache.decode t uarch cores midr chipset clusterId version = some c ∧
      Consistent c.l1i ∧ Consistent c.l1d ∧ (c.l2.size ≠ 0 → Consistent c.l2) ∧
      (c.l3.size ≠ 0 → Consistent c.l3 ∧ c.l2.size ≠ 0) ∧
      c.l1i.lineSize ∈ [32, 64, 128] ∧ c.l1d.lineSize ∈ [32, 64, 128] ∧
      (c.l2.size ≠ 0 → c.l2.lineSize ∈ [32, 64, 128]) ∧
      (c.l3.size ≠ 0 → c.l3.lineSize ∈ [32, 64, 128]) := by
  have hr : ArmCache.Raw (ArmCache.assigned t uarch cores midr chipset clusterId version) := by
    by_cases ht : t = .armOld
    · exact ArmCache.raw_assigned t cores chipset clusterId version fun hu => by
        have := hx ht hu
        unfold ArmCache.XscaleParts
        rw [Nat.shiftRight_eq_div_pow]
        exact this
    · unfold ArmCache.assigned
      cases h : ArmCache.known t uarch cores midr chipset clusterId with
      | none => exact ArmCache.raw_generic _ _
      | some c => exact ArmCache.raw_known' ht h
  obtain ⟨d, hd, c1, c2, c3, c4, s1, s2, s3, s4⟩ := ArmCache.finish_raw hr
  refine ⟨d, hd, c1, c2, c3, c4, ?_, ?_, fun h => ?_, fun h => ?_⟩
  · rw [s1.lineSize]; simpa using hr.l1i.line
  · rw [s2.lineSize]; simpa using hr.l1d.line
  · rw [s3.lineSize]; simpa using (hr.l2 (s3.size ▸ h)).line
  · rw [s4.lineSize]; simpa using (hr.l3 (s4.size ▸ h)).1.line

/-- **C44.** For the core type that is decoded from the same MIDR nothing else is needed. -/
theorem C44_decoded_core (t : Target) (midr : Nat) (vfpv4 : Bool) (cores : Nat) (chipset : Chipset)
    (clusterId version : Nat) :
    ∃ c, ArmCache.decode t (ArmUarch.decode t.arch midr vfpv4).2 cores midr chipset clusterId version =
        some c ∧
      Consistent c.l1i ∧ Consistent c.l1d ∧ (c.l2.size ≠ 0 → Consistent c.l2) ∧
      (c.l3.size ≠ 0 → Consistent c.l3 ∧ c.l2.size ≠ 0) := by
  obtain ⟨c, h1, h2, h3, h4, h5, -⟩ := C44_consistent t (ArmUarch.decode t.arch midr vfpv4).2 cores midr
    chipset clusterId version (fun _ hu => by
      have := ArmUarch.xscale_part hu
      unfold ArmCache.XscaleParts at this
      rw [Nat.shiftRight_eq_div_pow] at this
      exact this)
  exact ⟨c, h1, h2, h3, h4, h5⟩

/-- The Cortex-A57 cores of an example: 48 KB with three ways. -/
example : ArmCache.decode .arm64 ArmUarch.Uarch.cortexA57 4 0x411FD072 ⟨.unknown, .unknown, 0, []⟩ 0 8 =
    some ⟨⟨49152, 3, 256, 1, 64, 0, 0, 0⟩, ⟨32768, 2, 256, 1, 64, 0, 0, 0⟩,
      ⟨2097152, 16, 2048, 1, 64, 2, 0, 0⟩, X86Init.zeroCache⟩ := by decide +kernel

/-- The Cortex-A55 cores of a Kirin 980 have an L3 cache. -/
example : (ArmCache.decode .arm64Android ArmUarch.Uarch.cortexA55 4 0x411FD050
    ⟨.hisilicon, .hisiliconKirin, 980, []⟩ 1 8).map (fun c => (c.l2.size, c.l3.size, c.l3.sets)) =
    some (131072, 4194304, 4096) := by decide +kernel

/-- The hypothesis of `C44_consistent` is needed: with an XScale of another part number, the divisor
is zero. -/
example : ArmCache.decode .armOld ArmUarch.Uarch.xscale 1 0 ⟨.unknown, .unknown, 0, []⟩ 0 5 = none := by
  decide +kernel

/-! ## C104 -/

/-- **C104 (levels).** In clusters of less than 4096 cores, caches further away are not smaller: the
L2 cache holds each of the L1 caches, and the L3 cache holds the L2 cache. -/
theorem C104_hierarchy (t : Target) (uarch cores midr : Nat) (chipset : Chipset)
    (clusterId version : Nat) (h1 : 1 ≤ cores) (h2 : cores < 4096) (c : Caches)
    (h : ArmCache.decode t uarch cores midr chipset clusterId version = some c) :
    (c.l2.size ≠ 0 → c.l1i.size ≤ c.l2.size ∧ c.l1d.size ≤ c.l2.size) ∧
    (c.l3.size ≠ 0 → c.l2.size ≤ c.l3.size) := by
  have hh := ArmCache.hier_assigned t uarch h1 h2 midr chipset clusterId version
  obtain ⟨s1, s2, s3, s4⟩ := ArmCache.finish_sizes
    (show ArmCache.finish (ArmCache.assigned t uarch cores midr chipset clusterId version) = some c from h)
  rw [s1, s2, s3, s4]
  exact ⟨hh.1, hh.2.1⟩

/-- **C104 (fixed bounds, partial).** No decoded cache is larger than the fixed bound of the core
type.  Missing for the full C104: what `BoundApplies` excludes. -/
theorem C104_bound_partial (t : Target) (uarch cores midr : Nat) (chipset : Chipset)
    (clusterId version : Nat) (c : Caches)
    (h : ArmCache.decode t uarch cores midr chipset clusterId version = some c) (n : Nat)
    (hn : ArmCache.maxCacheSize uarch = some n) (hb : BoundApplies t uarch cores) :
    c.l1i.size ≤ n ∧ c.l1d.size ≤ n ∧ c.l2.size ≤ n ∧ c.l3.size ≤ n := by
  obtain ⟨s1, s2, s3, s4⟩ := ArmCache.finish_sizes
    (show ArmCache.finish (ArmCache.assigned t uarch cores midr chipset clusterId version) = some c from h)
  rw [s1, s2, s3, s4]
  exact ArmCache.bounded_assigned hb midr chipset clusterId version n hn

/-- **C104, no more than needed is excluded.** Just outside of `BoundApplies` the bound fails: five
TaiShan v110 or Cortex-A57 cores, nine Cortex-A7 or A15 cores, 17 cores of an unknown type, and
ThunderX have a larger cache than the bound of their type. -/
theorem C104_bound_sharp :
    ∀ x ∈ [(Target.arm64, ArmUarch.Uarch.taishanV110, 5), (.arm64, ArmUarch.Uarch.cortexA57, 5),
        (.armV7, ArmUarch.Uarch.cortexA7, 9), (.armV7, ArmUarch.Uarch.cortexA15, 9),
        (.arm64, ArmUarch.Uarch.unknown, 17), (.arm64, ArmUarch.Uarch.thunderx, 1)],
      ∃ c n, ArmCache.decode x.1 x.2.1 x.2.2 0 ⟨.unknown, .unknown, 0, []⟩ 0 8 = some c ∧
        ArmCache.maxCacheSize x.2.1 = some n ∧ (n < c.l2.size ∨ n < c.l3.size) := by
  intro x hx
  simp only [List.mem_cons, List.not_mem_nil, or_false] at hx
  rcases hx with rfl | rfl | rfl | rfl | rfl | rfl <;>
    exact ⟨_, _, rfl, rfl, by decide +kernel⟩

/-- Four Cortex-A57 cores share 2 MB, exactly the bound. -/
example : BoundApplies .arm64 ArmUarch.Uarch.cortexA57 4 ∧
    ArmCache.maxCacheSize ArmUarch.Uarch.cortexA57 = some 2097152 ∧
    (ArmCache.decode .arm64 ArmUarch.Uarch.cortexA57 4 0x411FD072 ⟨.unknown, .unknown, 0, []⟩ 0 8).map
      (·.l2.size) = some 2097152 := by decide +kernel

/-! ## C44 and C104 for the published tables -/

section Run
variable (e : Env) (hs : SortsProcessors e.config.arch e.sort) (hl : AllListed e) (pub : Published)
  (h : linuxInit e = some (some pub))

include hs hl h

/-- **C88 (L3 links).** Whatever the sizes of the L3 caches: where a processor is linked to an L3
cache, the size is the one decoded for it; the first processor is linked to one if it has one. -/
theorem C88_l3_links (hv : OneVersion e) (i : Nat) (c : Caches) (hc : DecodedCaches e pub i c)
    (p : Processor) (hp : pub.processors[i]? = some p) :
    (∀ g, p.l3 = some g → ∃ x, pub.l3[g]? = some x ∧ x.size = c.l3.size ∧ c.l3.size ≠ 0) ∧
    (i = 0 → c.l3.size ≠ 0 → p.l3 = some 0) := by
  obtain ⟨t, hw, rev, hg, ⟨W⟩⟩ := whole e hs hl pub h
  obtain ⟨hi, rfl⟩ := W.decoded_caches hg hl i c hc
  have h0 : 0 < W.x.N := W.h0
  have hu := W.uniform hg hv
  obtain ⟨-, -, f3⟩ := W.final_of hu hp
  have hn0 : W.x.nw 0 = true := W.nw0
  have hcount := W.x.l3_count h0
  have hfirst : (W.x.c 0).l3.size ≠ 0 → W.x.op3 0 = true ∧ 0 < (W.x.counts W.x.N).l3 := by
    intro h3
    have hop : W.x.op3 0 = true := by simp [Ctx.op3, hn0, h3]
    refine ⟨hop, ?_⟩
    rw [hcount]
    have hop' : W.x.op3' 0 = true := by simp [Ctx.op3', hop]
    exact Nat.lt_of_lt_of_le (by rw [opened_pos hop']; exact Nat.succ_pos _) (opened_mono W.x.op3' h0)
  refine ⟨fun g hgl => ?_, fun hi0 h3 => ?_⟩
  · rw [f3] at hgl
    unfold Ctx.link3 at hgl
    by_cases h3 : (W.x.c i).l3.size ≠ 0
    · rw [if_pos h3] at hgl
      cases hsh : (W.x.counts W.x.N).shared with
      | true =>
        rw [hsh, if_pos rfl] at hgl
        cases hgl
        have hall := (W.x.shared_iff h0 hu).mp hsh
        obtain ⟨hop, hlt⟩ := hfirst (hall 0 h0).1
        exact ⟨_, (W.gc hu).l3 0 h0 hop hlt, (hall i hi).2.symm, h3⟩
      | false =>
        rw [hsh, if_neg (by decide)] at hgl
        have hst := W.start_caches hg hv hi
        have hop : W.x.op3 (st W.nw i) = true := by
          have hn : W.x.nw (st W.nw i) = true := W.start_new i hi
          unfold Ctx.op3
          rw [hn, hst]
          simp [h3]
        have hidx : idx W.x.op3 (i + 1) = opened W.x.op3 (st W.nw i) := W.idx3_start hi hop
        rw [hidx] at hgl
        split at hgl
        · rename_i hlt
          cases hgl
          refine ⟨_, (W.gc hu).l3 (st W.nw i) (W.st_lt hi) hop hlt, ?_, h3⟩
          show (W.x.c (st W.nw i)).l3.size = _
          rw [hst]
        · cases hgl
    · rw [if_neg h3] at hgl
      cases hgl
  · subst hi0
    obtain ⟨hop, hlt⟩ := hfirst h3
    rw [f3]
    unfold Ctx.link3
    rw [if_pos h3]
    have : idx W.x.op3 (0 + 1) = 0 := idx_pos hop
    rw [this, if_pos hlt]
    split <;> rfl

variable (t : Target) (ch : Bytes → Bytes → Nat → Chipset) (hd : e.dec = decoders t ch)
include hd

/-- The core type detection decodes the caches for is the one decoded from the MIDR. -/
theorem decoded_is (i : Nat) (c : Caches) (hc : DecodedCaches e pub i c) (p : Processor)
    (hp : pub.processors[i]? = some p) (o : Core) (ho : pub.cores[p.core]? = some o) (l : Cluster)
    (hlk : pub.clusters[p.cluster]? = some l) :
    ∃ chipset version f, o.uarch = (ArmUarch.decode t.arch o.midr f).2 ∧
      ArmCache.decode t o.uarch l.coreCount o.midr chipset p.cluster version = some c := by
  obtain ⟨tb, hw, rev, p', o', l', q, hg, hp', ho', hlk', hq, hcc⟩ := hc
  rw [hp] at hp'
  cases hp'
  rw [ho] at ho'
  cases ho'
  rw [hlk] at hlk'
  cases hlk'
  obtain ⟨tb', hw', rev', hg', ⟨W⟩⟩ := whole e hs hl pub h
  have hgg : gather e = _ := hg
  have hgg' : gather e = _ := hg'
  rw [hgg] at hgg'
  cases hgg'
  obtain ⟨hi, -, h2, h3, -⟩ := W.processor_of hp
  have hoc : o.cluster = p.cluster := by
    rw [h2] at ho
    obtain ⟨-, rfl⟩ := W.core_of ho
    rw [h3]
    exact W.cl_eq i
  obtain ⟨-, hu, hm⟩ := C86_cluster_is_homogeneous e hs hl pub h p.core o l ho (by rw [hoc]; exact hlk)
  obtain ⟨k, hk, -, hle⟩ := W.cluster_of hlk
  have hstart : l.processorStart = st W.nw k := by rw [hle]
  obtain ⟨f, hf⟩ := W.processor_at (W.st_lt hk)
  obtain ⟨hfi, -, -, -, hfl, -⟩ := W.processor_of hf
  obtain ⟨q', hq', -⟩ := W.origin hfi
  have hv := C86_uarch_from_midr e hs hl pub h tb hw rev hg p.cluster l hlk f (by rw [hstart]; exact hf)
    q' (by rw [hfl]; exact hq')
  rw [hd] at hv hcc
  have hv : (l.vendor, l.uarch) = ArmUarch.decode t.arch l.midr
    (e.config.arch == .arm && q'.features.testBit 16) := hv
  have huu : o.uarch = (ArmUarch.decode t.arch o.midr
      (e.config.arch == .arm && q'.features.testBit 16)).2 := by
    rw [hu, hm, ← hv]
  refine ⟨ch hw rev pub.processorsCount, q.architectureVersion, _, huu, ?_⟩
  rw [hcc]
  dsimp only [decoders]
  obtain ⟨d, hdec, -⟩ := C44_decoded_core t o.midr (e.config.arch == .arm && q'.features.testBit 16)
    l.coreCount (ch hw rev pub.processorsCount) p.cluster q.architectureVersion
  rw [← huu] at hdec
  rw [hdec]
  rfl

/-- All that C44 says about the caches decoded for a processor. -/
private theorem decoded_good (i : Nat) (c : Caches) (hc : DecodedCaches e pub i c) :
    Consistent c.l1i ∧ Consistent c.l1d ∧ (c.l2.size ≠ 0 → Consistent c.l2) ∧
      (c.l3.size ≠ 0 → Consistent c.l3 ∧ c.l2.size ≠ 0) := by
  have hc' := hc
  obtain ⟨tb, hw, rev, p, o, l, q, hg, hp, ho, hlk, hq, -⟩ := hc'
  obtain ⟨chipset, version, f, hu, hdec⟩ := decoded_is e hs hl pub h t ch hd i c hc p hp o ho l hlk
  obtain ⟨d, h1, h2⟩ := C44_decoded_core t o.midr f l.coreCount chipset p.cluster version
  rw [← hu, hdec] at h1
  cases h1
  exact h2

/-- **C44 (published caches).** Every published L2 and L3 cache is consistent, and so are the L1
caches of every processor, unless /proc/cpuinfo of a 32-bit processor gives their numbers (C87). -/
theorem C44_published (hv : OneVersion e) (tb : List Proc) (hw rev : Bytes) (hg : Reads e tb hw rev) :
    (∀ x ∈ pub.l2, Consistent x) ∧ (∀ x ∈ pub.l3, Consistent x) ∧
    ∀ (i : Nat) (p : Processor) (q : Proc), pub.processors[i]? = some p → tb[p.linuxId]? = some q →
      (¬ (e.config.arch = .arm ∧ ∀ k, 24 ≤ k → k ≤ 27 → q.flags.testBit k = true) →
        ∃ x, pub.l1i[p.l1i]? = some x ∧ Consistent x) ∧
      (¬ (e.config.arch = .arm ∧ ∀ k, 28 ≤ k → k ≤ 31 → q.flags.testBit k = true) →
        ∃ x, pub.l1d[p.l1d]? = some x ∧ Consistent x) := by
  obtain ⟨tb', hw', rev', hg', ⟨W⟩⟩ := whole e hs hl pub h
  have hu := W.uniform hg' hv
  have h0 : 0 < W.x.N := W.h0
  have good := fun k hk => decoded_good e hs hl pub h t ch hd k _ (W.decoded_at hg' hl (i := k) hk)
  have entry : ∀ (c : Cache) (a b : Nat), Consistent c → Consistent (cacheEntry c a b) :=
    fun c a b hc => ⟨hc.1, hc.2.1, hc.2.2.1, hc.2.2.2.1, rfl, by
      have := hc.2.2.2.2.2
      rw [hc.2.2.2.2.1] at this
      exact this⟩
  refine ⟨fun x hx => ?_, fun x hx => ?_, fun i p q hp hq => ?_⟩
  · obtain ⟨g, hgx⟩ := List.getElem?_of_mem hx
    obtain ⟨k, hk, ho, -, rfl⟩ := (W.gc hu).l2.full rfl hgx
    refine entry _ _ _ ((good k hk).2.2.1 ?_)
    have ho : ((W.x.c k).l3.size != 0 || (W.x.nw k && (W.x.c k).l2.size != 0)) = true := ho
    rw [Bool.or_eq_true, Bool.and_eq_true, bne_iff_ne, bne_iff_ne] at ho
    rcases ho with ho | ho
    · exact ((good k hk).2.2.2 ho).2
    · exact ho.2
  · obtain ⟨g, hgx⟩ := List.getElem?_of_mem hx
    have hlt : g < opened W.x.op3' W.x.N := by
      rw [← W.x.l3_count h0, ← (W.gc hu).l3Length]
      exact lt_of_get hgx
    have hle : ∀ n, opened W.x.op3' n ≤ opened W.x.op3 n := by
      intro n
      induction n with
      | zero => exact Nat.le_refl _
      | succ n ih =>
        cases hb : W.x.op3' n with
        | false => rw [opened_neg hb]; exact Nat.le_trans ih (opened_mono _ (Nat.le_succ n))
        | true =>
          have : W.x.op3 n = true := by
            unfold Ctx.op3' at hb
            exact (Bool.and_eq_true _ _ ▸ hb).1
          rw [opened_pos hb, opened_pos this]
          omega
    obtain ⟨k, hk, ho, hkg⟩ := opened_surj W.x.op3 W.x.N g (Nat.lt_of_lt_of_le hlt (hle _))
    have he := (W.gc hu).l3 k hk ho (by rw [hkg, W.x.l3_count h0]; exact hlt)
    rw [hkg, hgx] at he
    cases he
    refine entry _ _ _ ((good k hk).2.2.2 ?_).1
    have ho : (W.x.nw k && (W.x.c k).l3.size != 0) = true := ho
    rw [Bool.and_eq_true, bne_iff_ne] at ho
    exact ho.2
  · have hi : i < W.N := (W.processor_of hp).1
    obtain ⟨-, -, -, -, e1, e2, h1, h2⟩ := C87_l1_partial e hs hl pub h tb hw rev hg i _
      (W.decoded_at hg' hl hi) p hp q hq
    rw [e1, e2]
    exact ⟨fun hn => ⟨_, h1 hn, (good i hi).1⟩, fun hn => ⟨_, h2 hn, (good i hi).2.1⟩⟩

/-- **C104 (whole run, partial).** If the first processor's core type has a fixed bound,
`cpuinfo_get_max_cache_size` is that bound, and no cache decoded for a processor of that core type is
larger.  Missing for the full C104: core types and cluster sizes excluded by `BoundApplies`, see
`C104_violated`, and processors of other core types. -/
theorem C104_fixed_bound_partial (p0 : Processor) (hp0 : pub.processors[0]? = some p0) (o0 : Core)
    (ho0 : pub.cores[p0.core]? = some o0) (n : Nat) (hn : ArmCache.maxCacheSize o0.uarch = some n)
    (i : Nat) (c : Caches) (hc : DecodedCaches e pub i c) (p : Processor)
    (hp : pub.processors[i]? = some p) (o : Core) (ho : pub.cores[p.core]? = some o)
    (hsame : o.uarch = o0.uarch) (l : Cluster) (hlk : pub.clusters[p.cluster]? = some l)
    (hb : BoundApplies t o.uarch l.coreCount) :
    pub.maxCacheSize = n ∧ c.l1i.size ≤ n ∧ c.l1d.size ≤ n ∧ c.l2.size ≤ n ∧ c.l3.size ≤ n := by
  obtain ⟨tb, hw, rev, hg, ⟨W⟩⟩ := whole e hs hl pub h
  constructor
  · have hm : maxCacheSize e.dec pub.processors pub.cores pub.l1d pub.l2 pub.l3 = some pub.maxCacheSize :=
      W.g.maxCache
    rw [hd] at hm
    unfold maxCacheSize at hm
    rw [hp0, Option.bind_eq_bind, Option.bind_some, ho0, Option.bind_eq_bind, Option.bind_some] at hm
    have hn' : (decoders t ch).maxCacheSize o0.uarch = some n := hn
    rw [hn'] at hm
    exact (Option.some.inj hm).symm
  · obtain ⟨chipset, version, f, -, hdec⟩ := decoded_is e hs hl pub h t ch hd i c hc p hp o ho l hlk
    exact C104_bound_partial t o.uarch l.coreCount o.midr chipset p.cluster version c hdec n
      (by rw [hsame]; exact hn) hb

/-- **C104 (whole run, detected sizes).** For the other core types `cpuinfo_get_max_cache_size` is the
size of the first processor's last cache level; with an L2 cache, none of its caches is larger. -/
theorem C104_detected (hv : OneVersion e) (p0 : Processor) (hp0 : pub.processors[0]? = some p0)
    (o0 : Core) (ho0 : pub.cores[p0.core]? = some o0) (hn : ArmCache.maxCacheSize o0.uarch = none)
    (l : Cluster) (hlk : pub.clusters[p0.cluster]? = some l) (h1 : 1 ≤ l.coreCount)
    (h2 : l.coreCount < 4096) (c : Caches) (hc : DecodedCaches e pub 0 c) :
    (c.l2.size ≠ 0 → c.l1i.size ≤ pub.maxCacheSize ∧ c.l1d.size ≤ pub.maxCacheSize ∧
      c.l2.size ≤ pub.maxCacheSize ∧ c.l3.size ≤ pub.maxCacheSize) ∧
    (c.l2.size = 0 → ∃ x, pub.l1d[p0.l1d]? = some x ∧ pub.maxCacheSize = x.size) := by
  obtain ⟨tb, hw, rev, hg, ⟨W⟩⟩ := whole e hs hl pub h
  have hm : maxCacheSize e.dec pub.processors pub.cores pub.l1d pub.l2 pub.l3 = some pub.maxCacheSize :=
    W.g.maxCache
  rw [hd] at hm
  unfold maxCacheSize at hm
  rw [hp0, Option.bind_eq_bind, Option.bind_some, ho0, Option.bind_eq_bind, Option.bind_some] at hm
  have hn' : (decoders t ch).maxCacheSize o0.uarch = none := hn
  rw [hn'] at hm
  dsimp only at hm
  simp only [Option.bind_eq_bind, Option.bind_eq_some_iff] at hm
  obtain ⟨s3, hs3, s2, hs2, s1, hs1, hm⟩ := hm
  have hm := Option.some.inj hm
  obtain ⟨chipset, version, f, -, hdec⟩ := decoded_is e hs hl pub h t ch hd 0 c hc p0 hp0 o0 ho0 l hlk
  obtain ⟨hh1, hh2⟩ := C104_hierarchy t o0.uarch l.coreCount o0.midr chipset p0.cluster version h1 h2 c hdec
  obtain ⟨g1, g2⟩ := C88_l3_links e hs hl pub h hv 0 c hc p0 hp0
  obtain ⟨f1, f2, f3⟩ := C88_l2 e hs hl pub h hv 0 c hc p0 hp0 l hlk
  obtain ⟨-, -, -, gd⟩ := decoded_good e hs hl pub h t ch hd 0 c hc
  by_cases h3 : c.l3.size = 0
  · have hnone : p0.l3 = none := by
      cases hl3 : p0.l3 with
      | none => rfl
      | some g => obtain ⟨-, -, -, hne⟩ := g1 g hl3; exact absurd h3 hne
    rw [hnone] at hs3
    cases hs3
    refine ⟨fun hl2 => ?_, fun hl2 => ?_⟩
    · obtain ⟨g, x, e1, e2, e3⟩ := f2 h3 hl2
      have : linkedSize p0.l2 pub.l2 = some (some x.size) := by rw [e1]; simp [linkedSize, e2]
      rw [this] at hs2
      cases hs2
      have hm : x.size = pub.maxCacheSize := hm
      have := hh1 hl2
      rw [← hm, e3.1]
      omega
    · rw [f3 h3 hl2] at hs2
      cases hs2
      have hs1 : (pub.l1d[p0.l1d]?).map (fun c => some c.size) = some s1 := hs1
      obtain ⟨x, hx, rfl⟩ := Option.map_eq_some_iff.mp hs1
      exact ⟨x, hx, hm.symm⟩
  · refine ⟨fun hl2 => ?_, fun hl2 => absurd hl2 (gd h3).2⟩
    obtain ⟨x, e2, e3, -⟩ := g1 0 (g2 rfl h3)
    have : linkedSize p0.l3 pub.l3 = some (some x.size) := by rw [g2 rfl h3]; simp [linkedSize, e2]
    rw [this] at hs3
    cases hs3
    have hm : x.size = pub.maxCacheSize := hm
    have := hh1 hl2
    have := hh2 h3
    rw [← hm, e3]
    omega

end Run

/-! ## Examples -/

def acBlock (n impl part : Bytes) : Bytes :=
  b!"processor\t: " ++ n ++ b!"\nCPU implementer\t: 0x" ++ impl ++ b!"\nCPU architecture: 8\n" ++
    b!"CPU variant\t: 0x1\nCPU part\t: 0x" ++ part ++ b!"\nCPU revision\t: 1\n\n"

def acFile (b : Bytes) : File := (some b, fun _ => some 64)
def acNone : File := (none, fun _ => none)

/-- A 64-bit server with the given processors, all in one cluster. -/
def acServer (cpuinfo last : Bytes) : Env :=
  { config := ⟨.arm64, false⟩
    kernelMax := acFile b!"7\n", possibleMax := acFile (b!"0-" ++ last)
    presentMax := acFile (b!"0-" ++ last)
    possible := acFile (b!"0-" ++ last), present := acFile (b!"0-" ++ last), cpuinfo := acFile cpuinfo
    maxFrequency := fun _ => acNone, minFrequency := fun _ => acNone
    packageId := fun _ => acFile b!"0\n"
    clusterCpus := fun _ => acNone
    coreSiblings := fun _ => acFile (b!"0-" ++ last)
    hardware := List.replicate 64 1, revision := List.replicate 9 2
    junk := ⟨0, 0, 0, 0⟩, junk' := ⟨0, 0, 0, 0⟩
    dec := decoders .arm64 (fun _ _ _ => ⟨.unknown, .unknown, 0, []⟩)
    sort := armSort .arm64, alloc := fun _ => true }

/-- Two cores of a Cavium ThunderX. -/
private def acThunderX : Env :=
  acServer (acBlock b!"0" b!"43" b!"0a1" ++ acBlock b!"1" b!"43" b!"0a1") b!"1\n"

/-- Two Cortex-A72 cores. -/
private def acA72 : Env :=
  acServer (acBlock b!"0" b!"41" b!"d08" ++ acBlock b!"1" b!"41" b!"d08") b!"1\n"

/-- Two Exynos M3 cores. -/
def acM3 : Env :=
  acServer (acBlock b!"0" b!"53" b!"002" ++ acBlock b!"1" b!"53" b!"002") b!"1\n"

def acShown {β : Type} (e : Env) (f : Published → β) : Option β :=
  ((linuxInit e).bind id).map f

theorem ac_shown {β : Type} {e : Env} {f : Published → β} {x : β} (h : acShown e f = some x) :
    ∃ pub, linuxInit e = some (some pub) ∧ f pub = x := by
  unfold acShown at h
  obtain ⟨pub, hp, hx⟩ := Option.map_eq_some_iff.mp h
  obtain ⟨r, hr, hid⟩ := Option.bind_eq_some_iff.mp hp
  cases hid
  exact ⟨pub, hr, hx⟩

def acTable (e : Env) (f : Proc → Bool) : Bool :=
  match gather e with
  | some (some (t, _, _)) => t.all f
  | _ => true

theorem ac_table {e : Env} {f : Proc → Bool} (h : acTable e f = true) (t : List Proc)
    (hw rev : Bytes) (hg : Reads e t hw rev) (p : Proc) (hp : p ∈ t) : f p = true := by
  unfold Reads at hg
  unfold acTable at h
  rw [hg] at h
  exact List.all_eq_true.mp h p hp

theorem ac_listed {e : Env} (h : acTable e (fun p => decide (Usable p → Spec.Listed p)) = true) :
    AllListed e := fun t hw rev hg p hp => of_decide_eq_true (ac_table h t hw rev hg p hp)

theorem ac_version {e : Env} (v : Nat)
    (h : acTable e (fun p => decide (Usable p → p.architectureVersion = v)) = true) : OneVersion e :=
  fun t hw rev hg p hp q hq up uq =>
    (of_decide_eq_true (ac_table h t hw rev hg p hp) up).trans
      (of_decide_eq_true (ac_table h t hw rev hg q hq) uq).symm

/-- **C104 is violated.** On a Cavium ThunderX the published L2 cache is of 16 MB, but
`cpuinfo_get_max_cache_size` returns 4 MB. -/
theorem C104_violated :
    ∃ (e : Env) (pub : Published) (ch : Bytes → Bytes → Nat → Chipset),
      SortsProcessors e.config.arch e.sort ∧ AllListed e ∧ OneVersion e ∧ e.dec = decoders .arm64 ch ∧
      linuxInit e = some (some pub) ∧
      (pub.processors.map (·.l2)) = [some 0, some 0] ∧ pub.l2.map (·.size) = [16777216] ∧
      pub.maxCacheSize = 4194304 := by
  have h : acShown acThunderX (fun pub => (pub.processors.map (·.l2), pub.l2.map (·.size),
      pub.maxCacheSize)) = some ([some 0, some 0], [16777216], 4194304) := by decide +kernel
  obtain ⟨pub, hp, hu⟩ := ac_shown h
  exact ⟨acThunderX, pub, _, armSort_sorts _, ac_listed (by decide +kernel),
    ac_version 8 (by decide +kernel), rfl, hp, congrArg Prod.fst hu, congrArg (·.2.1) hu,
    congrArg (·.2.2) hu⟩

/-- What is published for Cortex-A72 cores, where the fixed bound applies, and for Exynos M3 cores,
where the detected size is used. -/
example :
    AllListed acA72 ∧ OneVersion acA72 ∧ AllListed acM3 ∧ OneVersion acM3 ∧
    acShown acA72 (fun pub => (pub.cores.map (·.uarch), pub.l2.map (·.size), pub.maxCacheSize)) =
      some ([0x00300372, 0x00300372], [1048576], 4194304) ∧
    BoundApplies .arm64 0x00300372 2 ∧
    acShown acM3 (fun pub => (pub.cores.map (·.uarch), pub.l2.map (·.size), pub.l3.map (·.size))) =
      some ([0x00600102, 0x00600102], [524288, 524288], [4194304]) ∧
    acShown acM3 (·.maxCacheSize) = some 4194304 :=
  ⟨ac_listed (by decide +kernel), ac_version 8 (by decide +kernel), ac_listed (by decide +kernel),
    ac_version 8 (by decide +kernel), by decide +kernel, by decide +kernel, by decide +kernel,
    by decide +kernel⟩

end Verif.Props
