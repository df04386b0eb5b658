import Verif.Proof.ChipsetName

/-!
# Chipset detection on Linux
-/

set_option autoImplicit false

namespace Verif.ArmChipset
open Spec.Chipsets

theorem textIn_bytes {n : Nat} {s : Bytes} (h : IsBytes s) : IsBytes (textIn n s) := fun c hc =>
  h c (List.mem_of_mem_take ((List.takeWhile_sublist _).subset hc))

theorem textIn_noZero (n : Nat) (s : Bytes) : NoZero (textIn n s) := fun c hc => by
  have := mem_takeWhile hc
  simpa using this

/-- Broadcom chipsets of the Hardware string have no suffix. -/
theorem broadcom_plain {arm32 : Bool} {cores freq : Nat} {s : Bytes} {c : Chipset}
    (h : Decodes (hardwarePatterns arm32 cores freq) s c) (hv : c.vendor = .broadcom) :
    c.series = .broadcomBcm ∧ HasSuffix c [] := by
  have first : ∀ (ps : List Pattern) (s : Bytes) (c : Chipset), First ps s c →
      ∃ P ∈ ps, P s c := by
    intro ps
    induction ps with
    | nil => intro s c h; exact h.elim
    | cons P ps ih =>
      rintro s c (h | h)
      · exact ⟨P, by simp, h⟩
      · obtain ⟨Q, hQ, h'⟩ := ih s c h.2
        exact ⟨Q, by simp [hQ], h'⟩
  rcases h with h | ⟨_, rfl⟩
  rotate_left
  · exact absurd hv (by decide)
  obtain ⟨P, hP, h⟩ := first _ _ _ h
  simp only [hardwarePatterns, List.mem_append] at hP
  rcases hP with (((((hP | hP) | hP) | hP) | hP) | hP) | hP <;> (try replace hP := on32_mem hP) <;>
    simp only [List.mem_cons, List.not_mem_nil, or_false] at hP
  · rcases hP with rfl | rfl | rfl
    · obtain ⟨i, _, h, _⟩ := h
      obtain ⟨Q, hQ, h⟩ := first _ _ _ h
      simp only [wordPatterns, List.mem_cons, List.not_mem_nil, or_false] at hQ
      rcases hQ with rfl | rfl | rfl | rfl | rfl | rfl
      · obtain ⟨_, _, _, _, _, _, _, _, _, _, rfl⟩ := h; cases hv
      · obtain ⟨_, _, _, _, rfl⟩ := h; cases hv
      · obtain ⟨_, _, _, _, rfl⟩ := h; cases hv
      · obtain ⟨_, _, _, _, _, _, _, _, _, _, _, rfl⟩ := h; cases hv
      · obtain ⟨_, _, _, _, _, _, _, _, rfl⟩ := h; cases hv
      · obtain ⟨_, _, _, _, _, _, _, _, _, rfl⟩ := h; cases hv
    · obtain ⟨_, _, _, _, _, _, _, _, _, _, _, rfl⟩ := h; cases hv
    · obtain ⟨_, _, _, _, _, _, rfl⟩ := h; cases hv
  · subst hP; obtain ⟨_, _, _, _, _, _, rfl⟩ := h; cases hv
  · rcases hP with rfl | rfl | rfl
    · rcases h with ⟨_, _, ⟨_, _, _, rfl⟩ | ⟨_, _, _, _, _, _, rfl⟩⟩ <;> cases hv
    · obtain ⟨_, _, _, _, rfl⟩ := h; cases hv
    · obtain ⟨_, _, _, _, rfl⟩ := h; cases hv
  · subst hP
    rcases h with ⟨_, rfl⟩ | ⟨_, _, _, _, rfl⟩ <;> cases hv
  · rcases hP with rfl | rfl
    · rcases h with ⟨_, _, _, _, _, ⟨_, _, _, _, _, rfl⟩ | ⟨_, rfl⟩⟩ <;> cases hv
    · obtain ⟨_, _, _, _, rfl⟩ := h; exact ⟨rfl, rfl⟩
  · rcases hP with rfl | rfl
    · obtain ⟨_, _, _, _, rfl⟩ := h; cases hv
    · obtain ⟨_, rfl⟩ := h; cases hv
  · rcases hP with rfl | rfl
    · obtain ⟨_, _, _, _, rfl⟩ := h; cases hv
    · obtain ⟨e, he, _, _, rfl⟩ := h
      have : ∀ e ∈ hardwareEntries, seriesVendor e.series ≠ .broadcom := by decide +kernel
      exact absurd hv (this e he)

/-- What the corrections for the Raspberry Pi do to a chipset without suffix. -/
theorem raspberry_eq {arm32 : Bool} {c : Chipset} {rev : Bytes} (hc : HasSuffix c []) :
    ∃ m, fixupRaspberryPi arm32 c rev = .yes { c with model := m } ∧
      (m = c.model ∨ m = 2835 ∨ m = 2836 ∨ m = 2837 ∨ m = 2711) := by
  unfold fixupRaspberryPi
  split
  · split
    · exact ⟨2835, rfl, by simp⟩
    · exact ⟨c.model, rfl, by simp⟩
  · split
    · rename_i h
      have hlt : rev.length - 4 < rev.length := by omega
      have hb : byteAt rev (rev.length - 4) = .yes rev[rev.length - 4] :=
        byteAt_yes.mpr (List.getElem?_eq_getElem hlt)
      rw [hb, yes_bind]
      split
      · rename_i h0
        refine ⟨revisionModel rev[rev.length - 4], ?_, ?_⟩
        · have : c.suffix.set 0 0 = c.suffix := by
            rw [show c.suffix = padded [] from hc]; rfl
          rw [this]; rfl
        · unfold revisionModel at h0 ⊢
          repeat (first | omega | split | split at h0)
      · exact ⟨c.model, rfl, by simp⟩
    · exact ⟨c.model, rfl, by simp⟩

theorem orUnknown_not_no (m : Match Chipset) : orUnknown m ≠ .no := by
  cases m <;> simp [orUnknown]

theorem hardware_not_no (arm32 : Bool) (s : Bytes) (cores freq : Nat) (tegra : Bool) :
    decodeHardware arm32 s cores freq tegra ≠ .no := by
  unfold decodeHardware
  split <;> exact orUnknown_not_no _

/-- On Linux, detection always ends with a well-formed chipset. -/
theorem linux_yes {arm32 : Bool} {hw rev : Bytes} {cores freq : Nat} (hb : IsBytes hw) :
    ∃ c r, Decodes (hardwarePatterns arm32 cores freq) (textIn 64 hw) c ∧
      decodeLinux arm32 hw rev cores freq = .yes r ∧ Valid r ∧ r.vendor = c.vendor ∧
      (c.vendor = .unknown → r = c) ∧
      (c.vendor = .broadcom → HasSuffix c [] ∧ fixupRaspberryPi arm32 c (textIn 9 rev) = .yes r) ∧
      (c.vendor ≠ .unknown → c.vendor ≠ .broadcom → Corrected arm32 cores freq c r) := by
  obtain ⟨hs, hi⟩ := hardware_decodes (arm32 := arm32) (cores := cores) (freq := freq)
    (textIn_bytes (n := 64) hb)
  unfold decodeLinux
  cases hd : decodeHardware arm32 (textIn 64 hw) cores freq false with
  | outside => exact absurd hd hs
  | no =>
    exact absurd hd (hardware_not_no _ _ _ _ _)
  | yes c =>
    have hdec := (hi c).mp hd
    have hv := hardware_valid arm32 cores freq _ _ hdec
    rw [yes_bind]
    by_cases h1 : c.vendor = .unknown
    · rw [if_pos h1]
      exact ⟨c, c, hdec, rfl, hv, rfl, fun _ => rfl, fun h => absurd (h1.symm.trans h) (by decide),
        fun h => absurd h1 h⟩
    · rw [if_neg h1]
      by_cases h2 : c.vendor = .broadcom
      · rw [if_pos h2]
        obtain ⟨hser, hp⟩ := broadcom_plain hdec h2
        obtain ⟨m, hm, hmv⟩ := raspberry_eq (arm32 := arm32) (rev := textIn 9 rev) hp
        refine ⟨c, _, hdec, hm, ?_, rfl, fun h => absurd h h1, fun _ => ⟨hp, hm⟩,
          fun _ h => absurd h2 h⟩
        rcases hv with rfl | ⟨h3, h4, h5, h6⟩
        · exact absurd rfl h1
        · refine .inr ⟨h3, h4, ?_, h6⟩
          simp only
          omega
      · rw [if_neg h2]
        obtain ⟨t, ht, hc⟩ := valid_suffix hv
        obtain ⟨r, hr, hcor⟩ := fixup_corrected (arm32 := arm32) (cores := cores) (freq := freq) ht hc
        obtain ⟨r', hr', hv', hven, _⟩ := fixup_valid (arm32 := arm32) (cores := cores)
          (freq := freq) hv
        have : r' = r := by rw [hr] at hr'; injection hr' with h; exact h.symm
        subst this
        exact ⟨c, r', hdec, hr, hv', hven, fun h => absurd h h1, fun h => absurd h h2,
          fun _ _ => hcor⟩

end Verif.ArmChipset
