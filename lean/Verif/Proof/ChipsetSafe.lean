import Verif.Proof.ChipsetBasics

/-!
# No signature check reads outside its string
-/

set_option autoImplicit false

namespace Verif.ArmChipset

theorem msmApq_safe (s : Bytes) : Safe (matchMsmApq s) := by
  unfold matchMsmApq
  repeat' safe_step
  all_goals
    rename_i h1
    simp only [h1, ne_eq, not_true_eq_false, false_or, if_true] at *
    safe_step

theorem sdm_safe (s : Bytes) : Safe (matchSdm s) := by unfold matchSdm; repeat' safe_step

theorem sm_safe (s : Bytes) : Safe (matchSm s) := by unfold matchSm; repeat' safe_step

theorem samsungExynos_safe (s : Bytes) : Safe (matchSamsungExynos s) := by
  unfold matchSamsungExynos; repeat' safe_step

theorem exynos_safe (s : Bytes) : Safe (matchExynos s) := by unfold matchExynos; repeat' safe_step

theorem universal_safe (s : Bytes) : Safe (matchUniversal s) := by
  unfold matchUniversal; repeat' safe_step

theorem smdk_safe (s : Bytes) (cores : Nat) : Safe (matchSmdk s cores) := by
  unfold matchSmdk; repeat' safe_step

theorem mt_safe (s : Bytes) (e : Bool) : Safe (matchMt s e) := by
  unfold matchMt
  repeat' safe_step
  all_goals
    rename_i h1
    simp only [h1, ne_eq, not_true_eq_false, false_or, if_true] at *
    safe_step

theorem kirin_safe (s : Bytes) : Safe (matchKirin s) := by unfold matchKirin; repeat' safe_step

theorem rk_safe (s : Bytes) : Safe (matchRk s) := by
  unfold matchRk suffixLetter; repeat' safe_step

theorem sc_safe (s : Bytes) : Safe (matchSc s) := by unfold matchSc; repeat' safe_step

theorem t_safe (s : Bytes) : Safe (matchT s) := by unfold matchT; repeat' safe_step

theorem ums_safe (s : Bytes) : Safe (matchUms s) := by unfold matchUms; repeat' safe_step

theorem lc_safe (s : Bytes) : Safe (matchLc s) := by unfold matchLc lcLetter; repeat' safe_step

theorem pxa_safe (s : Bytes) : Safe (matchPxa s) := by unfold matchPxa pxaModel; repeat' safe_step

theorem bcm_safe (s : Bytes) : Safe (matchBcm s) := by unfold matchBcm; repeat' safe_step

theorem omap_safe (s : Bytes) : Safe (matchOmap s) := by unfold matchOmap; repeat' safe_step

theorem broadcom_safe (s : Bytes) (cores freq : Nat) : Safe (matchBroadcom s cores freq) := by
  unfold matchBroadcom broadcomModel; repeat' safe_step

theorem sunxiNumber_pos {s : Bytes} {r : Nat × Nat} (hs : 5 ≤ s.length)
    (h : sunxiNumber s = .yes r) : r.2 < s.length := by
  unfold sunxiNumber at h
  obtain ⟨c3, _, h⟩ := bind_yes.mp h
  obtain ⟨_, _, h⟩ := bind_yes.mp h
  obtain ⟨c4, _, h⟩ := bind_yes.mp h
  split at h
  · obtain ⟨_, hn, h⟩ := bind_yes.mp h
    rw [need_yes, bne_iff_ne] at hn
    rw [← pure_yes.mp h]
    change 5 < _
    omega
  · rw [← pure_yes.mp h]
    change 4 < _
    omega

theorem sunxi_safe (arm32 : Bool) (s : Bytes) (cores : Nat) : Safe (matchSunxi arm32 s cores) := by
  unfold matchSunxi
  repeat' safe_step
  · rename_i h1
    exact safe_byteAt (sunxiNumber_pos (by omega) h1)
  · unfold sunxiNumber; repeat' safe_step

theorem wmt_safe (s : Bytes) (cores freq : Nat) : Safe (matchWmt s cores freq) := by
  unfold matchWmt; repeat' safe_step

theorem huawei_safe (s : Bytes) : Safe (matchHuawei s) := by
  unfold matchHuawei huaweiRest; repeat' safe_step

theorem tcc_safe (s : Bytes) : Safe (matchTcc s) := by unfold matchTcc; repeat' safe_step

theorem tegra_safe (s : Bytes) : Safe (isTegra s) := by unfold isTegra; repeat' safe_step

end Verif.ArmChipset
