import Verif.Proof.ChipsetName
import Verif.Proof.ChipsetLinux
import Verif.Spec.ArmChipsetNames

/-!
# C45–C47, C109–C114, C116, C118: decoding the chipset from strings

The functions are given the buffers that hold the Hardware and Revision strings of /proc/cpuinfo, of 64
and 9 characters; `textIn` is the text in such a buffer.  `.yes r` means: the function ended and
returned `r`; `.outside` means that it read a character after the end of the string.
-/

set_option autoImplicit false

namespace Verif.Props
open ArmChipset Spec.Chipsets

/-- A text in a buffer of `n` characters. -/
def inBuffer (n : Nat) (s : Bytes) : Bytes := s ++ List.replicate (n - s.length) 0

/-! ## C45 -/

/-- **C45.** Whatever the Hardware and Revision strings, the number of cores and the frequency, detection
on Linux returns a chipset, and this chipset is well-formed: wholly unknown, or of a known series that
belongs to its vendor, with a model of at most five digits and a suffix of at most eight capital
letters, minuses and slashes, padded with zeros. -/
theorem C45_valid (arm32 : Bool) (hardware revision : Bytes) (cores freq : Nat)
    (hb : IsBytes hardware) :
    ∃ r, decodeLinux arm32 hardware revision cores freq = .yes r ∧ Valid r := by
  obtain ⟨c, r, _, h, hv, _⟩ := linux_yes (arm32 := arm32) (rev := revision) (cores := cores)
    (freq := freq) hb
  exact ⟨r, h, hv⟩

example : decodeLinux false (inBuffer 64 b!"Qualcomm Technologies, Inc MSM8998") [] 8 0 =
    .yes (chip .qualcomm .qualcommMsm 8998 []) := by decide +kernel

/-! ## C46 -/

/-- **C46 (names).** The name of every well-formed chipset is written without a null pointer, has at most
47 characters, and reads: "Unknown" if nothing is known; vendor, space and series if the model is 0; and
vendor, space, series, the digits of the model and the suffix otherwise. -/
theorem C46_names (c : Chipset) (h : Valid c) :
    ∃ name, ArmChipset.toString c = some name ∧ name.length ≤ 47 ∧
      ((c = .unknown ∧ name = b!"Unknown") ∨
        ∃ series t, seriesString c.series = some series ∧ SuffixText t ∧ HasSuffix c t ∧
          ((c.model = 0 ∧ name = vendorString c.vendor ++ b!" " ++ series) ∨
            (c.model ≠ 0 ∧ ∃ digits, (∀ d ∈ digits, Digit d) ∧ valueOf digits = c.model ∧
              name = vendorString c.vendor ++ b!" " ++ series ++ digits ++ t))) := by
  rcases h with rfl | ⟨h1, _, h3, t, ht, h4⟩
  · exact ⟨_, rfl, by decide, .inl ⟨rfl, rfl⟩⟩
  · obtain ⟨s, hs⟩ := series_some h1
    have l1 := vendor_length c.vendor
    have l2 := series_length hs
    by_cases h0 : c.model = 0
    · refine ⟨_, toString_short hs h0, ?_, .inr ⟨s, t, hs, ht, h4, .inl ⟨h0, rfl⟩⟩⟩
      simp; omega
    · have hu : c.model < U32 := by have : 100000 < U32 := by decide
                                    omega
      refine ⟨_, toString_full hs h0 hu, ?_, .inr ⟨s, t, hs, ht, h4, .inr ⟨h0, decimal c.model,
        decimal_digits _, decimal_value _, ?_⟩⟩⟩
      · have l3 := decimal_length hu
        have l4 := text_length 8 c.suffix
        simp; omega
      · rw [show c.suffix = padded t from h4, suffixText_text ht]

/-- **C46 (lossless).** Two well-formed chipsets of known model with the same name are the same. -/
theorem C46_lossless_partial (c d : Chipset) (hc : Valid c) (hd : Valid d) (c0 : c.model ≠ 0)
    (d0 : d.model ≠ 0) (h : ArmChipset.toString c = ArmChipset.toString d) : c = d :=
  name_inj hc hd c0 d0 h

example : Valid (chip .qualcomm .qualcommMsm 8996 b!"PRO-AC") ∧
    ArmChipset.toString (chip .qualcomm .qualcommMsm 8996 b!"PRO-AC") =
      some b!"Qualcomm MSM8996PRO-AC" :=
  ⟨.inr ⟨by decide, by decide, by decide, b!"PRO-AC", by decide, by decide⟩, by decide +kernel⟩

/-- **C46, violated.** Without a model the suffix is not printed: with six cores MT6752A and MT6752B are
told apart by their suffixes but both named "MediaTek MT". -/
theorem C46_violated : ∃ r s,
    decodeLinux false (inBuffer 64 b!"MT6752A") [] 6 0 = .yes r ∧
    decodeLinux false (inBuffer 64 b!"MT6752B") [] 6 0 = .yes s ∧ r ≠ s ∧
    ArmChipset.toString r = some b!"MediaTek MT" ∧ ArmChipset.toString s = some b!"MediaTek MT" :=
  ⟨chip .mediatek .mediatekMt 0 b!"A", chip .mediatek .mediatekMt 0 b!"B",
    by decide +kernel, by decide +kernel, by decide, by decide +kernel, by decide +kernel⟩

/-! ## C47 -/

/-- **C47, violated.** The suffix of a Leadcore platform is lost: "lc1860c" is not LC1860C. -/
theorem C47_violated : ¬ ∀ (s : Bytes) (c : Chipset), IsBytes s → Lc s c → matchLc s = .yes c := by
  intro h
  have h1 := h b!"lc1860c" (chip .leadcore .leadcoreLc 1860 b!"C")
    (by unfold IsBytes; decide)
    ⟨b!"1860", b!"c", 1860, rfl, ⟨rfl, by unfold Digit; decide, rfl⟩, by decide, by decide, rfl⟩
  exact absurd h1 (by decide +kernel)

/-- **C47, what is left.** The string is recognised exactly as documented, with vendor, series and model;
the letter is accepted and forgotten. -/
theorem C47_partial (s : Bytes) (c : Chipset) (hs : IsBytes s) :
    matchLc s = .yes c ↔ ∃ d, Lc s d ∧ c = { d with suffix := padded [] } := by
  rw [lc_iff hs]
  constructor
  · rintro ⟨d, t, n, h1, h2, h3, h4, rfl⟩
    exact ⟨_, ⟨d, t, n, h1, h2, h3, h4, rfl⟩, rfl⟩
  · rintro ⟨_, ⟨d, t, n, h1, h2, h3, h4, rfl⟩, rfl⟩
    exact ⟨d, t, n, h1, h2, h3, h4, rfl⟩

example : matchLc b!"lc1860c" = .yes (chip .leadcore .leadcoreLc 1860 []) := by decide +kernel

/-! ## C109 -/

/-- **C109 (exact).** Each of these signature checks accepts exactly the strings of its documented
pattern, with exactly the documented vendor, series, model and suffix. -/
theorem C109_patterns (s : Bytes) (c : Chipset) (arm32 : Bool) (cores freq : Nat) (hs : IsBytes s) :
    (matchMsmApq s = .yes c ↔ MsmApq s c) ∧ (matchSdm s = .yes c ↔ Sdm s c) ∧
    (matchSm s = .yes c ↔ Sm s c) ∧ (matchExynos s = .yes c ↔ Exynos s c) ∧
    (matchUniversal s = .yes c ↔ Universal s c) ∧
    (matchSmdk s cores = .yes c ↔ Smdk s cores c) ∧
    (matchMt s true = .yes c ↔ MtWhole s c) ∧ (matchMt s false = .yes c ↔ MtPrefix s c) ∧
    (matchRk s = .yes c ↔ Rk s c) ∧ (matchSc s = .yes c ↔ Sc s c) ∧
    (matchT s = .yes c ↔ UnisocT s c) ∧ (matchUms s = .yes c ↔ UnisocUms s c) ∧
    (matchPxa s = .yes c ↔ Pxa s c) ∧ (matchBcm s = .yes c ↔ Bcm s c) ∧
    (matchOmap s = .yes c ↔ Omap s c) ∧
    (matchBroadcom s cores freq = .yes c ↔ Broadcom s cores freq c) ∧
    (matchSunxi arm32 s cores = .yes c ↔ Sunxi arm32 s cores c) ∧
    (matchWmt s cores freq = .yes c ↔ Wmt s cores freq c) ∧
    (matchHuawei s = .yes c ↔ Huawei s c) ∧ (matchTcc s = .yes c ↔ Tcc s c) ∧
    (isTegra s = .yes () ↔ Tegra s) :=
  ⟨msmApq_iff hs, sdm_iff hs, sm_iff hs, exynos_iff hs, universal_iff hs, smdk_iff hs,
    mtWhole_iff hs, mtPrefix_iff hs, rk_iff hs, sc_iff hs, t_iff hs, ums_iff hs, pxa_iff hs,
    bcm_iff hs, omap_iff hs, broadcom_iff hs, sunxi_iff hs, wmt_iff hs, huawei_iff hs, tcc_iff hs,
    tegra_iff hs⟩

example : matchMsmApq b!"msm8974pro-ac,4 cores" =
    .yes (chip .qualcomm .qualcommMsm 8974 b!"PRO-AC") := by decide +kernel

/-- **C109, violated for Kirin.** The pattern allows white space before the number; "kirinX950" is
accepted as well. -/
theorem C109_violated_kirin : matchKirin b!"kirinX950" = .yes (chip .hisilicon .hisiliconKirin 950 [])
    ∧ ¬ ∃ c, Kirin b!"kirinX950" c := by
  refine ⟨by decide +kernel, ?_⟩
  rintro ⟨c, k, sp, d, n, h, hk, hsp, hd, -⟩
  have lk : k.length = 1 := by have := congrArg List.length hk; simpa using this
  obtain ⟨k0, rfl⟩ : ∃ k0, k = [k0] := by
    match k, lk with
    | [k0], _ => exact ⟨k0, rfl⟩
  rcases hsp with rfl | ⟨w, rfl, hw⟩
  · have := congrArg List.length h
    simp [hd.1] at this
  · simp only [List.cons_append, List.nil_append, List.cons.injEq] at h
    obtain ⟨-, -, -, -, -, rfl, -⟩ := h
    unfold White at hw
    omega

/-- **C109, violated for Samsung Exynos.** The pattern is case-insensitive and ends after the number;
"samsung exynos7420" is rejected and "Samsung Exynos98101" accepted. -/
theorem C109_violated_exynos :
    (SamsungExynos b!"samsung exynos7420" (chip .samsung .samsungExynos 7420 []) ∧
      matchSamsungExynos b!"samsung exynos7420" = .no) ∧
    (matchSamsungExynos b!"Samsung Exynos98101" = .yes (chip .samsung .samsungExynos 9810 []) ∧
      ¬ ∃ c, SamsungExynos b!"Samsung Exynos98101" c) := by
  refine ⟨⟨⟨b!"samsung exynos", [], b!"7420", 7420, rfl, by decide, .inl rfl,
    ⟨rfl, by unfold Digit; decide, rfl⟩, rfl⟩, by decide +kernel⟩, by decide +kernel, ?_⟩
  rintro ⟨c, p, sp, d, n, h, hp, hsp, hd, -⟩
  have lp : p.length = 14 := by have := congrArg List.length hp; simpa using this
  have hl := congrArg List.length h
  rcases hsp with rfl | rfl
  · simp [lp, hd.1] at hl
  · have h14 : (p ++ [32] ++ d)[14]? = some 32 := by
      rw [List.append_assoc, List.getElem?_append_right (by omega), lp]; rfl
    rw [← h] at h14
    exact absurd h14 (by decide)

/-- **C109, what is left for Kirin and Samsung Exynos.** What exactly the two checks accept; within it
every string of the documented pattern, for Samsung Exynos as far as S and E are capital. -/
theorem C109_partial (s : Bytes) (c : Chipset) (hs : IsBytes s) :
    (matchKirin s = .yes c ↔ KirinActual s c) ∧ (Kirin s c → matchKirin s = .yes c) ∧
    (matchSamsungExynos s = .yes c ↔ SamsungExynosActual s c) ∧
    (SamsungExynos s c → s[0]? = some 83 → s[8]? = some 69 → matchSamsungExynos s = .yes c) := by
  refine ⟨kirin_iff hs, ?_, samsungExynos_iff hs, ?_⟩
  · rintro ⟨k, sp, d, n, h1, h2, h3, h4, h5⟩
    refine (kirin_iff hs).mpr ⟨k, sp, d, n, h1, h2, ?_, h4, h5⟩
    rcases h3 with rfl | ⟨w, rfl, _⟩ <;> simp
  · rintro ⟨p, sp, d, n, rfl, h2, h3, h4, h5⟩ e0 e8
    have lp : p.length = 14 := by have := congrArg List.length h2; simpa using this
    rw [List.append_assoc, List.getElem?_append_left (by omega)] at e0 e8
    refine (samsungExynos_iff hs).mpr ⟨p, sp, d, [], n, by simp, h2, e0, e8, ?_, h4, h5⟩
    rcases h3 with rfl | rfl <;> simp

example : matchKirin b!"Kirin 970" = .yes (chip .hisilicon .hisiliconKirin 970 []) := by
  decide +kernel

example : matchSamsungExynos b!"Samsung EXYNOS7580" =
    .yes (chip .samsung .samsungExynos 7580 []) := by decide +kernel

/-! ## C110 -/

/-- **C110.** No signature check and no decoder reads a character outside the string it is given,
whatever the string. -/
theorem C110_reads (s : Bytes) (arm32 : Bool) (cores freq : Nat) (hs : IsBytes s) :
    (matchMsmApq s ≠ .outside ∧ matchSdm s ≠ .outside ∧ matchSm s ≠ .outside ∧
      matchSamsungExynos s ≠ .outside ∧ matchExynos s ≠ .outside ∧ matchUniversal s ≠ .outside ∧
      matchSmdk s cores ≠ .outside ∧ matchMt s true ≠ .outside ∧ matchMt s false ≠ .outside ∧
      matchKirin s ≠ .outside ∧ matchRk s ≠ .outside ∧ matchSc s ≠ .outside ∧
      matchT s ≠ .outside ∧ matchUms s ≠ .outside ∧ matchLc s ≠ .outside ∧ matchPxa s ≠ .outside ∧
      matchBcm s ≠ .outside ∧ matchOmap s ≠ .outside ∧
      matchBroadcom s cores freq ≠ .outside ∧ matchSunxi arm32 s cores ≠ .outside ∧
      matchWmt s cores freq ≠ .outside ∧ matchHuawei s ≠ .outside ∧ matchTcc s ≠ .outside ∧
      isTegra s ≠ .outside) ∧
    (∀ tegra, decodeHardware arm32 s cores freq tegra ≠ .outside) ∧
    decodeBoard arm32 s cores freq ≠ .outside ∧
    (NoZero s → decodePlatform arm32 s cores freq ≠ .outside) ∧
    decodeMediatek s ≠ .outside ∧ decodeArch s ≠ .outside ∧ decodeChipname arm32 s ≠ .outside := by
  refine ⟨⟨msmApq_safe _, sdm_safe _, sm_safe _, samsungExynos_safe _, exynos_safe _,
    universal_safe _, smdk_safe _ _, mt_safe _ _, mt_safe _ _, kirin_safe _, rk_safe _, sc_safe _,
    t_safe _, ums_safe _, lc_safe _, pxa_safe _, bcm_safe _, omap_safe _, broadcom_safe _ _ _,
    sunxi_safe _ _ _, wmt_safe _ _ _, huawei_safe _, tcc_safe _, tegra_safe _⟩, ?_,
    (decodeBoard_decodes hs).safe, fun hz => (decodePlatform_decodes hs hz).safe,
    (decodeMediatek_decodes hs).safe, (decodeArch_decodes hs).safe,
    (decodeChipname_decodes hs).safe⟩
  intro tegra
  cases tegra with
  | false => exact (hardware_decodes hs).safe
  | true => exact tegraHardware_decodes.safe

example : matchUniversal b!"universal" = .no ∧ matchMsmApq b!"ms" = .no ∧
    matchSmdk b!"SMDK4x1" 2 = .no := by decide +kernel

/-! ## C111 -/

/-- **C111.** Each decoder returns what the first of its patterns that fits says, and unknown if none
fits; for the Hardware string the first is the leftmost word at which a word pattern fits. -/
theorem C111_decoders (s : Bytes) (c : Chipset) (arm32 : Bool) (cores freq : Nat) (hs : IsBytes s) :
    (decodeHardware arm32 s cores freq false = .yes c ↔
      Decodes (hardwarePatterns arm32 cores freq) s c) ∧
    (decodeHardware arm32 s cores freq true = .yes c ↔ Decodes [Listed tegraEntries arm32] s c) ∧
    (decodeBoard arm32 s cores freq = .yes c ↔ Decodes (boardPatterns arm32 cores freq) s c) ∧
    (NoZero s → (decodePlatform arm32 s cores freq = .yes c ↔
      Decodes (platformPatterns arm32 cores freq) s c)) ∧
    (decodeMediatek s = .yes c ↔ Decodes [MtPrefix] s c) ∧
    (decodeArch s = .yes c ↔ Decodes [Exynos] s c) ∧
    (decodeChipname arm32 s = .yes c ↔ Decodes (chipnamePatterns arm32) s c) :=
  ⟨(hardware_decodes hs).iff c, tegraHardware_decodes.iff c, (decodeBoard_decodes hs).iff c,
    fun hz => (decodePlatform_decodes hs hz).iff c, (decodeMediatek_decodes hs).iff c,
    (decodeArch_decodes hs).iff c, (decodeChipname_decodes hs).iff c⟩

/-- **C111 (Linux).** Detection decodes the text of the Hardware string by the first pattern that fits,
keeps the vendor, and then corrects: chipsets of vendors other than Broadcom by the table of C112. -/
theorem C111_linux (arm32 : Bool) (hardware revision : Bytes) (cores freq : Nat)
    (hb : IsBytes hardware) :
    ∃ c r, Decodes (hardwarePatterns arm32 cores freq) (textIn 64 hardware) c ∧
      decodeLinux arm32 hardware revision cores freq = .yes r ∧ r.vendor = c.vendor ∧
      (c.vendor = .unknown → r = c) ∧
      (c.vendor ≠ .unknown → c.vendor ≠ .broadcom → Corrected arm32 cores freq c r) := by
  obtain ⟨c, r, h1, h2, _, h4, h5, _, h7⟩ := linux_yes (arm32 := arm32) (rev := revision)
    (cores := cores) (freq := freq) hb
  exact ⟨c, r, h1, h2, h4, h5, h7⟩

example : decodeLinux false (inBuffer 64 b!"MT6595 or msm8998,SDM845") [] 8 0 =
    .yes (chip .qualcomm .qualcommMsm 8998 []) := by decide +kernel

/-! ## C112 -/

/-- **C112 (corrections).** The correction of a well-formed chipset is exactly the documented one: the
renamed models, the models told apart by the number of cores, and the corrected suffixes. -/
theorem C112_corrections (arm32 : Bool) (c : Chipset) (cores freq : Nat) (h : Valid c) :
    ∃ r, fixup arm32 c cores freq = .yes r ∧ Corrected arm32 cores freq c r ∧ Valid r := by
  obtain ⟨t, ht, hc⟩ := valid_suffix h
  obtain ⟨r, hr, hcor⟩ := fixup_corrected (arm32 := arm32) (cores := cores) (freq := freq) ht hc
  obtain ⟨r', hr', hv, -⟩ := fixup_valid (arm32 := arm32) (cores := cores) (freq := freq) h
  rw [hr] at hr'
  injection hr' with e
  subst e
  exact ⟨r, hr, hcor, hv⟩

/-- **C112 (cores), what is left.** After the correction a model that is told apart by the number of cores
is reported only with its number of cores; except for MSM chipsets with a suffix, and for MSM8216. -/
theorem C112_cores_partial (arm32 : Bool) (c r : Chipset) (cores freq : Nat) (h : Valid c)
    (hm : c.series = .qualcommMsm → HasSuffix c [] ∧ c.model ≠ 8216)
    (hr : fixup arm32 c cores freq = .yes r) :
    ∀ a ∈ ambiguous, (arm32 = true ∨ a.arm32Only = false) → r.series = a.series →
      r.model = a.model → a.cores = cores := by
  obtain ⟨r', hr', ⟨t, ht, hc, -, -, hfix⟩, -⟩ := C112_corrections arm32 c cores freq h
  rw [hr] at hr'
  injection hr' with e
  subst e
  have hfix : ModelFix arm32 cores c.series c.model r.series r.model := by
    by_cases hs : c.series = .qualcommMsm
    · have ht0 : t = [] := padded_inj ht suffixText_nil ((hm hs).1 ▸ hc.symm)
      rwa [if_neg (fun h => h.2 ht0)] at hfix
    · rwa [if_neg (fun h => hs h.1)] at hfix
  have unique : ∀ a ∈ ambiguous, ∀ b ∈ ambiguous, a.series = b.series → a.model = b.model → a = b := by
    decide
  have other : ∀ a ∈ ambiguous, ∀ b ∈ ambiguous, ¬ (a.otherSeries = b.series ∧
      a.otherModel = b.model) := by decide
  have nonzero : ∀ a ∈ ambiguous, a.model ≠ 0 := by decide
  have rename : ∀ q ∈ renamed, ∀ a ∈ ambiguous, q.2.1 = a.series → q.2.2.2 = a.model →
      q.2.1 = .qualcommMsm ∧ q.2.2.1 = 8216 := by decide
  intro a ha hb h1 h2
  generalize r.series = rs at hfix h1
  generalize r.model = rm at hfix h2
  cases hfix with
  | renamed q hq _ e1 e2 =>
    obtain ⟨k1, k2⟩ := rename q hq a ha (e1.trans h1) h2
    exact absurd (e2.symm.trans k2) (hm (e1.symm.trans k1)).2
  | confirmed b hb' _ e1 e2 e3 =>
    rw [unique a ha b hb' (h1.symm.trans e1.symm) (h2.symm.trans e2.symm)]; exact e3
  | other b hb' => exact absurd ⟨h1, h2⟩ (other b hb' a ha)
  | neither b => exact absurd h2.symm (nonzero a ha)
  | unlisted _ hu => exact absurd h2.symm (hu a ha hb h1.symm)

example : fixup false (chip .qualcomm .qualcommMsm 8916 []) 8 0 =
    .yes (chip .qualcomm .qualcommMsm 8939 []) ∧
    fixup false (chip .qualcomm .qualcommMsm 8916 []) 4 0 =
    .yes (chip .qualcomm .qualcommMsm 8916 []) := by decide +kernel

/-- **C112, violated.** MSM8916 has four cores: with eight cores "MSM8916" is reported as MSM8939, but
"MSM8216" and "MSM8916MSM8916" as MSM8916.  So correcting the result once more changes it. -/
theorem C112_violated :
    decodeLinux false (inBuffer 64 b!"MSM8916") [] 8 0 =
      .yes (chip .qualcomm .qualcommMsm 8939 []) ∧
    decodeLinux false (inBuffer 64 b!"MSM8216") [] 8 0 =
      .yes (chip .qualcomm .qualcommMsm 8916 []) ∧
    decodeLinux false (inBuffer 64 b!"MSM8916MSM8916") [] 8 0 =
      .yes (chip .qualcomm .qualcommMsm 8916 []) ∧
    fixup false (chip .qualcomm .qualcommMsm 8916 []) 8 0 ≠
      .yes (chip .qualcomm .qualcommMsm 8916 []) := by decide +kernel

/-! ## C113 -/

/-- **C113 (Raspberry Pi).** When the Hardware string names a Broadcom chipset and the Revision string is
a number of five to eight hexadecimal digits, the model is the one of the processor field of this
number, bits 12 to 15: BCM2835, 2836, 2837 or 2711; for other values of the field it is the model of
the Hardware string. -/
theorem C113_raspberry_partial (arm32 : Bool) (hardware revision : Bytes) (cores freq : Nat)
    (c r : Chipset) (hb : IsBytes hardware)
    (hc : Decodes (hardwarePatterns arm32 cores freq) (textIn 64 hardware) c)
    (hv : c.vendor = .broadcom)
    (hx : ∀ x ∈ textIn 9 revision, IsHex x)
    (hl : 5 ≤ (textIn 9 revision).length ∧ (textIn 9 revision).length ≤ 8)
    (h : decodeLinux arm32 hardware revision cores freq = .yes r) :
    r = { c with
      model := (piModel (processorField (hexValue (textIn 9 revision)))).getD c.model } := by
  obtain ⟨c', r', h1, h2, -, -, -, h6, -⟩ := linux_yes (arm32 := arm32) (rev := revision)
    (cores := cores) (freq := freq) hb
  have e1 : c' = c := by
    have k1 := ((hardware_decodes (textIn_bytes (n := 64) hb)).iff c').mpr h1
    have k2 := ((hardware_decodes (textIn_bytes (n := 64) hb)).iff c).mpr hc
    rw [k1] at k2
    injection k2
  subst e1
  rw [h] at h2
  injection h2 with e2
  subst e2
  obtain ⟨hs, hfix⟩ := h6 hv
  generalize textIn 9 revision = s at hx hl hfix ⊢
  have hlt : s.length - 4 < s.length := by omega
  have hget : s[s.length - 4]? = some s[s.length - 4] := List.getElem?_eq_getElem hlt
  rw [field_digit (by omega) hget]
  unfold fixupRaspberryPi at hfix
  rw [if_neg (by omega), if_pos hl, byteAt_yes.mpr hget, yes_bind] at hfix
  have hset : c'.suffix.set 0 0 = c'.suffix := by
    rw [show c'.suffix = padded [] from hs]; rfl
  rcases revision_iff (hx _ (List.getElem_mem hlt)) with ⟨k1, k2⟩ | ⟨k1, k2⟩
  · rw [if_neg (by simpa using k2)] at hfix
    injection hfix with hfix
    rw [k1, ← hfix]
    rfl
  · rw [if_pos (by simpa using k1), hset] at hfix
    injection hfix with hfix
    rw [k2, ← hfix]
    rfl

example : decodeLinux false (inBuffer 64 b!"BCM2835") (inBuffer 9 b!"a02082") 4 0 =
      .yes (chip .broadcom .broadcomBcm 2837 []) ∧
    processorField (hexValue b!"a02082") = 2 := by decide +kernel

/-- **C113, violated.** The Revision string is trusted for every Broadcom chipset: BCM4708 with eight
zeros as revision is reported as BCM2835.  And a processor field that is not known leaves the model of
the Hardware string, BCM2835 on every Raspberry Pi, although the field is not 0. -/
theorem C113_violated :
    decodeLinux false (inBuffer 64 b!"BCM4708") (inBuffer 9 b!"00000000") 2 0 =
      .yes (chip .broadcom .broadcomBcm 2835 []) ∧
    decodeLinux false (inBuffer 64 b!"BCM2835") (inBuffer 9 b!"d04170") 4 0 =
      .yes (chip .broadcom .broadcomBcm 2835 []) ∧
    processorField (hexValue b!"d04170") = 4 := by decide +kernel

/-! ## C116 -/

/-- **C116, violated.** The frequency that detection passes is always 0 (src/arm/linux/init.c:243, 246),
so WonderMedia chipsets are told apart by nothing: whatever the number of cores, "WMT" gives no model,
although each of three frequencies would give one. -/
theorem C116_violated :
    (∀ (revision : Bytes) (cores : Nat),
      decodeLinux true (inBuffer 64 b!"WMT") revision cores 0 =
        .yes (chip .wondermedia .wondermediaWm 0 [])) ∧
    (∀ revision, decodeLinux true (inBuffer 64 b!"WMT") revision 1 1008000 =
        .yes (chip .wondermedia .wondermediaWm 8950 [])) ∧
    (∀ revision, decodeLinux true (inBuffer 64 b!"WMT") revision 1 1200000 =
        .yes (chip .wondermedia .wondermediaWm 8850 [])) ∧
    (∀ revision, decodeLinux true (inBuffer 64 b!"WMT") revision 2 1500000 =
        .yes (chip .wondermedia .wondermediaWm 8880 [])) := by
  refine ⟨fun revision cores => ?_, fun _ => rfl, fun _ => rfl, fun _ => rfl⟩
  have hw : matchWmt b!"WMT" cores 0 = .yes (chip .wondermedia .wondermediaWm 0 []) :=
    (wmt_iff (by unfold IsBytes; decide)).mpr ⟨rfl, by simp⟩
  have ht : textIn 64 (inBuffer 64 b!"WMT") = b!"WMT" := by decide
  have hd : decodeHardware true b!"WMT" cores 0 false =
      .yes (chip .wondermedia .wondermediaWm 0 []) := by
    have h1 : ∀ m ms, firstMatch
        ([wordLoop b!"WMT" true, matchSamsungExynos b!"WMT", matchUniversal b!"WMT",
          matchSmdk b!"WMT" cores, matchSc b!"WMT", matchT b!"WMT", matchUms b!"WMT", matchPxa b!"WMT",
          matchSunxi true b!"WMT" cores, matchBcm b!"WMT", matchOmap b!"WMT"] ++ m :: ms) =
        firstMatch (m :: ms) := fun _ _ => rfl
    change orUnknown (firstMatch ([wordLoop b!"WMT" true, matchSamsungExynos b!"WMT",
      matchUniversal b!"WMT", matchSmdk b!"WMT" cores, matchSc b!"WMT", matchT b!"WMT",
      matchUms b!"WMT", matchPxa b!"WMT", matchSunxi true b!"WMT" cores, matchBcm b!"WMT",
      matchOmap b!"WMT"] ++ matchWmt b!"WMT" cores 0 ::
        [matchTcc b!"WMT", tableMatch true hardwareEntries b!"WMT"])) = _
    rw [h1, hw]
    rfl
  unfold decodeLinux
  rw [ht, hd, yes_bind]
  rfl

/-! ## C118 -/

/-- A table row is of the build. -/
def RowIn (arm32 : Bool) (r : Bool × Bytes × Bytes) : Prop := arm32 = true ∨ r.1 = false

/-- **C118.** Every platform for which a comment of the tables states the chipset's name is decoded, in
every build that has it, to a chipset of exactly that name, whatever the number of cores and the
frequency. -/
theorem C118_names (arm32 : Bool) (cores freq : Nat) :
    (∀ r ∈ hardwareNames, RowIn arm32 r → ∃ c, decodeHardware arm32 r.2.1 cores freq false = .yes c ∧
      ArmChipset.toString c = some r.2.2) ∧
    (∀ r ∈ tegraNames, RowIn arm32 r → ∃ c, decodeHardware arm32 r.2.1 cores freq true = .yes c ∧
      ArmChipset.toString c = some r.2.2) ∧
    (∀ r ∈ boardNames, RowIn arm32 r → ∃ c, decodeBoard arm32 r.2.1 cores freq = .yes c ∧
      ArmChipset.toString c = some r.2.2) ∧
    (∀ r ∈ platformNames, RowIn arm32 r → ∃ c, decodePlatform arm32 r.2.1 cores freq = .yes c ∧
      ArmChipset.toString c = some r.2.2) ∧
    (∀ r ∈ amlogicNames, RowIn arm32 r → ∃ c, decodePlatform arm32 r.2.1 cores freq = .yes c ∧
      ArmChipset.toString c = some r.2.2) := by
  simp only [hardwareNames, tegraNames, boardNames, platformNames, amlogicNames,
    List.forall_mem_cons]
  and_intros
  all_goals first
    | (intro r hr; exact absurd hr (by simp))
    | (intro h
       cases arm32
       · first
         | exact ⟨_, rfl, rfl⟩
         | exact absurd h (by unfold RowIn; decide)
       · exact ⟨_, rfl, rfl⟩)

example : (false, b!"hi6250", b!"HiSilicon Kirin 650") ∈ hardwareNames := by decide

/-- **C118 (64-bit builds).** The platforms that the tables have only in 32-bit builds, whose chipsets have
no 64-bit cores, are not decoded in the others. -/
theorem C118_only_32 (cores freq : Nat) :
    (∀ r ∈ hardwareNames, r.1 = true → decodeHardware false r.2.1 cores freq false = .yes .unknown) ∧
    (∀ r ∈ tegraNames, r.1 = true → decodeHardware false r.2.1 cores freq true = .yes .unknown) ∧
    (∀ r ∈ boardNames, r.1 = true → decodeBoard false r.2.1 cores freq = .yes .unknown) ∧
    (∀ r ∈ platformNames, r.1 = true → decodePlatform false r.2.1 cores freq = .yes .unknown) ∧
    (∀ r ∈ amlogicNames, r.1 = true → decodePlatform false r.2.1 cores freq = .yes .unknown) := by
  simp only [hardwareNames, tegraNames, boardNames, platformNames, amlogicNames,
    List.forall_mem_cons]
  and_intros
  all_goals first
    | (intro r hr; exact absurd hr (by simp))
    | (intro h; cases h; done)
    | (intro _; rfl)

example : (true, b!"hi6620oem", b!"HiSilicon Kirin 910T") ∈ hardwareNames := by decide

end Verif.Props
