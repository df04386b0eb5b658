import Verif.Model.ArmTypes

/-!
# What the chipset signatures mean

Patterns over strings, written from the comments above each `match_*` function of
src/arm/linux/chipset.c, as concatenations of literal texts, numbers and suffixes.
-/

set_option autoImplicit false

namespace Verif.Spec.Chipsets
open ArmChipset

/-- A string of C characters. -/
def IsBytes (s : Bytes) : Prop := ∀ c ∈ s, c < 256

/-- A letter of the ASCII alphabet. -/
def Letter (c : Byte) : Prop := (65 ≤ c ∧ c ≤ 90) ∨ (97 ≤ c ∧ c ≤ 122)

instance (c : Byte) : Decidable (Letter c) := by unfold Letter; infer_instance

/-- Lower case of a character. -/
def lower (c : Byte) : Byte := if 65 ≤ c ∧ c ≤ 90 then c + 32 else c

/-- Upper case of a character. -/
def upper (c : Byte) : Byte := if 97 ≤ c ∧ c ≤ 122 then c - 32 else c

/-- `p` is the lower-case text `w` up to case. -/
def Spells (p w : Bytes) : Prop := p.map lower = w

instance (p w : Bytes) : Decidable (Spells p w) := by unfold Spells; infer_instance

/-- A decimal digit. -/
def Digit (c : Byte) : Prop := 48 ≤ c ∧ c ≤ 57

/-- The value of a list of digits, most significant first. -/
def valueOf : Bytes → Nat
  | [] => 0
  | c :: cs => (c - 48) * 10 ^ cs.length + valueOf cs

/-- `d` consists of `k` digits of value `n`. -/
def IsNumber (k : Nat) (d : Bytes) (n : Nat) : Prop :=
  d.length = k ∧ (∀ c ∈ d, Digit c) ∧ n = valueOf d

/-- The longest run of letters and `extra` characters at the start of `t`, at most eight, in upper
case. -/
def suffixOf (extra : Byte) (t : Bytes) : Bytes :=
  ((t.takeWhile fun c => Letter c ∨ c = extra).take 8).map upper

/-- The chipset with this vendor, series, model and suffix text. -/
def chip (vendor : Vendor) (series : Series) (model : Nat) (suffix : Bytes) : Chipset :=
  ⟨vendor, series, model, suffix ++ List.replicate (8 - suffix.length) 0⟩

/-- `/(MSM|APQ)( )?\d{4}([A-Z\-]*)/`, case-insensitive. -/
def MsmApq (s : Bytes) (c : Chipset) : Prop :=
  ∃ p sp d t n series, s = p ++ sp ++ d ++ t ∧
    ((Spells p b!"msm" ∧ series = Series.qualcommMsm) ∨
      (Spells p b!"apq" ∧ series = Series.qualcommApq)) ∧
    (sp = [] ∨ sp = [32]) ∧ IsNumber 4 d n ∧ c = chip .qualcomm series n (suffixOf 45 t)

/-- `/SDM\d{3}$/` -/
def Sdm (s : Bytes) (c : Chipset) : Prop :=
  ∃ d n, s = b!"SDM" ++ d ∧ IsNumber 3 d n ∧ c = chip .qualcomm .qualcommSnapdragon n []

/-- `/SM\d{4}$/` -/
def Sm (s : Bytes) (c : Chipset) : Prop :=
  ∃ d n, s = b!"SM" ++ d ∧ IsNumber 4 d n ∧ c = chip .qualcomm .qualcommSnapdragon n []

/-- `/Samsung Exynos ?\d{4}$/`, case-insensitive. -/
def SamsungExynos (s : Bytes) (c : Chipset) : Prop :=
  ∃ p sp d n, s = p ++ sp ++ d ∧ Spells p b!"samsung exynos" ∧ (sp = [] ∨ sp = [32]) ∧
    IsNumber 4 d n ∧ c = chip .samsung .samsungExynos n []

/-- What the code accepts instead: capital S and E, and, without the space, one ignored character at
the end. -/
def SamsungExynosActual (s : Bytes) (c : Chipset) : Prop :=
  ∃ p sp d t n, s = p ++ sp ++ d ++ t ∧ Spells p b!"samsung exynos" ∧ p[0]? = some 83 ∧
    p[8]? = some 69 ∧
    ((sp = [32] ∧ t = []) ∨ (sp = [] ∧ t.length ≤ 1)) ∧ IsNumber 4 d n ∧
    c = chip .samsung .samsungExynos n []

/-- `/exynos\d{4}$/` -/
def Exynos (s : Bytes) (c : Chipset) : Prop :=
  ∃ d n, s = b!"exynos" ++ d ∧ IsNumber 4 d n ∧ c = chip .samsung .samsungExynos n []

/-- `/universal\d{4}$/`, case-insensitive. -/
def Universal (s : Bytes) (c : Chipset) : Prop :=
  ∃ p d n, s = p ++ d ∧ Spells p b!"universal" ∧ IsNumber 4 d n ∧
    c = chip .samsung .samsungExynos n []

/-- "SMDK4210", "SMDK4x12" with two or four cores. -/
def Smdk (s : Bytes) (cores : Nat) (c : Chipset) : Prop :=
  ∃ p d n, s = p ++ d ∧ Spells p b!"smdk" ∧
    ((d = b!"4210" ∧ n = 4210) ∨ (d = b!"4x12" ∧ cores = 2 ∧ n = 4212) ∨
      (d = b!"4x12" ∧ cores = 4 ∧ n = 4412)) ∧
    c = chip .samsung .samsungExynos n []

/-- `/MTK?\d{4}[A-Z\/]{0,8}$/`, case-insensitive. -/
def MtWhole (s : Bytes) (c : Chipset) : Prop :=
  ∃ p k d t n, s = p ++ k ++ d ++ t ∧ Spells p b!"mt" ∧ (k = [] ∨ Spells k b!"k") ∧
    IsNumber 4 d n ∧ t.length ≤ 8 ∧ (∀ x ∈ t, Letter x ∨ x = 47) ∧
    c = chip .mediatek .mediatekMt n (t.map upper)

/-- `/MTK?\d{4}[A-Z\/]*/`, case-insensitive, with anything after. -/
def MtPrefix (s : Bytes) (c : Chipset) : Prop :=
  ∃ p k d t n, s = p ++ k ++ d ++ t ∧ Spells p b!"mt" ∧ (k = [] ∨ Spells k b!"k") ∧
    IsNumber 4 d n ∧ c = chip .mediatek .mediatekMt n (suffixOf 47 t)

/-- White space. -/
def White (c : Byte) : Prop := c = 32 ∨ c = 9 ∨ c = 13 ∨ c = 10

/-- `/[Kk]irin\s?\d{3}$/` -/
def Kirin (s : Bytes) (c : Chipset) : Prop :=
  ∃ k sp d n, s = k ++ b!"irin" ++ sp ++ d ∧ Spells k b!"k" ∧
    (sp = [] ∨ ∃ w, sp = [w] ∧ White w) ∧ IsNumber 3 d n ∧
    c = chip .hisilicon .hisiliconKirin n []

/-- What the code accepts instead: one arbitrary character before the number. -/
def KirinActual (s : Bytes) (c : Chipset) : Prop :=
  ∃ k x d n, s = k ++ b!"irin" ++ x ++ d ∧ Spells k b!"k" ∧ x.length ≤ 1 ∧
    IsNumber 3 d n ∧ c = chip .hisilicon .hisiliconKirin n []

/-- `/rk\d{4}[a-z]?$/`, case-insensitive. -/
def Rk (s : Bytes) (c : Chipset) : Prop :=
  ∃ p d t n, s = p ++ d ++ t ∧ Spells p b!"rk" ∧ IsNumber 4 d n ∧ t.length ≤ 1 ∧
    (∀ x ∈ t, Letter x) ∧ c = chip .rockchip .rockchipRk n (t.map upper)

/-- `/s[cp]\d{4}[a-z]*$|s[cp]x15$/`, case-insensitive, where only the first eight characters after
the number are looked at. -/
def Sc (s : Bytes) (c : Chipset) : Prop :=
  ∃ p, (Spells p b!"sc" ∨ Spells p b!"sp") ∧
    ((∃ x, s = p ++ x ++ b!"15" ∧ Spells x b!"x" ∧ c = chip .spreadtrum .spreadtrumSc 7715 []) ∨
      ∃ d t n, s = p ++ d ++ t ∧ IsNumber 4 d n ∧ (∀ x ∈ t.take 8, Letter x) ∧
        c = chip .spreadtrum .spreadtrumSc n ((t.take 8).map upper))

/-- `/Unisoc T\d{3,4}$/` -/
def UnisocT (s : Bytes) (c : Chipset) : Prop :=
  ∃ d n, s = b!"Unisoc T" ++ d ∧ (IsNumber 3 d n ∨ IsNumber 4 d n) ∧ c = chip .unisoc .unisocT n []

/-- `/Unisoc UMS\d{3,4}$/` -/
def UnisocUms (s : Bytes) (c : Chipset) : Prop :=
  ∃ d n, s = b!"Unisoc UMS" ++ d ∧ (IsNumber 3 d n ∨ IsNumber 4 d n) ∧
    c = chip .unisoc .unisocUms n []

/-- `/lc\d{4}[a-z]?$/` with the letter as suffix. -/
def Lc (s : Bytes) (c : Chipset) : Prop :=
  ∃ d t n, s = b!"lc" ++ d ++ t ∧ IsNumber 4 d n ∧ t.length ≤ 1 ∧ (∀ x ∈ t, Letter x) ∧
    c = chip .leadcore .leadcoreLc n (t.map upper)

/-- What the code does instead: the letter is accepted and forgotten. -/
def LcActual (s : Bytes) (c : Chipset) : Prop :=
  ∃ d t n, s = b!"lc" ++ d ++ t ∧ IsNumber 4 d n ∧ t.length ≤ 1 ∧ (∀ x ∈ t, Letter x) ∧
    c = chip .leadcore .leadcoreLc n []

/-- `/PXA(\d{3,4}|1L88)$/`, the latter for 1088. -/
def Pxa (s : Bytes) (c : Chipset) : Prop :=
  (s = b!"PXA1L88" ∧ c = chip .marvell .marvellPxa 1088 []) ∨
    ∃ d n, s = b!"PXA" ++ d ∧ (IsNumber 3 d n ∨ IsNumber 4 d n) ∧
      c = chip .marvell .marvellPxa n []

/-- `/BCM\d{4}$/` -/
def Bcm (s : Bytes) (c : Chipset) : Prop :=
  ∃ d n, s = b!"BCM" ++ d ∧ IsNumber 4 d n ∧ c = chip .broadcom .broadcomBcm n []

/-- `/OMAP\d{4}$/` -/
def Omap (s : Bytes) (c : Chipset) : Prop :=
  ∃ d n, s = b!"OMAP" ++ d ∧ IsNumber 4 d n ∧
    c = chip .texasInstruments .texasInstrumentsOmap n []

/-- The Broadcom platforms: name, cores, least frequency, model, suffix; the comments of
src/arm/linux/chipset.c:1305-1364. -/
def broadcomPlatforms : List (Bytes × Nat × Nat × Nat × Bytes) :=
  [(b!"rhea", 1, 999999, 21654, b!"G"), (b!"rhea", 1, 0, 21654, []), (b!"java", 4, 0, 23550, []),
   (b!"hawaii", 1, 0, 21663, []), (b!"hawaii", 2, 1200000, 21664, b!"T"),
   (b!"hawaii", 2, 0, 21664, []), (b!"capri", 2, 0, 28155, [])]

/-- The first Broadcom platform that fits. -/
def Broadcom (s : Bytes) (cores freq : Nat) (c : Chipset) : Prop :=
  ∃ r, broadcomPlatforms.find? (fun r => r.1 = s ∧ r.2.1 = cores ∧ r.2.2.1 ≤ freq) = some r ∧
    c = chip .broadcom .broadcomBcm r.2.2.2.1 r.2.2.2.2

/-- The Allwinner platforms: 32-bit only, number, cores, model, suffix; the comments of
src/arm/linux/chipset.c:1393-1452. -/
def sunxiPlatforms : List (Bool × Nat × Nat × Nat × Bytes) :=
  [(true, 4, 1, 10, []), (true, 5, 1, 13, []), (true, 6, 4, 31, []), (true, 7, 2, 20, []),
   (true, 8, 2, 23, []), (true, 8, 4, 33, []), (true, 8, 8, 83, b!"T"), (true, 9, 8, 80, []),
   (false, 50, 4, 64, [])]

/-- `/sun\d{1,2}i/` with anything after; the model by platform and cores, 0 if not listed. -/
def Sunxi (arm32 : Bool) (s : Bytes) (cores : Nat) (c : Chipset) : Prop :=
  ∃ d t n, s = b!"sun" ++ d ++ b!"i" ++ t ∧ (IsNumber 1 d n ∨ IsNumber 2 d n) ∧
    ((∃ r ∈ sunxiPlatforms, (arm32 = true ∨ r.1 = false) ∧ r.2.1 = n ∧ r.2.2.1 = cores ∧
        c = chip .allwinner .allwinnerA r.2.2.2.1 r.2.2.2.2) ∨
      ((∀ r ∈ sunxiPlatforms, ¬ ((arm32 = true ∨ r.1 = false) ∧ r.2.1 = n ∧ r.2.2.1 = cores)) ∧
        c = chip .allwinner .allwinnerA 0 []))

/-- "WMT" with the model by cores and frequency, 0 if not listed; the comments of
src/arm/linux/chipset.c:1585-1606. -/
def Wmt (s : Bytes) (cores freq : Nat) (c : Chipset) : Prop :=
  s = b!"WMT" ∧
    c = chip .wondermedia .wondermediaWm
      (if cores = 1 ∧ freq = 1008000 then 8950 else if cores = 1 ∧ freq = 1200000 then 8850
        else if cores = 2 ∧ freq = 1500000 then 8880 else 0) []

/-- The Huawei platforms and their Kirin models; the comments of
src/arm/linux/chipset.c:1627-1763. -/
def huaweiPlatforms : List (Bytes × Nat) :=
  [(b!"ALP", 970), (b!"BAC", 659), (b!"BLA", 970), (b!"BKL", 970), (b!"CLT", 970), (b!"COL", 970),
   (b!"COR", 970), (b!"DUK", 960), (b!"EML", 970), (b!"EVA", 955), (b!"FRD", 950), (b!"INE", 710),
   (b!"KNT", 950), (b!"LON", 960), (b!"LYA", 980), (b!"MCN", 980), (b!"MHA", 960), (b!"NEO", 970),
   (b!"NXT", 950), (b!"PAN", 980), (b!"PAR", 970), (b!"RVL", 970), (b!"STF", 960), (b!"SUE", 980),
   (b!"VIE", 955), (b!"VKY", 960), (b!"VTR", 960)]

/-- A listed platform, alone or followed by `/\-[A-Z]?L\d{2}$/`. -/
def Huawei (s : Bytes) (c : Chipset) : Prop :=
  ∃ r ∈ huaweiPlatforms, ∃ t, s = r.1 ++ t ∧
    (t = [] ∨ ∃ u x y, t = b!"-" ++ u ++ b!"L" ++ [x, y] ∧ u.length ≤ 1 ∧
      (∀ v ∈ u, 65 ≤ v ∧ v ≤ 90) ∧ Digit x ∧ Digit y) ∧
    c = chip .hisilicon .hisiliconKirin r.2 []

/-- `/tcc\d{3}x$/`, suffix X. -/
def Tcc (s : Bytes) (c : Chipset) : Prop :=
  ∃ d n, s = b!"tcc" ++ d ++ b!"x" ∧ IsNumber 3 d n ∧ c = chip .telechips .telechipsTcc n b!"X"

/-- "tegra" or "tegra3". -/
def Tegra (s : Bytes) : Prop := s = b!"tegra" ∨ s = b!"tegra3"

end Verif.Spec.Chipsets
