import Verif.Spec.ArmChipsetDecode
import Verif.Spec.ArmChipsetFix
import Verif.Model.ArmChipsetDecode

/-!
# Combining the Android properties

Written from the comments of `cpuinfo_arm_android_decode_chipset`, src/arm/linux/chipset.c:3844-4141.
-/

set_option autoImplicit false

namespace Verif.Spec.Chipsets
open ArmChipset

/-- The sources of information about the chipset. -/
inductive Source where
  /-- Hardware of /proc/cpuinfo. -/
  | hardware
  /-- ro.product.board -/
  | board
  /-- ro.board.platform -/
  | platform
  /-- ro.mediatek.platform -/
  | mediatek
  /-- ro.arch -/
  | arch
  /-- ro.chipname -/
  | chipname
  /-- ro.hardware.chipname -/
  | hardwareChipname
deriving DecidableEq

/-- Which sources are trusted most when they disagree, by vendor. -/
def trusted : Vendor → List Source
  | .qualcomm => [.hardwareChipname, .chipname, .hardware, .board, .platform]
  | .mediatek => [.chipname, .hardware, .board, .platform, .mediatek]
  | .hisilicon => [.hardware, .board, .platform]
  | .amlogic => [.hardware, .platform]
  | .marvell => [.chipname, .board, .hardware]
  | .rockchip => [.board, .hardware, .platform]
  | .spreadtrum => [.chipname, .board, .hardware, .platform]
  | _ => []

/-- The first source of the list that satisfies `known`. -/
def FirstSource (known : Source → Prop) : List Source → Source → Prop
  | [], _ => False
  | x :: xs, s => (known x ∧ s = x) ∨ (¬ known x ∧ FirstSource known xs s)

/-- What each source says: the first pattern of its decoder that fits its text. -/
def Says (arm32 : Bool) (p : Properties) (cores freq : Nat) (s : Source) (c : Chipset) : Prop :=
  match s with
  | .hardware =>
    (Tegra (textIn 92 p.platform) ∧ Decodes [Listed tegraEntries arm32] (textIn 64 p.hardware) c) ∨
      (¬ Tegra (textIn 92 p.platform) ∧
        Decodes (hardwarePatterns arm32 cores freq) (textIn 64 p.hardware) c)
  | .board => Decodes (boardPatterns arm32 cores freq) (textIn 92 p.board) c
  | .platform => Decodes (platformPatterns arm32 cores freq) (textIn 92 p.platform) c
  | .mediatek => Decodes [MtPrefix] (textIn 92 p.mediatek) c
  | .arch => Decodes [Exynos] (textIn 92 p.arch) c
  | .chipname => Decodes (chipnamePatterns arm32) (textIn 92 p.chipname) c
  | .hardwareChipname => Decodes (chipnamePatterns arm32) (textIn 92 p.hardwareChipname) c

/-- The properties are strings of C characters. -/
def PropertyBytes (p : Properties) : Prop :=
  IsBytes p.hardware ∧ IsBytes p.board ∧ IsBytes p.platform ∧ IsBytes p.mediatek ∧ IsBytes p.arch ∧
    IsBytes p.chipname ∧ IsBytes p.hardwareChipname

/-- A chipset about which something is known. -/
def Known (c : Chipset) : Prop := c.series ≠ .unknown

/-- How the result follows from the corrected chipsets `ds` of the sources. -/
def Chosen (ds : Source → Chipset) (r : Chipset) : Prop :=
  ((∃ s s', (ds s).vendor ≠ .unknown ∧ (ds s').vendor ≠ .unknown ∧ (ds s).vendor ≠ (ds s').vendor) ∧
      r = .unknown) ∨
    ((∀ s, ds s = .unknown) ∧ r = .unknown) ∨
    ∃ v, v ≠ .unknown ∧ (∀ s, ds s = .unknown ∨ (ds s).vendor = v) ∧ (∃ s, (ds s).vendor = v) ∧
      ((∃ x, (∀ s, ds s = .unknown ∨ ds s = x) ∧ r = x ∧ Known x) ∨
        ((¬ ∃ x, ∀ s, ds s = .unknown ∨ ds s = x) ∧
          ((Known r ∧ r.vendor = v ∧
              ∀ s, Known (ds s) → (ds s).series = r.series ∧ (ds s).model = r.model) ∨
            (∃ s, FirstSource (fun s => Known (ds s)) (trusted v) s ∧ r.vendor = v ∧
              r.series = (ds s).series ∧ r.model = (ds s).model) ∨
            ((∀ s ∈ trusted v, ¬ Known (ds s)) ∧ r = .unknown))))

/-- Every character of the suffix comes from the same place in the suffix of a source of the same
series. -/
def SuffixFromSources (ds : Source → Chipset) (r : Chipset) : Prop :=
  ∀ (i : Nat) (x : Byte), r.suffix[i]? = some x → ∃ s, (ds s).series = r.series ∧ (ds s).suffix[i]? = some x

/-- Of any two suffixes that sources of a series give, one continues the other. -/
def SuffixesContinue (ds : Source → Chipset) (σ : Series) : Prop :=
  ∀ s s', (ds s).series = σ → (ds s').series = σ → ∀ t u, SuffixText t → SuffixText u → HasSuffix (ds s) t →
    HasSuffix (ds s') u → t <+: u ∨ u <+: t

end Verif.Spec.Chipsets
