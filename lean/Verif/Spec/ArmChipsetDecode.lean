import Verif.Spec.ArmChipset
import Verif.Model.ArmChipsetTables

/-!
# What the chipset decoders mean

Each decoder recognises the patterns of `Spec.ArmChipset` and the platforms of its tables; the first
pattern that fits decides.  The tables themselves are data (Model/ArmChipsetTables).
-/

set_option autoImplicit false

namespace Verif.Spec.Chipsets
open ArmChipset

/-- A pattern: which strings stand for which chipsets. -/
abbrev Pattern := Bytes → Chipset → Prop

/-- The first of the patterns that fits. -/
def First : List Pattern → Pattern
  | [], _, _ => False
  | P :: ps, s, c => P s c ∨ (¬ ∃ d, P s d) ∧ First ps s c

/-- The meaning of a string by the first pattern that fits; unknown if none does. -/
def Decodes (ps : List Pattern) (s : Bytes) (c : Chipset) : Prop :=
  First ps s c ∨ (¬ ∃ d, First ps s d) ∧ c = .unknown

/-- A separator of words: space, tab or comma. -/
def Separator (c : Byte) : Prop := c = 32 ∨ c = 9 ∨ c = 44

/-- A word of letters starts at position `i`. -/
def WordAt (s : Bytes) (i : Nat) : Prop :=
  (∃ c, s[i]? = some c ∧ Letter c) ∧ (i = 0 ∨ ∃ c, s[i - 1]? = some c ∧ Separator c)

/-- The patterns that may start anywhere in the Hardware string. -/
def wordPatterns : List Pattern := [MsmApq, Sdm, Sm, MtWhole, KirinActual, Rk]

/-- The leftmost word of the string at which one of the word patterns fits. -/
def LeftmostWord (s : Bytes) (c : Chipset) : Prop :=
  ∃ i, WordAt s i ∧ First wordPatterns (s.drop i) c ∧
    ∀ j < i, WordAt s j → ¬ ∃ d, First wordPatterns (s.drop j) d

/-- The string is the platform of an entry of the table. -/
def Listed (table : List SpecialEntry) (arm32 : Bool) (s : Bytes) (c : Chipset) : Prop :=
  ∃ e ∈ table, (arm32 = true ∨ e.arm32Only = false) ∧ e.platform = s ∧
    c = chip (seriesVendor e.series) e.series e.model (if e.suffix = 0 then [] else [e.suffix])

/-- Patterns of 32-bit builds only. -/
def on32 (arm32 : Bool) (ps : List Pattern) : List Pattern := if arm32 then ps else []

/-- The patterns of the Hardware string. -/
def hardwarePatterns (arm32 : Bool) (cores freq : Nat) : List Pattern :=
  [LeftmostWord, SamsungExynosActual, Universal] ++ on32 arm32 [fun s => Smdk s cores] ++
    [Sc, UnisocT, UnisocUms] ++ on32 arm32 [Pxa] ++ [fun s => Sunxi arm32 s cores, Bcm] ++
    on32 arm32 [Omap, fun s => Wmt s cores freq] ++ [Tcc, Listed hardwareEntries arm32]

/-- The boards of the table; suffix P stands for PRO. -/
def Boards (arm32 : Bool) (s : Bytes) (c : Chipset) : Prop :=
  ∃ e ∈ boardEntries, (arm32 = true ∨ e.arm32Only = false) ∧ e.platform = s ∧
    c = chip (seriesVendor e.series) e.series e.model
      (if e.suffix = 0 then [] else if e.suffix = 80 then b!"PRO" else [e.suffix])

/-- The patterns of ro.product.board. -/
def boardPatterns (arm32 : Bool) (cores freq : Nat) : List Pattern :=
  [MsmApq, Universal] ++ on32 arm32 [fun s => Smdk s cores] ++ [MtWhole, Sc] ++
    on32 arm32 [Pxa, LcActual, fun s => Broadcom s cores freq] ++ [Huawei, Boards arm32]

/-- "omap4" with two cores at 1008 MHz. -/
def Omap4 (cores freq : Nat) (s : Bytes) (c : Chipset) : Prop :=
  s = b!"omap4" ∧ cores = 2 ∧ freq = 1008000 ∧
    c = chip .texasInstruments .texasInstrumentsOmap 4430 []

/-- The platforms of the Amlogic table. -/
def Amlogic (arm32 : Bool) (s : Bytes) (c : Chipset) : Prop :=
  ∃ e ∈ amlogicEntries, (arm32 = true ∨ e.arm32Only = false) ∧ e.platform = s ∧
    c = chip .amlogic e.series e.model e.suffix

/-- The patterns of ro.board.platform. -/
def platformPatterns (arm32 : Bool) (cores freq : Nat) : List Pattern :=
  [MsmApq, Exynos, MtWhole, KirinActual, Sc, Rk] ++ on32 arm32 [LcActual] ++ [Huawei] ++
    on32 arm32 [fun s => Broadcom s cores freq, Omap4 cores freq] ++
    [Amlogic arm32, Listed platformEntries arm32]

/-- "mp523x". -/
def Mp523x (s : Bytes) (c : Chipset) : Prop := s = b!"mp523x" ∧ c = chip .renesas .renesasMp 5232 []

/-- The patterns of ro.chipname and ro.hardware.chipname. -/
def chipnamePatterns (arm32 : Bool) : List Pattern :=
  [MsmApq, Sm, Exynos, Universal, MtWhole, Sc] ++ on32 arm32 [Pxa, Mp523x]

end Verif.Spec.Chipsets
