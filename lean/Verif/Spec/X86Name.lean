import Verif.Model.X86Cpuid

/-!
# Specification vocabulary for brand strings
-/

set_option autoImplicit false

namespace Verif.Spec

/-- The words of a text: its maximal parts without spaces; `cur` is the word begun. -/
def wordsFrom (cur : Bytes) : Bytes → List Bytes
  | [] => if cur = [] then [] else [cur]
  | c :: l =>
    if c = 32 then (if cur = [] then wordsFrom [] l else cur :: wordsFrom [] l)
    else wordsFrom (cur ++ [c]) l

/-- The words of a text. -/
def words (l : Bytes) : List Bytes := wordsFrom [] l

/-- Words with single spaces between them. -/
def joinWords : List Bytes → Bytes
  | [] => []
  | [w] => w
  | w :: v :: l => w ++ 32 :: joinWords (v :: l)

/-- No two spaces in a row. -/
def NoDouble (s : Bytes) : Prop := ∀ (i : Nat), ¬ (s[i]? = some 32 ∧ s[i + 1]? = some 32)

/-- Words that say nothing about the model: they never appear in a normalized brand string.  Words
with a dash are not listed, because "Dual- Core" is joined to "Dual-Core". -/
def noiseWords : List Bytes :=
  [b!"w/", b!"CPU", b!"SOC", b!"AMD", b!"VIA", b!"IDT", b!"MMX", b!"APU", b!"Intel", b!"Cyrix",
    b!"Radeon", b!"RADEON", b!"family", b!"Genuine", b!"QuadCore", b!"Processor", b!"processor",
    b!"Transmeta"]

/-- Characters that never appear: NUL, tab, parentheses, '@'. -/
def strippedChars : List Byte := [0, 9, 40, 41, 64]

/-- What the brand strings of engineering samples start with. -/
def sampleStarts : List Bytes :=
  [b!"Eng Sample", b!"Eng Sample,", b!"Eng Sample:", b!"Engineering Sample", b!"Engineering Sample,",
   b!"Engineering Sample:", b!"AMD Eng Sample", b!"AMD Eng Sample,", b!"AMD Eng Sample:",
   b!"AMD Engineering Sample", b!"AMD Engineering Sample,", b!"AMD Engineering Sample:"]

/-- The number of an Intel Core processor, such as i7-4770K: "i", a digit, "-", two digits, and then
digits and upper-case letters. -/
def CoreModel (m : Bytes) : Prop :=
  ∃ g d e tail, m = [105, g, 45, d, e] ++ tail ∧ (48 ≤ d ∧ d ≤ 57) ∧ (48 ≤ e ∧ e ≤ 57) ∧
    (48 ≤ g ∧ g ≤ 57) ∧ ∀ c ∈ tail, (48 ≤ c ∧ c ≤ 57) ∨ (65 ≤ c ∧ c ≤ 90)

/-- The brand string of an Intel Core processor with number `m` and frequency `f`. -/
def coreBrand (m f : Bytes) : Bytes := b!"Intel(R) Core(TM) " ++ m ++ b!" CPU @ " ++ f

/-- The number of an AMD Ryzen processor, such as 1700X: a digit from 1 to 9, then digits and upper-case
letters. -/
def RyzenModel (m : Bytes) : Prop :=
  ∃ d tail, m = d :: tail ∧ (49 ≤ d ∧ d ≤ 57) ∧ ∀ c ∈ tail, (48 ≤ c ∧ c ≤ 57) ∨ (65 ≤ c ∧ c ≤ 90)

/-- The series of an AMD Ryzen processor: a digit from 1 to 9, or Threadripper. -/
def RyzenSeries (s : Bytes) : Prop := s = b!"Threadripper" ∨ ∃ g, s = [g] ∧ 49 ≤ g ∧ g ≤ 57

/-- The brand string of an AMD Ryzen processor of series `s` with number `m`, where `w` says how many
cores it has, and `k` spaces follow. -/
def ryzenBrand (s m w : Bytes) (k : Nat) : Bytes :=
  b!"AMD Ryzen " ++ s ++ 32 :: m ++ 32 :: w ++ 32 :: b!"Processor" ++ List.replicate k 32

/-- Numbers of cores as words. -/
def spelledCores : List Bytes :=
  [b!"Dual-Core", b!"Triple-Core", b!"Quad-Core", b!"Six-Core", b!"Eight-Core"]

/-- A number of cores in digits, such as 8-Core. -/
def DigitCores (w : Bytes) : Prop :=
  ∃ d ds, w = d :: ds ++ b!"-Core" ∧ (49 ≤ d ∧ d ≤ 57) ∧ ∀ c ∈ ds, 48 ≤ c ∧ c ≤ 57

/-- Words that are left out of a name. -/
def leftOut : List Bytes :=
  [b!"CPU", b!"AMD", b!"VIA", b!"IDT", b!"Intel", b!"Cyrix", b!"family", b!"Genuine", b!"12-Core", b!"16-Core",
    b!"QuadCore", b!"Six-Core", b!"Processor", b!"processor", b!"Dual-Core", b!"Quad-Core", b!"Transmeta",
    b!"Eight-Core", b!"Triple-Core"]

/-- Words that end a name, or give a meaning to words after them, or have one after other words. -/
def meaningful : List Bytes :=
  [b!"w/", b!"SOC", b!"MMX", b!"APU", b!"Radeon", b!"RADEON", b!"Geode", b!"Eng", b!"Engineering", b!"Dual",
    b!"model", b!"Mobile"]

/-- A word that means nothing special: none of the above; not an upper-case letter; not V and a digit;
not zeros; no dash at either end; no trademark sign "tm", no "AMD-" in front; not a frequency. -/
structure OrdinaryWord (w : Bytes) : Prop where
  nonempty : w ≠ []
  chars : ∀ c ∈ w, c ≠ 32 ∧ c ∉ strippedChars
  other : w ∉ leftOut ∧ w ∉ meaningful
  letter : ∀ c, w = [c] → ¬ (65 ≤ c ∧ c ≤ 90)
  version : ∀ d, w = [86, d] → ¬ (48 ≤ d ∧ d ≤ 57)
  zeros : ∃ c ∈ w, c ≠ 48
  dash : w.head? ≠ some 45 ∧ w.getLast? ≠ some 45
  trademark : ∀ u c, w = u ++ [c, 116, 109] → ¬ ((48 ≤ c ∧ c ≤ 57) ∨ (65 ≤ c ∧ c ≤ 90))
  amd : ¬ b!"AMD-" <+: w
  frequency : ∀ u c, w = u ++ [c, 72, 122] → c ≠ 75 ∧ c ≠ 77 ∧ c ≠ 71

/-- What a word of a brand string says about the model: nothing; or itself; or what stands before a
trademark sign "tm" after a digit or an upper-case letter; or what follows "AMD-". -/
inductive WordSays : Bytes → List Bytes → Prop
  | nothing {w : Bytes} : w ∈ leftOut → WordSays w []
  | itself {w : Bytes} : OrdinaryWord w → WordSays w [w]
  | trademark {v : Bytes} {c : Byte} : OrdinaryWord v → v.getLast? = some c →
      ((48 ≤ c ∧ c ≤ 57) ∨ (65 ≤ c ∧ c ≤ 90)) → WordSays (v ++ b!"tm") [v]
  | amd {v : Bytes} : OrdinaryWord v → WordSays (b!"AMD-" ++ v) [v]

/-- The text `w` stands at offset `p` of `b`. -/
def At (b : Bytes) (p : Nat) (w : Bytes) : Prop := ∃ x y : Bytes, b = x ++ w ++ y ∧ x.length = p

/-- The names of the vendors, as people write them. -/
def vendorNames : List (X86Cpuid.Vendor × Bytes) :=
  [(.intel, b!"Intel"), (.amd, b!"AMD"), (.via, b!"VIA"), (.hygon, b!"Hygon"), (.rdc, b!"RDC"),
    (.dmp, b!"DM&P"), (.transmeta, b!"Transmeta"), (.cyrix, b!"Cyrix"), (.rise, b!"Rise"),
    (.nsc, b!"NSC"), (.sis, b!"SiS"), (.nexgen, b!"NexGen"), (.umc, b!"UMC")]

end Verif.Spec
