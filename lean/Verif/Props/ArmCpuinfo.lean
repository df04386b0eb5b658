import Verif.Proof.ArmBlocks
import Verif.Props.ArmMidr
import Verif.Props.Files

/-!
# C40 - C43, C70 - C73: ARM /proc/cpuinfo
-/

set_option autoImplicit false

namespace Verif.Props
open Spec ArmMidr ArmCpuinfo

/-- **C40 (CPU part).** A value `0x` with one to three hexadecimal digits sets the part field of the
register to that number and no other field, and flags it; any other value changes nothing. -/
theorem C40_part (v : Bytes) (p : Proc) (hp : p.midr < U32) :
    (∀ ds, IsHexText 3 v ds → ∃ x : Nat, Midr.of x = { Midr.of p.midr with part := hexNumber ds } ∧
      parsePart v p = { p with midr := x, flags := p.flags ||| 0x280000 }) ∧
    ((∀ ds, ¬ IsHexText 3 v ds) → parsePart v p = p) := by
  unfold parsePart
  constructor
  · intro ds h
    obtain ⟨e, hlt⟩ := parseHex_good 3 v ds (by omega) h
    rw [e]
    refine ⟨_, ?_, rfl⟩
    rw [(C35_write p.midr (hexNumber ds) hp).2.2.2.1, Nat.mod_eq_of_lt (by omega)]
  · intro h
    rw [parseHex_bad 3 v h]

/-- **C40 (CPU implementer).** The same with one or two digits. -/
theorem C40_implementer (v : Bytes) (p : Proc) (hp : p.midr < U32) :
    (∀ ds, IsHexText 2 v ds →
      ∃ x : Nat, Midr.of x = { Midr.of p.midr with implementer := hexNumber ds } ∧
      parseImplementer v p = { p with midr := x, flags := p.flags ||| 0x220000 }) ∧
    ((∀ ds, ¬ IsHexText 2 v ds) → parseImplementer v p = p) := by
  unfold parseImplementer
  constructor
  · intro ds h
    obtain ⟨e, hlt⟩ := parseHex_good 2 v ds (by omega) h
    rw [e]
    refine ⟨_, ?_, rfl⟩
    rw [(C35_write p.midr (hexNumber ds) hp).1, Nat.mod_eq_of_lt (by omega)]
  · intro h
    rw [parseHex_bad 2 v h]

/-- **C40 (CPU variant).** The same with one digit. -/
theorem C40_variant (v : Bytes) (p : Proc) (hp : p.midr < U32) :
    (∀ ds, IsHexText 1 v ds →
      ∃ x : Nat, Midr.of x = { Midr.of p.midr with variant := hexNumber ds } ∧
      parseVariant v p = { p with midr := x, flags := p.flags ||| 0x240000 }) ∧
    ((∀ ds, ¬ IsHexText 1 v ds) → parseVariant v p = p) := by
  unfold parseVariant
  constructor
  · intro ds h
    obtain ⟨e, hlt⟩ := parseHex_good 1 v ds (by omega) h
    rw [e]
    refine ⟨_, ?_, rfl⟩
    rw [(C35_write p.midr (hexNumber ds) hp).2.1, Nat.mod_eq_of_lt (by omega)]
  · intro h
    rw [parseHex_bad 1 v h]

/-- **C40 (CPU revision).** A decimal number sets the revision field, cut to four bits, and no
other field; a value with any other character changes nothing. -/
theorem C40_revision (v : Bytes) (p : Proc) (hp : p.midr < U32) :
    ((∀ c ∈ v, IsDigit c) →
      ∃ x : Nat, Midr.of x = { Midr.of p.midr with revision := decimal v % 16 } ∧
      parseRevision v p = { p with midr := x, flags := p.flags ||| 0x300000 }) ∧
    ((¬ ∀ c ∈ v, IsDigit c) → parseRevision v p = p) := by
  unfold parseRevision
  constructor
  · intro h
    rw [decimalLoop_spec v h]
    refine ⟨_, ?_, rfl⟩
    rw [(C35_write p.midr _ hp).2.2.2.2, Nat.mod_mod_of_dvd _ (by decide)]
  · intro h
    rw [decimalLoop_bad v 0 h]

/-- Non-vacuity of C40: good values of mixed case, and bad ones. -/
example : IsHexText 3 b!"0xd0B" b!"d0B" ∧ hexNumber b!"d0B" = 0xD0B ∧
    (parsePart b!"0xd0B" Proc.zero).midr = 0xD0B0 ∧ parsePart b!"d0B" Proc.zero = Proc.zero ∧
    parsePart b!"0xd0g" Proc.zero = Proc.zero ∧ parsePart b!"0xd0b1" Proc.zero = Proc.zero := by
  refine ⟨⟨rfl, by decide, by decide, ?_⟩, by decide, by decide, by decide, by decide, by decide⟩
  unfold IsHexDigit; decide

/-- **C41.** For every non-empty Features value without spaces at its ends: a bit of the two feature
words is set afterwards exactly if it was set before or its word is one of the space-separated
words of the value; nothing else changes but the two flags. -/
theorem C41_features_exact (a : Arch) (v : Bytes) (p : Proc) (hne : v ≠ [])
    (hh : v.head? ≠ some 32) (hl : v.getLast? ≠ some 32) :
    ∃ f f2 : Nat, parseFeatures a v p =
      some { p with features := f, features2 := f2, flags := p.flags ||| 0x600000 } ∧
    (∀ k, f.testBit k = true ↔
      p.features.testBit k = true ∨ ∃ w ∈ words v, (w, 1, k) ∈ featureTable a) ∧
    (∀ k, f2.testBit k = true ↔
      p.features2.testBit k = true ∨ ∃ w ∈ words v, (w, 2, k) ∈ featureTable a) := by
  obtain ⟨f, f2, e, h1, h2⟩ := applyFeatures_spec a (words v)
    { p with flags := p.flags ||| (validFeatures ||| validProcessor) }
  refine ⟨f, f2, ?_, h1, h2⟩
  unfold parseFeatures
  rw [featuresLoop_spec a _ v _ (by omega) hne hh hl, e]
  rfl

/-- The hypotheses of C41 hold for the value of every line of every file. -/
theorem C41_values_are_trimmed (line key value : Bytes)
    (h : X86Cpuinfo.splitLine line = some (key, value)) :
    value ≠ [] ∧ value.head? ≠ some 32 ∧ value.getLast? ≠ some 32 := splitLine_value h

/-- Non-vacuity of C41: `asimdhp` does not count as `asimd`, unknown words do nothing. -/
example : (parseFeatures .arm64 b!"fp asimdhp  sve2 crc32" Proc.zero).map (·.features) = some 0x481 ∧
    X86Cpuinfo.splitLine b!"Features\t: fp asimdhp  sve2 crc32  " =
      some (b!"Features", b!"fp asimdhp  sve2 crc32") := by decide

/-- **C42 is violated (overrun).** A Hardware value of exactly 64 characters, or a Revision value of
exactly 9, makes the parser write one byte past the 64-byte and 9-byte buffers. -/
theorem C42_violated_overrun (v buf : Bytes) :
    (buf.length = 64 → v.length = 64 → storeText buf 64 v = none) ∧
    (buf.length = 9 → v.length = 9 → storeText buf 9 v = none) := by
  constructor <;>
  · intro h1 h2
    unfold storeText
    rw [if_neg (by omega), if_neg (by omega)]

/-- The overrun is reached from a file. -/
theorem C42_violated_by_file : ∃ content : Bytes,
    parseProcCpuinfo .arm64 (some content) (fun _ => some 512) (List.replicate 64 1)
      (List.replicate 9 1) 1 [Proc.zero] = some (none, true) ∧
    parseProcCpuinfo .arm64 (some content) (fun _ => some 512) (List.replicate 65 1)
      (List.replicate 10 1) 1 [Proc.zero] ≠ some (none, true) :=
  ⟨b!"Hardware\t: " ++ List.replicate 64 65 ++ b!"\n", by decide +kernel, by decide +kernel⟩

/-- **C42 is violated (termination).** A longer value without NUL fills the whole buffer, leaving no
terminating NUL. -/
theorem C42_violated_unterminated (v buf : Bytes) (max : Nat) (hb : buf.length = max)
    (hv : max < v.length) (h0 : 0 ∉ v) :
    ∃ buf' : Bytes, storeText buf max v = some buf' ∧ buf'.length = max ∧ 0 ∉ buf' := by
  unfold storeText
  rw [if_pos hv, if_pos (by omega), List.drop_eq_nil_of_le (by omega), List.append_nil]
  exact ⟨_, rfl, by simp; omega, fun h => h0 (List.mem_of_mem_take h)⟩

/-- **C42, for values that fit.** A value shorter than the buffer is stored whole, followed by a NUL
inside the buffer; the rest of the buffer stays.  Missing: values of at least the buffer's size,
where the claim fails. -/
theorem C42_stored_partial (v buf : Bytes) (max : Nat) (hb : buf.length = max) (hv : v.length < max) :
    ∃ buf' : Bytes, storeText buf max v = some buf' ∧ buf'.length = max ∧ v <+: buf' ∧
      buf'[v.length]? = some 0 ∧ ∀ i, v.length < i → buf'[i]? = buf[i]? := by
  unfold storeText
  rw [if_neg (by omega), if_pos (by omega)]
  refine ⟨_, rfl, by simp; omega, List.prefix_append _ _, by simp, ?_⟩
  intro i hi
  rw [List.getElem?_append_right (by omega)]
  obtain ⟨j, rfl⟩ : ∃ j, i = v.length + 1 + j := ⟨i - v.length - 1, by omega⟩
  rw [show v.length + 1 + j - v.length = j + 1 by omega, List.getElem?_cons_succ, List.getElem?_drop]

/-- Non-vacuity of C42: "BCM2835" in a Revision buffer. -/
example : storeText (List.replicate 9 1) 9 b!"a02082" = some (b!"a02082" ++ [0, 1, 1]) := by decide

/-- **C43 (symmetry).** Both comparisons are symmetric. -/
theorem C43_symmetric (i j : Proc) :
    processorEquals i j = processorEquals j i ∧ processorNotEquals i j = processorNotEquals j i := by
  unfold processorEquals processorNotEquals
  rw [Nat.and_comm j.flags i.flags]
  simp only [ne_comm (a := j.maxFrequency), ne_comm (a := j.minFrequency), ne_comm (a := j.midr),
    and_true]
  by_cases h3 : i.midr = j.midr
  · simp only [h3]
  · simp only [h3, Ne.symm h3, and_false, if_false]

/-- **C43 is violated.** Two processors with different known registers and equal known frequencies
count as equal and as not equal. -/
theorem C43_violated : ∃ i j : Proc,
    processorEquals i j = true ∧ processorNotEquals i j = true :=
  ⟨{ Proc.zero with midr := 0x410FD034, maxFrequency := 1000, minFrequency := 500, flags := 0x3F000C },
   { Proc.zero with midr := 0x410FD080, maxFrequency := 1000, minFrequency := 500, flags := 0x3F000C },
   by decide, by decide⟩

/-- **C43, the rest.** Unless both registers are known and differ, the comparisons are never both
true.  Missing: processors with known different registers, where the claim fails. -/
theorem C43_exclusive_partial (i j : Proc)
    (h : i.flags &&& j.flags &&& validMidr = validMidr → i.midr = j.midr) :
    ¬ (processorEquals i j = true ∧ processorNotEquals i j = true) := by
  rintro ⟨h1, h2⟩
  unfold processorEquals at h1
  unfold processorNotEquals at h2
  dsimp only at h1 h2
  split at h1
  · cases h1
  · rename_i g1
    rw [if_neg g1] at h2
    split at h1
    · cases h1
    · rename_i g2
      rw [if_neg g2, if_neg (fun g => g.2 (h g.1))] at h2
      cases h2

/-- **C43 (identity).** Processors whose frequencies and registers agree wherever both are known are
never 'not equal'; and 'not equal' always has a reason. -/
theorem C43_not_equal_iff (i j : Proc) :
    processorNotEquals i j = true ↔
      (i.flags &&& j.flags &&& 0x4 ≠ 0 ∧ i.maxFrequency ≠ j.maxFrequency) ∨
      (i.flags &&& j.flags &&& 0x8 ≠ 0 ∧ i.minFrequency ≠ j.minFrequency) ∨
      (i.flags &&& j.flags &&& 0x3F0000 = 0x3F0000 ∧ i.midr ≠ j.midr) := by
  unfold processorNotEquals validMidr
  dsimp only
  by_cases h1 : i.flags &&& j.flags &&& 0x4 ≠ 0 ∧ i.maxFrequency ≠ j.maxFrequency
  · rw [if_pos h1]; simp [h1]
  · rw [if_neg h1]
    by_cases h2 : i.flags &&& j.flags &&& 0x8 ≠ 0 ∧ i.minFrequency ≠ j.minFrequency
    · rw [if_pos h2]; simp [h2]
    · rw [if_neg h2]
      by_cases h3 : i.flags &&& j.flags &&& 0x3F0000 = 0x3F0000 ∧ i.midr ≠ j.midr
      · rw [if_pos h3]; simp [h3]
      · rw [if_neg h3]; simp only [h1, h2, h3, or_self, Bool.false_eq_true]

/-- Non-vacuity of C43: different registers, one of them not fully known. -/
example : processorNotEquals { Proc.zero with midr := 1, flags := 0x3F0000 }
      { Proc.zero with midr := 2, flags := 0x3E0000 } = false ∧
    processorNotEquals { Proc.zero with midr := 1, flags := 0x3F0000 }
      { Proc.zero with midr := 2, flags := 0x3F0000 } = true := by decide

/-- The register code for "CPU architecture" `version` with the letters T, E, J (Arm Architecture
Reference Manual): 0x7 for ARMv6, 0x6 for ARMv5TEJ, 0x5 for ARMv5TE, 0x4 for other ARMv5, and 0xF
("see the ID registers") otherwise; always 0xF for 64-bit processors. -/
def documentedCode (a : Arch) (version : Nat) (t e j : Prop) [Decidable t] [Decidable e]
    [Decidable j] : Nat :=
  match a with
  | .arm64 => 15
  | .arm =>
    if version = 6 then 7
    else if version ≠ 5 then 15
    else if t ∧ e ∧ j then 6
    else if t ∧ e then 5
    else 4

theorem architectureDigits_eq (ds rest : Bytes) (h : ∀ c ∈ ds, IsDigit c)
    (hr : ∀ c, rest.head? = some c → ¬ IsDigit c) : ∀ n, n < U32 →
    architectureDigits (ds ++ rest) n = (CpuList.decFrom n ds % U32, rest) := by
  induction ds with
  | nil =>
    intro n hn
    cases rest with
    | nil => simp [architectureDigits, CpuList.decFrom]; omega
    | cons c rest =>
      have hc := mt (CpuList.digitVal_lt c).mp (hr c rfl)
      simp [architectureDigits, CpuList.decFrom]
      rw [if_pos (by omega)]
      simp; omega
  | cons d ds ih =>
    intro n hn
    have hd := h d (by simp)
    have h1 := (CpuList.digitVal_lt d).mpr hd
    rw [List.cons_append, architectureDigits, if_neg (by omega),
      ih (fun x hx => h x (by simp [hx])) _ (by omega), CpuList.digitVal_eq hd, CpuList.decFrom_mod]
    rfl

theorem architectureLetters_bits (l : Bytes) : ∀ f,
    ((architectureLetters .arm l f).testBit 0 = true ↔ f.testBit 0 = true ∨ 84 ∈ l) ∧
    ((architectureLetters .arm l f).testBit 1 = true ↔ f.testBit 1 = true ∨ 69 ∈ l) ∧
    ((architectureLetters .arm l f).testBit 2 = true ↔ f.testBit 2 = true ∨ 74 ∈ l) := by
  induction l with
  | nil => intro f; simp [architectureLetters]
  | cons c l ih =>
    intro f
    rw [architectureLetters]
    have t10 : Nat.testBit 1 0 = true := by decide
    have t11 : Nat.testBit 1 1 = false := by decide
    have t12 : Nat.testBit 1 2 = false := by decide
    have t20 : Nat.testBit 2 0 = false := by decide
    have t21 : Nat.testBit 2 1 = true := by decide
    have t22 : Nat.testBit 2 2 = false := by decide
    have t40 : Nat.testBit 4 0 = false := by decide
    have t41 : Nat.testBit 4 1 = false := by decide
    have t42 : Nat.testBit 4 2 = true := by decide
    by_cases h1 : c = 84
    · subst h1
      rw [if_pos rfl]
      obtain ⟨a1, a2, a3⟩ := ih (f ||| 1)
      rw [a1, a2, a3, Nat.testBit_or, Nat.testBit_or, Nat.testBit_or, t10, t11, t12]
      simp
    · rw [if_neg h1]
      by_cases h2 : c = 69
      · subst h2
        rw [if_pos rfl]
        obtain ⟨a1, a2, a3⟩ := ih (f ||| 2)
        rw [a1, a2, a3, Nat.testBit_or, Nat.testBit_or, Nat.testBit_or, t20, t21, t22]
        simp
      · rw [if_neg h2]
        by_cases h3 : c = 74
        · subst h3
          rw [if_pos rfl]
          obtain ⟨a1, a2, a3⟩ := ih (f ||| 4)
          rw [a1, a2, a3, Nat.testBit_or, Nat.testBit_or, Nat.testBit_or, t40, t41, t42]
          simp
        · rw [if_neg h3]
          obtain ⟨a1, a2, a3⟩ := ih f
          rw [a1, a2, a3]
          simp [Ne.symm h1, Ne.symm h2, Ne.symm h3]

theorem and7 (f : Nat) : (f &&& 7 = 7 ↔ f.testBit 0 = true ∧ f.testBit 1 = true ∧ f.testBit 2 = true) ∧
    (f &&& 3 = 3 ↔ f.testBit 0 = true ∧ f.testBit 1 = true) := by
  have e7 : f &&& 7 = f % 8 := Nat.and_two_pow_sub_one_eq_mod f 3
  have e3 : f &&& 3 = f % 4 := Nat.and_two_pow_sub_one_eq_mod f 2
  rw [e7, e3]
  simp only [Nat.testBit_eq_decide_div_mod_eq, decide_eq_true_eq]
  omega

/-- **C70, for proper values.** A "CPU architecture" value that starts with a non-zero decimal
number (fitting 32 bits) sets the version to that number and the architecture field of the register
to the documented code, and flags it; `AArch64` counts as version 8.  Missing: other values, see
`C70_violated`. -/
theorem C70_architecture_partial (a : Arch) (p : Proc) (hp : p.midr < U32) :
    (∀ ds rest : Bytes, ds ≠ [] → (∀ c ∈ ds, IsDigit c) →
      (∀ c, rest.head? = some c → ¬ IsDigit c) → decimal ds < U32 → decimal ds ≠ 0 →
      p.architectureFlags = 0 → ∃ x f : Nat,
        parseArchitecture a (ds ++ rest) p =
          { p with architectureVersion := decimal ds, architectureFlags := f, midr := x,
                   flags := p.flags ||| 0x210000 } ∧
        Midr.of x = { Midr.of p.midr with
          architecture := documentedCode a (decimal ds) (84 ∈ rest) (69 ∈ rest) (74 ∈ rest) }) ∧
    (∃ x : Nat, parseArchitecture a b!"AArch64" p =
        { p with architectureVersion := 8, midr := x, flags := p.flags ||| 0x210000 } ∧
      Midr.of x = { Midr.of p.midr with architecture := 15 }) := by
  constructor
  · intro ds rest hne hds hrest hlt h0 hf
    obtain ⟨d, ds', rfl⟩ := List.exists_cons_of_ne_nil hne
    have hd := hds d (by simp)
    unfold parseArchitecture
    rw [if_neg (by
      intro e
      have := (List.cons.inj e).1
      unfold IsDigit at hd
      omega)]
    rw [architectureDigits_eq _ _ hds hrest 0 (by omega), ← CpuList.decimal_eq,
      Nat.mod_eq_of_lt hlt]
    dsimp only
    rw [if_neg (by simp; omega), if_pos h0]
    refine ⟨_, _, rfl, ?_⟩
    rw [(C35_write p.midr _ hp).2.2.1]
    congr 1
    dsimp only
    rw [hf]
    cases a with
    | arm64 => rfl
    | arm =>
      obtain ⟨b1, b2, b3⟩ := architectureLetters_bits rest 0
      simp only [Nat.zero_testBit, Bool.false_eq_true, false_or] at b1 b2 b3
      obtain ⟨a7, a3⟩ := and7 (architectureLetters .arm rest 0)
      unfold architectureCode documentedCode
      dsimp only
      simp only [a7, a3, b1, b2, b3]
      by_cases h6 : decimal (d :: ds') = 6
      · simp [h6]
      · by_cases h5 : decimal (d :: ds') = 5
        · simp only [h5]
          by_cases g1 : 84 ∈ rest <;> by_cases g2 : 69 ∈ rest <;> by_cases g3 : 74 ∈ rest <;>
            simp [g1, g2, g3]
        · simp [h5, h6]
  · unfold parseArchitecture
    rw [if_pos rfl]
    exact ⟨_, rfl, (C35_write p.midr 15 hp).2.2.1⟩

/-- **C70 is violated.** A malformed "CPU architecture" value does not leave the processor
unchanged: it rewrites the architecture field of the register (here of an ARM1176 core). -/
theorem C70_violated : ∃ p : Proc, p.midr < U32 ∧ p.midr = 0x410FB760 - 0x80000 ∧
    (parseArchitecture .arm b!"unknown" p).midr ≠ p.midr ∧
    (parseArchitecture .arm b!"unknown" p).flags = p.flags :=
  ⟨{ Proc.zero with midr := 0x4107B760 }, by decide, by decide, by decide, by decide⟩

/-- **C70 (damage is limited).** A value that does not start with a digit and is not `AArch64`
changes at most the architecture field of the register; nothing is flagged. -/
theorem C70_malformed_touches_only_architecture (a : Arch) (v : Bytes) (p : Proc) (hp : p.midr < U32)
    (hv : v ≠ b!"AArch64") (hd : ∀ c, v.head? = some c → ¬ IsDigit c) : ∃ x c : Nat,
    parseArchitecture a v p = { p with midr := x } ∧
    Midr.of x = { Midr.of p.midr with architecture := c } := by
  unfold parseArchitecture
  rw [if_neg hv]
  have := architectureDigits_eq [] v (by simp) hd 0 (by omega)
  rw [List.nil_append] at this
  rw [this]
  dsimp only
  rw [if_pos rfl]
  exact ⟨_, _, rfl, (C35_write p.midr _ hp).2.2.1⟩

/-- Non-vacuity of C70: ARMv5TEJ, ARMv7 and ARMv8 values. -/
example : (parseArchitecture .arm b!"5TEJ" Proc.zero).midr = 0x60000 ∧
    (parseArchitecture .arm b!"7" Proc.zero).midr = 0xF0000 ∧
    parseArchitecture .arm64 b!"8" Proc.zero = parseArchitecture .arm64 b!"AArch64" Proc.zero := by
  decide

/-- **C71, for proper values.** A decimal cache number that fits 32 bits is stored in its field and
flagged; a value with any other character changes nothing.  Missing: zero and odd line lengths
should be ignored but are stored too, see `C71_violated`. -/
theorem C71_cache_number_partial (v : Bytes) (set : Nat → CacheNumbers → CacheNumbers) (mask : Nat)
    (p : Proc) :
    ((∀ c ∈ v, IsDigit c) → decimal v < U32 → parseCacheNumber v set mask p =
      { p with cache := set (decimal v) p.cache, flags := p.flags ||| (mask ||| 0x200000) }) ∧
    ((¬ ∀ c ∈ v, IsDigit c) → parseCacheNumber v set mask p = p) := by
  unfold parseCacheNumber
  constructor
  · intro h hlt
    rw [decimalLoop_spec v h, Nat.mod_eq_of_lt hlt]
    rfl
  · intro h
    rw [decimalLoop_bad v 0 h]

/-- **C71 is violated.** Zero and line lengths that are not a power of two are reported as ignored,
yet stored and flagged as valid. -/
theorem C71_violated : ∃ st : State,
    parseKeyValue .arm 1 ⟨[], [], 0, [Proc.zero]⟩ b!"I sets" b!"0" = some st ∧
    (st.table.map fun p => p.flags) = [validIcacheSets ||| validProcessor] ∧
    ∃ st2 : State, parseKeyValue .arm 1 st b!"D line length" b!"33" = some st2 ∧
      (st2.table.map fun p => (p.cache.dLine, p.flags)) =
        [(33, validDcacheLine ||| validIcacheSets ||| validProcessor)] :=
  ⟨_, rfl, by decide, _, rfl, by decide⟩

/-- What one line may do to the buffers and the table. -/
theorem C72_step (a : Arch) (m hb rb n : Nat) (hmn : m ≤ n) (st : State) (l : Bytes) (k : Nat)
    (h1 : st.hardware.length = hb) (h2 : st.revision.length = rb) (h3 : st.table.length = n)
    (hh : 64 ≤ hb) (hr : 9 ≤ rb)
    (hv : ∀ v, X86Cpuinfo.splitLine l = some (b!"Hardware", v) → hb = 64 → v.length ≠ 64)
    (hw : ∀ v, X86Cpuinfo.splitLine l = some (b!"Revision", v) → rb = 9 → v.length ≠ 9) :
    ∃ st' : State, parseLine a m (some st) l k = (some st', true) ∧
      st'.hardware.length = hb ∧ st'.revision.length = rb ∧ st'.table.length = n := by
  have store : ∀ (buf v : Bytes) (max : Nat), max ≤ buf.length → (buf.length = max → v.length ≠ max) →
      ∃ b' : Bytes, storeText buf max v = some b' ∧ b'.length = buf.length := by
    intro buf v max h1 h2
    unfold storeText
    by_cases hgt : v.length > max
    · rw [if_pos hgt, if_pos h1]
      exact ⟨_, rfl, by simp; omega⟩
    · rw [if_neg hgt, if_pos (by omega)]
      exact ⟨_, rfl, by simp; omega⟩
  unfold parseLine
  simp only [Option.bind_some]
  split
  · exact ⟨st, rfl, h1, h2, h3⟩
  · rename_i key value hs
    unfold parseKeyValue
    by_cases c1 : key = b!"Hardware"
    · subst c1
      rw [if_pos rfl]
      obtain ⟨b', e, hb'⟩ := store st.hardware value 64 (by omega)
        (fun h => hv value hs (by omega))
      rw [e]
      exact ⟨_, rfl, by dsimp only; omega, h2, h3⟩
    · rw [if_neg c1]
      by_cases c2 : key = b!"Revision"
      · subst c2
        rw [if_pos rfl]
        obtain ⟨b', e, hb'⟩ := store st.revision value 9 (by omega)
          (fun h => hw value hs (by omega))
        rw [e]
        exact ⟨_, rfl, h1, by dsimp only; omega, h3⟩
      · rw [if_neg c2]
        by_cases c3 : key = b!"processor"
        · rw [if_pos c3]
          dsimp only
          split
          · rename_i hlt
            rw [List.getElem?_eq_getElem (by omega)]
            exact ⟨_, rfl, h1, h2, by simpa using h3⟩
          · exact ⟨_, rfl, h1, h2, h3⟩
        · rw [if_neg c3]
          obtain ⟨v1, v2, v3⟩ := splitLine_value hs
          have total : ∀ f, fieldParser a key value = some f → ∀ p, ∃ p', f p = some p' := by
            intro f hf p
            unfold fieldParser at hf
            by_cases d1 : key = b!"CPU part"
            · rw [if_pos d1] at hf; cases hf; exact ⟨_, rfl⟩
            · rw [if_neg d1] at hf
              by_cases d2 : key = b!"Features"
              · rw [if_pos d2] at hf; cases hf
                obtain ⟨f, f2, e, _⟩ := C41_features_exact a value p v1 v2 v3
                exact ⟨_, e⟩
              · rw [if_neg d2] at hf
                have pass : ∀ (c : Prop) [Decidable c] (x y : Option (Proc → Option Proc)),
                    (x = some f → ∃ p', f p = some p') → (y = some f → ∃ p', f p = some p') →
                    (if c then x else y) = some f → ∃ p', f p = some p' := by
                  intro c _ x y hx hy h
                  by_cases hc : c
                  · rw [if_pos hc] at h; exact hx h
                  · rw [if_neg hc] at h; exact hy h
                have one : ∀ g : Proc → Proc, (some fun p => some (g p)) = some f →
                    ∃ p', f p = some p' := by
                  intro g h; cases h; exact ⟨_, rfl⟩
                revert hf
                refine pass _ _ _ (one _) (pass _ _ _ (one _) (pass _ _ _ (one _)
                  (pass _ _ _ (one _) (pass _ _ _ (one _) ?_))))
                cases a with
                | arm64 => intro h; cases h
                | arm =>
                  exact pass _ _ _ (one _) (pass _ _ _ (one _) (pass _ _ _ (one _)
                    (pass _ _ _ (one _) (pass _ _ _ (one _) (pass _ _ _ (one _)
                    (pass _ _ _ (one _) (pass _ _ _ (one _) (fun h => by cases h))))))))
          split
          · exact ⟨_, rfl, h1, h2, h3⟩
          · rename_i f hf
            unfold State.update
            split
            · rename_i hlt
              rw [List.getElem?_eq_getElem (by omega)]
              dsimp only
              obtain ⟨p', e⟩ := total f hf st.table[st.index]
              rw [e]
              exact ⟨_, rfl, h1, h2, by simpa using h3⟩
            · exact ⟨_, rfl, h1, h2, h3⟩

/-- **C72 (memory safety but for the two texts).** For every file, every read behaviour and any
number of processors up to the table's size, the only out-of-bounds access of the parser is the one
byte past the Hardware and Revision buffers: with one spare byte after each it never leaves them
nor the processor table. -/
theorem C72_memory_safe_with_spare_byte (a : Arch) (file : Option Bytes) (sched : Sched)
    (hardware revision : Bytes) (m : Nat) (table : List Proc) (hh : hardware.length = 65)
    (hr : revision.length = 10) (hm : m ≤ table.length) :
    ∃ (st : State) (ok : Bool), parseProcCpuinfo a file sched hardware revision m table =
      some (some st, ok) ∧ st.table.length = table.length ∧ st.hardware.length = 65 ∧
      st.revision.length = 10 := by
  unfold parseProcCpuinfo Multiline.parse
  cases file with
  | none => exact ⟨_, false, rfl, rfl, by simpa using hh, hr⟩
  | some content =>
    obtain ⟨s', ok, e, st, rfl, i1, i2, i3⟩ := Multiline.loop_invariant (parseLine a m)
      (fun s => ∃ st : State, s = some st ∧ st.hardware.length = 65 ∧ st.revision.length = 10 ∧
        st.table.length = table.length)
      (by
        rintro s l n ⟨st, rfl, j1, j2, j3⟩
        obtain ⟨st', e, k1, k2, k3⟩ := C72_step a m 65 10 table.length hm st l n j1 j2 j3
          (by omega) (by omega) (fun _ _ h => absurd h (by omega)) (fun _ _ h => absurd h (by omega))
        rw [e]
        exact ⟨st', rfl, k1, k2, k3⟩)
      1024 sched (content.length + 1) 0 [] content
      (some { hardware := hardware.set 0 0, revision, index := 0, table }) 1
      ⟨_, rfl, by simpa using hh, hr, rfl⟩ (by omega)
    exact ⟨st, ok, e, i3, i1, i2⟩

/-- **C72 (exact buffers).** With the real 64-byte and 9-byte buffers no access is out of bounds as
long as no line gives a Hardware value of exactly 64 or a Revision value of exactly 9 characters. -/
theorem C72_memory_safe_partial (a : Arch) (ls : List Bytes) (sched : Sched) (hs : sched.NoError)
    (hardware revision : Bytes) (m : Nat) (table : List Proc) (hh : hardware.length = 64)
    (hr : revision.length = 9) (hm : m ≤ table.length) (hne : ls ≠ [])
    (hnl : ∀ l ∈ ls, 10 ∉ l) (hfit : LinesFit 1024 ls)
    (hv : ∀ l ∈ ls, ∀ v, X86Cpuinfo.splitLine l = some (b!"Hardware", v) → v.length ≠ 64)
    (hw : ∀ l ∈ ls, ∀ v, X86Cpuinfo.splitLine l = some (b!"Revision", v) → v.length ≠ 9) :
    ∃ st : State, parseProcCpuinfo a (some (joinLines ls)) sched hardware revision m table =
      some (some st, true) ∧ st.table.length = table.length := by
  unfold parseProcCpuinfo
  rw [C06_lines_independent_of_reads _ _ _ _ hs _ hne hnl hfit]
  have run : ∀ (ls : List Bytes) (st : State) (k : Nat), st.hardware.length = 64 →
      st.revision.length = 9 → st.table.length = table.length →
      (∀ l ∈ ls, ∀ v, X86Cpuinfo.splitLine l = some (b!"Hardware", v) → v.length ≠ 64) →
      (∀ l ∈ ls, ∀ v, X86Cpuinfo.splitLine l = some (b!"Revision", v) → v.length ≠ 9) →
      ∃ st' : State, runLines (parseLine a m) (some st) k ls = (some st', true) ∧
        st'.table.length = table.length := by
    intro ls
    induction ls with
    | nil => intro st k _ _ h3 _ _; exact ⟨st, rfl, h3⟩
    | cons l ls ih =>
      intro st k h1 h2 h3 h4 h5
      obtain ⟨st', e, k1, k2, k3⟩ := C72_step a m 64 9 table.length hm st l k h1 h2 h3
        (by omega) (by omega) (fun v e _ => h4 l (by simp) v e) (fun v e _ => h5 l (by simp) v e)
      rw [runLines_cons a m st st' l k ls e]
      exact ih st' (k + 1) k1 k2 k3 (fun x hx => h4 x (by simp [hx])) (fun x hx => h5 x (by simp [hx]))
  obtain ⟨st', e, h⟩ := run ls { hardware := hardware.set 0 0, revision, index := 0, table } 1
    (by simpa using hh) hr rfl hv hw
  rw [e]
  exact ⟨st', rfl, h⟩

/-- **C73.** For every /proc/cpuinfo text of a 64-bit kernel, whose blocks have distinct processor
numbers and lines that fit the buffer, with or without a final Hardware line, and every split of
the reads: every listed processor below the limit gets its register, architecture version 8, all
seven flags and exactly the capability bits of its feature words; other entries are unchanged; and
the Hardware text is stored. -/
theorem C73_kernel_text (a : Arch) (bs : List ArmBlock) (hw : Option Bytes) (sched : Sched)
    (hs : sched.NoError) (hardware revision : Bytes) (m : Nat) (table : List Proc)
    (hbs : ∀ b ∈ bs, b.Ok) (hne : bs ≠ []) (hd : (bs.map ArmBlock.number).Nodup)
    (hm : m ≤ table.length) (hbuf : hardware.length = 64)
    (htab : ∀ p ∈ table, p.midr < U32)
    (hhw : ∀ v, hw = some v → v ≠ [] ∧ v.head? ≠ some 32 ∧ v.getLast? ≠ some 32 ∧ 10 ∉ v ∧
      v.length < 64)
    (hfit : LinesFit 1024 (bs.flatMap ArmBlock.lines ++
      (hw.map fun v => b!"Hardware\t: " ++ v).toList)) :
    ∃ st : State, parseProcCpuinfo a (some (joinLines (bs.flatMap ArmBlock.lines ++
        (hw.map fun v => b!"Hardware\t: " ++ v).toList))) sched hardware revision m table =
        some (some st, true) ∧
      (∀ b ∈ bs, b.number < m → ∀ p, table[b.number]? = some p → ∃ f f2 : Nat,
        st.table[b.number]? = some { p with
          features := f, features2 := f2, architectureVersion := 8, midr := b.midr.word,
          flags := p.flags ||| 0x7F0000 } ∧
        (∀ k, f.testBit k = true ↔ p.features.testBit k = true ∨
          ∃ w ∈ b.features, (w, 1, k) ∈ featureTable a) ∧
        (∀ k, f2.testBit k = true ↔ p.features2.testBit k = true ∨
          ∃ w ∈ b.features, (w, 2, k) ∈ featureTable a)) ∧
      (∀ i, (∀ b ∈ bs, b.number = i → m ≤ i) → st.table[i]? = table[i]?) ∧
      (∀ v, hw = some v → v <+: st.hardware ∧ st.hardware[v.length]? = some 0) ∧
      st.revision = revision := by
  have hnl : ∀ l ∈ bs.flatMap ArmBlock.lines ++ (hw.map fun v => b!"Hardware\t: " ++ v).toList,
      10 ∉ l := by
    intro l hl
    rcases List.mem_append.mp hl with hl | hl
    · obtain ⟨b, hb, hl⟩ := List.mem_flatMap.mp hl
      obtain ⟨h1, h2, h3, h4, ⟨m1, m2, m3, m4, m5⟩, _⟩ := hbs b hb
      have hx : ∀ (k n : Nat), n < 16 ^ k → 10 ∉ printHex k n := by
        intro k n hn hc
        have := (printHex_spec k n hn).2.1 10 hc
        unfold IsHexDigit at this
        omega
      have hn : ∀ n, 10 ∉ printNat n := by
        intro n hc
        have := (printNat_numeral n).2 10 hc
        unfold IsDigit at this
        omega
      have hj : 10 ∉ joinWords b.features := by
        intro hc
        rcases mem_joinWords _ _ hc with e | ⟨w, hw, hc⟩
        · omega
        · exact (h3 w hw).2.2 hc
      have e1 := hx 2 _ m1
      have e2 := hx 1 _ m2
      have e3 := hx 3 _ m4
      have e4 := hn b.number
      have e5 := hn b.midr.revision
      unfold ArmBlock.lines at hl
      simp only [List.mem_cons, List.not_mem_nil, or_false] at hl
      rcases hl with rfl | rfl | rfl | rfl | rfl | rfl | rfl | rfl | rfl <;>
        first
          | (rw [List.mem_append, not_or]; exact ⟨by decide, by assumption⟩)
          | decide
    · cases hw with
      | none => simp at hl
      | some v =>
        simp only [Option.map_some, Option.toList_some, List.mem_singleton] at hl
        rw [hl, List.mem_append]
        rintro (e | e)
        · revert e; decide
        · exact (hhw v rfl).2.2.2.1 e
  have hne' : bs.flatMap ArmBlock.lines ++ (hw.map fun v => b!"Hardware\t: " ++ v).toList ≠ [] := by
    obtain ⟨b, bs', rfl⟩ := List.exists_cons_of_ne_nil hne
    intro e
    have := congrArg List.length e
    rw [List.flatMap_cons] at this
    simp [ArmBlock.lines] at this
  have tab : ∀ t : List Proc, t = bs.foldl (fun t b => upd m b.number (blockProc a b) t) table →
      (∀ b ∈ bs, b.number < m → ∀ p, table[b.number]? = some p → ∃ f f2 : Nat,
        t[b.number]? = some { p with
          features := f, features2 := f2, architectureVersion := 8, midr := b.midr.word,
          flags := p.flags ||| 0x7F0000 } ∧
        (∀ k, f.testBit k = true ↔ p.features.testBit k = true ∨
          ∃ w ∈ b.features, (w, 1, k) ∈ featureTable a) ∧
        (∀ k, f2.testBit k = true ↔ p.features2.testBit k = true ∨
          ∃ w ∈ b.features, (w, 2, k) ∈ featureTable a)) ∧
      (∀ i, (∀ b ∈ bs, b.number = i → m ≤ i) → t[i]? = table[i]?) := by
    rintro t rfl
    constructor
    · intro b hb hlt p hp
      rw [(foldl_upd_get a m bs b.number hd table).1 b hb rfl hlt, hp]
      obtain ⟨f, f2, e, h⟩ := blockProc_spec a b (hbs b hb) p (htab p (List.mem_of_getElem? hp))
      exact ⟨f, f2, by rw [Option.map_some, e], h⟩
    · intro i hi
      apply (foldl_upd_get a m bs i hd table).2
      intro b hb e
      have := hi b hb e
      omega
  unfold parseProcCpuinfo
  rw [C06_lines_independent_of_reads _ _ _ _ hs _ hne' hnl hfit]
  obtain ⟨idx, k', e⟩ := run_blocks a m bs hbs (hw.map fun v => b!"Hardware\t: " ++ v).toList
    { hardware := hardware.set 0 0, revision, index := 0, table } 1 hm
  rw [e]
  cases hw with
  | none =>
    refine ⟨_, rfl, (tab _ rfl).1, (tab _ rfl).2, ?_, rfl⟩
    intro v hv
    cases hv
  | some v =>
    obtain ⟨v1, v2, v3, v4, v5⟩ := hhw v rfl
    have hsp : X86Cpuinfo.splitLine (b!"Hardware\t: " ++ v) = some (b!"Hardware", v) := by
      have := X86Cpuinfo.splitLine_eq b!"Hardware" b!"\t" [32] v [] (by decide) (by decide)
        (by decide) (by decide) (by simp) (by simp) v1
        (by intro c hc e; subst e; exact v2 hc) (by intro c hc e; subst e; exact v3 hc)
      simpa using this
    obtain ⟨buf', eb, b1, b2, b3, _⟩ := C42_stored_partial v (hardware.set 0 0) 64
      (by simpa using hbuf) v5
    rw [Option.map_some, Option.toList_some, runLines_cons a m _ {
        hardware := buf'
        revision := revision
        index := idx
        table := bs.foldl (fun t b => upd m b.number (blockProc a b) t) table } _ _ _ (by
      unfold parseLine
      simp only [Option.bind_some, hsp]
      unfold parseKeyValue
      rw [if_pos rfl]
      dsimp only
      rw [eb]
      rfl)]
    refine ⟨_, rfl, (tab _ rfl).1, (tab _ rfl).2, ?_, rfl⟩
    intro w hw
    cases hw
    exact ⟨b2, b3⟩

/-- Non-vacuity of C73: the blocks of a Cortex-A53 and a Cortex-A73 meet the hypotheses. -/
example : (ArmBlock.mk 0 b!"3.84" [b!"fp", b!"asimd"] ⟨0x41, 0, 15, 0xD03, 4⟩).Ok ∧
    (ArmBlock.mk 4 b!"3.84" [b!"fp", b!"crc32"] ⟨0x41, 0, 15, 0xD09, 2⟩).lines[6]? =
      some b!"CPU part\t: 0xd09" := by
  refine ⟨⟨by decide, by decide, by decide, by decide, ?_, by decide⟩, by decide⟩
  unfold Midr.Ok; decide

/-- C73 at work: one block of two fits, a Hardware line follows. -/
example : (parseProcCpuinfo .arm64 (some (joinLines
      ((ArmBlock.mk 0 b!"3.84" [b!"fp", b!"asimd"] ⟨0x41, 0, 15, 0xD03, 4⟩).lines ++
       (ArmBlock.mk 4 b!"3.84" [b!"fp", b!"crc32"] ⟨0x41, 0, 15, 0xD09, 2⟩).lines ++
       [b!"Hardware\t: HiKey960"])))
    (fun _ => some 100) (List.replicate 64 0) (List.replicate 9 0) 4
    (List.replicate 4 Proc.zero)).map (fun r => r.1.map fun st =>
      (st.table.map (fun p => (p.midr, p.features, p.flags)), st.hardware.take 8)) =
    some (some ([(0x410FD034, 3, 0x7F0000), (0, 0, 0), (0, 0, 0), (0, 0, 0)], b!"HiKey960")) := by
  decide +kernel

end Verif.Props
