import Verif.Proof.Words
import Verif.Proof.X86NameOut
import Verif.Proof.X86NameSample
import Verif.Props.X86Cpuid

/-!
# C31–C33, C67–C69: brand strings and package names

The 48 bytes of the brand string are arbitrary: CPUID leaves 0x80000002 to 0x80000004 may hold
anything, and hypervisors let users write it.
-/

set_option autoImplicit false

namespace Verif.Props
open Spec X86Name X86Cpuid

/-- All that `normalize_shape` says about a result that is not empty. -/
theorem normalize_words (raw : Bytes) (h : raw.length = 48) :
    ∃ s n L, normalize raw = some (s, n) ∧ (∀ w ∈ L, w ≠ [] ∧ 32 ∉ w ∧ ∀ c ∈ w, c ∉ strippedChars) ∧
      (∀ w ∈ L, 45 ∉ w → w ∉ noise) ∧
      (∀ A u v B, L = A ++ u :: v :: B → u.getLast? ≠ some 45 ∧ v.head? ≠ some 45) ∧
      n = (joinWords L).length ∧ n ≤ 48 ∧ s = (joinWords L).take 47 ∧
      (raw[47]? = some 0 → n ≤ 47) := by
  obtain ⟨s, n, e, hs⟩ := normalize_shape raw h
  rcases hs with ⟨rfl, rfl⟩ | ⟨ws, L, hws, ⟨d, k, hsh⟩, hn, hif, h47⟩
  · exact ⟨[], 0, [], e, by simp, by simp, by simp, rfl, by omega, rfl, fun _ => by omega⟩
  · refine ⟨s, n, L, e, fun w hw => ?_, fun w hw hd => (hws w (hsh.whole w hw hd)).1, hsh.dash, hn, ?_, ?_,
      fun hr => by have := h47 hr; omega⟩
    · have hc : ∀ c ∈ w, c ≠ 32 ∧ c ∉ strippedChars := by
        intro c hc
        obtain ⟨v, hv, hcv⟩ := hsh.chars w hw c hc
        exact (hws v hv).2.2 c hcv
      exact ⟨hsh.nonempty w hw, fun hm => (hc 32 hm).1 rfl, fun c hcw => (hc c hcw).2⟩
    · split at hif <;> omega
    · split at hif
      · rw [hif, List.take_of_length_le (by omega)]
      · exact hif.2

/-- A brand string as the processor returns it: the text, then NULs. -/
def pad (s : Bytes) : Bytes := s ++ List.replicate (48 - s.length) 0

/-! ## C31: memory -/

/-- **C31.** Normalization reads and writes inside its buffers whatever the 48 bytes are (the model
would be `none` otherwise), and stores a string of at most 47 characters, free of NUL, tab,
parentheses and '@'. -/
theorem C31_memory (raw : Bytes) (h : raw.length = 48) :
    ∃ s n, normalize raw = some (s, n) ∧ s.length ≤ 47 ∧ n ≤ 48 ∧ ∀ c ∈ s, c ∉ strippedChars := by
  obtain ⟨s, n, L, e, hL, _, _, hn, h48, hs, _⟩ := normalize_words raw h
  refine ⟨s, n, e, by rw [hs, List.length_take]; omega, h48, fun c hc => ?_⟩
  rw [hs] at hc
  rcases mem_joinWords L c (List.mem_of_mem_take hc) with rfl | ⟨w, hw, hcw⟩
  · decide
  · exact (hL w hw).2.2 c hcw

/-- A brand string for which much happens. -/
theorem C31_example :
    normalize (pad b!"Intel(R) Core(TM) i7-6700K CPU @ 4.00GHz") = some (b!"Core i7-6700K", 13) := by
  decide +kernel

/-! ## C32: spacing -/

/-- **C32, always.** No leading space and no two spaces in a row. -/
theorem C32_spacing (raw s : Bytes) (n : Nat) (h : raw.length = 48)
    (hs : normalize raw = some (s, n)) : s.head? ≠ some 32 ∧ NoDouble s := by
  obtain ⟨s', n', L, e, hL, _, _, _, _, hs', _⟩ := normalize_words raw h
  rw [hs] at e
  cases e
  have hL' : ∀ w ∈ L, w ≠ [] ∧ 32 ∉ w := fun w hw => ⟨(hL w hw).1, (hL w hw).2.1⟩
  rw [hs']
  constructor
  · intro hh
    apply joinWords_head L hL'
    rw [List.head?_eq_getElem?] at hh ⊢
    rw [List.getElem?_take] at hh
    split at hh
    · exact hh
    · cases hh
  · intro i ⟨a1, a2⟩
    rw [List.getElem?_take] at a1 a2
    split at a2
    · rw [if_pos (by omega)] at a1
      exact joinWords_double L hL' i ⟨a1, a2⟩
    · cases a2

/-- **C32, what holds.** Of a NUL-terminated brand string the result is made of words with single
spaces between them, so it has no trailing space either and spacing it again changes nothing; a
space never stands beside a dash at a word's edge. Missing: brand strings that fill all 48 bytes. -/
theorem C32_tidy_partial (raw s : Bytes) (n : Nat) (h : raw.length = 48) (h47 : raw[47]? = some 0)
    (hs : normalize raw = some (s, n)) :
    s.getLast? ≠ some 32 ∧ joinWords (words s) = s ∧
      ∀ A u v B, words s = A ++ u :: v :: B → u.getLast? ≠ some 45 ∧ v.head? ≠ some 45 := by
  obtain ⟨s', n', L, e, hL, _, hd, hn, _, hs', hr⟩ := normalize_words raw h
  rw [hs] at e
  cases e
  have hL' : ∀ w ∈ L, w ≠ [] ∧ 32 ∉ w := fun w hw => ⟨(hL w hw).1, (hL w hw).2.1⟩
  have := hr h47
  rw [List.take_of_length_le (by omega)] at hs'
  rw [hs', words_joinWords L hL']
  exact ⟨joinWords_last L hL', rfl, hd⟩

/-- **C32 violated.** 48 characters are cut to 47, which can leave a trailing space. -/
theorem C32_violated : ∃ raw s n, raw.length = 48 ∧ normalize raw = some (s, n) ∧
    s.getLast? = some 32 := by
  refine ⟨List.replicate 46 97 ++ [32, 98], List.replicate 46 97 ++ [32], 48, ?_, ?_, ?_⟩
  · decide
  · decide +kernel
  · decide

theorem C32_example : (pad b!"  A   -  B  C").length = 48 ∧ (pad b!"  A   -  B  C")[47]? = some 0 ∧
    normalize (pad b!"  A   -  B  C") = some (b!"A-B C", 5) := by
  refine ⟨?_, ?_, ?_⟩
  · decide
  · decide
  · decide +kernel

/-! ## C33: package names -/

/-- **C33.** Whatever the brand string: the package name has at most 47 characters; an empty brand
gives an empty name; an unknown vendor gives the brand; otherwise the name is the vendor, a space
and the brand, cut after 47 characters, and the returned offset is that of the brand. -/
theorem C33_package_name (v : Vendor) (brand : Bytes) :
    (formatPackageName v brand).1.length ≤ 47 ∧
    (brand = [] → formatPackageName v brand = ([], 0)) ∧
    (brand ≠ [] → v = .unknown → formatPackageName v brand = (brand.take 47, 0)) ∧
    (brand ≠ [] → v ≠ .unknown → ∃ name, (v, name) ∈ vendorNames ∧
      (formatPackageName v brand).1 = (name ++ 32 :: brand).take 47 ∧
      (formatPackageName v brand).1.drop (formatPackageName v brand).2 =
        brand.take (47 - (name.length + 1)) ∧
      (formatPackageName v brand).1.take (formatPackageName v brand).2 = name ++ [32]) := by
  cases brand with
  | nil => exact ⟨by simp [formatPackageName], fun _ => rfl, fun h => absurd rfl h, fun h => absurd rfl h⟩
  | cons c brand =>
    refine ⟨?_, fun h => (by cases h), fun _ hv => (by subst hv; rfl), fun _ hv => ?_⟩
    · unfold formatPackageName
      cases vendorString v
      · simp only [List.length_take]; omega
      · simp only [snprintf, List.length_take]; omega
    · have hx : ∃ name, (v, name) ∈ vendorNames ∧ name.length ≤ 9 ∧
          vendorString v = some name := by
        cases v <;> first
          | exact absurd rfl hv
          | exact ⟨_, by decide, by decide, rfl⟩
      obtain ⟨name, hn, hl, he⟩ := hx
      have hf : formatPackageName v (c :: brand) =
          ((name ++ 32 :: c :: brand).take 47, name.length + 1) := by
        unfold formatPackageName
        simp [he, snprintf]
      rw [hf]
      refine ⟨name, hn, rfl, ?_, ?_⟩
      · dsimp only
        rw [List.drop_take, show name ++ 32 :: c :: brand = (name ++ [32]) ++ c :: brand by simp,
          show name.length + 1 = (name ++ [32]).length by simp, List.drop_left]
      · dsimp only
        rw [List.take_take, Nat.min_eq_left (by omega),
          show name ++ 32 :: c :: brand = (name ++ [32]) ++ c :: brand by simp,
          show name.length + 1 = (name ++ [32]).length by simp, List.take_left]

theorem C33_example : formatPackageName .intel b!"Core i7-6700K" = (b!"Intel Core i7-6700K", 6) := by
  decide

/-- **C33, from CPUID to the package name.** On every processor the name exists, is a C string of at
most 47 characters, and is empty when the brand leaves do not exist; otherwise it is made from the
vendor and the normalized text of the twelve brand registers, in order. -/
theorem C33_from_cpuid (t : Target) (c : Cpuid) :
    ∃ s, packageName t c = some s ∧ s.length ≤ 47 ∧ 0 ∉ s ∧
      (maxExtendedIndex c < 0x80000004 → s = []) ∧
      (0x80000004 ≤ maxExtendedIndex c → ∃ brand n,
        normalize ([0x80000002, 0x80000003, 0x80000004].flatMap fun k => chars (c.leaf k).eax ++
          chars (c.leaf k).ebx ++ chars (c.leaf k).ecx ++ chars (c.leaf k).edx) = some (brand, n) ∧
        s = (formatPackageName (decodeVendor t (c.leaf 0).ebx (c.leaf 0).ecx (c.leaf 0).edx)
          brand).1) := by
  have hlen : (rawBrand c).length = 48 := by
    unfold rawBrand Regs.bytes regBytes
    split <;> simp
  obtain ⟨s, n, e, h1, h2, h3⟩ := C31_memory (rawBrand c) hlen
  unfold packageName
  rw [e]
  refine ⟨_, rfl, (C33_package_name _ s).1, ?_, ?_, ?_⟩
  · have h0 : 0 ∉ s := fun hh => h3 0 hh (by decide)
    unfold formatPackageName
    cases s with
    | nil => simp
    | cons x s =>
      dsimp only
      generalize decodeVendor t (c.leaf 0).ebx (c.leaf 0).ecx (c.leaf 0).edx = v
      cases hv : vendorString v with
      | none => exact fun hh => h0 (List.mem_of_mem_take hh)
      | some name =>
        have hn : 0 ∉ name := by
          cases v <;> simp only [vendorString, Option.some.injEq, reduceCtorEq] at hv <;>
            subst hv <;> decide
        intro hh
        have := List.mem_of_mem_take hh
        rw [List.mem_append, List.mem_append] at this
        rcases this with (k | k) | k
        · exact hn k
        · simp at k
        · exact h0 k
  · intro hx
    have : rawBrand c = List.replicate 48 0 := by
      unfold rawBrand
      rw [if_neg (by omega)]
    rw [this] at e
    have e0 : normalize (List.replicate 48 0) = some ([], 0) := by decide
    rw [e0] at e
    cases e
    rfl
  · intro hx
    refine ⟨s, n, ?_, rfl⟩
    rw [← e]
    congr 1
    unfold rawBrand
    rw [if_pos hx]
    simp [Regs.bytes, regBytes, chars, and_FF, Nat.shiftRight_eq_div_pow]

/-! ## C67: engineering samples -/

/-- **C67, what holds.** A brand string is discarded as that of an engineering sample only if "Eng"
occurs in it and "Sample" after it. Missing: that they are adjacent words. -/
theorem C67_sample_partial (raw : Bytes) (h : raw.length = 48) (hd : Discarded raw) :
    normalize raw = some ([], 0) ∧
      ∃ p q, p + 3 ≤ q ∧ At raw p b!"Eng" ∧ At raw q b!"Sample" := by
  obtain ⟨p, q, h1, h2, h3⟩ := discarded_reads raw h hd
  exact ⟨normalize_discarded raw hd, p, q, h1, at_of_reads (by decide) h2,
    at_of_reads (by decide) h3⟩

theorem C67_example : Discarded (pad b!"AMD Eng Sample, ZS182045TGG43") :=
  ⟨28, _, _, _, by decide +kernel, by rfl, by decide +kernel⟩

/-- **C67, the other direction.** A brand string that starts with the words of an engineering sample,
"AMD" before them or not, is discarded, whatever follows after a space, a tab, a NUL, a parenthesis
or '@'. -/
theorem C67_start_always (w : Bytes) (hw : w ∈ sampleStarts) (c : Byte) (hc : c = 32 ∨ c ∈ strippedChars)
    (rest : Bytes) (h : (w ++ c :: rest).length = 48) : normalize (w ++ c :: rest) = some ([], 0) :=
  normalize_discarded _ (discarded_start w hw c hc rest h)

theorem C67_start_example :
    normalize (pad b!"AMD Eng Sample: 2D3151A2M88E4_35/31_N") = some ([], 0) ∧
    normalize (pad b!"AMD Eng Samples 2D3151A2M88E4_35/31_N") ≠ some ([], 0) := by
  constructor
  · exact C67_start_always b!"AMD Eng Sample:" (by decide) 32 (.inl rfl) _ (by decide +kernel)
  · decide +kernel

/-- **C67 violated.** The words need not be adjacent: the mark left by "Engineering" survives the
tokens after it, unlike the other marks, which last for one token. -/
theorem C67_violated :
    normalize (pad b!"Engineering Ryzen 1700 Sample") = some ([], 0) ∧
    normalize (pad b!"Engineering Ryzen 1700 Sampler") =
      some (b!"Engineering Ryzen 1700 Sampler", 30) := by
  constructor
  · decide +kernel
  · decide +kernel

/-! ## C68: noise words -/

/-- **C68, what holds.** The result for a NUL-terminated brand string contains none of the words that
say nothing about the model. Missing: brand strings that fill all 48 bytes, words with a dash. -/
theorem C68_noise_partial (raw s : Bytes) (n : Nat) (h : raw.length = 48) (h47 : raw[47]? = some 0)
    (hs : normalize raw = some (s, n)) : ∀ w ∈ noiseWords, w ∉ words s := by
  obtain ⟨s', n', L, e, hL, hno, _, hn, _, hs', hr⟩ := normalize_words raw h
  rw [hs] at e
  cases e
  have := hr h47
  rw [List.take_of_length_le (by omega)] at hs'
  rw [hs', words_joinWords L (fun w hw => ⟨(hL w hw).1, (hL w hw).2.1⟩)]
  intro w hw hm
  have key : ∀ x ∈ noiseWords, 45 ∉ x ∧ x ∈ noise := by decide +kernel
  exact hno w hm (key w hw).1 (key w hw).2

theorem C68_example : normalize (pad b!"Genuine Intel CPU AMD family X2") = some (b!"X2", 2) := by
  decide +kernel

/-- **C68 violated.** Cutting the last word can leave such a word; and a word with a dash that is
removed when whole ("Dual-Core") is put together from "Dual-" and "Core". -/
theorem C68_violated :
    (∃ raw s n, raw.length = 48 ∧ normalize raw = some (s, n) ∧ b!"CPU" ∈ words s) ∧
    normalize (pad b!"X Dual- Core") = some (b!"X Dual-Core", 11) ∧
    normalize (pad b!"X Dual-Core") = some (b!"X", 1) := by
  refine ⟨⟨List.replicate 43 97 ++ b!" CPUx", List.replicate 43 97 ++ b!" CPU", 48, ?_, ?_, ?_⟩, ?_, ?_⟩
  · decide
  · decide +kernel
  · decide +kernel
  · decide +kernel
  · decide +kernel

/-! ## C69: the returned length -/

/-- **C69, what holds.** For a NUL-terminated brand string the value returned is the length of the
string stored. Missing: brand strings that fill all 48 bytes. -/
theorem C69_length_partial (raw s : Bytes) (n : Nat) (h : raw.length = 48)
    (h47 : raw[47]? = some 0) (hs : normalize raw = some (s, n)) : n = s.length := by
  obtain ⟨s', n', L, e, _, _, _, hn, _, hs', hr⟩ := normalize_words raw h
  rw [hs] at e
  cases e
  have := hr h47
  rw [List.take_of_length_le (by omega)] at hs'
  rw [hs', hn]

/-- **C69 violated.** When the output fills all 48 bytes, 48 is returned for 47 characters. -/
theorem C69_violated : ∃ raw s n, raw.length = 48 ∧ normalize raw = some (s, n) ∧ n ≠ s.length := by
  refine ⟨List.replicate 48 97, List.replicate 47 97, 48, ?_, ?_, ?_⟩
  · decide
  · decide +kernel
  · decide

end Verif.Props
