import Verif.Props.X86Exact
import Verif.Props.X86Name
import Verif.Props.X86Isa
import Verif.Props.X86Cpuinfo

/-!
# x86: exactly when the claims about numbers, names, features and descriptors fail

`C59`, `C60`, `C65`, `C12`, `C32`, `C68` and `C69` are violated; here it is stated for all inputs
what happens instead.
-/
set_option autoImplicit false

namespace Verif.Props
open Verif Spec X86Cpuid

/-! ## C59: an empty extended topology leaf -/

/-- **C59 (broken), in general.** On every processor with x2APIC whose leaf 0xB exists but lists no
level, two published processors share a core, and a package, only if they have the same APIC ID,
whatever the legacy leaves say. -/
theorem C59_violated_always (t : Target) (c : Cpuid) (fuel n4 n8 : Nat)
    (ha : Answers c fuel n4 n8 []) (hb : 11 ≤ (c.leaf 0).eax) (hx : (c.leaf 1).ecx.testBit 21 = true)
    (e : X86Init.Env) (hs : QSorts e.sort)
    (he : (initProcessor t c fuel).map (·.cpu) = some e.cpu) (pub : X86Init.Published)
    (h : X86Init.linuxInit e = some (some pub)) (i j : Nat) (p q : X86Init.Processor)
    (hp : pub.processors[i]? = some p) (hq : pub.processors[j]? = some q) :
    (p.core = q.core ↔ p.apicId = q.apicId) ∧ (p.package = q.package ↔ p.apicId = q.apicId) := by
  have ht : e.cpu.topology = ⟨0, 0, 0, 0⟩ := by
    unfold initProcessor at he
    dsimp only at he
    rw [if_pos (by omega)] at he
    cases hc : detectCache t c fuel (c.leaf 0).eax (maxExtendedIndex c)
        ((extendedInfo c).ecx &&& 0x00400000 != 0)
        (decodeVendor t (c.leaf 0).ebx (c.leaf 0).ecx (c.leaf 0).edx)
        (decodeModelInfo (c.leaf 1).eax) zeroCaches 0 with
    | none => rw [hc] at he; cases he
    | some r =>
      rw [hc] at he
      dsimp only at he
      rw [C59_legacy_erased c fuel _ _ _ _ hx hb _ ha.smallB ha.fuelB rfl ha.levels] at he
      simp only [Option.map_some, Option.some.injEq] at he
      rw [← he]
  have hlow : LowFields e.cpu.topology := by rw [ht]; exact ⟨rfl, rfl⟩
  have key : ∀ a b : Nat, AgreeFrom 0 a b ↔ a = b := fun a b =>
    ⟨fun h => Nat.eq_of_testBit_eq fun i => h i (Nat.zero_le _), fun h _ _ => by rw [h]⟩
  have := C18_sharing_iff_apic_agrees e hs hlow pub h _ (X86Init.lastLevel_llc e.cpu) i j p q hp hq
  rw [ht] at this
  exact ⟨this.1.trans (key _ _), this.2.1.trans (key _ _)⟩

/-! ## C60: invalid descriptor registers -/

/-- The bytes of a leaf-2 answer but the iteration count, in valid and invalid registers alike. -/
def allDescriptors (r : Regs) : Bytes :=
  (chars r.eax).drop 1 ++ chars r.ebx ++ chars r.ecx ++ chars r.edx

/-- **C60 (broken), in general.** The caches after leaf 2 are always the result of applying all bytes
of all answers, those of invalid registers too, the iteration count excepted, one after the other,
null bytes skipped. -/
theorem C60_violated_always (t : Target) (cpu : Cpuid) (fuel : Nat) (v : Vendor)
    (m : ModelInfo) (c : Caches) (l0 : Nat) :
    detectCache t cpu fuel 2 0 false v m c l0 = some
      ((((List.range ((cpu.leaf2 0).eax % 256)).flatMap fun i =>
        allDescriptors (cpu.leaf2 i)).filter (· ≠ 0)).foldl
        (fun c b => decodeDescriptor t v m b c) c, l0) := by
  have hbytes : ∀ i, (cpu.leaf2 i).bytes.drop 1 = allDescriptors (cpu.leaf2 i) := by
    intro i
    simp [allDescriptors, Regs.bytes, regBytes, chars, and_FF, Nat.shiftRight_eq_div_pow]
  have hf : ∀ (n k : Nat) (c : Caches), leaf2Loop t v m cpu.leaf2 n k c =
      (((List.range' k n).flatMap fun i => allDescriptors (cpu.leaf2 i)).filter (· ≠ 0)).foldl
        (fun c b => decodeDescriptor t v m b c) c := by
    intro n
    induction n with
    | zero => intro k c; rfl
    | succ n ih =>
      intro k c
      rw [leaf2Loop, ih, List.range'_succ, List.flatMap_cons, List.filter_append, List.foldl_append]
      congr 1
      rw [decodeLeaf2, hbytes, List.foldl_filter]
      simp
  simp [detectCache, detectCacheBase, and_FF, hf, List.range_eq_range']

/-- So the one invalid register of `C60_violated` hands on 0x80. -/
example : allDescriptors (invalidRegister.leaf2 0) = [0x2C, 0, 0, 0, 0, 0, 0, 0, 0, 0, 0, 0, 0, 0, 0x80] := by
  decide +kernel

/-! ## C65: register state -/

/-- **C65, exactly.** VAES and VPCLMULQDQ are reported rightly if and only if the AVX state is enabled
or they are not advertised; the parts of AMX if and only if they are not advertised or tile and AVX-512
state are enabled both or neither. -/
theorem C65_exact (t : Target) (c : Cpuid) (xcr0 mx : Nat) (h1 : 1 ≤ (c.leaf 0).eax) :
    (∀ f ∈ [Feature.vaes, .vpclmulqdq], ∃ b, featureDoc f = some ⟨[b], [1, 2]⟩ ∧
      ((initIsa t c xcr0 mx f = true ↔ Advertises c b ∧ Enables c xcr0 [1, 2]) ↔
        (Advertises c b → Enables c xcr0 [1, 2]))) ∧
    (∀ f ∈ [Feature.amxBf16, .amxTile, .amxInt8, .amxFp16],
      ∃ b, featureDoc f = some ⟨[b], [17, 18]⟩ ∧
        ((initIsa t c xcr0 mx f = true ↔ Advertises c b ∧ Enables c xcr0 [17, 18]) ↔
          (Advertises c b → (Enables c xcr0 [1, 2, 5, 6, 7] ↔ Enables c xcr0 [17, 18])))) := by
  obtain ⟨h2, h3⟩ := C65_as_advertised_partial t c xcr0 mx h1
  refine ⟨fun f hf => ?_, fun f hf => ?_⟩
  · obtain ⟨b, hb, hi⟩ := h2 f hf
    refine ⟨b, hb, ?_⟩
    rw [hi]
    exact ⟨fun h ha => (h.mp ha).2, fun h => ⟨fun ha => ⟨ha, h ha⟩, fun ha => ha.1⟩⟩
  · obtain ⟨b, hb, hi⟩ := h3 f hf
    refine ⟨b, hb, ?_⟩
    rw [hi]
    exact ⟨fun h ha => ⟨fun h5 => (h.mp ⟨ha, h5⟩).2, fun h17 => (h.mpr ⟨ha, h17⟩).2⟩,
      fun h => ⟨fun ⟨ha, h5⟩ => ⟨ha, (h ha).mp h5⟩, fun ⟨ha, h17⟩ => ⟨ha, (h ha).mpr h17⟩⟩⟩

/-! ## C12: the digit ten -/

theorem numberLoop_ten (ds r : Bytes) (n : Nat) (h : ∀ d ∈ ds, 48 ≤ d ∧ d ≤ 58) (hn : n < U32)
    (hr : ∀ c, r.head? = some c → ¬ (48 ≤ c ∧ c ≤ 58)) (hb : ∀ c ∈ ds ++ r, c < 256) :
    X86Cpuinfo.numberLoop (ds ++ r) n = ds.foldl (fun n d => n * 10 + (d - 48)) n % U32 := by
  induction ds generalizing n with
  | nil =>
    simp only [List.foldl_nil, List.nil_append]
    cases r with
    | nil => simp [X86Cpuinfo.numberLoop]; omega
    | cons c cs =>
      have := hr c rfl
      rw [X86Cpuinfo.numberLoop, if_pos]
      · omega
      · have := hb c (by simp)
        unfold CpuList.digitVal
        split <;> omega
  | cons d ds ih =>
    have hd := h d (by simp)
    have hv : CpuList.digitVal d = d - 48 := by
      unfold CpuList.digitVal
      split <;> omega
    rw [List.cons_append, X86Cpuinfo.numberLoop, hv, if_neg (by omega),
      ih _ (fun x hx => h x (by simp [hx])) (Nat.mod_lt _ (by decide))
        (fun c hc => hb c (by simp at hc ⊢; exact .inr hc))]
    have hm : ∀ (ds : Bytes) (a : Nat), ds.foldl (fun n d => n * 10 + (d - 48)) (a % U32) % U32 =
        ds.foldl (fun n d => n * 10 + (d - 48)) a % U32 := by
      intro ds
      induction ds with
      | nil => intro a; exact Nat.mod_mod _ _
      | cons x xs ihx =>
        intro a
        rw [List.foldl_cons, List.foldl_cons, ← ihx, ← ihx (a * 10 + _)]
        congr 2
        omega
    rw [hm]
    rfl

/-- **C12 (broken), in general.** The number read from any string is that of its longest beginning of
digits and colons, in which a colon counts ten. -/
theorem C12_exact (s r : Bytes) (hs : ∀ c ∈ s, IsDigit c ∨ c = 58)
    (hr : ∀ c, r.head? = some c → ¬ IsDigit c ∧ c ≠ 58) (hb : ∀ c ∈ s ++ r, c < 256) :
    X86Cpuinfo.parseProcessorNumber (s ++ r) = s.foldl (fun n d => n * 10 + (d - 48)) 0 % U32 :=
  numberLoop_ten s r 0 (fun d hd => by have := hs d hd; unfold IsDigit at this; omega) (by decide)
    (fun c hc => by have := hr c hc; unfold IsDigit at this; omega) hb

/-- **C12 (broken), in general.** Every number of up to eight digits that is followed by one colon is
read wrong: as ten times the number plus ten. -/
theorem C12_violated_always (ds r : Bytes) (hds : ∀ d ∈ ds, IsDigit d) (hlt : decimal ds < 100000000)
    (hr : ∀ c, r.head? = some c → ¬ IsDigit c ∧ c ≠ 58) (hb : ∀ c ∈ r, c < 256) :
    X86Cpuinfo.parseProcessorNumber (ds ++ 58 :: r) = decimal ds * 10 + 10 := by
  have := C12_exact (ds ++ [58]) r (fun c hc => by
    rcases List.mem_append.mp hc with h | h
    · exact .inl (hds c h)
    · exact .inr (by simpa using h)) hr (fun c hc => by
      rcases List.mem_append.mp hc with h | h
      · rcases List.mem_append.mp h with h | h
        · have := hds c h; unfold IsDigit at this; omega
        · simp at h; omega
      · exact hb c h)
  rw [List.append_assoc, List.singleton_append, List.foldl_append] at this
  rw [this]
  show (decimal ds * 10 + 10) % U32 = _
  have : U32 = 4294967296 := rfl
  omega

/-- The line `processor : 1:` has such a value. -/
example : X86Cpuinfo.parseProcessorNumber b!"1:" = 20 := C12_violated_always [49] [] (by simp [IsDigit])
  (by decide) (by simp) (by simp)

/-! ## C32, C68 and C69: names of 48 characters -/

/-- **C32, C68 and C69, exactly.** The value returned is the length of the string stored if and only if it
is less than 48, and then the string is made of words with single spaces between them of which none is
a noise word, even of a brand string that is not terminated; otherwise 47 characters are stored. -/
theorem C69_exact (raw s : Bytes) (n : Nat) (h : raw.length = 48) (hs : X86Name.normalize raw = some (s, n)) :
    (n = s.length ↔ n < 48) ∧
    (n < 48 → s.getLast? ≠ some 32 ∧ joinWords (words s) = s ∧ ∀ w ∈ noiseWords, w ∉ words s) ∧
    (n = 48 → s.length = 47) ∧ n ≤ 48 := by
  obtain ⟨s', n', L, e, hL, hno, _, hn, hle, hs', hr⟩ := normalize_words raw h
  rw [hs] at e
  cases e
  have hL' : ∀ w ∈ L, w ≠ [] ∧ 32 ∉ w := fun w hw => ⟨(hL w hw).1, (hL w hw).2.1⟩
  have hl : s.length = min 47 n := by rw [hs', List.length_take, hn]
  refine ⟨by omega, fun hlt => ?_, by omega, hle⟩
  rw [List.take_of_length_le (by omega)] at hs'
  rw [hs', words_joinWords L hL']
  refine ⟨joinWords_last L hL', rfl, ?_⟩
  intro w hw hm
  have key : ∀ x ∈ noiseWords, 45 ∉ x ∧ x ∈ X86Name.noise := by decide +kernel
  exact hno w hm (key w hw).1 (key w hw).2

/-- A brand string of 48 characters that is not terminated, of which words are removed. -/
example : (b!"Intel(R) Xeon(R) Platinum 8168 CPU Processor MP1").length = 48 ∧
    X86Name.normalize b!"Intel(R) Xeon(R) Platinum 8168 CPU Processor MP1" = some (b!"Xeon Platinum 8168 MP1", 22) := by
  decide +kernel

end Verif.Props
