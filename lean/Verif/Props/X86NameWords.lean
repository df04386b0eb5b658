import Verif.Proof.X86NameAnywhere
import Verif.Props.X86Name

/-!
# C175: the words of a name
-/

set_option autoImplicit false

namespace Verif.Props
open Spec X86Name X86Cpuid

/-- What a word says is an ordinary word. -/
private theorem says_ordinary {w : Bytes} {W : List Bytes} (h : WordSays w W) : ∀ v ∈ W, OrdinaryWord v := by
  cases h with
  | nothing _ => simp
  | itself h => simpa using h
  | trademark h _ _ => simpa using h
  | amd h => simpa using h

/-- **C175.** `ps` are the words of a NUL-terminated brand string, each with what it says about the
model: nothing, itself, itself without a trademark sign or without "AMD-". With any number of spaces at
the end, the brand string is normalized to what its words say: all of it, unchanged, in order, with
single spaces between the words. -/
theorem C175_words (ps : List (Bytes × List Bytes)) (hs : ∀ p ∈ ps, WordSays p.1 p.2) (h0 : ps ≠ []) (k : Nat)
    (h : (joinWords (ps.map Prod.fst)).length + k ≤ 47) :
    ∃ name, normalize (pad (joinWords (ps.map Prod.fst) ++ List.replicate k 32)) = some (name, name.length) ∧
      words name = ps.flatMap Prod.snd ∧ name = joinWords (ps.flatMap Prod.snd) := by
  have hl : (joinWords (ps.map Prod.fst) ++ List.replicate k 32).length =
      (joinWords (ps.map Prod.fst)).length + k := by simp
  obtain ⟨ws', ha⟩ := turnsAll_says ps hs
  have e : (ps.map Prod.snd).flatten = ps.flatMap Prod.snd := by rw [List.flatMap_def]
  have hn := words_name ha (by simpa using h0) k
    (48 - (joinWords (ps.map Prod.fst) ++ List.replicate k 32).length) (by rw [hl]; omega) (by rw [hl]; omega)
  rw [e] at hn
  refine ⟨_, hn, ?_, rfl⟩
  apply words_joinWords
  intro v hv
  rw [List.mem_flatMap] at hv
  obtain ⟨p, hp, hv⟩ := hv
  have := says_ordinary (hs p hp) v hv
  exact ⟨this.nonempty, fun hh => (this.chars 32 hh).1 rfl⟩

/-- **C175, consequence.** Names are never confused: brand strings of such words have the same name if
and only if their words say the same. -/
theorem C175_distinct (ps qs : List (Bytes × List Bytes)) (hp : ∀ p ∈ ps, WordSays p.1 p.2)
    (hq : ∀ p ∈ qs, WordSays p.1 p.2) (h1 : ps ≠ []) (h2 : qs ≠ []) (i j : Nat)
    (h3 : (joinWords (ps.map Prod.fst)).length + i ≤ 47) (h4 : (joinWords (qs.map Prod.fst)).length + j ≤ 47) :
    normalize (pad (joinWords (ps.map Prod.fst) ++ List.replicate i 32)) =
        normalize (pad (joinWords (qs.map Prod.fst) ++ List.replicate j 32)) ↔
      ps.flatMap Prod.snd = qs.flatMap Prod.snd := by
  obtain ⟨a, a1, a2, a3⟩ := C175_words ps hp h1 i h3
  obtain ⟨b, b1, b2, b3⟩ := C175_words qs hq h2 j h4
  rw [a1, b1]
  constructor
  · intro h
    simp only [Option.some.injEq, Prod.mk.injEq] at h
    rw [← a2, ← b2, h.1]
  · intro h
    rw [a3, b3, h]

private theorem ordinary {w : Bytes} (h : w ≠ [] ∧ (∀ c ∈ w, c ≠ 32 ∧ c ∉ strippedChars) ∧ w ∉ leftOut ∧
    w ∉ meaningful ∧ 2 < w.length ∧ (∃ c ∈ w, c ≠ 48) ∧ w.head? ≠ some 45 ∧ w.getLast? ≠ some 45 ∧
    w.getLast? ≠ some 109 ∧ w.getLast? ≠ some 122 ∧ ¬ b!"AMD-" <+: w) : OrdinaryWord w := by
  obtain ⟨a1, a2, a3, a4, a5, a6, a7, a8, a9, a10, a11⟩ := h
  refine ⟨a1, a2, ⟨a3, a4⟩, ?_, ?_, a6, ⟨a7, a8⟩, ?_, a11, ?_⟩
  · intro c hc; rw [hc] at a5; simp at a5
  · intro c hc; rw [hc] at a5; simp at a5
  · intro u c hc; rw [hc] at a9; simp at a9
  · intro u c hc; rw [hc] at a10; simp at a10

theorem C175_example :
    (∀ p ∈ [(b!"Quad-Core", []), (b!"AMD", []), (b!"Opteron", [b!"Opteron"]), (b!"Processor", []),
      (b!"2344tm", [b!"2344"]), (b!"AMD-K6II", [b!"K6II"])], WordSays p.1 p.2) ∧
    normalize (pad b!"Quad-Core AMD Opteron Processor 2344tm AMD-K6II") = some (b!"Opteron 2344 K6II", 17) := by
  refine ⟨?_, by decide +kernel⟩
  intro p hp
  simp only [List.mem_cons, List.not_mem_nil, or_false] at hp
  rcases hp with rfl | rfl | rfl | rfl | rfl | rfl
  · exact .nothing (by decide)
  · exact .nothing (by decide)
  · exact .itself (ordinary (by decide))
  · exact .nothing (by decide)
  · exact WordSays.trademark (v := b!"2344") (c := 52) (ordinary (by decide)) (by decide) (by decide)
  · exact WordSays.amd (v := b!"K6II") (ordinary (by decide))

/-! ## C67: engineering samples, after other words -/

/-- **C67, the other direction, anywhere.** A brand string in which the words of an engineering sample
come after any words of C175 is discarded, whatever follows after a space, a tab, a NUL or a
parenthesis, if there is no '@'. -/
theorem C67_anywhere_always (ps : List (Bytes × List Bytes)) (hs : ∀ p ∈ ps, WordSays p.1 p.2) (t s : Bytes)
    (ht : t = b!"Eng" ∨ t = b!"Engineering") (hw : s = b!"Sample" ∨ s = b!"Sample," ∨ s = b!"Sample:")
    (c : Byte) (hc : c = 32 ∨ c ∈ strippedChars) (rest : Bytes) (h64 : 64 ∉ c :: rest)
    (h : ((ps.map Prod.fst).flatMap (· ++ [32]) ++ t ++ 32 :: s ++ c :: rest).length = 48) :
    normalize ((ps.map Prod.fst).flatMap (· ++ [32]) ++ t ++ 32 :: s ++ c :: rest) = some ([], 0) := by
  obtain ⟨ws', ha⟩ := turnsAll_says ps hs
  exact normalize_discarded _ (discarded_anywhere ha t s ht (by simpa using hw) c hc rest h64 h)

theorem C67_anywhere_example :
    normalize (pad b!"AMD Opteron 2344tm Engineering Sample (12 core)") = some ([], 0) := by
  refine Eq.trans (congrArg normalize (by decide +kernel)) (C67_anywhere_always [(b!"AMD", []), (b!"Opteron", [b!"Opteron"]), (b!"2344tm", [b!"2344"])]
    (by
      intro p hp
      simp only [List.mem_cons, List.not_mem_nil, or_false] at hp
      rcases hp with rfl | rfl | rfl
      · exact .nothing (by decide)
      · exact .itself (ordinary (by decide))
      · exact WordSays.trademark (v := b!"2344") (c := 52) (ordinary (by decide)) (by decide) (by decide))
    b!"Engineering" b!"Sample" (.inr rfl) (.inl rfl) 32 (.inl rfl) (b!"(12 core)" ++ [0]) (by decide) (by decide))

end Verif.Props
