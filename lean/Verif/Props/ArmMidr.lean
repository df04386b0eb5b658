import Verif.Proof.ArmMidr

/-!
# C35, C74, C75: the Main ID Register of ARM cores
-/

set_option autoImplicit false

namespace Verif.Props
open Spec ArmMidr

/-- **C35 (reading).** Every field read from a register is the field of the register. -/
theorem C35_read (x : Nat) (hx : x < U32) :
    getImplementer x = (Midr.of x).implementer ∧ getVariant x = (Midr.of x).variant ∧
    getPart x = (Midr.of x).part ∧ getRevision x = (Midr.of x).revision := by
  have ho := of_ok hx
  generalize hm : Midr.of x = m at ho ⊢
  have e : x = m.word := by rw [← hm, word_of]
  rw [e]
  exact ⟨getImplementer_word ho, getVariant_word ho, getPart_word ho, getRevision_word ho⟩

/-- **C35 (writing).** Writing a field, of any register and with any value, changes that field to
the value cut to its width, and no other field. -/
theorem C35_write (x v : Nat) (hx : x < U32) :
    Midr.of (setImplementer x v) = { Midr.of x with implementer := v % 256 } ∧
    Midr.of (setVariant x v) = { Midr.of x with variant := v % 16 } ∧
    Midr.of (setArchitecture x v) = { Midr.of x with architecture := v % 16 } ∧
    Midr.of (setPart x v) = { Midr.of x with part := v % 4096 } ∧
    Midr.of (setRevision x v) = { Midr.of x with revision := v % 16 } := by
  have ho := of_ok hx
  generalize hm : Midr.of x = m at ho ⊢
  have e : x = m.word := by rw [← hm, word_of]
  rw [e, setImplementer_word ho, setVariant_word ho, setArchitecture_word ho, setPart_word ho,
    setRevision_word ho]
  obtain ⟨h1, h2, h3, h4, h5⟩ := ho
  refine ⟨of_word ⟨?_, h2, h3, h4, h5⟩, of_word ⟨h1, ?_, h3, h4, h5⟩, of_word ⟨h1, h2, ?_, h4, h5⟩,
    of_word ⟨h1, h2, h3, ?_, h5⟩, of_word ⟨h1, h2, h3, h4, ?_⟩⟩ <;> dsimp only <;> omega

/-- **C35 (copying).** Copying a field from another register changes exactly that field. -/
theorem C35_copy (x y : Nat) (hx : x < U32) (hy : y < U32) :
    Midr.of (copyImplementer x y) = { Midr.of x with implementer := (Midr.of y).implementer } ∧
    Midr.of (copyVariant x y) = { Midr.of x with variant := (Midr.of y).variant } ∧
    Midr.of (copyArchitecture x y) = { Midr.of x with architecture := (Midr.of y).architecture } ∧
    Midr.of (copyPart x y) = { Midr.of x with part := (Midr.of y).part } ∧
    Midr.of (copyRevision x y) = { Midr.of x with revision := (Midr.of y).revision } := by
  have ho := of_ok hx
  generalize hm : Midr.of x = m at ho ⊢
  have e : x = m.word := by rw [← hm, word_of]
  have hp := of_ok hy
  generalize hn : Midr.of y = n at hp ⊢
  have e' : y = n.word := by rw [← hn, word_of]
  rw [e, e', copyImplementer_word ho hp, copyVariant_word ho hp, copyArchitecture_word ho hp,
    copyPart_word ho hp, copyRevision_word ho hp]
  obtain ⟨h1, h2, h3, h4, h5⟩ := ho
  obtain ⟨n1, n2, n3, n4, n5⟩ := hp
  exact ⟨of_word ⟨n1, h2, h3, h4, h5⟩, of_word ⟨h1, n2, h3, h4, h5⟩, of_word ⟨h1, h2, n3, h4, h5⟩,
    of_word ⟨h1, h2, h3, n4, h5⟩, of_word ⟨h1, h2, h3, h4, n5⟩⟩

/-- **C35 (round trip).** Writing all five fields of a register into any other register rebuilds
it; the fields determine the register. -/
theorem C35_rebuild (x y : Nat) (hx : x < U32) (hy : y < U32) :
    setRevision (setPart (setArchitecture (setVariant (setImplementer y
      (Midr.of x).implementer) (Midr.of x).variant) (Midr.of x).architecture)
      (Midr.of x).part) (Midr.of x).revision = x := by
  obtain ⟨m1, m2, m3, m4, m5⟩ := of_ok hx
  have ho := of_ok hy
  have ex : x = (Midr.of x).word := by rw [word_of]
  conv => rhs; rw [ex]
  generalize Midr.of x = b at *
  generalize hm : Midr.of y = m at ho
  have ey : y = m.word := by rw [← hm, word_of]
  obtain ⟨o1, o2, o3, o4, o5⟩ := ho
  rw [ey, setImplementer_word (m := m) ⟨o1, o2, o3, o4, o5⟩, Nat.mod_eq_of_lt m1,
    setVariant_word (m := { m with implementer := b.implementer }) ⟨m1, o2, o3, o4, o5⟩,
    Nat.mod_eq_of_lt m2]
  dsimp only
  rw [setArchitecture_word (m := ⟨b.implementer, b.variant, m.architecture, m.part, m.revision⟩)
      ⟨m1, m2, o3, o4, o5⟩, Nat.mod_eq_of_lt m3]
  dsimp only
  rw [setPart_word (m := ⟨b.implementer, b.variant, b.architecture, m.part, m.revision⟩)
      ⟨m1, m2, m3, o4, o5⟩, Nat.mod_eq_of_lt m4]
  dsimp only
  rw [setRevision_word (m := ⟨b.implementer, b.variant, b.architecture, b.part, m.revision⟩)
      ⟨m1, m2, m3, m4, o5⟩, Nat.mod_eq_of_lt m5]

/-- Non-vacuity of C35: a Cortex-A53 r0p4 becomes a Cortex-A57 r0p4. -/
example : setPart 0x410FD034 0xD07 = 0x410FD074 ∧
    Midr.of 0x410FD034 = ⟨0x41, 0, 15, 0xD03, 4⟩ := by decide

/-- Implementer and part of the big cores with a known LITTLE companion, and the companion. -/
def bigAndLittle : List (Nat × Nat × Nat) :=
  [(0x41, 0xD0A, 0x410FD050), (0x41, 0xD09, 0x410FD030), (0x41, 0xD08, 0x410FD030),
    (0x41, 0xD07, 0x410FD030), (0x53, 0x001, 0x410FD030), (0x41, 0xC0E, 0x410FC070),
    (0x41, 0xC0F, 0x410FC070), (0x51, 0x205, 0x510F2110), (0x4E, 0x003, 0x410FD070)]

/-- **C74, without Kryo 280.** For every variant and revision of the big cores other than Kryo 280
Gold, the LITTLE companion is the documented one (Cortex-A55 for A75, A53 for A73, A72, A57 and
Exynos M1, A7 for A15 and A17, Kryo Silver for Kryo Gold, A57 for Denver 2); every other register
is its own companion.  Missing: Kryo 280 Gold, see `C74_violated`. -/
theorem C74_little_for_big_partial (m : Midr) (h : m.Ok) :
    (∀ e ∈ bigAndLittle, m.architecture = 15 → m.implementer = e.1 → m.part = e.2.1 →
      littleCoreForBig m.word = e.2.2) ∧
    ((∀ e ∈ bigAndLittle, ¬ (m.architecture = 15 ∧ m.implementer = e.1 ∧ m.part = e.2.1)) →
      littleCoreForBig m.word = m.word) := by
  unfold littleCoreForBig
  rw [and_archMask h]
  obtain ⟨h1, h2, h3, h4, h5⟩ := h
  constructor
  · intro e he ha hi hp
    rw [ha, hi, hp]
    clear hi hp
    simp only [bigAndLittle, List.mem_cons, List.not_mem_nil, or_false] at he
    rcases he with rfl | rfl | rfl | rfl | rfl | rfl | rfl | rfl | rfl <;> simp
  · intro hn
    dsimp only
    simp only [bigAndLittle, List.mem_cons, List.not_mem_nil, or_false, forall_eq_or_imp,
      forall_eq] at hn
    rw [if_neg (by omega), if_neg (by omega), if_neg (by omega), if_neg (by omega),
      if_neg (by omega), if_neg (by omega)]

/-- **C74 is violated.** The case label for Kryo 280 Gold has variant and revision bits that the
mask removes, so it never matches: no Kryo 280 Gold register ever gets Kryo 280 Silver. -/
theorem C74_violated (m : Midr) (h : m.Ok) (hi : m.implementer = 0x51) (hp : m.part = 0x800) :
    littleCoreForBig m.word = m.word ∧ littleCoreForBig m.word ≠ 0x51AF8014 := by
  have e := (C74_little_for_big_partial m h).2 (by
    rw [hi, hp]
    intro e he
    have : ∀ e ∈ bigAndLittle, ¬ (0x51 = e.1 ∧ 0x800 = e.2.1) := by decide
    intro h
    exact this e he h.2)
  refine ⟨e, ?_⟩
  rw [e]
  obtain ⟨h1, h2, h3, h4, h5⟩ := h
  unfold Midr.word
  omega

/-- The register named in the case label itself is not mapped. -/
example : littleCoreForBig 0x51AF8001 = 0x51AF8001 := by decide

/-- Non-vacuity of C74: a Cortex-A72 r1p2. -/
example : (Midr.mk 0x41 1 15 0xD08 2).Ok ∧ littleCoreForBig 0x411FD082 = 0x410FD030 := by
  constructor
  · unfold Midr.Ok; decide
  · decide

/-- **C75.** The LITTLE companion never sorts before its big core: its score is at most the score of
the big core, and smaller unless they are the same register or the big core is a 32-bit one
(Cortex-A15, A17) seen by the 64-bit library. -/
theorem C75_little_scores_lower (a : Arch) (m : Midr) (h : m.Ok) :
    scoreCore a (littleCoreForBig m.word) ≤ scoreCore a m.word ∧
    (littleCoreForBig m.word ≠ m.word → ¬ (a = .arm64 ∧ m.implementer = 0x41 ∧
        (m.part = 0xC0E ∨ m.part = 0xC0F)) →
      scoreCore a (littleCoreForBig m.word) < scoreCore a m.word) := by
  by_cases hb : ∃ e ∈ bigAndLittle, m.architecture = 15 ∧ m.implementer = e.1 ∧ m.part = e.2.1
  · obtain ⟨e, he, ha, hi, hp⟩ := hb
    rw [(C74_little_for_big_partial m h).1 e he ha hi hp, hi, hp]
    have es : ∀ x : Nat, x &&& coreMask = e.1 * 16777216 + e.2.1 * 16 →
        scoreCore a x = scoreCore a (e.1 * 16777216 + e.2.1 * 16) := by
      intro x hx
      unfold scoreCore
      rw [hx]
      have : (e.1 * 16777216 + e.2.1 * 16) &&& coreMask = e.1 * 16777216 + e.2.1 * 16 := by
        clear hx hi hp
        revert e; decide
      rw [this]
    rw [es m.word (by rw [and_coreMask h, hi, hp])]
    have key : ∀ a : Arch, ∀ e ∈ bigAndLittle,
        scoreCore a e.2.2 ≤ scoreCore a (e.1 * 16777216 + e.2.1 * 16) ∧
        (¬ (a = .arm64 ∧ e.1 = 0x41 ∧ (e.2.1 = 0xC0E ∨ e.2.1 = 0xC0F)) →
          scoreCore a e.2.2 < scoreCore a (e.1 * 16777216 + e.2.1 * 16)) := by
      intro a; cases a <;> decide
    exact ⟨(key a e he).1, fun _ => (key a e he).2⟩
  · have e := (C74_little_for_big_partial m h).2 (fun e he hc => hb ⟨e, he, hc⟩)
    rw [e]
    exact ⟨Nat.le_refl _, fun hne => absurd rfl hne⟩

/-- The exception of C75: on 64-bit, Cortex-A15 and Cortex-A7 have the same score. -/
example : scoreCore .arm64 (littleCoreForBig 0x412FC0F1) = scoreCore .arm64 0x412FC0F1 ∧
    scoreCore .arm (littleCoreForBig 0x412FC0F1) < scoreCore .arm 0x412FC0F1 := by decide

/-- Implementer and part of power-saving cores: Cortex-A35, A53, A55, A510 and the Silver cores of
Kryo 2xx - 4xx and Kryo. -/
def littleCores : List (Nat × Nat) :=
  [(0x41, 0xD04), (0x41, 0xD03), (0x41, 0xD05), (0x41, 0xD46), (0x51, 0x801), (0x51, 0x803),
    (0x51, 0x805), (0x51, 0x201), (0x51, 0x211)]

/-- Implementer and part of performance cores: Cortex-A57, A72, A73, A75, A76, A77, A76AE, A78, A710,
A715, X1 - X3, HiSilicon's Cortex-A76, Denver 2, the Gold cores of Kryo and Kryo 2xx - 4xx, and
Exynos M1 - M5. -/
def bigCores : List (Nat × Nat) :=
  [(0x41, 0xD07), (0x41, 0xD08), (0x41, 0xD09), (0x41, 0xD0A), (0x41, 0xD0B), (0x41, 0xD0D),
    (0x41, 0xD0E), (0x41, 0xD41), (0x41, 0xD47), (0x41, 0xD4D), (0x41, 0xD44), (0x41, 0xD48),
    (0x41, 0xD4E), (0x48, 0xD40), (0x4E, 0x003), (0x51, 0x205), (0x51, 0x800), (0x51, 0x802),
    (0x51, 0x804), (0x53, 0x001), (0x53, 0x002), (0x53, 0x003), (0x53, 0x004)]

/-- **C75 (classes).** On both instruction sets every power-saving core scores below every core the
table does not know, and every performance core above; so a performance core of any variant and
revision sorts before any power-saving one. -/
theorem C75_classes (a : Arch) (m : Midr) (h : m.Ok) :
    ((m.implementer, m.part) ∈ littleCores → scoreCore a m.word < 3) ∧
    ((m.implementer, m.part) ∈ bigCores → 3 < scoreCore a m.word) := by
  have key : ∀ a : Arch, ∀ l : List (Nat × Nat), (l = littleCores ∨ l = bigCores) → ∀ e ∈ l,
      e.1 * 16777216 + e.2 * 16 &&& coreMask = e.1 * 16777216 + e.2 * 16 := by
    rintro a l (rfl | rfl) <;> decide
  have es : ∀ l : List (Nat × Nat), (l = littleCores ∨ l = bigCores) →
      (m.implementer, m.part) ∈ l →
      scoreCore a m.word = scoreCore a (m.implementer * 16777216 + m.part * 16) := by
    intro l hl he
    have := key a l hl _ he
    unfold scoreCore
    rw [and_coreMask h, this]
  have lo : ∀ a : Arch, ∀ e ∈ littleCores, scoreCore a (e.1 * 16777216 + e.2 * 16) < 3 := by
    intro a; cases a <;> decide
  have hi : ∀ a : Arch, ∀ e ∈ bigCores, 3 < scoreCore a (e.1 * 16777216 + e.2 * 16) := by
    intro a; cases a <;> decide
  constructor
  · intro he
    rw [es _ (.inl rfl) he]
    exact lo a (m.implementer, m.part) he
  · intro he
    rw [es _ (.inr rfl) he]
    exact hi a (m.implementer, m.part) he

/-- Non-vacuity: a Cortex-A53 r0p4, an unknown core, a Cortex-A72 r1p2. -/
example : scoreCore .arm64 0x410FD034 = 2 ∧ scoreCore .arm64 0x420FD034 = 3 ∧
    scoreCore .arm64 0x411FD082 = 5 := by decide

/-- **C75 (stability).** The score depends on implementer and part only. -/
theorem C75_score_by_part (a : Arch) (m n : Midr) (hm : m.Ok) (hn : n.Ok)
    (hi : m.implementer = n.implementer) (hp : m.part = n.part) :
    scoreCore a m.word = scoreCore a n.word := by
  unfold scoreCore
  rw [and_coreMask hm, and_coreMask hn, hi, hp]

end Verif.Props
