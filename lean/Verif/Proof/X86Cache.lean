import Verif.Proof.X86Cpuid

/-!
# Lemmas about the deterministic cache leaves and the enumeration of their sub-leaves
-/

set_option autoImplicit false

namespace Verif.X86Cpuid
open Spec
open X86Init (CacheDesc)

/-- Whether `Fills` holds, as a formula. -/
def FillsIff (m t l : Nat) : Slot → Prop
  | .l1d => l = 1 ∧ (t = 1 ∨ t = 3)
  | .l1i => l = 1 ∧ (t = 2 ∨ t = 3)
  | .l2 => l = 2 ∧ (t = 1 ∨ t = 3)
  | .l3 => l = 3 ∧ (t = 1 ∨ t = 3)
  | .l4 => l = 4 ∧ (t = 1 ∨ t = 3) ∧ 4 ≤ m

theorem fills_iff (m t l : Nat) (s : Slot) : Fills m t l s ↔ FillsIff m t l s := by
  constructor
  · intro h
    cases h <;> simp_all [FillsIff]
  · intro h
    cases s
    · obtain ⟨rfl, rfl | rfl⟩ := h
      · exact .l1i
      · exact .unified_l1i
    · obtain ⟨rfl, rfl | rfl⟩ := h
      · exact .l1d
      · exact .unified_l1d
    · obtain ⟨rfl, h⟩ := h
      exact .l2 _ h
    · obtain ⟨rfl, h⟩ := h
      exact .l3 _ h
    · obtain ⟨rfl, h, hm⟩ := h
      exact .l4 _ h hm

theorem subleafFills_iff (m : Nat) (r : Regs) (s : Slot) :
    SubleafFills m r s ↔ FillsIff m (cacheType r) (cacheLevel r) s := fills_iff _ _ _ _

/-- The flags of a sub-leaf. -/
def subleafFlags (unified inclusive complex : Bool) : Nat :=
  let f := if inclusive then flagInclusive else 0
  let f := if complex then f ||| flagComplexIndexing else f
  if unified then f ||| flagUnified else f

theorem mul32_all (a b c d : Nat) : mul32 (mul32 (mul32 a b) c) d = a * b * c * d % U32 := by
  unfold mul32
  rw [Nat.mod_mul_mod (a * b % U32 * c), Nat.mul_assoc (a * b % U32), Nat.mod_mul_mod (a * b),
    ← Nat.mul_assoc]

theorem describes_subleaf (complex : Bool) (r : Regs) (hr : RegsOk r) :
    Describes complex r (subleafDesc r (subleafFlags (cacheType r == 3) (r.edx.testBit 1)
      (complex && r.edx.testBit 2))) := by
  obtain ⟨h1, h2, h3, h4⟩ := hr
  constructor
  · simp only [subleafDesc, and_FFF]; omega
  · simp only [subleafDesc, and_3FF, Nat.shiftRight_eq_div_pow]; omega
  · simp only [subleafDesc, Nat.shiftRight_eq_div_pow]; omega
  · simp only [subleafDesc, Nat.add_comm]
  · simp only [subleafDesc, mul32_all]
  · have : (1 + ((r.eax >>> 14) &&& 0xFFF)) = r.eax / 16384 % 4096 + 1 := by
      simp only [and_FFF, Nat.shiftRight_eq_div_pow]; omega
    simp only [subleafDesc, this]
    exact isBits_bitLength _ (by omega) (by omega)
  all_goals
    simp only [subleafDesc]
    cases cacheType r == 3 <;> cases r.edx.testBit 1 <;> cases complex <;>
      cases r.edx.testBit 2 <;> decide

theorem edx_and_2 (x : Nat) : x &&& 0x2 ≠ 0 ↔ x.testBit 1 = true := and_bit x 1
theorem edx_and_4 (x : Nat) : x &&& 0x4 ≠ 0 ↔ x.testBit 2 = true := and_bit x 2

theorem cacheType_eq (r : Regs) : r.eax &&& 0x1F = cacheType r := and_1F _

theorem cacheLevel_eq (r : Regs) : (r.eax >>> 5) &&& 0x7 = cacheLevel r := by
  rw [and_7, Nat.shiftRight_eq_div_pow]; rfl

/-- Sub-leaf 4: what it fills and what it leaves alone. -/
theorem decodeLeaf4_spec (r : Regs) (hr : RegsOk r) (c : Caches) :
    (cacheType r = 0 → decodeLeaf4 r c = none) ∧
    (cacheType r ≠ 0 → ∃ c', decodeLeaf4 r c = some (c', r.eax / 67108864 + 1) ∧
      ∀ s, (SubleafFills 4 r s → Describes true r (c'.get s)) ∧
        (¬SubleafFills 4 r s → c'.get s = c.get s)) := by
  have hd := describes_subleaf true r hr
  simp only [decodeLeaf4, cacheType_eq, cacheLevel_eq, edx_and_2, edx_and_4]
  constructor
  · intro h; rw [if_pos h]
  · intro h
    have ep : 1 + r.eax >>> 26 = r.eax / 67108864 + 1 := by
      rw [Nat.shiftRight_eq_div_pow]; omega
    rw [if_neg h, ep]
    refine ⟨_, rfl, ?_⟩
    intro s
    rw [subleafFills_iff]
    unfold FillsIff
    generalize cacheLevel r = l
    revert hd
    generalize ht : cacheType r = ty
    intro hd
    cases h2 : r.edx.testBit 1 <;> cases h4 : r.edx.testBit 2 <;> simp only [h2, h4] at hd ⊢ <;>
      (by_cases t3 : ty = 3
       · subst t3
         by_cases l1 : l = 1
         · subst l1; cases s <;> simp_all [Caches.get, subleafFlags]
         by_cases l2 : l = 2
         · subst l2; cases s <;> simp_all [Caches.get, subleafFlags]
         by_cases l3 : l = 3
         · subst l3; cases s <;> simp_all [Caches.get, subleafFlags]
         by_cases l4 : l = 4
         · subst l4; cases s <;> simp_all [Caches.get, subleafFlags]
         cases s <;> simp_all [Caches.get, subleafFlags]
       by_cases t1 : ty = 1
       · subst t1
         by_cases l1 : l = 1
         · subst l1; cases s <;> simp_all [Caches.get, subleafFlags]
         by_cases l2 : l = 2
         · subst l2; cases s <;> simp_all [Caches.get, subleafFlags]
         by_cases l3 : l = 3
         · subst l3; cases s <;> simp_all [Caches.get, subleafFlags]
         by_cases l4 : l = 4
         · subst l4; cases s <;> simp_all [Caches.get, subleafFlags]
         cases s <;> simp_all [Caches.get, subleafFlags]
       by_cases t2 : ty = 2
       · subst t2
         by_cases l1 : l = 1
         · subst l1; cases s <;> simp_all [Caches.get, subleafFlags]
         cases s <;> simp_all [Caches.get, subleafFlags]
       cases s <;> simp_all [Caches.get, subleafFlags])

/-- Sub-leaf 0x8000001D: what it fills and what it leaves alone. -/
theorem decodeLeaf8000001D_spec (r : Regs) (hr : RegsOk r) (c : Caches) :
    (cacheType r = 0 → decodeLeaf8000001D r c = none) ∧
    (cacheType r ≠ 0 → ∃ c', decodeLeaf8000001D r c = some c' ∧
      ∀ s, (SubleafFills 3 r s → Describes false r (c'.get s)) ∧
        (¬SubleafFills 3 r s → c'.get s = c.get s)) := by
  have hd := describes_subleaf false r hr
  simp only [decodeLeaf8000001D, cacheType_eq, cacheLevel_eq, edx_and_2]
  constructor
  · intro h; rw [if_pos h]
  · intro h
    rw [if_neg h]
    refine ⟨_, rfl, ?_⟩
    intro s
    rw [subleafFills_iff]
    unfold FillsIff
    generalize cacheLevel r = l
    revert hd
    generalize ht : cacheType r = ty
    intro hd
    cases h2 : r.edx.testBit 1 <;> simp only [h2, Bool.false_and] at hd ⊢ <;>
      (by_cases t3 : ty = 3
       · subst t3
         by_cases l1 : l = 1
         · subst l1; cases s <;> simp_all [Caches.get, subleafFlags]
         by_cases l2 : l = 2
         · subst l2; cases s <;> simp_all [Caches.get, subleafFlags]
         by_cases l3 : l = 3
         · subst l3; cases s <;> simp_all [Caches.get, subleafFlags]
         cases s <;> simp_all [Caches.get, subleafFlags]
       by_cases t1 : ty = 1
       · subst t1
         by_cases l1 : l = 1
         · subst l1; cases s <;> simp_all [Caches.get, subleafFlags]
         by_cases l2 : l = 2
         · subst l2; cases s <;> simp_all [Caches.get, subleafFlags]
         by_cases l3 : l = 3
         · subst l3; cases s <;> simp_all [Caches.get, subleafFlags]
         cases s <;> simp_all [Caches.get, subleafFlags]
       by_cases t2 : ty = 2
       · subst t2
         by_cases l1 : l = 1
         · subst l1; cases s <;> simp_all [Caches.get, subleafFlags]
         cases s <;> simp_all [Caches.get, subleafFlags]
       cases s <;> simp_all [Caches.get, subleafFlags])

/-- The caches after `n` sub-leaves: every level is as the last sub-leaf that fills it describes
it, or as before. -/
def After (maxLevel : Nat) (complex : Bool) (sub : Nat → Regs) (n : Nat) (c c' : Caches) : Prop :=
  ∀ s, (∀ i, LastFills maxLevel sub n s i → Describes complex (sub i) (c'.get s)) ∧
    ((∀ i < n, ¬SubleafFills maxLevel (sub i) s) → c'.get s = c.get s)

theorem after_zero (m : Nat) (k : Bool) (sub : Nat → Regs) (c : Caches) : After m k sub 0 c c :=
  fun _ => ⟨fun _ h => absurd h.1 (Nat.not_lt_zero _), fun _ => rfl⟩

theorem after_succ {m : Nat} {k : Bool} {sub : Nat → Regs} {n : Nat} {c c' c'' : Caches}
    (h : After m k sub n c c')
    (hs : ∀ s, (SubleafFills m (sub n) s → Describes k (sub n) (c''.get s)) ∧
      (¬SubleafFills m (sub n) s → c''.get s = c'.get s)) : After m k sub (n + 1) c c'' := by
  intro s
  constructor
  · intro i hi
    by_cases hn : SubleafFills m (sub n) s
    · have : i = n := by
        have h1 := hi.1
        have h2 := hi.2.2 n
        by_cases hin : i < n
        · exact absurd hn (h2 hin (by omega))
        · omega
      subst this
      exact (hs s).1 hn
    · rw [(hs s).2 hn]
      apply (h s).1
      have hin : i ≠ n := by rintro rfl; exact hn hi.2.1
      exact ⟨by have := hi.1; omega, hi.2.1, fun j h1 h2 => hi.2.2 j h1 (by omega)⟩
  · intro hi
    rw [(hs s).2 (hi n (by omega))]
    exact (h s).2 fun i hn => hi i (by omega)

theorem leaf4Loop_spec (sub : Nat → Regs) (hok : ∀ i, RegsOk (sub i)) (n : Nat)
    (hn : Subleaves sub n) (hu : n < U32) (c : Caches) (p₀ : Nat) :
    ∀ (fuel i : Nat) (ci : Caches) (p : Nat), i ≤ n → n < fuel + i → After 4 true sub i c ci →
      (p = if i = 0 then p₀ else (sub (i - 1)).eax / 67108864 + 1) →
      ∃ c', leaf4Loop sub fuel i (ci, p) =
          some (c', if n = 0 then p₀ else (sub (n - 1)).eax / 67108864 + 1) ∧
        After 4 true sub n c c' := by
  intro fuel
  induction fuel with
  | zero => intro i ci p hi hf; omega
  | succ fuel ih =>
    intro i ci p hi hf ha hp
    simp only [leaf4Loop]
    by_cases hin : i = n
    · subst hin
      rw [(decodeLeaf4_spec (sub i) (hok i) ci).1 hn.2]
      exact ⟨ci, by rw [hp], ha⟩
    · obtain ⟨c', e, hs⟩ := (decodeLeaf4_spec (sub i) (hok i) ci).2 (hn.1 i (by omega))
      rw [e]
      have hi1 : (i + 1) % U32 = i + 1 := Nat.mod_eq_of_lt (by omega)
      simp only [hi1]
      exact ih (i + 1) c' _ (by omega) (by omega) (after_succ ha hs) (by simp)

theorem leaf8000001DLoop_spec (sub : Nat → Regs) (hok : ∀ i, RegsOk (sub i)) (n : Nat)
    (hn : Subleaves sub n) (hu : n < U32) (c : Caches) :
    ∀ (fuel i : Nat) (ci : Caches), i ≤ n → n < fuel + i → After 3 false sub i c ci →
      ∃ c', leaf8000001DLoop sub fuel i ci = some c' ∧ After 3 false sub n c c' := by
  intro fuel
  induction fuel with
  | zero => intro i ci hi hf; omega
  | succ fuel ih =>
    intro i ci hi hf ha
    simp only [leaf8000001DLoop]
    by_cases hin : i = n
    · subst hin
      rw [(decodeLeaf8000001D_spec (sub i) (hok i) ci).1 hn.2]
      exact ⟨ci, rfl, ha⟩
    · obtain ⟨c', e, hs⟩ := (decodeLeaf8000001D_spec (sub i) (hok i) ci).2 (hn.1 i (by omega))
      rw [e]
      have hi1 : (i + 1) % U32 = i + 1 := Nat.mod_eq_of_lt (by omega)
      simp only [hi1]
      exact ih (i + 1) c' (by omega) (by omega) (after_succ ha hs)

/-! ### Descriptors -/

/-- Assignments touch only their level. -/
theorem get_put (c : Caches) (d : CacheDesc) (s s' : Slot) :
    (c.put d s).get s' = if s' = s then d else c.get s' := by
  cases s <;> cases s' <;> rfl

/-- What a descriptor does, as an assignment of levels. -/
def effect (t : Target) (vendor : Vendor) (m : ModelInfo) (b : Byte) : List (Slot × CacheDesc) :=
  if b = 0x49 then
    if vendor = .intel ∧ m.model = 0x06 ∧ m.family = 0x0F then
      [(.l3, ⟨4194304, 16, 4096, 1, 64, 2, 0⟩)]
    else [(.l2, ⟨4194304, 16, 4096, 1, 64, 2, 0⟩)]
  else if b = 0x80 then
    if t.x86_32 ∧ ¬t.android ∧ (vendor = .cyrix ∨ vendor = .nsc) then
      [(.l1i, ⟨16384, 4, 256, 1, 16, 1, 0⟩), (.l1d, ⟨16384, 4, 256, 1, 16, 1, 0⟩)]
    else [(.l2, ⟨524288, 8, 1024, 1, 64, 2, 0⟩)]
  else
    match descriptorTable.find? fun r => r.1 == b with
    | some (_, s, d) => [(s, d)]
    | none => []

theorem decodeDescriptor_get (t : Target) (v : Vendor) (m : ModelInfo) (b : Byte) (c : Caches)
    (s : Slot) :
    (∃ d, (s, d) ∈ effect t v m b ∧ (decodeDescriptor t v m b c).get s = d) ∨
    ((∀ d, (s, d) ∉ effect t v m b) ∧ (decodeDescriptor t v m b c).get s = c.get s) := by
  unfold decodeDescriptor effect
  split
  · split <;> cases s <;> simp [Caches.get, flagInclusive]
  split
  · split <;> cases s <;> simp [Caches.get, flagInclusive, flagUnified]
  cases descriptorTable.find? fun r => r.1 == b with
  | none => right; simp
  | some r =>
    obtain ⟨b', s', d⟩ := r
    simp only [get_put, List.mem_singleton, Prod.mk.injEq]
    by_cases h : s = s'
    · left; exact ⟨d, ⟨h, rfl⟩, by rw [if_pos h]⟩
    · right; exact ⟨fun d' e => h e.1, by rw [if_neg h]⟩

end Verif.X86Cpuid
