import Verif.Proof.X86Publish

/-!
# When `build` faults
-/

set_option autoImplicit false

namespace Verif.X86Init
open Runs Spec
open X86Cpuinfo (LinuxProc)

theorem highMask_zero {m : Nat} (hm : IsHighMask 0 m) : m = U32MAX := by
  apply Nat.eq_of_testBit_eq
  intro i
  rw [hm i, u32max_testBit]
  simp

theorem collision_key {k m a : Nat} (hm : IsHighMask k m) (h : a &&& m ≠ U32MAX) :
    a ≠ U32MAX ∨ 0 < k := by
  by_cases ha : a = U32MAX
  · refine .inr (Nat.pos_of_ne_zero ?_)
    rintro rfl
    rw [highMask_zero hm, ha] at h
    exact h (by decide)
  · exact .inl ha

theorem bitMask_some {k b : Nat} (h : bitMask k = some b) : k < 32 ∧ b = 2 ^ k - 1 := by
  unfold bitMask at h
  split at h
  · next hk => cases h; exact ⟨hk, rfl⟩
  · cases h

theorem masks_some {t : Topology} {l : Nat} {m : Masks} (h : masks t l = some m) :
    t.threadLength < 32 ∧ t.coreLength < 32 ∧ l < 32 := by
  unfold masks at h
  cases h1 : bitMask t.threadLength with
  | none => simp [h1] at h
  | some b1 =>
    cases h2 : bitMask t.coreLength with
    | none => simp [h1, h2] at h
    | some b2 =>
      cases h3 : bitMask l with
      | none => simp [h1, h2, h3] at h
      | some b3 => exact ⟨(bitMask_some h1).1, (bitMask_some h2).1, (bitMask_some h3).1⟩

/-- With a colliding first key the first step of the build loop faults. -/
theorem buildStep_collision (m : Masks) (p : LinuxProc) (np nc nl nq nm : Nat)
    (hc : nc < U32) (hl : nl < U32) (hq : nq < U32)
    (h : p.apicId &&& m.core = U32MAX ∨ p.apicId &&& m.cluster = U32MAX ∨
      p.apicId &&& m.package = U32MAX) :
    buildStep m (Ctx.initState np nc nl nq nm) p = none := by
  have key : ∀ {α : Type} (n : Nat) (z : α) (f : α → α), n < U32 →
      modify? (List.replicate n z) U32MAX f = none := by
    intro α n z f hn
    exact modify?_none (by simp; omega) f
  unfold buildStep Ctx.initState
  simp only [Option.bind_eq_bind, Option.pure_def, Option.bind_eq_none_iff]
  intro t1 _ t2 h2 t3 h3 t4 h4 t5 h5 t6 h6 t7 h7
  exfalso
  rcases h with h | h | h
  · simp only [h, bne_self_eq_false, Bool.false_eq_true, if_false] at h2
    rw [key _ _ _ hc] at h2; cases h2
  · simp only [h, bne_self_eq_false, Bool.false_eq_true, if_false] at h5 h3
    by_cases hn : (p.apicId &&& m.core != U32MAX) = true
    · simp only [modifyIf?, hn, if_true] at h3
      rw [key _ _ _ hl] at h3; cases h3
    · simp only [modifyIf?, hn, if_false] at h3
      have h3 := Option.some.inj h3
      subst h3
      rw [key _ _ _ hl] at h5; cases h5
  · simp only [h, bne_self_eq_false, Bool.false_eq_true, if_false] at h4 h6 h7
    by_cases hn : (p.apicId &&& m.core != U32MAX) = true
    · simp only [modifyIf?, hn, if_true] at h4
      rw [key _ _ _ hq] at h4; cases h4
    · simp only [modifyIf?, hn, if_false] at h4
      have h4 := Option.some.inj h4
      subst h4
      by_cases hn : (p.apicId &&& m.cluster != U32MAX) = true
      · simp only [modifyIf?, hn, if_true] at h6
        rw [key _ _ _ hq] at h6; cases h6
      · simp only [modifyIf?, hn, if_false] at h6
        have h6 := Option.some.inj h6
        subst h6
        rw [key _ _ _ hq] at h7; cases h7

namespace Input
variable (I : Input)

/-- A level that was built without fault has sharing bits below 32 and no colliding key. -/
theorem buildCache_back (al : Bool) (d : CacheDesc) (l : CacheLevel)
    (h : buildCache al d I.vm I.v.length (I.v ++ I.w) = some (some l)) :
    (d.size ≠ 0 → d.apicBits < 32) ∧
      (0 < I.v.length → d.size ≠ 0 → apicAt I.v 0 ≠ U32MAX ∨ 0 < d.apicBits) ∧
      (I.v.length = 0 → l.links = []) := by
  unfold buildCache at h
  simp only [Option.bind_eq_bind, Option.pure_def] at h
  obtain ⟨count, h1, h2⟩ := Option.bind_eq_some_iff.mp h
  split at h2
  · cases h2
  obtain ⟨s, h3, h4⟩ := Option.bind_eq_some_iff.mp h2
  have h4 := Option.some.inj (Option.some.inj h4)
  refine ⟨?_, ?_, ?_⟩
  · intro hs
    unfold cacheCount at h1
    rw [if_pos hs] at h1
    obtain ⟨b, hb, _⟩ := Option.map_eq_some_iff.mp h1
    exact (bitMask_some hb).1
  · intro hN hs
    unfold cacheCount at h1
    rw [if_pos hs] at h1
    obtain ⟨b, hb, hcount⟩ := Option.map_eq_some_iff.mp h1
    have hcl : count < U32 := by
      rw [← hcount]; exact countLoop_lt _ _ _ _ _ (by omega)
    apply collision_key (not32_bitMask hb)
    intro hcol
    obtain ⟨p, v', hv'⟩ : ∃ p v', I.v = p :: v' := by
      cases hv : I.v with
      | nil => rw [hv] at hN; simp at hN
      | cons p v' => exact ⟨p, v', rfl⟩
    have hap : p.apicId = apicAt I.v 0 := apicAt_get (by rw [hv']; rfl)
    have hp := I.hv p (by rw [hv']; exact .head _)
    rw [hv', List.cons_append, cacheLoop, if_pos hp] at h3
    have : cacheStep d 0
        { processorIndex := U32MAX, index := U32MAX, last := U32MAX,
          table := List.replicate count zeroCache,
          links := List.replicate (p :: v').length none } p = none := by
      unfold cacheStep
      simp only [if_pos hs, hb, hap, hcol, Option.bind_eq_bind, Option.bind_some,
        bne_self_eq_false, Bool.false_eq_true, if_false]
      rw [modify?_none (by simp; omega)]
      rfl
    rw [this] at h3
    cases h3
  · intro hN
    have hv : I.v = [] := List.length_eq_zero_iff.mp hN
    rw [hv, List.nil_append, cacheLoop_skip d I.w I.hw] at h3
    have h3 := Option.some.inj h3
    rw [← h4, ← h3]
    rfl

end Input

/-- Detection that finishes without fault had at least one usable processor, small bit fields and
no colliding first key. -/
theorem build_back (I : Input) (x : X86Processor) (alloc : Nat → Bool) (pub : Published)
    (hoff : x.topology.threadOffset = 0) (hcoff : x.topology.coreOffset = x.topology.threadLength)
    (h : build alloc x I.vm I.v.length (I.v ++ I.w) = some (some pub)) :
    BitsOk x ∧ 0 < I.v.length ∧ NoCollision x (apicAt I.v 0) := by
  unfold build at h
  simp only [Option.bind_eq_bind, Option.pure_def] at h
  split at h
  · cases h
  obtain ⟨m, hm, h⟩ := Option.bind_eq_some_iff.mp h
  split at h
  · cases h
  obtain ⟨l1i, e1, h⟩ := Option.bind_eq_some_iff.mp h
  obtain ⟨l1d, e2, h⟩ := Option.bind_eq_some_iff.mp h
  obtain ⟨l2, e3, h⟩ := Option.bind_eq_some_iff.mp h
  obtain ⟨l3, e4, h⟩ := Option.bind_eq_some_iff.mp h
  obtain ⟨l4, e5, h⟩ := Option.bind_eq_some_iff.mp h
  cases l1i with
  | none => simp at h
  | some l1i =>
  cases l1d with
  | none => simp at h
  | some l1d =>
  cases l2 with
  | none => simp at h
  | some l2 =>
  cases l3 with
  | none => simp at h
  | some l3 =>
  cases l4 with
  | none => simp at h
  | some l4 =>
  simp only [] at h
  obtain ⟨s, hs, h⟩ := Option.bind_eq_some_iff.mp h
  obtain ⟨z4, hz4, h⟩ := Option.bind_eq_some_iff.mp h
  obtain ⟨b1, c1, _⟩ := I.buildCache_back _ _ _ e1
  obtain ⟨b2, c2, _⟩ := I.buildCache_back _ _ _ e2
  obtain ⟨b3, c3, _⟩ := I.buildCache_back _ _ _ e3
  obtain ⟨b4, c4, _⟩ := I.buildCache_back _ _ _ e4
  obtain ⟨b5, c5, d5⟩ := I.buildCache_back _ _ _ e5
  obtain ⟨m1, m2, m3⟩ := masks_some hm
  have hN : 0 < I.v.length := by
    apply Nat.pos_of_ne_zero
    intro h0
    simp [linkedSize, d5 h0] at hz4
  refine ⟨⟨hoff, hcoff, m1, m2, m3, b1, b2, b3, b4, b5⟩, hN, ?_⟩
  obtain ⟨m', hm', hmc, hmp, hml⟩ := masks_spec x.topology (llcApicBits x) hoff hcoff m1 m2 m3
  have hmm : m' = m := by rw [hm] at hm'; exact (Option.some.inj hm').symm
  subst hmm
  have hstep : ¬ (apicAt I.v 0 &&& m'.core = U32MAX ∨ apicAt I.v 0 &&& m'.cluster = U32MAX ∨
      apicAt I.v 0 &&& m'.package = U32MAX) := by
    intro hcol
    obtain ⟨p, v', hv'⟩ : ∃ p v', I.v = p :: v' := by
      cases hv : I.v with
      | nil => rw [hv] at hN; simp at hN
      | cons p v' => exact ⟨p, v', rfl⟩
    have hap : p.apicId = apicAt I.v 0 := apicAt_get (by rw [hv']; rfl)
    have hp := I.hv p (by rw [hv']; exact .head _)
    rw [hv', List.cons_append, buildLoop, if_pos hp] at hs
    rw [← hap] at hcol
    have := buildStep_collision m' p (p :: v').length (countObjects I.vm m'.core (p :: (v' ++ I.w)))
      (countObjects I.vm m'.cluster (p :: (v' ++ I.w)))
      (countObjects I.vm m'.package (p :: (v' ++ I.w)))
      (p :: (v' ++ I.w)).length
      (countLoop_lt _ _ _ _ _ (by omega)) (countLoop_lt _ _ _ _ _ (by omega))
      (countLoop_lt _ _ _ _ _ (by omega)) hcol
    unfold Ctx.initState at this
    rw [this] at hs
    cases hs
  exact ⟨collision_key hmc fun h => hstep (.inl h), collision_key hml fun h => hstep (.inr (.inl h)),
    collision_key hmp fun h => hstep (.inr (.inr h)), c1 hN, c2 hN, c3 hN, c4 hN, c5 hN⟩

/-- Everything `build` publishes is good. -/
theorem build_sound (I : Input) (x : X86Processor) (alloc : Nat → Bool) (pub : Published)
    (hoff : x.topology.threadOffset = 0) (hcoff : x.topology.coreOffset = x.topology.threadLength)
    (h : build alloc x I.vm I.v.length (I.v ++ I.w) = some (some pub)) : ∃ c, Good I x c pub := by
  obtain ⟨h1, h2, h3⟩ := build_back I x alloc pub hoff hcoff h
  obtain ⟨r, h4, _, h5⟩ := build_good I x alloc h1 h2 h3
  rw [h] at h4
  exact h5 pub (Option.some.inj h4).symm

end Verif.X86Init
