import Verif.Spec.ArmClusters
import Verif.Proof.ArmMidr
import Verif.Proof.X86Isa

/-!
# The details of a cluster under construction

`checkAttrs` passes iff no known detail differs, and then the cluster knows what it knew and what
the processor knows; `recordAttrs` starts a cluster with what the processor knows.
-/

set_option autoImplicit false

namespace Verif.ArmClusters
open Spec ArmMidr ArmCpuinfo
open X86Init (modify? bitmaskAll)

theorem has_pow (p : Proc) (k : Nat) : has p (2 ^ k) = p.flags.testBit k := X86Cpuid.flag_pow _ k

theorem bitmask_pow (x k : Nat) : bitmaskAll x (2 ^ k) = x.testBit k := by
  rw [Bool.eq_iff_iff]
  unfold bitmaskAll
  rw [beq_iff_eq]
  constructor
  · intro h
    have := congrArg (fun y => Nat.testBit y k) h
    simpa [Nat.testBit_and, Nat.testBit_two_pow_self] using this
  · intro h
    apply Nat.eq_of_testBit_eq
    intro i
    rw [Nat.testBit_and]
    by_cases hi : k = i
    · subst hi
      rw [h]; simp
    · simp [Nat.testBit_two_pow_of_ne hi]

theorem valid_eq (p : Proc) : valid p = p.flags.testBit 12 := bitmask_pow p.flags 12
theorem valid_iff (p : Proc) : valid p = true ↔ Usable p := by rw [valid_eq]; rfl
theorem hasCluster_iff (p : Proc) : has p flagCluster = true ↔ Clustered p := by
  rw [show has p flagCluster = p.flags.testBit 10 from has_pow p 10]; rfl

theorem mark_testBit (p : Proc) (k j : Nat) :
    (mark (2 ^ k) p).flags.testBit j = (p.flags.testBit j || decide (k = j)) := by
  simp [mark, Nat.testBit_or, Nat.testBit_two_pow]

/-- What the cluster under construction knows. -/
def cknown (c : Attrs) (d : Detail) : Option Nat :=
  known { Proc.zero with
    flags := c.flags
    midr := c.midr
    maxFrequency := c.maxFrequency
    minFrequency := c.minFrequency } d

/-- The step of each detail. -/
def stepOf : Detail → Proc → Attrs → Attrs × Bool
  | .minFrequency => minStep
  | .maxFrequency => maxStep
  | .implementer => implementerStep
  | .variant => variantStep
  | .part => partStep
  | .revision => revisionStep

theorem or_testBit (x k j : Nat) :
    (x ||| 2 ^ k).testBit j = (x.testBit j || decide (k = j)) := by
  simp [Nat.testBit_or, Nat.testBit_two_pow]

theorem and_eq_iff (x y o w mask po pw : Nat) (hm : mask = (2 ^ w - 1) <<< o) (h1 : po = 2 ^ o)
    (h2 : pw = 2 ^ w) : x &&& mask = y &&& mask ↔ x / po % pw = y / po % pw := by
  rw [keep_field x o w mask po pw _ hm h1 h2 rfl, keep_field y o w mask po pw _ hm h1 h2 rfl]
  have : 0 < po := by rw [h1]; exact Nat.pos_of_ne_zero (by simp)
  exact ⟨fun h => Nat.eq_of_mul_eq_mul_right this h, fun h => by rw [h]⟩

theorem copy_same (c p N M : Nat) (h : N &&& M = 0) :
    ((c &&& N) ||| (p &&& M)) &&& M = p &&& M := by
  rw [Nat.and_or_distrib_right, Nat.and_assoc, h, Nat.and_zero, Nat.zero_or, Nat.and_assoc,
    Nat.and_self]

theorem copy_other (c p N M M' : Nat) (h1 : N &&& M' = M') (h2 : M &&& M' = 0) :
    ((c &&& N) ||| (p &&& M)) &&& M' = c &&& M' := by
  rw [Nat.and_or_distrib_right, Nat.and_assoc, h1, Nat.and_assoc, h2, Nat.and_zero, Nat.or_zero]

/-- The mask of a MIDR detail. -/
def maskOf : Detail → Nat
  | .implementer => implementerMask
  | .variant => variantMask
  | .part => partMask
  | .revision => revisionMask
  | _ => 0

/-- Equal details under the mask are equal values. -/
theorem mask_value (d : Detail) (p q : Proc) (hmin : d ≠ .minFrequency) (hmax : d ≠ .maxFrequency) :
    p.midr &&& maskOf d = q.midr &&& maskOf d ↔ d.value p = d.value q := by
  cases d with
  | minFrequency => exact absurd rfl hmin
  | maxFrequency => exact absurd rfl hmax
  | implementer => exact and_eq_iff _ _ 24 8 _ _ _ (by decide) (by decide) (by decide)
  | variant => exact and_eq_iff _ _ 20 4 _ _ _ (by decide) (by decide) (by decide)
  | part => exact and_eq_iff _ _ 4 12 _ _ _ (by decide) (by decide) (by decide)
  | revision =>
    have := and_eq_iff p.midr q.midr 0 4 revisionMask 1 16 (by decide) (by decide) (by decide)
    simpa [Detail.value, maskOf] using this

/-- One step: it passes iff the detail does not differ; then the detail is known if the cluster
or the processor knew it; no other detail changes. -/
structure StepSpec (d : Detail) (p : Proc) (c : Attrs) (r : Attrs × Bool) : Prop where
  ok : r.2 = true ↔ ∀ v w, cknown c d = some v → known p d = some w → v = w
  this : r.2 = true → cknown r.1 d = (cknown c d).or (known p d)
  others : ∀ e, e ≠ d → cknown r.1 e = cknown c e

theorem bit_injective : ∀ d e : Detail, d.bit = e.bit → d = e := by
  intro d e; cases d <;> cases e <;> decide

theorem attrStep_spec (d : Detail) (flag : Nat) (hfl : flag = 2 ^ d.bit) (same : Attrs → Proc → Bool) (record : Attrs → Proc → Attrs)
    (p : Proc) (c : Attrs)
    (hsame : c.flags.testBit d.bit = true → p.flags.testBit d.bit = true →
      (same c p = true ↔ ∀ v w, cknown c d = some v → known p d = some w → v = w))
    (hrec : cknown { record c p with flags := c.flags ||| 2 ^ d.bit } d = some (d.value p))
    (hoth : ∀ e, e ≠ d → cknown { record c p with flags := c.flags } e = cknown c e) :
    StepSpec d p c (attrStep flag same record p c) := by
  subst hfl
  unfold attrStep
  rw [has_pow]
  have hflag : (c.flags &&& 2 ^ d.bit != 0) = c.flags.testBit d.bit := X86Cpuid.flag_pow _ _
  rw [hflag]
  by_cases hp : p.flags.testBit d.bit = true
  · have hk : known p d = some (d.value p) := by unfold known; rw [if_pos hp]
    by_cases hc : c.flags.testBit d.bit = true
    · rw [if_pos hp, if_pos hc]
      refine ⟨hsame hc hp, fun _ => ?_, fun _ _ => rfl⟩
      have : ∃ v, cknown c d = some v := by unfold cknown known; exact ⟨_, if_pos hc⟩
      obtain ⟨v, hv⟩ := this
      rw [hv]; rfl
    · have hn : cknown c d = none := by
        unfold cknown known; exact if_neg (by simpa using hc)
      rw [if_pos hp, if_neg hc]
      refine ⟨?_, fun _ => ?_, fun e he => ?_⟩
      · constructor
        · intro _ v w hv; rw [hn] at hv; cases hv
        · intro _; rfl
      · dsimp only; rw [hn, hrec, hk]; rfl
      · dsimp only
        rw [← hoth e he]
        unfold cknown known
        dsimp only
        rw [or_testBit]
        have : d.bit ≠ e.bit := fun h => he (bit_injective _ _ h).symm
        rw [decide_eq_false this, Bool.or_false]
        cases e <;> rfl
  · have hk : known p d = none := by unfold known; exact if_neg hp
    rw [if_neg hp]
    refine ⟨?_, fun _ => ?_, fun _ _ => rfl⟩
    · constructor
      · intro _ v w _ hw; rw [hk] at hw; cases hw
      · intro _; rfl
    · rw [hk]; cases cknown c d <;> rfl

theorem cknown_flags (c : Attrs) (d : Detail) (p : Proc) (hv : d.value
    { Proc.zero with
      flags := c.flags
      midr := c.midr
      maxFrequency := c.maxFrequency
      minFrequency := c.minFrequency } = d.value p) (hf : c.flags.testBit d.bit = true) :
    cknown c d = some (d.value p) := by
  unfold cknown known
  rw [if_pos hf, hv]

theorem or_bit (x : Nat) (k : Nat) : (x ||| 2 ^ k).testBit k = true := by
  rw [or_testBit]; simp

theorem value_congr (e : Detail) (p q : Proc) (h1 : p.minFrequency = q.minFrequency)
    (h2 : p.maxFrequency = q.maxFrequency) (h3 : p.midr &&& maskOf e = q.midr &&& maskOf e) :
    e.value p = e.value q := by
  by_cases hmin : e = .minFrequency
  · subst hmin; exact h1
  by_cases hmax : e = .maxFrequency
  · subst hmax; exact h2
  exact (mask_value e p q hmin hmax).mp h3

theorem cknown_congr (c c' : Attrs) (e : Detail) (h0 : c'.flags = c.flags)
    (h1 : c'.minFrequency = c.minFrequency)
    (h2 : c'.maxFrequency = c.maxFrequency) (h3 : c'.midr &&& maskOf e = c.midr &&& maskOf e) :
    cknown c' e = cknown c e := by
  unfold cknown known
  rw [h0]
  split
  · exact congrArg some (value_congr e _ _ h1 h2 h3)
  · rfl

theorem same_iff (d : Detail) (p : Proc) (c : Attrs) (b : Bool)
    (hb : b = true ↔ d.value
      { Proc.zero with
        flags := c.flags
        midr := c.midr
        maxFrequency := c.maxFrequency
        minFrequency := c.minFrequency } = d.value p)
    (hc : c.flags.testBit d.bit = true) (hp : p.flags.testBit d.bit = true) :
    b = true ↔ ∀ v w, cknown c d = some v → known p d = some w → v = w := by
  rw [hb]
  unfold cknown known
  rw [if_pos hc, if_pos hp]
  constructor
  · intro h v w hv hw
    rw [← Option.some.inj hv, ← Option.some.inj hw]; exact h
  · intro h; exact h _ _ rfl rfl

theorem stepOf_spec (d : Detail) (p : Proc) (c : Attrs) : StepSpec d p c (stepOf d p c) := by
  cases d with
  | minFrequency =>
    show StepSpec .minFrequency p c (minStep p c)
    unfold minStep
    refine attrStep_spec .minFrequency _ (by decide) _ _ p c (fun hc hp => same_iff _ p c _ ?_ hc hp) ?_ ?_
    · exact beq_iff_eq
    · exact cknown_flags _ .minFrequency p rfl (or_bit _ _)
    · intro e he
      cases e with
      | minFrequency => exact absurd rfl he
      | _ => rfl
  | maxFrequency =>
    show StepSpec .maxFrequency p c (maxStep p c)
    unfold maxStep
    refine attrStep_spec .maxFrequency _ (by decide) _ _ p c (fun hc hp => same_iff _ p c _ ?_ hc hp) ?_ ?_
    · exact beq_iff_eq
    · exact cknown_flags _ .maxFrequency p rfl (or_bit _ _)
    · intro e he
      cases e with
      | maxFrequency => exact absurd rfl he
      | _ => rfl
  | implementer =>
    show StepSpec .implementer p c (implementerStep p c)
    unfold implementerStep
    refine attrStep_spec .implementer _ (by decide) _ _ p c (fun hc hp => same_iff _ p c _ ?_ hc hp) ?_ ?_
    · exact beq_iff_eq.trans (mask_value .implementer { Proc.zero with midr := c.midr } p
        (by decide) (by decide))
    · refine cknown_flags _ .implementer p ?_ (or_bit _ _)
      exact (mask_value .implementer { Proc.zero with midr := _ } p (by decide) (by decide)).mp
        (copy_same _ _ _ _ (by decide))
    · intro e he
      refine cknown_congr _ _ e rfl rfl rfl ?_
      cases e with
      | implementer => exact absurd rfl he
      | _ => exact copy_other _ _ _ _ _ (by decide) (by decide)
  | variant =>
    show StepSpec .variant p c (variantStep p c)
    unfold variantStep
    refine attrStep_spec .variant _ (by decide) _ _ p c (fun hc hp => same_iff _ p c _ ?_ hc hp) ?_ ?_
    · exact beq_iff_eq.trans (mask_value .variant { Proc.zero with midr := c.midr } p
        (by decide) (by decide))
    · refine cknown_flags _ .variant p ?_ (or_bit _ _)
      exact (mask_value .variant { Proc.zero with midr := _ } p (by decide) (by decide)).mp
        (copy_same _ _ _ _ (by decide))
    · intro e he
      refine cknown_congr _ _ e rfl rfl rfl ?_
      cases e with
      | variant => exact absurd rfl he
      | _ => exact copy_other _ _ _ _ _ (by decide) (by decide)
  | part =>
    show StepSpec .part p c (partStep p c)
    unfold partStep
    refine attrStep_spec .part _ (by decide) _ _ p c (fun hc hp => same_iff _ p c _ ?_ hc hp) ?_ ?_
    · exact beq_iff_eq.trans (mask_value .part { Proc.zero with midr := c.midr } p
        (by decide) (by decide))
    · refine cknown_flags _ .part p ?_ (or_bit _ _)
      exact (mask_value .part { Proc.zero with midr := _ } p (by decide) (by decide)).mp
        (copy_same _ _ _ _ (by decide))
    · intro e he
      refine cknown_congr _ _ e rfl rfl rfl ?_
      cases e with
      | part => exact absurd rfl he
      | _ => exact copy_other _ _ _ _ _ (by decide) (by decide)
  | revision =>
    show StepSpec .revision p c (revisionStep p c)
    unfold revisionStep
    refine attrStep_spec .revision _ (by decide) _ _ p c (fun hc hp => same_iff _ p c _ ?_ hc hp) ?_ ?_
    · exact beq_iff_eq.trans (mask_value .revision { Proc.zero with midr := c.midr } p
        (by decide) (by decide))
    · refine cknown_flags _ .revision p ?_ (or_bit _ _)
      exact (mask_value .revision { Proc.zero with midr := _ } p (by decide) (by decide)).mp
        (copy_same _ _ _ _ (by decide))
    · intro e he
      refine cknown_congr _ _ e rfl rfl rfl ?_
      cases e with
      | revision => exact absurd rfl he
      | _ => exact copy_other _ _ _ _ _ (by decide) (by decide)

/-- A chain of steps. -/
def chain (p : Proc) : List Detail → Attrs × Bool → Attrs × Bool
  | [], r => r
  | d :: ds, r => chain p ds (andThen r (stepOf d p))

theorem checkAttrs_chain (p : Proc) (c : Attrs) : checkAttrs p c = chain p Detail.all (c, true) := rfl

theorem chain_false (p : Proc) (ds : List Detail) (c : Attrs) : (chain p ds (c, false)).2 = false := by
  induction ds with
  | nil => rfl
  | cons d ds ih => exact ih

theorem chain_spec (p : Proc) : ∀ (ds : List Detail), ds.Nodup → ∀ (c : Attrs),
    ((chain p ds (c, true)).2 = true ↔
      ∀ d ∈ ds, ∀ v w, cknown c d = some v → known p d = some w → v = w) ∧
    ((chain p ds (c, true)).2 = true → ∀ d,
      cknown (chain p ds (c, true)).1 d = if d ∈ ds then (cknown c d).or (known p d) else cknown c d)
  | [], _, c => by simp [chain]
  | d :: ds, hn, c => by
    obtain ⟨hd, hn⟩ := List.nodup_cons.mp hn
    have hs := stepOf_spec d p c
    show ((chain p ds (andThen (c, true) (stepOf d p))).2 = true ↔ _) ∧ _
    have e : chain p (d :: ds) (c, true) = chain p ds (stepOf d p c) := rfl
    rw [e]
    show ((chain p ds (stepOf d p c)).2 = true ↔ _) ∧ _
    rcases hr : stepOf d p c with ⟨c', b⟩
    rw [hr] at hs
    cases b with
    | false =>
      rw [chain_false]
      refine ⟨⟨fun h => by simp at h, fun h => ?_⟩, fun h => by simp at h⟩
      exact absurd (hs.ok.mpr (h d List.mem_cons_self)) (by simp)
    | true =>
      have ih := chain_spec p ds hn c'
      have hne : ∀ e ∈ ds, e ≠ d := fun e he h => hd (h ▸ he)
      refine ⟨?_, ?_⟩
      · rw [ih.1]
        constructor
        · intro h e he
          rcases List.mem_cons.mp he with rfl | he
          · exact hs.ok.mp rfl
          · intro v w hv; exact h e he v w ((hs.others e (hne e he)).trans hv)
        · intro h e he v w hv
          exact h e (List.mem_cons_of_mem _ he) v w ((hs.others e (hne e he)).symm.trans hv)
      · intro h e
        rw [ih.2 h e]
        by_cases hed : e = d
        · subst hed
          rw [if_neg hd, if_pos List.mem_cons_self]
          exact hs.this rfl
        · rw [hs.others e hed]
          by_cases hm : e ∈ ds
          · rw [if_pos hm, if_pos (List.mem_cons_of_mem _ hm)]
          · rw [if_neg hm, if_neg (by simp [hed, hm])]

theorem mem_all (d : Detail) : d ∈ Detail.all := by cases d <;> decide

theorem checkAttrs_ok (p : Proc) (c : Attrs) :
    (checkAttrs p c).2 = true ↔ ∀ d v w, cknown c d = some v → known p d = some w → v = w := by
  rw [checkAttrs_chain, (chain_spec p Detail.all (by decide) c).1]
  exact ⟨fun h d => h d (mem_all d), fun h d _ => h d⟩

theorem checkAttrs_known (p : Proc) (c : Attrs) (h : (checkAttrs p c).2 = true) (d : Detail) :
    cknown (checkAttrs p c).1 d = (cknown c d).or (known p d) := by
  rw [checkAttrs_chain] at *
  rw [(chain_spec p Detail.all (by decide) c).2 h d, if_pos (mem_all d)]

/-- A chain of unconditional copies of known details. -/
def recordOf (d : Detail) (p : Proc) (c : Attrs) : Attrs :=
  match d with
  | .minFrequency => if has p flagMinFrequency then
      { c with minFrequency := p.minFrequency, flags := c.flags ||| flagMinFrequency } else c
  | .maxFrequency => if has p flagMaxFrequency then
      { c with maxFrequency := p.maxFrequency, flags := c.flags ||| flagMaxFrequency } else c
  | .implementer => if has p validImplementer then
      { c with midr := copyImplementer c.midr p.midr, flags := c.flags ||| validImplementer } else c
  | .variant => if has p validVariant then
      { c with midr := copyVariant c.midr p.midr, flags := c.flags ||| validVariant } else c
  | .part => if has p validPart then
      { c with midr := copyPart c.midr p.midr, flags := c.flags ||| validPart } else c
  | .revision => if has p validRevision then
      { c with midr := copyRevision c.midr p.midr, flags := c.flags ||| validRevision } else c

theorem cknown_none (c : Attrs) (d : Detail) : cknown c d = none ↔ c.flags.testBit d.bit = false := by
  unfold cknown known
  by_cases h : c.flags.testBit d.bit = true
  · rw [if_pos h, h]; simp
  · rw [if_neg h]; simpa using h

theorem recordOf_eq (d : Detail) (p : Proc) (c : Attrs) (h : cknown c d = none) :
    stepOf d p c = (recordOf d p c, true) := by
  rw [cknown_none] at h
  have hflag : (c.flags &&& 2 ^ d.bit != 0) = false := (X86Cpuid.flag_pow _ _).trans h
  cases d <;>
  · dsimp only [stepOf, minStep, maxStep, implementerStep, variantStep, partStep, revisionStep,
      attrStep, recordOf]
    split
    · rw [if_neg (by
        intro hh
        exact absurd (hh.symm.trans hflag) (by decide))]
    · rfl

theorem recordAttrs_fold (p : Proc) (c : Attrs) :
    recordAttrs p c = Detail.all.foldl (fun c d => recordOf d p c) { c with flags := 0 } := rfl

theorem record_chain (p : Proc) : ∀ (ds : List Detail), ds.Nodup → ∀ (c : Attrs),
    (∀ d ∈ ds, cknown c d = none) →
    chain p ds (c, true) = (ds.foldl (fun c d => recordOf d p c) c, true)
  | [], _, _, _ => rfl
  | d :: ds, hn, c, h => by
    obtain ⟨hd, hn⟩ := List.nodup_cons.mp hn
    have hs := stepOf_spec d p c
    rw [recordOf_eq d p c (h d List.mem_cons_self)] at hs
    show chain p ds (stepOf d p c) = _
    rw [recordOf_eq d p c (h d List.mem_cons_self)]
    refine record_chain p ds hn _ fun e he => ?_
    have hed : e ≠ d := fun hh => hd (hh ▸ he)
    exact (hs.others e hed).trans (h e (List.mem_cons_of_mem _ he))

theorem recordAttrs_known (p : Proc) (c : Attrs) (d : Detail) :
    cknown (recordAttrs p c) d = known p d := by
  have hnone : ∀ d, cknown { c with flags := 0 } d = none := fun d =>
    (cknown_none _ _).mpr (Nat.zero_testBit _)
  have h := record_chain p Detail.all (by decide) { c with flags := 0 } fun d _ => hnone d
  have h2 := chain_spec p Detail.all (by decide) { c with flags := 0 }
  rw [h] at h2
  have := h2.2 rfl d
  rw [recordAttrs_fold]
  rw [if_pos (mem_all d), hnone d] at this
  rw [this]; rfl

end Verif.ArmClusters
