import Verif.Props.ArmClusterMidr

/-!
# C79, C81: when the big.LITTLE heuristic is used, and what happens otherwise
-/

set_option autoImplicit false

namespace Verif.Props
open ArmMidr ArmCpuinfo ArmClusters ArmChipset ArmClusterMidr Spec

/-- **C81 (exact).** Without a table entry, a system of two clusters of which only one is described by
/proc/cpuinfo, by two processors or more, does not get the LITTLE companion of the described core:
whichever cluster is the slower one, the other cluster gets the very identity of the described one. -/
theorem C81_violated_always (a : Arch) (chipset : Chipset) (usable : Nat) (t : List Proc) (hl : Led t)
    (hno : ∀ c ∈ configs a, ¬ (c.series = chipset.series ∧ c.model = chipset.model))
    (known other m : Nat) (h2 : leaders t = [known, other] ∨ leaders t = [other, known])
    (hm : reported t known = some m) (hn : reported t other = none)
    (hid2 : 2 ≤ identifiedCount t) (hid : identifiedCount t < usable)
    (hin : ∀ (i : Nat) (p : Proc), t[i]? = some p → Usable p → Identified p → p.packageLeaderId = known) :
    ∃ t' q, detectClusterMidr a chipset usable t = some (2, t') ∧ t'[other]? = some q ∧ q.midr = m := by
  have hlen : (leaders t).length = 2 := by rcases h2 with h | h <;> rw [h] <;> rfl
  have hlo : LeadsItself t other := by
    apply (leadAt_iff t other).mp
    have : other ∈ leaders t := by rcases h2 with h | h <;> rw [h] <;> simp
    rw [leaders_eq] at this
    exact (List.mem_filter.mp this).2
  have hlk : LeadsItself t known := by
    apply (leadAt_iff t known).mp
    have : known ∈ leaders t := by rcases h2 with h | h <;> rw [h] <;> simp
    rw [leaders_eq] at this
    exact (List.mem_filter.mp this).2
  have hmem : ∀ j, LeadsItself t j → j = known ∨ j = other := by
    intro j hj
    have hb := (leadAt_iff t j).mpr hj
    obtain ⟨p, hp, -⟩ := hj
    have hlt := (List.getElem?_eq_some_iff.mp hp).1
    have : j ∈ leaders t := by
      rw [leaders_eq]; exact List.mem_filter.mpr ⟨List.mem_range.mpr hlt, hb⟩
    rcases h2 with h | h <;> rw [h] at this <;> simp at this <;> omega
  obtain ⟨t', e, hall⟩ := C82_completed_by_scan a chipset usable t hl hno (.inr (by omega)) (by omega) hid
    (fun h => by have := h.1.1; omega) ⟨other, hlo, hn⟩
  obtain ⟨q, hq, h3, h4⟩ := hall other hlo hn
  refine ⟨t', q, by rw [e, hlen], hq, ?_⟩
  by_cases hlt : known < other
  · refine h3 known m hlt hlk hm fun k hk hk' hkl => ?_
    rcases hmem k hkl with e | e <;> omega
  · obtain ⟨i, p, hp, hu, hi, hr⟩ := h4 fun j hj hjl => by
      rcases hmem j hjl with e | e
      · omega
      · rw [e]; exact hn
    rw [hin i p hp hu hi, hm] at hr
    rcases hr with hr | ⟨hr, -⟩
    · cases hr; rfl
    · cases hr

/-- A processor with flags, MIDR, leader and number of cores in its cluster. -/
private def exProc (flags midr leader cores : Nat) : Proc :=
  { Proc.zero with
    flags := flags ||| 0x1000, midr, packageLeaderId := leader, packageProcessorCount := cores }

/-- Non-vacuity: two clusters of two, the first one described by both processors. -/
example : (let t := [exProc 0x3F0000 0x411FD070 0 2, exProc 0x3F0000 0x411FD070 0 2, exProc 0x200000 0 2 2,
      exProc 0x200000 0 2 2]
    leaders t = [0, 2] ∧ reported t 0 = some 0x411FD070 ∧ reported t 2 = none ∧ identifiedCount t = 2 ∧
    (detectClusterMidr .arm64 ⟨.unknown, .unknown, 0, []⟩ 4 t).map (fun r => r.2[2]?.map (·.midr)) =
      some (some 0x411FD070)) := by decide

theorem mayBe_iff_check (p : Proc) (m : Nat) :
    MayBe p m ↔ ((p.midr ^^^ m) &&& midrMask p == 0) = true := by
  constructor
  · intro h
    refine check_of_agrees m p fun d v hd hv => ?_
    rw [← h d ((mem_identity d).mpr hd) v hv]
    exact value_of d _ _ hd rfl
  · intro h d hd v hv
    have hod := (mem_identity d).mp hd
    rw [← agrees_of_check m p h d v hod hv]
    exact value_of d _ _ hod rfl

/-- **C81 (exact).** On two clusters the heuristic is used exactly if one processor is identified and, if
it is to be checked, what is known of the two leaders agrees with the identities it would give them. -/
theorem C81_used_iff (withMidr last : Nat) (t : List Proc) (verify : Bool) (l0 l1 : Nat)
    (h2 : leaders t = [l0, l1]) (pl core p0 p1 : Proc) (hpl : t[last]? = some pl)
    (hk : t[pl.packageLeaderId]? = some core) (hp0 : t[l0]? = some p0) (hp1 : t[l1]? = some p1) :
    ∃ t' used, bigLittle 2 withMidr last [l0, l1] t verify = some (t', used) ∧
      (used = true ↔ withMidr = 1 ∧ (verify = true →
        let firstFaster := p0.flags.testBit 2 = true ∧ p1.flags.testBit 2 = true ∧
          p0.maxFrequency > p1.maxFrequency
        (firstFaster → MayBe p0 core.midr ∧ MayBe p1 (littleCoreForBig core.midr)) ∧
        (¬ firstFaster → MayBe p0 (littleCoreForBig core.midr) ∧ MayBe p1 core.midr))) ∧
      (used = false → t' = t) := by
  have hne : l1 ≠ l0 := by
    have := leaders_nodup t
    rw [h2] at this
    exact fun e => by simp [e] at this
  have hfreq : (p0.flags &&& p1.flags &&& flagMaxFrequency ≠ 0 ∧ p0.maxFrequency > p1.maxFrequency) ↔
      (p0.flags.testBit 2 = true ∧ p1.flags.testBit 2 = true ∧ p0.maxFrequency > p1.maxFrequency) := by
    have e : flagMaxFrequency = 2 ^ 2 := by decide
    rw [e, ← and_assoc]
    have h := has_pow { Proc.zero with flags := p0.flags &&& p1.flags } 2
    have h : ((p0.flags &&& p1.flags &&& 2 ^ 2 != 0) = (p0.flags &&& p1.flags).testBit 2) := h
    rw [Nat.testBit_and] at h
    rw [← Bool.and_eq_true_iff, ← h, bne_iff_ne]
  simp only [mayBe_iff_check]
  by_cases hw : withMidr = 1
  · subst hw
    have hloop := fun f : Nat → Nat => heuristic_loop t f (core.flags &&& validMidr) 2 (by rw [h2]; exact Nat.le_refl 2)
    rw [h2] at hloop
    unfold bigLittle
    simp only [hpl, hk, hp0, hp1, Option.bind_eq_bind, Option.bind_some, List.getElem?_cons_zero,
      List.getElem?_cons_succ, hfreq]
    rw [if_neg (by simp)]
    by_cases hff : p0.flags.testBit 2 = true ∧ p1.flags.testBit 2 = true ∧ p0.maxFrequency > p1.maxFrequency
    · simp only [if_pos hff]
      obtain ⟨t1, e1, -⟩ := hloop fun l => if l = l1 then littleCoreForBig core.midr else core.midr
      simp only [Option.bind_eq_bind, Option.pure_def] at e1
      cases verify with
      | false => exact ⟨t1, true, by simp [e1], by simp, by simp⟩
      | true =>
        simp only [if_true, allClusters, Option.bind_eq_bind, Option.bind_some, List.getElem?_cons_zero,
          List.getElem?_cons_succ, hp0, hp1, Option.pure_def, if_neg hne.symm]
        cases hc0 : ((p0.midr ^^^ core.midr) &&& midrMask p0 == 0) <;>
          cases hc1 : ((p1.midr ^^^ littleCoreForBig core.midr) &&& midrMask p1 == 0)
        · exact ⟨t, false, by simp, by simp [hff], by simp⟩
        · exact ⟨t, false, by simp, by simp [hff], by simp⟩
        · exact ⟨t, false, by simp, by simp [hff], by simp⟩
        · exact ⟨t1, true, by simp [e1], by simp [hff], by simp⟩
    · simp only [if_neg hff]
      obtain ⟨t1, e1, -⟩ := hloop fun l => if l = l0 then littleCoreForBig core.midr else core.midr
      simp only [Option.bind_eq_bind, Option.pure_def] at e1
      cases verify with
      | false => exact ⟨t1, true, by simp [e1], by simp, by simp⟩
      | true =>
        simp only [if_true, allClusters, Option.bind_eq_bind, Option.bind_some, List.getElem?_cons_zero,
          List.getElem?_cons_succ, hp0, hp1, Option.pure_def, if_neg hne]
        cases hc0 : ((p0.midr ^^^ littleCoreForBig core.midr) &&& midrMask p0 == 0) <;>
          cases hc1 : ((p1.midr ^^^ core.midr) &&& midrMask p1 == 0)
        · exact ⟨t, false, by simp, by simp [hff], by simp⟩
        · exact ⟨t, false, by simp, by simp [hff], by simp⟩
        · exact ⟨t, false, by simp, by simp [hff], by simp⟩
        · exact ⟨t1, true, by simp [e1], by simp [hff], by simp⟩
  · refine ⟨t, false, ?_, by simp [hw], fun _ => rfl⟩
    unfold bigLittle
    rw [if_pos (.inr hw)]; rfl

/-- Non-vacuity: one identified Cortex-A57 in the second cluster; the heuristic is used unless the first
cluster is known to be something other than a Cortex-A53. -/
example : (let t := fun part => [exProc (0x200000 ||| part) 0x410FD040 0 1, exProc 0x3F0000 0x411FD070 1 1]
    leaders (t 0) = [0, 1] ∧ (bigLittle 2 1 1 [0, 1] (t 0) true).map (·.2) = some true ∧
    (bigLittle 2 1 1 [0, 1] (t 0x80000) true).map (·.2) = some false ∧
    (bigLittle 2 1 1 [0, 1] (t 0x80000) false).map (·.2) = some true) := by decide

/-! ## C79 -/

theorem mayBe_self (p : Proc) : MayBe p p.midr := by
  rw [mayBe_iff_check, Nat.xor_self, Nat.zero_and]; rfl

/-- **C79 (heuristic).** When the big.LITTLE heuristic is used with its check, the identity of every
leader agrees with everything known about it. -/
theorem C79_heuristic_agrees (withMidr last : Nat) (t t' : List Proc) (pl core : Proc)
    (hpl : t[last]? = some pl) (hk : t[pl.packageLeaderId]? = some core)
    (h : bigLittle (leaders t).length withMidr last ((leaders t).take 3) t true = some (t', true)) :
    ∀ (l : Nat) (p q : Proc), LeadsItself t l → t[l]? = some p → t'[l]? = some q → MayBe p q.midr := by
  obtain ⟨r, e, -, hyes⟩ := bigLittle_spec withMidr last t true _ rfl pl core hpl hk
  rw [h] at e
  cases e
  obtain ⟨l0, l1, p0, p1, -, -, -, -, hc⟩ := hyes rfl
  intro l p q hl hp hq
  obtain ⟨q', hq', hr⟩ := hc.get l p hp
  rw [hq] at hq'; cases hq'
  rcases hr with ⟨rfl, -⟩ | ⟨-, -, m, -, e, hag⟩
  · exact mayBe_self _
  · intro d hd v hv
    have hod := (mem_identity d).mp hd
    subst e
    rw [← hag rfl d v hod hv]
    exact value_of d _ _ hod rfl

/-- **C79 (scan, exact).** The sequential scan gives a leader an identity that agrees with everything known
about it exactly if the leader is completely described, or the last completely described leader before
it (or, if there is none, the default) happens to agree. -/
theorem C79_scan_exact (dflt : Nat) (t : List Proc) :
    ∃ t', midrScan dflt t = some t' ∧
      ∀ (i : Nat) (p : Proc), LeadsItself t i → t[i]? = some p → ∃ q, t'[i]? = some q ∧
        (MayBe p q.midr ↔ Complete p ∨ (∃ j s, LastKnownLeader t i j s ∧ MayBe p s.midr) ∨
          ((∀ j s, ¬ LastKnownLeader t i j s) ∧ MayBe p dflt)) := by
  obtain ⟨t', e, -, hall⟩ := C82_sequential_midr dflt t
  refine ⟨t', e, fun i p hl hp => ?_⟩
  obtain ⟨q, hq, h1, h2⟩ := hall i p hp
  refine ⟨q, hq, ?_⟩
  by_cases hc : Complete p
  · rw [h1 (.inr hc)]
    exact ⟨fun _ => .inl hc, fun _ => mayBe_self p⟩
  · obtain ⟨h3, h4⟩ := h2 hl hc
    by_cases hj : ∃ j s, LastKnownLeader t i j s
    · obtain ⟨j, s, hjs⟩ := hj
      rw [h3 j s hjs]
      refine ⟨fun h => .inr (.inl ⟨j, s, hjs, h⟩), fun h => ?_⟩
      rcases h with h | ⟨j', s', h', hm⟩ | ⟨h, -⟩
      · exact absurd h hc
      · rw [← h3 j s hjs, h3 j' s' h']; exact hm
      · exact absurd hjs (h j s)
    · have hn : ∀ j s, ¬ LastKnownLeader t i j s := fun j s h => hj ⟨j, s, h⟩
      rw [h4 hn]
      refine ⟨fun h => .inr (.inr ⟨hn, h⟩), fun h => ?_⟩
      rcases h with h | ⟨j', s', h', -⟩ | ⟨-, h⟩
      · exact absurd h hc
      · exact absurd h' (hn j' s')
      · exact h

/-- Non-vacuity: two clusters of one, the second one known to be made by ARM only: it agrees with the first
one; known to be a Cortex-A57, it does not. -/
example : (let t := fun f => [exProc 0x3F0000 0x410FD034 0 1, exProc f 0x4100D070 1 1]
    (midrScan 0 (t 0x220000)).map (fun r => r.map (·.midr)) = some [0x410FD034, 0x410FD034] ∧
    ((0x4100D070 ^^^ 0x410FD034) &&& midrMask (exProc 0x220000 0x4100D070 1 1)) = 0 ∧
    ((0x4100D070 ^^^ 0x410FD034) &&& midrMask (exProc 0x2A0000 0x4100D070 1 1)) ≠ 0) := by decide

end Verif.Props
