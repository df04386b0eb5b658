import Verif.Proof.RiscvRead
import Verif.Proof.Files

/-!
# The rounds over all RISC-V processors
-/

set_option autoImplicit false

namespace Verif.Riscv
open Spec Processors
open Platform (put)

theorem overProcessors_total {σ : Type} (f : Nat → σ → Option (Option σ)) (P : Nat → σ → Prop) (N : Nat)
    (step : ∀ j s, j < N → P j s → ∃ s', f j s = some (some s') ∧ P (j + 1) s') :
    ∀ (n i : Nat) (s : σ), i + n = N → P i s → ∃ s', overProcessors f n i s = some (some s') ∧ P N s'
  | 0, i, s, h, hp => ⟨s, rfl, by rw [← h]; exact hp⟩
  | n + 1, i, s, h, hp => by
    obtain ⟨s', e, hp'⟩ := step i s (by omega) hp
    obtain ⟨s'', e', hp''⟩ := overProcessors_total f P N step n (i + 1) s' (by omega) hp'
    refine ⟨s'', ?_, hp''⟩
    rw [overProcessors, e]
    exact e'

theorem readNumber_total (file : Option Bytes) (sched : Sched) :
    ∃ r, readNumber file 32 sched = some r := by
  unfold readNumber SmallFile.parse
  cases file with
  | none => exact ⟨_, rfl⟩
  | some c =>
    rcases SmallFile.loop_total 32 sched (c.length + 1) 0 [] c (by omega) with h | ⟨h, _⟩
    · simp only [h]; exact ⟨_, rfl⟩
    · simp only [h]; exact ⟨_, rfl⟩

/-- What a core round reads besides the list. -/
def det (y : System) (i : Nat) (p : Proc) : Proc :=
  { p with
    coreId := ((processorId (y.coreId i).1 (y.coreId i).2).getD none).getD p.coreId
    vendor := (hwprobe (y.hwprobe i)).1
    uarch := (hwprobe (y.hwprobe i)).2
    frequency := if (processorFrequency (y.frequency i).1 (y.frequency i).2).getD 0 ≠ 0
      then (processorFrequency (y.frequency i).1 (y.frequency i).2).getD 0 else p.frequency }

theorem coreDetails_eq (y : System) (i : Nat) (t : List Proc) (p : Proc) (hp : t[i]? = some p) :
    coreDetails y i t = some (t.set i (det y i p)) := by
  have hlt : i < t.length := (List.getElem?_eq_some_iff.mp hp).1
  obtain ⟨r, hr⟩ := readNumber_total (y.coreId i).1 (y.coreId i).2
  obtain ⟨r', hr'⟩ := readNumber_total (y.frequency i).1 (y.frequency i).2
  unfold coreDetails det
  show Option.bind (t[i]?) _ = _
  rw [hp, Option.bind_some]
  unfold processorId processorFrequency
  rw [hr, hr']
  exact if_pos hlt

/-- The details of the core phase only. -/
def dets (y : System) (l : Lvl) (j : Nat) (q : Proc) : Proc := if l = .core then det y j q else q

theorem dets_get (y : System) (l : Lvl) (j : Nat) (q : Proc) : (dets y l j q).get l = q.get l := by
  cases l <;> rfl
theorem dets_set (y : System) (l : Lvl) (j : Nat) (q : Proc) (g : Group) :
    (dets y l j q).set l g = dets y l j (q.set l g) := by cases l <;> rfl
theorem dets_valid (y : System) (l : Lvl) (j : Nat) (q : Proc) : (dets y l j q).valid = q.valid := by
  cases l <;> rfl
theorem dets_reads {y : System} {l : Lvl} {cl kl : Nat → Nat} {j : Nat} {q : Proc}
    (h : Reads l cl kl j q) : Reads l cl kl j (dets y l j q) := by
  obtain ⟨h1, h2, h3⟩ := h
  refine ⟨by rw [dets_valid]; exact h1, fun e => ?_, fun e => ?_⟩
  · rw [← h2 e]; cases l with
    | core => exact absurd rfl e
    | _ => rfl
  · subst e; exact h3 rfl

/-- The entry before round `i` of a phase. -/
def phaseEnt (y : System) (l : Lvl) (cl kl : Nat → Nat) (mem : Nat → List Nat) (i j : Nat) (b : Proc) :
    Proc :=
  if b.valid then
    if j < i then dets y l j (b.set l (grp l cl kl (mem j)))
    else if (mem j).headD 0 < i then b.set l { b.get l with leader := (mem j).headD 0 }
    else b
  else b

/-- The entry after a phase. -/
def phaseEnd (y : System) (l : Lvl) (cl kl : Nat → Nat) (mem : Nat → List Nat) (j : Nat) (b : Proc) :
    Proc :=
  if b.valid then dets y l j (b.set l (grp l cl kl (mem j))) else b

theorem head_le {xs : List Nat} (h : xs.Pairwise (· < ·)) {x : Nat} (hx : x ∈ xs) : xs.headD 0 ≤ x := by
  cases xs with
  | nil => cases hx
  | cons a as =>
    rw [List.pairwise_cons] at h
    rcases List.mem_cons.mp hx with e | e
    · exact Nat.le_of_eq e.symm
    · exact Nat.le_of_lt (h.1 x e)

theorem head_mem {xs : List Nat} {x : Nat} (hx : x ∈ xs) : xs.headD 0 ∈ xs := by
  cases xs with
  | nil => cases hx
  | cons a as => exact .head _

theorem pairwise_length {xs : List Nat} {n : Nat} (h : xs.Pairwise (· < ·)) (hb : ∀ x ∈ xs, x < n) :
    xs.length ≤ n := by
  have key : ∀ (xs : List Nat) (a : Nat), (a :: xs).Pairwise (· < ·) → (∀ x ∈ a :: xs, x < n) →
      a + (a :: xs).length ≤ n := by
    intro xs
    induction xs with
    | nil => intro a _ hb; have := hb a (by simp); simp; omega
    | cons b xs ih =>
      intro a h hb
      rw [List.pairwise_cons] at h
      have h1 := ih b h.2 (fun x hx => hb x (by simp [hx]))
      have h2 := h.1 b (by simp)
      simp only [List.length_cons] at h1 ⊢
      omega
  cases xs with
  | nil => exact Nat.zero_le _
  | cons a as =>
    have := key as a h hb
    omega

theorem phase (y : System) (l : Lvl) (cl kl : Nat → Nat) (mem : Nat → List Nat) (present : Nat → Prop)
    (t0 : List Proc) (hn : t0.length ≤ U32MAX) (hg : Grouping present mem)
    (hf : ∀ i, present i → ∃ rs, (y.cpus l i).1 = some (printCpuList rs) ∧
      (y.cpus l i).2.NoError ∧ rs ≠ [] ∧ (∀ r ∈ rs, r.1 ≤ r.2) ∧ cover rs = mem i)
    (hpn : ∀ i, present i → i < t0.length)
    (hb : ∀ (j : Nat) b, t0[j]? = some b → (b.valid = true ↔ present j) ∧
      (b.valid = true → b.get l = zeroGroup ∧ Reads l cl kl j b)) :
    ∃ t', overProcessors (groupRound y l) t0.length 0 t0 = some (some t') ∧
      ∀ j : Nat, t'[j]? = (t0[j]?).map (phaseEnd y l cl kl mem j) := by
  have step : ∀ (i : Nat) (t : List Proc), i < t0.length →
      (∀ j : Nat, t[j]? = (t0[j]?).map (phaseEnt y l cl kl mem i j)) →
      ∃ t' : List Proc, groupRound y l i t = some (some t') ∧
        ∀ j : Nat, t'[j]? = (t0[j]?).map (phaseEnt y l cl kl mem (i + 1) j) := by
    intro i t hi ht
    obtain ⟨b, hbi⟩ : ∃ b, t0[i]? = some b := ⟨_, List.getElem?_eq_getElem hi⟩
    obtain ⟨hv, hz⟩ := hb i b hbi
    have hti : t[i]? = some (phaseEnt y l cl kl mem i i b) := by rw [ht i, hbi]; rfl
    have hlt : t.length = t0.length := by
      refine Nat.le_antisymm ?_ ?_
      · refine Nat.le_of_not_lt fun h => ?_
        have := ht t0.length
        rw [List.getElem?_eq_getElem h, List.getElem?_eq_none (Nat.le_refl _)] at this
        cases this
      · refine Nat.le_of_not_lt fun h => ?_
        have := ht t.length
        rw [List.getElem?_eq_getElem h, List.getElem?_eq_none (Nat.le_refl _)] at this
        cases this
    unfold groupRound
    by_cases hval : b.valid = true
    · have hpres := hv.mp hval
      have hq : (phaseEnt y l cl kl mem i i b).valid = true ∧
          ((phaseEnt y l cl kl mem i i b).get l).seen = false ∧
          ((phaseEnt y l cl kl mem i i b).get l).processorCount = 0 ∧
          ((phaseEnt y l cl kl mem i i b).get l).coreCount = 0 ∧
          ((phaseEnt y l cl kl mem i i b).get l).clusterCount = 0 := by
        unfold phaseEnt
        rw [if_pos hval, if_neg (Nat.lt_irrefl i)]
        by_cases e : (mem i).headD 0 < i
        · rw [if_pos e, set_valid, get_set, (hz hval).1]
          exact ⟨hval, rfl, rfl, rfl, rfl⟩
        · rw [if_neg e, (hz hval).1]
          exact ⟨hval, rfl, rfl, rfl, rfl⟩
      obtain ⟨rs, f1, f2, f3, f4, f5⟩ := hf i hpres
      have hmlt : ∀ j ∈ mem i, j < t0.length := fun j hj => hpn j (hg.closed i hpres j hj).1
      obtain ⟨t1, r1, r2⟩ := readGroup_spec y l cl kl i t _ hti hq.2 (by omega) rs f3 f1 f2 f4
        (by rw [f5]; have := pairwise_length (hg.ascending i hpres) hmlt; omega)
        (by
          intro j hj
          rw [f5] at hj
          obtain ⟨bj, hbj⟩ : ∃ b, t0[j]? = some b := ⟨_, List.getElem?_eq_getElem (hmlt j hj)⟩
          refine ⟨phaseEnt y l cl kl mem i j bj, by rw [ht j, hbj]; rfl, ?_⟩
          have hvj := (hb j bj hbj).1.mpr (hg.closed i hpres j hj).1
          have hrd := ((hb j bj hbj).2 hvj).2
          unfold phaseEnt
          rw [if_pos hvj]
          by_cases e : j < i
          · rw [if_pos e]; exact dets_reads (reads_set hrd _)
          · rw [if_neg e]
            by_cases e' : (mem j).headD 0 < i
            · rw [if_pos e']; exact reads_set hrd _
            · rw [if_neg e']; exact hrd)
      rw [f5] at r2
      -- the entries after the round
      have hent : ∀ (j : Nat) bj, t0[j]? = some bj → j ≠ i →
          ent l cl kl i (mem i) j (phaseEnt y l cl kl mem i j bj) =
            phaseEnt y l cl kl mem (i + 1) j bj := by
        intro j bj hbj hne
        obtain ⟨hvj, hzj⟩ := hb j bj hbj
        unfold ent phaseEnt
        simp only [if_neg hne]
        by_cases hval' : bj.valid = true
        · simp only [if_pos hval']
          have hpj := hvj.mp hval'
          by_cases hm : j ∈ mem i
          · have hmem := (hg.closed i hpres j hm).2
            by_cases hlt' : j < i
            · rw [if_pos hlt', if_pos (show j < i + 1 by omega), ← dets_set]
              rw [hmem]
              exact mark_set _ _ _ _ _ _ rfl
            · rw [if_neg hlt', if_neg (show ¬ j < i + 1 by omega), hmem]
              have hle := head_le (hg.ascending i hpres) (hg.self i hpres)
              rw [if_pos (show (mem i).headD 0 < i + 1 by omega)]
              unfold mark
              rw [if_pos hm]
              by_cases e : (mem i).headD 0 < i
              · rw [if_pos e, get_set, set_set]
              · rw [if_neg e]
          · have hmk : ∀ st q, mark l st (mem i) j q = q := by
              intro st q; unfold mark; rw [if_neg hm]
            rw [hmk]
            by_cases hlt' : j < i
            · rw [if_pos hlt', if_pos (show j < i + 1 by omega)]
            · rw [if_neg hlt', if_neg (show ¬ j < i + 1 by omega)]
              have hne' : (mem j).headD 0 ≠ i := by
                intro e
                refine hm ?_
                have h1 := head_mem (hg.self j hpj)
                rw [e] at h1
                rw [(hg.closed j hpj i h1).2]
                exact hg.self j hpj
              by_cases e : (mem j).headD 0 < i
              · rw [if_pos e, if_pos (show (mem j).headD 0 < i + 1 by omega)]
              · rw [if_neg e, if_neg (show ¬ (mem j).headD 0 < i + 1 by omega)]
        · simp only [if_neg hval']
          unfold mark
          rw [if_neg]
          intro hm
          exact hval' (hvj.mpr (hg.closed i hpres j hm).1)
      have hself : t1[i]? = some (b.set l (grp l cl kl (mem i))) := by
        rw [r2 i, hti]
        simp only [Option.map_some, ent, if_true, Option.some.injEq]
        rw [set_mark]
        unfold phaseEnt
        rw [if_pos hval, if_neg (Nat.lt_irrefl i)]
        by_cases e : (mem i).headD 0 < i
        · rw [if_pos e, set_set]
        · rw [if_neg e]
      have hlt1 : i < t1.length := (List.getElem?_eq_some_iff.mp hself).1
      show ∃ s', Option.bind (t[i]?) _ = some (some s') ∧ _
      rw [hti]
      simp only [Option.bind_some, hq.1, if_true]
      rw [r1]
      have hnew : phaseEnt y l cl kl mem (i + 1) i b =
          dets y l i (b.set l (grp l cl kl (mem i))) := by
        unfold phaseEnt; rw [if_pos hval, if_pos (Nat.lt_succ_self i)]
      cases hl : decide (l = .core) with
      | true =>
        have hl' : l = .core := of_decide_eq_true hl
        refine ⟨t1.set i (det y i (b.set l (grp l cl kl (mem i)))), ?_, fun j => ?_⟩
        · show (if l = .core then (coreDetails y i t1).map some else some (some t1)) = _
          rw [if_pos hl', coreDetails_eq y i t1 _ hself]; rfl
        · rw [get?_set t1 i _ hlt1]
          by_cases e : j = i
          · subst e
            rw [if_pos rfl, hbi, Option.map_some, hnew]
            unfold dets
            rw [if_pos hl']
          · rw [if_neg e, r2 j, ht j]
            cases hbj : t0[j]? with
            | none => rfl
            | some bj => simp only [Option.map_some]; rw [hent j bj hbj e]
      | false =>
        have hl' : l ≠ .core := of_decide_eq_false hl
        refine ⟨t1, ?_, fun j => ?_⟩
        · show (if l = .core then (coreDetails y i t1).map some else some (some t1)) = _
          rw [if_neg hl']
        · by_cases e : j = i
          · subst e
            rw [hself, hbi, Option.map_some, hnew]
            unfold dets
            rw [if_neg hl']
          · rw [r2 j, ht j]
            cases hbj : t0[j]? with
            | none => rfl
            | some bj => simp only [Option.map_some]; rw [hent j bj hbj e]
    · have hq : (phaseEnt y l cl kl mem i i b).valid = false := by
        unfold phaseEnt; rw [if_neg hval]; simpa using hval
      refine ⟨t, ?_, fun j => ?_⟩
      · show Option.bind (t[i]?) _ = _
        rw [hti, Option.bind_some, if_neg (by rw [hq]; decide)]
        rfl
      · rw [ht j]
        cases hbj : t0[j]? with
        | none => rfl
        | some bj =>
          simp only [Option.map_some, phaseEnt, Option.some.injEq]
          by_cases hval' : bj.valid = true
          · have hpj := (hb j bj hbj).1.mp hval'
            have hne : j ≠ i := by
              intro e; subst e; rw [hbi] at hbj; cases hbj; exact hval hval'
            have hne' : (mem j).headD 0 ≠ i := by
              intro e
              have h1 := head_mem (hg.self j hpj)
              rw [e] at h1
              exact hval (hv.mpr (hg.closed j hpj i h1).1)
            rw [if_pos hval', if_pos hval']
            by_cases e1 : j < i
            · rw [if_pos e1, if_pos (show j < i + 1 by omega)]
            · rw [if_neg e1, if_neg (show ¬ j < i + 1 by omega)]
              by_cases e : (mem j).headD 0 < i
              · rw [if_pos e, if_pos (show (mem j).headD 0 < i + 1 by omega)]
              · rw [if_neg e, if_neg (show ¬ (mem j).headD 0 < i + 1 by omega)]
          · rw [if_neg hval', if_neg hval']
  have h0 : ∀ j : Nat, t0[j]? = (t0[j]?).map (phaseEnt y l cl kl mem 0 j) := by
    intro j
    cases hbj : t0[j]? with
    | none => rfl
    | some bj =>
      simp only [Option.map_some, phaseEnt, Option.some.injEq]
      rw [if_neg (Nat.not_lt_zero _), if_neg (Nat.not_lt_zero _)]
      by_cases e : bj.valid = true
      · rw [if_pos e]
      · rw [if_neg e]
  obtain ⟨t', e1, e2⟩ := overProcessors_total (groupRound y l)
    (fun i (t : List Proc) => ∀ j : Nat, t[j]? = (t0[j]?).map (phaseEnt y l cl kl mem i j)) t0.length
    step t0.length 0 t0 (by omega) h0
  refine ⟨t', e1, fun j => ?_⟩
  rw [e2 j]
  cases hj : t0[j]? with
  | none => rfl
  | some b =>
    have := (List.getElem?_eq_some_iff.mp hj).1
    simp only [Option.map_some, phaseEnt, phaseEnd, if_pos this]

end Verif.Riscv
