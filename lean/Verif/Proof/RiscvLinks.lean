import Verif.Proof.RiscvFault
import Verif.Proof.Divides

/-!
# Links between the RISC-V tables when the processors stay in order
-/

set_option autoImplicit false

namespace Verif.Riscv
open Spec

section
variable {y : System} {n : Nat} {present : Nat → Prop} {mem : Lvl → Nat → List Nat}

/-- The table holds what was gathered, each processor in its place. -/
def InPlace (y : System) (n : Nat) (present : Nat → Prop) (mem : Lvl → Nat → List Nat)
    (t : List Proc) : Prop :=
  t.length = n ∧ ∀ j, j < n → (present j → t[j]? = some (full y mem j)) ∧
    (¬ present j → t[j]? = some zeroProc)

theorem inPlace_ordered {t : List Proc} [DecidablePred present] (hn : ∀ i, present i → i < n)
    (h : InPlace y n present mem t) :
    Ordered y n present mem ((List.range n).filter (present ·)) t where
  len := h.1
  valid := gathered_filter h.1 h.2
  mem_iff i := by
    rw [List.mem_filter, List.mem_range]
    simp only [decide_eq_true_eq]
    exact ⟨fun h => h.2, fun h => ⟨hn i h, h⟩⟩
  nodup := List.Pairwise.filter _ List.nodup_range

/-- In place, a valid processor is at its number. -/
theorem inPlace_split {t a b : List Proc} {p : Proc} (h : InPlace y n present mem t)
    (ht : t = a ++ p :: b) (hv : p.valid = true) : present a.length ∧ p = full y mem a.length := by
  have hlt : a.length < n := by rw [← h.1, ht]; simp
  have hp : t[a.length]? = some p := by rw [ht]; simp
  by_cases e : present a.length
  · rw [(h.2 _ hlt).1 e] at hp
    exact ⟨e, (Option.some.inj hp).symm⟩
  · rw [(h.2 _ hlt).2 e] at hp
    cases Option.some.inj hp
    cases hv

/-- The least present processor leads all its groups. -/
theorem inPlace_first [DecidablePred present] (L : Layout y n present mem)
    (hn : ∀ i, present i → i < n) :
    ∀ i rest, (List.range n).filter (present ·) = i :: rest → ∀ l, lead mem l i = i := by
  intro i rest h l
  have hm : ∀ j, j ∈ i :: rest ↔ present j := by
    intro j
    rw [← h, List.mem_filter, List.mem_range]
    simp only [decide_eq_true_eq]
    exact ⟨fun h => h.2, fun h => ⟨hn j h, h⟩⟩
  have hi : present i := (hm i).mp (by simp)
  have hs : (i :: rest).Pairwise (· < ·) := by
    rw [← h]; exact List.Pairwise.filter _ List.pairwise_lt_range
  have h1 := lead_le L (l := l) hi ((L.grouping l).self i hi)
  rcases List.mem_cons.mp ((hm _).mpr (lead_present L (l := l) hi)) with e | e
  · exact e
  · have := (List.pairwise_cons.mp hs).1 _ e; omega

/-- With convex groups the last leader so far is one's own. -/
theorem last_leader (L : Layout y n present mem) {l : Lvl} (hc : Convex present (mem l))
    {t a b : List Proc} {p : Proc} (h : InPlace y n present mem t) (ht : t = a ++ p :: b)
    (hv : p.valid = true) :
    ∃ a' q b', t = a' ++ q :: b' ∧ q.valid = true ∧ q.leads l = true ∧
      q = full y mem (lead mem l a.length) ∧ nl l (a ++ [p]) - 1 = nl l a' := by
  obtain ⟨hj, hp⟩ := inPlace_split h ht hv
  have hle := lead_le L (l := l) hj ((L.grouping l).self _ hj)
  have hpres := lead_present L (l := l) hj
  have hin : full y mem (lead mem l a.length) ∈ a ++ [p] := by
    rcases Nat.lt_or_eq_of_le hle with hlt | e
    · have hlt' : lead mem l a.length < n := by
        have : a.length < n := by rw [← h.1, ht]; simp
        omega
      have h1 := (h.2 _ hlt').1 hpres
      rw [ht, List.getElem?_append_left hlt] at h1
      exact List.mem_append.mpr (.inl (List.mem_of_getElem? h1))
    · rw [e, ← hp]; simp
  have hpos : 0 < (a ++ [p]).countP (fun p => p.valid && p.leads l) := by
    refine List.countP_pos_iff.mpr ⟨_, hin, ?_⟩
    rw [full_valid, full_leads, lead_lead L hj]; simp
  obtain ⟨a', q, b', e1, e2, e3, e4⟩ := last_split _ _ hpos
  simp only [Bool.and_eq_true] at e2
  have ht' : t = a' ++ q :: (b' ++ b) := by
    rw [ht, show a ++ p :: b = (a ++ [p]) ++ b by simp, e1]; simp
  refine ⟨a', q, b' ++ b, ht', e2.1, e2.2, ?_, e4⟩
  obtain ⟨hk, hq⟩ := inPlace_split h ht' e2.1
  have hlen : a'.length ≤ a.length := by
    have := congrArg List.length e1
    simp at this; omega
  rw [hq]
  refine congrArg _ ?_
  have hlead : lead mem l a'.length = a'.length := by
    have := e2.2; rw [hq, full_leads] at this; simpa using this
  rcases Nat.lt_trichotomy a'.length (lead mem l a.length) with hlt | he | hgt
  · -- the leader of `p` comes after the last leader
    exfalso
    have hlt' : lead mem l a.length < n := by
      have : a.length < n := by rw [← h.1, ht]; simp
      omega
    have hget : (a ++ [p])[lead mem l a.length]? = some (full y mem (lead mem l a.length)) := by
      rcases Nat.lt_or_eq_of_le hle with hl | e
      · have h1 := (h.2 _ hlt').1 hpres
        rw [ht, List.getElem?_append_left hl] at h1
        rw [List.getElem?_append_left hl]; exact h1
      · rw [e, List.getElem?_append_right (Nat.le_refl _), Nat.sub_self, ← hp]; rfl
    rw [e1, List.getElem?_append_right (by omega)] at hget
    obtain ⟨m, hm⟩ : ∃ m, lead mem l a.length - a'.length = m + 1 := 
      ⟨lead mem l a.length - a'.length - 1, by omega⟩
    rw [hm, List.getElem?_cons_succ] at hget
    have := e3 _ (List.mem_of_getElem? hget)
    rw [full_valid, full_leads, lead_lead L hj] at this
    simp at this
  · exact he
  · exfalso
    have hmem : a'.length ∈ mem l (lead mem l a.length) := by
      refine hc _ _ a.length hpres hk ?_ (by omega) hlen
      rw [((L.grouping l).closed _ hj _ (lead_mem L hj)).2]
      exact (L.grouping l).self _ hj
    have h1 := ((L.grouping l).closed _ hpres _ hmem).2
    have : lead mem l a'.length = lead mem l (lead mem l a.length) := by
      show (mem l a'.length).headD 0 = _
      rw [h1]; rfl
    rw [lead_lead L hj] at this
    omega

/-- The links lead to the group of a processor. -/
theorem links (L : Layout y n present mem) (hc : ∀ l, Convex present (mem l)) {t : List Proc}
    (h : InPlace y n present mem t) {s : State} (I : Inv t t s) :
    (∀ (k : Nat) p, s.processors[k]? = some p →
      (∃ c x, p.core = some c ∧ s.cores[c]? = some x ∧ x.processorStart = lead mem .core p.linuxId) ∧
      (∃ c x, p.cluster = some c ∧ s.clusters[c]? = some x ∧
        x.processorStart = lead mem .cluster p.linuxId) ∧
      ∃ c x, p.package = some c ∧ s.packages[c]? = some x ∧
        x.processorStart = lead mem .package p.linuxId) ∧
    (∀ (k : Nat) q, s.cores[k]? = some q →
      (∃ c x, q.cluster = some c ∧ s.clusters[c]? = some x ∧
        x.processorStart = lead mem .cluster q.processorStart) ∧
      ∃ c x, q.package = some c ∧ s.packages[c]? = some x ∧
        x.processorStart = lead mem .package q.processorStart) ∧
    ∀ (k : Nat) q, s.clusters[k]? = some q →
      ∃ c x, q.package = some c ∧ s.packages[c]? = some x ∧
        x.processorStart = lead mem .package q.processorStart := by
  have hcore : ∀ a p b, t = a ++ p :: b → p.valid = true → ∃ x,
      s.cores[nl .core (a ++ [p]) - 1]? = some x ∧ x.processorStart = lead mem .core p.linuxId := by
    intro a p b ht hv
    obtain ⟨_, hp⟩ := inPlace_split h ht hv
    obtain ⟨hj, _⟩ := inPlace_split h ht hv
    obtain ⟨a', q, b', h1, h2, h3, h4, h5⟩ := last_leader L (hc .core) h ht hv
    refine ⟨_, h5 ▸ I.core a' q b' h1 h2 h3, ?_⟩
    rw [hp, h4]
    exact lead_lead L hj
  have hcluster : ∀ a p b, t = a ++ p :: b → p.valid = true → ∃ x,
      s.clusters[nl .cluster (a ++ [p]) - 1]? = some x ∧
        x.processorStart = lead mem .cluster p.linuxId := by
    intro a p b ht hv
    obtain ⟨hj, hp⟩ := inPlace_split h ht hv
    obtain ⟨a', q, b', h1, h2, h3, h4, h5⟩ := last_leader L (hc .cluster) h ht hv
    refine ⟨_, h5 ▸ I.cluster a' q b' h1 h2 h3, ?_⟩
    rw [hp, h4]
    exact lead_lead L hj
  have hpackage : ∀ a p b, t = a ++ p :: b → p.valid = true → ∃ x,
      s.packages[nl .package (a ++ [p]) - 1]? = some x ∧
        x.processorStart = lead mem .package p.linuxId := by
    intro a p b ht hv
    obtain ⟨hj, hp⟩ := inPlace_split h ht hv
    obtain ⟨a', q, b', h1, h2, h3, h4, h5⟩ := last_leader L (hc .package) h ht hv
    refine ⟨_, h5 ▸ I.package a' q b' h1 h2 h3, ?_⟩
    rw [hp, h4]
    exact lead_lead L hj
  have find : ∀ (P : Proc → Bool) (k : Nat), k < t.countP P →
      ∃ a p b, t = a ++ p :: b ∧ P p = true ∧ a.countP P = k := by
    intro P k hk
    rw [List.countP_eq_length_filter] at hk
    obtain ⟨a, b, h1, h2, _, h4⟩ := filter_get P t k _ (List.getElem?_eq_getElem hk)
    exact ⟨a, _, b, h1, h2, h4⟩
  refine ⟨fun k p hk => ?_, fun k q hk => ?_, fun k q hk => ?_⟩
  · have hlt := (List.getElem?_eq_some_iff.mp hk).1
    rw [I.pLen] at hlt
    obtain ⟨a, p', b, ht, hv, he⟩ := find _ k hlt
    have he : nv a = k := he
    have hp := (I.processor a p' b ht hv).1
    rw [he, hk] at hp
    cases Option.some.inj hp
    obtain ⟨x1, g1, g2⟩ := hcore a p' b ht hv
    obtain ⟨x2, g3, g4⟩ := hcluster a p' b ht hv
    obtain ⟨x3, g5, g6⟩ := hpackage a p' b ht hv
    exact ⟨⟨_, x1, rfl, g1, g2⟩, ⟨_, x2, rfl, g3, g4⟩, _, x3, rfl, g5, g6⟩
  · have hlt := (List.getElem?_eq_some_iff.mp hk).1
    rw [I.cLen] at hlt
    obtain ⟨a, p', b, ht, hv, he⟩ := find _ k hlt
    simp only [Bool.and_eq_true] at hv
    have he : nl .core a = k := he
    have hp := I.core a p' b ht hv.1 hv.2
    rw [he, hk] at hp
    cases Option.some.inj hp
    obtain ⟨hj, hp'⟩ := inPlace_split h ht hv.1
    have hl : p'.core.start = p'.linuxId := by
      have := hv.2
      rw [hp', full_leads] at this
      rw [hp']
      exact of_decide_eq_true this
    obtain ⟨x2, g3, g4⟩ := hcluster a p' b ht hv.1
    obtain ⟨x3, g5, g6⟩ := hpackage a p' b ht hv.1
    rw [← hl] at g4 g6
    exact ⟨⟨_, x2, rfl, g3, g4⟩, _, x3, rfl, g5, g6⟩
  · have hlt := (List.getElem?_eq_some_iff.mp hk).1
    rw [I.kLen] at hlt
    obtain ⟨a, p', b, ht, hv, he⟩ := find _ k hlt
    simp only [Bool.and_eq_true] at hv
    have he : nl .cluster a = k := he
    have hp := I.cluster a p' b ht hv.1 hv.2
    rw [he, hk] at hp
    cases Option.some.inj hp
    obtain ⟨hj, hp'⟩ := inPlace_split h ht hv.1
    have hl : p'.cluster.start = p'.linuxId := by
      have := hv.2
      rw [hp', full_leads] at this
      rw [hp']
      exact of_decide_eq_true this
    obtain ⟨x3, g5, g6⟩ := hpackage a p' b ht hv.1
    rw [← hl] at g6
    exact ⟨_, x3, rfl, g5, g6⟩

/-! ### Without holes -/

/-- A convex group of consecutive numbers is a range. -/
theorem range_of_ascending : ∀ (xs : List Nat) (a : Nat), xs.head? = some a → xs.Pairwise (· < ·) →
    (∀ k ∈ xs, ∀ j, a ≤ j → j ≤ k → j ∈ xs) → xs = List.range' a xs.length := by
  intro xs
  induction xs with
  | nil => intro a h; cases h
  | cons x xs ih =>
    intro a h hp hc
    obtain rfl : a = x := (Option.some.inj h).symm
    rw [List.length_cons, List.range'_succ]
    refine congrArg _ ?_
    cases xs with
    | nil => rfl
    | cons z zs =>
      have hlt : a < z := (List.pairwise_cons.mp hp).1 z (by simp)
      have hz : z = a + 1 := by
        have := hc z (by simp) (a + 1) (by omega) (by omega)
        rcases List.mem_cons.mp this with e | e
        · omega
        · rcases List.mem_cons.mp e with e | e
          · exact e.symm
          · have := (List.pairwise_cons.mp (List.pairwise_cons.mp hp).2).1 _ e; omega
      refine ih (a + 1) (by rw [hz]; rfl) (List.pairwise_cons.mp hp).2 fun k hk j h1 h2 => ?_
      have := hc k (List.mem_cons_of_mem _ hk) j (by omega) h2
      rcases List.mem_cons.mp this with e | e
      · omega
      · exact e

/-- The groups are ranges. -/
theorem group_range (L : Layout y n present mem) (hall : ∀ i, i < n → present i)
    (hn : ∀ i, present i → i < n)
    {l : Lvl} (hc : Convex present (mem l)) {i : Nat} (hi : present i) :
    mem l i = List.range' (lead mem l i) (mem l i).length := by
  have hp := lead_present L (l := l) hi
  have he := ((L.grouping l).closed i hi _ (lead_mem L hi)).2
  refine range_of_ascending _ _ (lead_head L hi) ((L.grouping l).ascending i hi) fun k hk j h1 h2 => ?_
  have hk' := (L.grouping l).closed i hi k hk
  rw [← he]
  exact hc _ j k hp (hall j (by have := hn k hk'.1; omega)) (he ▸ hk) h1 h2

theorem leaders_consecutive (L : Layout y n present mem) (hall : ∀ i, i < n → present i)
    (hn : ∀ i, present i → i < n) {l : Lvl} (hc : Convex present (mem l)) :
    ∀ (d a : Nat), a + d = n → (a < n → lead mem l a = a) →
      Consecutive a (((List.range' a d).filter fun i => lead mem l i = i).map
        fun i => (i, (mem l i).length)) n := by
  intro d
  induction d using Nat.strongRecOn with
  | _ d ih =>
    intro a had hlead
    by_cases hd : d = 0
    · subst hd
      have : a = n := by omega
      subst this
      exact .nil _
    · have ha : a < n := by omega
      have hpa := hall a ha
      have hl := hlead ha
      have hr := group_range L hall hn hc hpa
      rw [hl] at hr
      generalize hm : (mem l a).length = m at hr
      have hm0 : 0 < m := by
        have := (L.grouping l).self a hpa
        rw [hr] at this
        have := (List.mem_range'_1.mp this).2
        omega
      have hmn : a + m ≤ n := by
        have : a + (m - 1) ∈ mem l a := by rw [hr, List.mem_range'_1]; omega
        have := hn _ ((L.grouping l).closed a hpa _ this).1
        omega
      have hsplit : List.range' a d = List.range' a m ++ List.range' (a + m) (d - m) := by
        rw [List.range'_append_1, show m + (d - m) = d by omega]
      have hfirst : (List.range' a m).filter (fun i => decide (lead mem l i = i)) = [a] := by
        obtain ⟨m', rfl⟩ : ∃ m', m = m' + 1 := ⟨m - 1, by omega⟩
        rw [List.range'_succ, List.filter_cons_of_pos (by simpa using hl)]
        refine congrArg _ (List.filter_eq_nil_iff.mpr fun j hj => ?_)
        have hj' := List.mem_range'_1.mp hj
        have hjm : j ∈ mem l a := by rw [hr, List.mem_range'_1]; omega
        have : lead mem l j = lead mem l a := by
          show (mem l j).headD 0 = _
          rw [((L.grouping l).closed a hpa j hjm).2]; rfl
        simp only [decide_eq_true_eq]
        omega
      rw [hsplit, List.filter_append, hfirst, List.singleton_append, List.map_cons, hm]
      refine .cons hm0 (ih (d - m) (by omega) (a + m) (by omega) fun hlt => ?_)
      have hpb := hall _ hlt
      have hle := lead_le L (l := l) hpb ((L.grouping l).self _ hpb)
      have hne : a + m ∉ mem l a := by rw [hr, List.mem_range'_1]; omega
      have hcl := (L.grouping l).closed _ hpb _ (lead_mem L (l := l) hpb)
      rcases Nat.lt_or_eq_of_le hle with h | h
      · exfalso
        by_cases hal : a ≤ lead mem l (a + m)
        · have hin : lead mem l (a + m) ∈ mem l a := by rw [hr, List.mem_range'_1]; omega
          have := ((L.grouping l).closed a hpa _ hin).2
          rw [hcl.2] at this
          exact hne (this ▸ (L.grouping l).self _ hpb)
        · have hin : a ∈ mem l (lead mem l (a + m)) := by
            refine hc _ a (a + m) hcl.1 hpa ?_ (by omega) (by omega)
            rw [hcl.2]; exact (L.grouping l).self _ hpb
          rw [hcl.2] at hin
          have := ((L.grouping l).closed _ hpb _ hin).2
          exact hne (this ▸ (L.grouping l).self _ hpb)
      · exact h

/-- Convex groups without holes divide the processors. -/
theorem divides_groups {α β : Type} (L : Layout y n present mem) (hall : ∀ i, i < n → present i)
    (hn : ∀ i, present i → i < n) {l : Lvl} (hc : Convex present (mem l))
    {ps : List α} (num : α → Nat) (hps : ps.map num = List.range n) (es : List β)
    (link : α → Option Nat) (start count : β → Nat)
    (hes : es.map (fun e => (start e, count e)) =
      ((List.range n).filter fun i => lead mem l i = i).map fun i => (i, (mem l i).length))
    (hl : ∀ (k : Nat) p, ps[k]? = some p → ∃ c x, link p = some c ∧ es[c]? = some x ∧
      start x = lead mem l (num p)) :
    Divides ps es link start count := by
  have hlen : ps.length = n := by
    have := congrArg List.length hps
    simpa using this
  refine ⟨?_, fun k p hk => ?_⟩
  · rw [hes, hlen, List.range_eq_range']
    refine leaders_consecutive L hall hn hc n 0 (by omega) fun h0 => ?_
    have := lead_le L (l := l) (hall 0 h0) ((L.grouping l).self 0 (hall 0 h0))
    omega
  · obtain ⟨c, x, h1, h2, h3⟩ := hl k p hk
    refine ⟨c, x, h1, h2, ?_⟩
    have hkn : k < n := by have := (List.getElem?_eq_some_iff.mp hk).1; omega
    have hid : num p = k := by
      have : (ps.map num)[k]? = some (num p) := by rw [List.getElem?_map, hk]; rfl
      rw [hps, List.getElem?_range hkn] at this
      exact (Option.some.inj this).symm
    have hx : (start x, count x) ∈ es.map (fun e => (start e, count e)) :=
      List.mem_map_of_mem (List.mem_of_getElem? h2)
    rw [hes] at hx
    obtain ⟨i, hi, he⟩ := List.mem_map.mp hx
    have e1 : i = start x := congrArg Prod.fst he
    have e2 : (mem l i).length = count x := congrArg Prod.snd he
    have hpk := hall k hkn
    rw [hid] at h3
    have hmm : mem l i = mem l k := by
      rw [e1, h3]; exact ((L.grouping l).closed k hpk _ (lead_mem L hpk)).2
    have hin := (L.grouping l).self k hpk
    rw [group_range L hall hn hc hpk, List.mem_range'_1] at hin
    rw [← e2, hmm, h3]
    exact hin

end

end Verif.Riscv
