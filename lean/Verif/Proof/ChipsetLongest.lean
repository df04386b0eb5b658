import Verif.Proof.ChipsetAndroid

/-!
# Suffix propagation where one suffix continues the other
-/

set_option autoImplicit false

namespace Verif.ArmChipset
open Spec.Chipsets

private theorem pair_series (n : Nat) (a b : Chipset) :
    (propagatePair n a b).1.series = a.series ∧ (propagatePair n a b).2.series = b.series := by
  unfold propagatePair
  simp only
  split
  · split <;> exact ⟨rfl, rfl⟩
  · exact ⟨rfl, rfl⟩

private theorem pair_other {n : Nat} {a b : Chipset} (h : a.series ≠ b.series) :
    propagatePair n a b = (a, b) := by
  unfold propagatePair
  simp only
  rw [if_neg (fun k => h k.1)]

/-- A chipset of another series changes nothing. -/
private theorem inner_other {σ : Series} {n : Nat} : ∀ {cs : List Chipset} {a : Chipset}, a.series ≠ σ →
    (propagateInner n a cs).1.series = a.series ∧
    (∀ r ∈ (propagateInner n a cs).2, r.series = σ → r ∈ cs) ∧
    ∀ r ∈ cs, r.series = σ → r ∈ (propagateInner n a cs).2
  | [], a, _ => ⟨rfl, fun _ h _ => h, fun _ h _ => h⟩
  | c :: cs, a, h => by
    obtain ⟨s1, s2⟩ := pair_series n a c
    obtain ⟨h1, h2, h3⟩ := inner_other (σ := σ) (n := n) (cs := cs) (a := (propagatePair n a c).1)
      (by rw [s1]; exact h)
    simp only [propagateInner]
    refine ⟨h1.trans s1, fun r hr hs => ?_, fun r hr hs => ?_⟩
    · rcases List.mem_cons.mp hr with rfl | hr
      · have e : a.series ≠ c.series := by rw [← s2, hs]; exact h
        rw [pair_other e]
        exact List.mem_cons_self
      · exact List.mem_cons_of_mem _ (h2 r hr hs)
    · rcases List.mem_cons.mp hr with rfl | hr
      · have e : a.series ≠ r.series := by rw [hs]; exact h
        rw [pair_other e]
        exact List.mem_cons_self
      · exact List.mem_cons_of_mem _ (h3 r hr hs)

private theorem padded_take {t : Bytes} {n : Nat} (h : n ≤ t.length) : (padded t).take n = t.take n := by
  unfold padded
  rw [List.take_append_of_le_length h]

/-- A shorter suffix is continued. -/
private theorem inner_short {σ : Series} {u t : Bytes} (ht : SuffixText t) (hp : u <+: t) :
    ∀ {cs : List Chipset} {a : Chipset}, a.series = σ → (a.suffix = padded u ∨ a.suffix = padded t) →
    (∀ r ∈ cs, r.series = σ → r.suffix = padded t) →
    (propagateInner u.length a cs).1.series = σ ∧
    ((∃ r ∈ cs, r.series = σ) ∨ a.suffix = padded t → (propagateInner u.length a cs).1.suffix = padded t) ∧
    ∀ r ∈ (propagateInner u.length a cs).2, r.series = σ → r.suffix = padded t
  | [], a, ha, _, _ => ⟨ha, fun h => h.elim (fun ⟨_, h, _⟩ => absurd h List.not_mem_nil) id,
      fun _ h => absurd h List.not_mem_nil⟩
  | c :: cs, a, ha, hau, hcs => by
    have hle := hp.length_le
    obtain ⟨s1, s2⟩ := pair_series u.length a c
    have key : (c.series = σ → (propagatePair u.length a c).1.suffix = padded t ∧
          (propagatePair u.length a c).2.suffix = padded t) ∧
        (c.series ≠ σ → propagatePair u.length a c = (a, c)) := by
      constructor
      · intro hc
        have hcs' : c.suffix = padded t := hcs c List.mem_cons_self hc
        have hlc : (textIn 8 c.suffix).length = t.length := by rw [hcs', suffixText_text ht]
        have tu : t.take u.length = u := (List.prefix_iff_eq_take.mp hp).symm
        unfold propagatePair
        simp only
        rw [hlc]
        by_cases hl : u.length = t.length
        · rw [if_neg (fun k => k.2.1 hl)]
          have e : u = t := hp.eq_of_length hl
          subst e
          exact ⟨hau.elim id id, hcs'⟩
        · have hpre : a.suffix.take (min u.length t.length) = c.suffix.take (min u.length t.length) := by
            rw [Nat.min_eq_left hle, hcs']
            rcases hau with e | e
            · rw [e, padded_take (Nat.le_refl _), padded_take hle, tu, List.take_length]
            · rw [e]
          rw [if_pos ⟨ha.trans hc.symm, hl, .inr hpre⟩, if_neg (by omega)]
          refine ⟨?_, hcs'⟩
          show copySuffix a.suffix c.suffix t.length = padded t
          rw [hcs']
          rcases hau with e | e
          · rw [e, copy_short ht (Nat.le_refl _) hle, List.take_length]
          · rw [e, copy_short ht (Nat.le_refl _) (Nat.le_refl _), List.take_length]
      · intro hc
        exact pair_other (by rw [ha]; exact fun k => hc k.symm)
    by_cases hc : c.series = σ
    · obtain ⟨k1, k2⟩ := key.1 hc
      obtain ⟨h1, h2, h3⟩ := inner_short ht hp (cs := cs) (a := (propagatePair u.length a c).1)
        (s1.trans ha) (.inr k1) (fun r hr => hcs r (List.mem_cons_of_mem _ hr))
      simp only [propagateInner]
      refine ⟨h1, fun _ => h2 (.inr k1), fun r hr hs => ?_⟩
      rcases List.mem_cons.mp hr with rfl | hr
      · exact k2
      · exact h3 r hr hs
    · have k := key.2 hc
      obtain ⟨h1, h2, h3⟩ := inner_short ht hp (cs := cs) (a := a) ha hau
        (fun r hr => hcs r (List.mem_cons_of_mem _ hr))
      simp only [propagateInner, k]
      refine ⟨h1, fun h => h2 (h.imp_left ?_), fun r hr hs => ?_⟩
      · rintro ⟨r, hr, hs⟩
        rcases List.mem_cons.mp hr with rfl | hr
        · exact absurd hs hc
        · exact ⟨r, hr, hs⟩
      · rcases List.mem_cons.mp hr with rfl | hr
        · exact absurd hs hc
        · exact h3 r hr hs

/-- A longer suffix is passed on. -/
private theorem inner_long {σ : Series} {u t : Bytes} (ht : SuffixText t) (hu : SuffixText u) (hp : t <+: u)
    (hlt : t.length < u.length) : ∀ {cs : List Chipset} {a : Chipset}, a.series = σ → a.suffix = padded u →
    (∀ r ∈ cs, r.series = σ → r.suffix = padded t) →
    (propagateInner u.length a cs).1 = a ∧
    ∀ r ∈ (propagateInner u.length a cs).2, r.series = σ → r.suffix = padded u
  | [], a, _, _, _ => ⟨rfl, fun _ h => absurd h List.not_mem_nil⟩
  | c :: cs, a, ha, hau, hcs => by
    obtain ⟨s1, s2⟩ := pair_series u.length a c
    have key : (propagatePair u.length a c).1 = a ∧
        (c.series = σ → (propagatePair u.length a c).2.suffix = padded u) := by
      by_cases hc : c.series = σ
      · have hcs' : c.suffix = padded t := hcs c List.mem_cons_self hc
        have hlc : (textIn 8 c.suffix).length = t.length := by rw [hcs', suffixText_text ht]
        unfold propagatePair
        simp only
        have hpre : a.suffix.take (min u.length t.length) = c.suffix.take (min u.length t.length) := by
          rw [Nat.min_eq_right (by omega), hcs', hau, padded_take (by omega), padded_take (Nat.le_refl _),
            List.take_length]
          exact (List.prefix_iff_eq_take.mp hp).symm
        rw [hlc, if_pos ⟨ha.trans hc.symm, by omega, .inr hpre⟩, if_pos (by omega)]
        refine ⟨rfl, fun _ => ?_⟩
        show copySuffix c.suffix a.suffix u.length = padded u
        rw [hcs', hau, copy_short hu (Nat.le_refl _) (by omega), List.take_length]
      · rw [pair_other (by rw [ha]; exact fun k => hc k.symm)]
        exact ⟨rfl, fun h => absurd h hc⟩
    obtain ⟨h1, h2⟩ := inner_long ht hu hp hlt (cs := cs) (a := a) ha hau
      (fun r hr => hcs r (List.mem_cons_of_mem _ hr))
    simp only [propagateInner, key.1]
    refine ⟨h1, fun r hr hs => ?_⟩
    rcases List.mem_cons.mp hr with rfl | hr
    · exact key.2 (s2.symm.trans hs)
    · exact h2 r hr hs

/-- The longest suffix of a series. -/
def Longest (σ : Series) (cs : List Chipset) (t : Bytes) : Prop :=
  SuffixText t ∧ (∃ d ∈ cs, d.series = σ ∧ HasSuffix d t) ∧
    ∀ d ∈ cs, d.series = σ → ∀ u, SuffixText u → HasSuffix d u → u <+: t

/-- One of the suffixes of a series continues the other. -/
def Chain (σ : Series) (cs : List Chipset) : Prop :=
  ∀ c ∈ cs, ∀ d ∈ cs, c.series = σ → d.series = σ → ∀ t u, SuffixText t → SuffixText u → HasSuffix c t →
    HasSuffix d u → t <+: u ∨ u <+: t

private def Inv (σ : Series) (orig done : List Chipset) : Prop :=
  ((∀ d ∈ orig, d.series ≠ σ) ∧ ∀ d ∈ done, d.series ≠ σ) ∨
    ∃ t, Longest σ orig t ∧ (∃ r ∈ done, r.series = σ) ∧ ∀ r ∈ done, r.series = σ → r.suffix = padded t

private theorem longest_snoc {σ : Series} {orig : List Chipset} {c : Chipset} {t u v : Bytes}
    (h : Longest σ orig t) (hv : SuffixText v) (hu : SuffixText u) (hc : HasSuffix c u) (h1 : t <+: v)
    (h2 : u <+: v) (hin : ∃ d ∈ orig ++ [c], d.series = σ ∧ HasSuffix d v) : Longest σ (orig ++ [c]) v := by
  refine ⟨hv, hin, fun d hd hs w hw hdw => ?_⟩
  rcases List.mem_append.mp hd with hd | hd
  · exact (h.2.2 d hd hs w hw hdw).trans h1
  · rw [List.mem_singleton] at hd
    subst hd
    rw [show w = u from padded_inj hw hu ((show d.suffix = padded w from hdw).symm.trans hc)]
    exact h2

private theorem step {σ : Series} {orig done : List Chipset} {c : Chipset} (h : Inv σ orig done)
    (hv : Valid c) (hch : Chain σ (orig ++ [c])) :
    Inv σ (orig ++ [c]) ((propagateInner (textIn 8 c.suffix).length c done).2 ++
      [(propagateInner (textIn 8 c.suffix).length c done).1]) := by
  obtain ⟨u, hu, hcu⟩ := valid_suffix hv
  have hcu' : c.suffix = padded u := hcu
  have hn : (textIn 8 c.suffix).length = u.length := by rw [hcu', suffixText_text hu]
  rw [hn]
  by_cases hc : c.series = σ
  · rcases h with ⟨h1, h2⟩ | ⟨t, ht, ⟨r0, hr0, hs0⟩, hall⟩
    · right
      obtain ⟨k1, k2, k3⟩ := inner_short (σ := σ) hu (List.prefix_refl u) (cs := done) (a := c) hc (.inl hcu')
        (fun r hr hs => absurd hs (h2 r hr))
      refine ⟨u, ⟨hu, ⟨c, by simp, hc, hcu⟩, fun d hd hs w hw hdw => ?_⟩,
        ⟨_, by simp, k1⟩, fun r hr hs => ?_⟩
      · rcases List.mem_append.mp hd with hd | hd
        · exact absurd hs (h1 d hd)
        · rw [List.mem_singleton] at hd
          subst hd
          rw [show w = u from padded_inj hw hu ((show d.suffix = padded w from hdw).symm.trans hcu')]
          exact List.prefix_refl u
      · rcases List.mem_append.mp hr with hr | hr
        · exact k3 r hr hs
        · rw [List.mem_singleton] at hr
          rw [hr]
          exact k2 (.inr hcu')
    · right
      obtain ⟨d0, hd0, hds0, hdt0⟩ := ht.2.1
      have htt := ht.1
      rcases hch d0 (by simp [hd0]) c (by simp) hds0 hc t u htt hu hdt0 hcu with hp | hp
      · by_cases hl : t.length = u.length
        · have e : t = u := hp.eq_of_length hl
          subst e
          obtain ⟨k1, k2, k3⟩ := inner_short (σ := σ) htt (List.prefix_refl t) (cs := done) (a := c) hc
            (.inl hcu') hall
          refine ⟨t, longest_snoc ht htt hu hcu (List.prefix_refl _) (List.prefix_refl _)
            ⟨c, by simp, hc, hcu⟩, ⟨_, by simp, k1⟩, fun r hr hs => ?_⟩
          rcases List.mem_append.mp hr with hr | hr
          · exact k3 r hr hs
          · rw [List.mem_singleton] at hr
            rw [hr]
            exact k2 (.inr hcu')
        · have hlt : t.length < u.length := by have := hp.length_le; omega
          obtain ⟨k1, k2⟩ := inner_long (σ := σ) htt hu hp hlt (cs := done) (a := c) hc hcu' hall
          refine ⟨u, longest_snoc ht hu hu hcu hp (List.prefix_refl _) ⟨c, by simp, hc, hcu⟩,
            ⟨(propagateInner u.length c done).1, by simp, by rw [k1]; exact hc⟩, fun r hr hs => ?_⟩
          rcases List.mem_append.mp hr with hr | hr
          · exact k2 r hr hs
          · rw [List.mem_singleton] at hr
            rw [hr, k1]
            exact hcu'
      · obtain ⟨k1, k2, k3⟩ := inner_short (σ := σ) htt hp (cs := done) (a := c) hc (.inl hcu') hall
        refine ⟨t, longest_snoc ht htt hu hcu (List.prefix_refl _) hp ⟨d0, by simp [hd0], hds0, hdt0⟩,
          ⟨_, by simp, k1⟩, fun r hr hs => ?_⟩
        rcases List.mem_append.mp hr with hr | hr
        · exact k3 r hr hs
        · rw [List.mem_singleton] at hr
          rw [hr]
          exact k2 (.inl ⟨r0, hr0, hs0⟩)
  · obtain ⟨k1, k2, k3⟩ := inner_other (σ := σ) (n := u.length) (cs := done) hc
    have last : ∀ r ∈ (propagateInner u.length c done).2 ++ [(propagateInner u.length c done).1],
        r.series = σ → r ∈ done := by
      intro r hr hs
      rcases List.mem_append.mp hr with hr | hr
      · exact k2 r hr hs
      · rw [List.mem_singleton] at hr
        rw [hr, k1] at hs
        exact absurd hs hc
    rcases h with ⟨h1, h2⟩ | ⟨t, ht, ⟨r0, hr0, hs0⟩, hall⟩
    · left
      refine ⟨fun d hd => ?_, fun d hd hs => h2 d (last d hd hs) hs⟩
      rcases List.mem_append.mp hd with hd | hd
      · exact h1 d hd
      · rw [List.mem_singleton] at hd
        rw [hd]
        exact hc
    · right
      refine ⟨t, ⟨ht.1, ?_, fun d hd hs => ?_⟩, ⟨r0, by simp [k3 r0 hr0 hs0], hs0⟩,
        fun r hr hs => hall r (last r hr hs) hs⟩
      · obtain ⟨d, hd, h⟩ := ht.2.1
        exact ⟨d, by simp [hd], h⟩
      · rcases List.mem_append.mp hd with hd | hd
        · exact ht.2.2 d hd hs
        · rw [List.mem_singleton] at hd
          rw [hd] at hs
          exact absurd hs hc

private theorem propagate_inv' {σ : Series} : ∀ {cs orig done : List Chipset}, Inv σ orig done →
    (∀ c ∈ cs, Valid c) → Chain σ (orig ++ cs) → Inv σ (orig ++ cs) (propagate done cs)
  | [], orig, done, h, _, _ => by rw [List.append_nil]; exact h
  | c :: cs, orig, done, h, hv, hch => by
    have hs := step h (hv c (by simp)) (fun a ha b hb => hch a (by
        rcases List.mem_append.mp ha with k | k
        · simp [k]
        · rw [List.mem_singleton] at k; simp [k]) b (by
        rcases List.mem_append.mp hb with k | k
        · simp [k]
        · rw [List.mem_singleton] at k; simp [k]))
    have := propagate_inv' (cs := cs) hs (fun d hd => hv d (by simp [hd]))
      (by rw [List.append_assoc]; exact hch)
    rw [List.append_assoc] at this
    exact this

/-- If of any two suffixes in a series one continues the other, all chipsets of the series get the longest. -/
theorem propagate_longest {cs : List Chipset} (hv : ∀ c ∈ cs, Valid c) {r : Chipset}
    (hr : r ∈ propagate [] cs) (hch : Chain r.series cs) : ∃ t, Longest r.series cs t ∧ HasSuffix r t := by
  have h := propagate_inv' (σ := r.series) (cs := cs) (orig := []) (done := [])
    (.inl ⟨by simp, by simp⟩) hv hch
  rcases h with ⟨-, h⟩ | ⟨t, ht, -, h⟩
  · exact absurd rfl (h r hr)
  · exact ⟨t, ht, h r hr rfl⟩

end Verif.ArmChipset
