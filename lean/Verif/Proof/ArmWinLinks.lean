import Verif.Proof.ArmWinSizes
import Verif.Proof.ArmWinCaches

/-!
# The links between the tables on ARM Windows, for every answer of the system
-/

set_option autoImplicit false

namespace Verif.ArmWin
open Windows (GroupAffinity Info Visit visitGroup countLoop beforeLoop perGroup relationCore
  relationPackage)
open X86Init (Cache modify?)

theorem modify_all {α : Type} {l l' : List α} {i : Nat} {f : α → α} (h : modify? l i f = some l')
    (P : α → Prop) (h0 : ∀ x ∈ l, P x) (hf : ∀ x, P x → P (f x)) : ∀ x ∈ l', P x := by
  unfold modify? at h
  cases hl : l[i]? with
  | none => rw [hl] at h; cases h
  | some a =>
    rw [hl] at h
    cases h
    intro x hx
    rcases List.mem_or_eq_of_mem_set hx with hx | rfl
    · exact h0 x hx
    · exact hf a (h0 a (List.mem_of_getElem? hl))

theorem modify_lt {α : Type} {l l' : List α} {i : Nat} {f : α → α} (h : modify? l i f = some l') :
    i < l.length := by
  unfold modify? at h
  cases hl : l[i]? with
  | none => rw [hl] at h; cases h
  | some a => exact (List.getElem?_eq_some_iff.mp hl).1

theorem modify_get {α : Type} {l l' : List α} {i : Nat} {f : α → α} (h : modify? l i f = some l') :
    (∃ x, l[i]? = some x ∧ l'[i]? = some (f x)) ∧ ∀ j, j ≠ i → l'[j]? = l[j]? := by
  unfold modify? at h
  cases hl : l[i]? with
  | none => rw [hl] at h; cases h
  | some a =>
    rw [hl] at h
    cases h
    refine ⟨⟨a, rfl, ?_⟩, fun j hj => ?_⟩
    · rw [List.getElem?_set_self (List.getElem?_eq_some_iff.mp hl).1]
    · rw [List.getElem?_set_ne (fun he => hj he.symm)]

/-- A loop that succeeds has made each of its steps. -/
theorem loop_each {α σ : Type} (P : σ → Prop) (f : σ → α → Option (Option σ))
    (hf : ∀ s a s', P s → f s a = some (some s') → P s') :
    ∀ (l : List α) (s s' : σ), P s → loop f l s = some (some s') →
      ∀ a ∈ l, ∃ s1 s2, P s1 ∧ f s1 a = some (some s2) := by
  intro l
  induction l with
  | nil => intro s s' _ _ a ha; cases ha
  | cons b l ih =>
    intro s s' hp h a ha
    obtain ⟨s1, h1, h2⟩ := ifOk_some h
    rcases List.mem_cons.mp ha with rfl | ha
    · exact ⟨s, s1, hp, h1⟩
    · exact ih s1 s' (hf s b s1 hp h1) h2 a ha

/-- Every record of the kind asked for has been parsed. -/
theorem readRecords_each {ρ σ : Type} (kind : ρ → Bool) (parse : Nat → ρ → σ → Option (Option σ)) :
    ∀ (l : List ρ) (id : Nat) (s : σ) (x : Nat × σ), readRecords kind parse l id s = some (some x) →
      ∀ r ∈ l, kind r = true → ∃ i s1 s2, parse i r s1 = some (some s2) := by
  intro l
  induction l with
  | nil => intro id s x _ r hr; cases hr
  | cons a l ih =>
    intro id s x h r hr hk
    rw [readRecords] at h
    split at h
    · obtain ⟨s1, h1, h2⟩ := ifOk_some h
      rcases List.mem_cons.mp hr with rfl | hr
      · exact ⟨id, s, s1, h1⟩
      · exact ih _ s1 x h2 r hr hk
    · rename_i hn
      rcases List.mem_cons.mp hr with rfl | hr
      · exact absurd hk hn
      · exact ih _ s x h r hr hk

/-- What holds for a processor at all times: the core has the number of the cluster, and caches are within
their table. -/
def Linked (m : Nat) (p : Processor) : Prop :=
  (∀ k, p.core = some k → k = p.cluster) ∧ ∀ (k : Level) (i : Nat), p.cache k = some i → i < m

theorem linked_zero (m : Nat) : Linked m zeroProcessor :=
  ⟨fun k h => (by cases h), fun k i h => (by cases k <;> cases h)⟩

theorem storeCache_linked {m : Nat} {k : Level} {i : Nat} {s s' : CacheState} {v : Visit}
    (h0 : s.caches.length = m ∧ ∀ p ∈ s.processors, Linked m p) (h : storeCache k i s v = some s') :
    s'.caches.length = m ∧ ∀ p ∈ s'.processors, Linked m p := by
  unfold storeCache at h
  simp only [bind, pure, Option.bind_eq_some_iff] at h
  obtain ⟨c2, h3, p2, h4, h5⟩ := h
  cases h5
  have hi := modify_lt h3
  rw [h0.1] at hi
  refine ⟨(modify_length h3).trans h0.1, modify_all h4 _ h0.2 fun p hp => ?_⟩
  refine ⟨fun c hc => ?_, fun k' j hj => ?_⟩
  · have : p.core = some c := by cases k <;> exact hc
    have hk := hp.1 c this
    cases k <;> exact hk
  · rw [link_cache] at hj
    split at hj
    · cases hj; exact hi
    · exact hp.2 k' j hj

theorem parseCache_linked {before : List Nat} {n : Numbers} {r : CacheInfo} {s s' : CacheState} {m : Nat}
    (h0 : s.caches.length = m ∧ ∀ p ∈ s.processors, Linked m p) (h : parseCache before n r s = some s') :
    s'.caches.length = m ∧ ∀ p ∈ s'.processors, Linked m p := by
  unfold parseCache at h
  split at h
  · cases h
  rename_i k _
  dsimp only at h
  split at h
  · cases h
  obtain ⟨c1, h1, h2⟩ := Option.bind_eq_some_iff.mp h
  refine foldlM_inv (fun s => s.caches.length = m ∧ ∀ p ∈ s.processors, Linked m p) _ ?_ r.groups _ s'
    ⟨(modify_length h1).trans h0.1, h0.2⟩ h2
  intro s g s' hp h
  obtain ⟨vs, -, h⟩ := Option.bind_eq_some_iff.mp h
  exact foldlM_inv (fun s => s.caches.length = m ∧ ∀ p ∈ s.processors, Linked m p) _
    (fun s v s' hp h => storeCache_linked hp h) vs _ s' hp h

theorem parseCache_needs {before : List Nat} {n : Numbers} {r : CacheInfo} {s s' : CacheState}
    (h : parseCache before n r s = some s') :
    (∃ k, Spec.OfLevel k r) ∧ r.lineSize ≠ 0 ∧ r.associativity ≠ 0 := by
  unfold parseCache at h
  split at h
  · cases h
  rename_i k hk
  dsimp only at h
  split at h
  · cases h
  rename_i hn
  exact ⟨⟨k, (levelOf_eq r k).mp hk⟩, fun h => hn (.inl h), fun h => hn (.inr h)⟩

theorem connectProcessor_needs {ps : List Processor} {np nc : Nat} {name : Option Bytes}
    {t t' : Tables} {i : Nat} (h : connectProcessor ps np nc name t i = some (some t')) :
    ∃ p, ps[i]? = some p ∧ p.package < np ∧ p.cluster < nc ∧ (∃ k, p.core = some k) := by
  unfold connectProcessor at h
  split at h
  · cases h
  rename_i p hp
  split at h
  · cases h
  split at h
  · cases h
  split at h
  · cases h
  simp only [bind, pure, Option.bind_eq_some_iff] at h
  obtain ⟨p1, h1, c1, h2, k, hk, -⟩ := h
  exact ⟨p, hp, by omega, by omega, k, hk⟩

/-- The package of a cluster, if any, is one of `np`. -/
def PackageIn (np : Nat) (q : Cluster) : Prop := ∀ k, q.package = some k → k < np

theorem connectProcessor_clusters {ps : List Processor} {np nc m : Nat} {name : Option Bytes}
    {t t' : Tables} {i : Nat} (h0 : ∀ q ∈ t.clusters, PackageIn m q)
    (h : connectProcessor ps np nc name t i = some (some t')) : ∀ q ∈ t'.clusters, PackageIn m q := by
  unfold connectProcessor at h
  split at h
  · cases h
  split at h
  · cases h
  split at h
  · cases h
  split at h
  · cases h
  simp only [bind, pure, Option.bind_eq_some_iff] at h
  obtain ⟨p1, h1, c1, h2, k, -, r1, h3, h4⟩ := h
  cases h4
  exact modify_all h2 _ h0 fun q hq => hq

/-- The core is linked to a package and a cluster. -/
def CoreLinked (np nc : Nat) (cores : List Core) (j : Nat) : Prop :=
  ∃ c, cores[j]? = some c ∧ c.package < np ∧ c.cluster < nc

theorem connectCore_links {ps : List Processor} {vendor np nc : Nat} {t t' : Tables} {i : Nat}
    (hp : ∀ p ∈ ps, p.package < np ∧ p.cluster < nc) (h0 : ∀ q ∈ t.clusters, PackageIn np q)
    (h : connectCore ps vendor t i = some t') :
    (∀ q ∈ t'.clusters, PackageIn np q) ∧ CoreLinked np nc t'.cores i ∧
    ∀ j, CoreLinked np nc t.cores j → CoreLinked np nc t'.cores j := by
  unfold connectCore at h
  simp only [bind, pure, Option.bind_eq_some_iff] at h
  obtain ⟨k, hk, p, hpp, c1, h1, k', -, c2, h2, c3, h3, h4⟩ := h
  cases h4
  obtain ⟨g1, g2⟩ := hp p (List.mem_of_getElem? hpp)
  obtain ⟨⟨x, -, hx⟩, hother⟩ := modify_get h1
  have hi : CoreLinked np nc c1 i := ⟨_, hx, g1, g2⟩
  refine ⟨modify_all h2 _ h0 fun q _ k hk => ?_, hi, fun j hj => ?_⟩
  · cases hk; exact g1
  · by_cases hji : j = i
    · rw [hji]; exact hi
    · obtain ⟨c, hc, hl⟩ := hj
      exact ⟨c, (hother j hji).trans hc, hl⟩

theorem cores_links {ps : List Processor} {vendor np nc : Nat}
    (hp : ∀ p ∈ ps, p.package < np ∧ p.cluster < nc) :
    ∀ (l : List Nat) (t t' : Tables), (∀ q ∈ t.clusters, PackageIn np q) →
      l.foldlM (connectCore ps vendor) t = some t' →
      (∀ q ∈ t'.clusters, PackageIn np q) ∧ (∀ i ∈ l, CoreLinked np nc t'.cores i) ∧
      ∀ j, CoreLinked np nc t.cores j → CoreLinked np nc t'.cores j := by
  intro l
  induction l with
  | nil =>
    intro t t' h0 h
    cases h
    exact ⟨h0, fun i hi => (by cases hi), fun j hj => hj⟩
  | cons a l ih =>
    intro t t' h0 h
    rw [List.foldlM_cons] at h
    obtain ⟨t1, h1, h2⟩ := Option.bind_eq_some_iff.mp h
    obtain ⟨g1, g2, g3⟩ := connectCore_links hp h0 h1
    obtain ⟨f1, f2, f3⟩ := ih t1 t' g1 h2
    refine ⟨f1, fun i hi => ?_, fun j hj => f3 j (g3 j hj)⟩
    rcases List.mem_cons.mp hi with rfl | hi
    · exact f3 _ g2
    · exact f2 i hi

/-- What holds for all published tables. -/
structure AllLinked (e : Env) (p : Published) : Prop where
  core : ∀ x ∈ p.processors, x.core = some x.cluster
  cluster : ∀ x ∈ p.processors, x.cluster < p.coresCount
  package : ∀ x ∈ p.processors, x.package < p.packagesCount
  cache : ∀ x ∈ p.processors, ∀ (k : Level) (i : Nat), x.cache k = some i → i < p.caches.length
  cores : ∀ j, j < p.coresCount → ∃ c, p.cores[j]? = some c ∧ c.package < p.packagesCount ∧
    c.cluster < p.coresCount
  clusters : ∀ q ∈ p.clusters, ∀ k, q.package = some k → k < p.packagesCount
  records : ∃ l, e.caches2 = some l ∧ ∀ r ∈ Spec.cacheRecords l, (∃ k, Spec.OfLevel k r) ∧ r.lineSize ≠ 0 ∧
    r.associativity ≠ 0

/-- Whatever Windows answers: the links in what is published are within the tables. -/
theorem init_linked {e : Env} {chip : Chip} {pub : Published}
    (h : initByInfo e chip = some (some (some pub))) : AllLinked e pub := by
  have hsz := (init_sized h).processors
  unfold initByInfo at h
  dsimp only at h
  split at h
  · cases h
  obtain ⟨p, hp, h⟩ := ifOk_some h
  obtain ⟨c, hc, h⟩ := ifOk_some h
  obtain ⟨k, hk, h⟩ := ifOk_some h
  split at h
  · cases h
  unfold fill at h
  obtain ⟨c2, hc2, h⟩ := ifOk_some h
  obtain ⟨k2, hk2, h⟩ := ifOk_some h
  obtain ⟨t, ht, h⟩ := ifOk_some h
  have l1 : ∀ x ∈ p.2, Linked k.1 x := by
    refine readAll_inv (fun s : List Processor => ∀ x ∈ s, Linked k.1 x) ?_ ?_ hp
    · intro id r s s' h0 hs
      refine parse_inv (fun s : List Processor => ∀ x ∈ s, Linked k.1 x) _ _ _ ?_ r s s' h0 hs
      intro s v s' h0 hs
      exact modify_all hs _ h0 fun x hx => ⟨hx.1, fun k i hi => hx.2 k i (by cases k <;> exact hi)⟩
    · intro x hx
      rw [(List.mem_replicate.mp hx).2]
      exact linked_zero _
  have l3 := readAll_inv (fun s : CacheState => s.caches.length = k.1 ∧ ∀ x ∈ s.processors, Linked k.1 x) (by
    intro id r s s' h0 hs
    cases hq : parseCache (beforeLoop 0 (perGroup e.groupCount e.maxCount)) k.2 r s with
    | none => rw [hq] at hs; cases hs
    | some s1 =>
      rw [hq] at hs
      cases hs
      exact parseCache_linked h0 hq) ⟨by unfold resetCaches; rw [List.length_map, List.length_range], l1⟩ hc2
  have l4 := readAll_inv (fun s : CoreState => ∀ x ∈ s.processors, Linked k.1 x) (by
    intro id r s s' h0 hs
    refine parse_inv (fun s : CoreState => ∀ x ∈ s.processors, Linked k.1 x) _ _ _ ?_ r s s' h0 hs
    intro s v s' h0 hs
    unfold storeCore at hs
    simp only [bind, pure, Option.bind_eq_some_iff] at hs
    obtain ⟨a, h1, b, h2, h3⟩ := hs
    cases h3
    refine modify_all h1 _ h0 fun x hx => ⟨fun k hk => ?_, fun k i hi => hx.2 k i (by cases k <;> exact hi)⟩
    cases hk
    rfl) l3.2 hk2
  have records : ∃ l, e.caches2 = some l ∧ ∀ r ∈ Spec.cacheRecords l,
      (∃ k, Spec.OfLevel k r) ∧ r.lineSize ≠ 0 ∧ r.associativity ≠ 0 := by
    obtain ⟨l, hl, hr⟩ := readAll_some hc2
    refine ⟨l, hl, fun r hrm => ?_⟩
    obtain ⟨hm, hkind⟩ := List.mem_filter.mp hrm
    obtain ⟨i, s1, s2, hs⟩ := readRecords_each _ _ l 0 _ _ hr r hm hkind
    cases hq : parseCache (beforeLoop 0 (perGroup e.groupCount e.maxCount)) k.2 r s1 with
    | none => rw [hq] at hs; cases hs
    | some s3 => exact parseCache_needs hq
  unfold connect at ht
  obtain ⟨t1, h1, h2⟩ := ifOk_some ht
  have each := loop_each (fun _ => True) _ (fun _ _ _ _ _ => trivial) _ _ _ trivial h1
  have hcl := loop_inv (fun t : Tables => ∀ q ∈ t.clusters, PackageIn p.1 q) _
    (fun s i s' hp hs => connectProcessor_clusters hp hs) _ _ _ (by
      intro q hq
      rw [(List.mem_replicate.mp hq).2]
      exact fun k hk => by cases hk) h1
  have fin := h
  unfold finish at h
  dsimp only at h
  split at h
  · cases h
  simp only [bind, pure, Option.bind_eq_some_iff] at h
  obtain ⟨u, hu, x, -, a3, -, a2, -, a1, -, h⟩ := h
  cases h
  dsimp only at hsz
  have good : ∀ x ∈ k2.2.processors, x.package < p.1 ∧ x.cluster < k2.1 ∧ ∃ j, x.core = some j := by
    intro x hx
    obtain ⟨i, hi⟩ := List.getElem?_of_mem hx
    have hlt := (List.getElem?_eq_some_iff.mp hi).1
    rw [hsz] at hlt
    obtain ⟨s1, s2, -, hs⟩ := each i (List.mem_reverse.mpr (List.mem_range.mpr hlt))
    obtain ⟨y, hy, g⟩ := connectProcessor_needs hs
    rw [hi] at hy
    cases hy
    exact g
  cases hf : (List.range k2.1).reverse.foldlM (connectCore k2.2.processors chip.vendor) t1 with
  | none => rw [hf] at h2; cases h2
  | some t2 =>
    rw [hf] at h2
    cases h2
    obtain ⟨f1, f2, -⟩ := cores_links (np := p.1) (nc := k2.1)
      (fun x hx => ⟨(good x hx).1, (good x hx).2.1⟩) _ _ _ hcl hf
    exact
      { core := fun x hx => by
          obtain ⟨-, -, j, hj⟩ := good x hx
          rw [hj, (l4 x hx).1 j hj]
        cluster := fun x hx => (good x hx).2.1
        package := fun x hx => (good x hx).1
        cache := fun x hx k i hi => by
          show i < c2.2.caches.length
          rw [l3.1]
          exact (l4 x hx).2 k i hi
        cores := fun j hj => f2 j (List.mem_reverse.mpr (List.mem_range.mpr hj))
        clusters := f1
        records }

end Verif.ArmWin
