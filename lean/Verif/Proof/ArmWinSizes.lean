import Verif.Model.ArmWin

/-!
# The lengths of the tables on ARM Windows, for every answer of the system
-/

set_option autoImplicit false

namespace Verif.ArmWin
open Windows (GroupAffinity Info Visit visitGroup countLoop beforeLoop perGroup relationCore
  relationPackage)
open X86Init (Cache modify?)

theorem ifOk_some {α β : Type} {x : Option (Option α)} {f : α → Option (Option β)} {b : β}
    (h : ifOk x f = some (some b)) : ∃ a, x = some (some a) ∧ f a = some (some b) := by
  unfold ifOk at h
  split at h
  · cases h
  · cases h
  · exact ⟨_, rfl, h⟩

theorem modify_length {α : Type} {l l' : List α} {i : Nat} {f : α → α} (h : modify? l i f = some l') :
    l'.length = l.length := by
  unfold modify? at h
  cases hl : l[i]? with
  | none => rw [hl] at h; cases h
  | some a => rw [hl] at h; cases h; exact List.length_set

theorem loop_inv {α σ : Type} (P : σ → Prop) (f : σ → α → Option (Option σ))
    (hf : ∀ s a s', P s → f s a = some (some s') → P s') :
    ∀ (l : List α) (s s' : σ), P s → loop f l s = some (some s') → P s' := by
  intro l
  induction l with
  | nil => intro s s' hp h; cases h; exact hp
  | cons a l ih =>
    intro s s' hp h
    obtain ⟨s1, h1, h2⟩ := ifOk_some h
    exact ih s1 s' (hf s a s1 hp h1) h2

theorem foldlM_inv {α σ : Type} (P : σ → Prop) (f : σ → α → Option σ)
    (hf : ∀ s a s', P s → f s a = some s' → P s') :
    ∀ (l : List α) (s s' : σ), P s → l.foldlM f s = some s' → P s' := by
  intro l
  induction l with
  | nil => intro s s' hp h; cases h; exact hp
  | cons a l ih =>
    intro s s' hp h
    rw [List.foldlM_cons] at h
    obtain ⟨s1, h1, h2⟩ := Option.bind_eq_some_iff.mp h
    exact ih s1 s' (hf s a s1 hp h1) h2

theorem readRecords_inv {ρ σ : Type} (P : σ → Prop) (kind : ρ → Bool)
    (parse : Nat → ρ → σ → Option (Option σ))
    (hp : ∀ id r s s', P s → parse id r s = some (some s') → P s') :
    ∀ (l : List ρ) (id : Nat) (s : σ) (x : Nat × σ), P s → readRecords kind parse l id s = some (some x) →
      P x.2 := by
  intro l
  induction l with
  | nil => intro id s x h0 h; cases h; exact h0
  | cons r l ih =>
    intro id s x h0 h
    rw [readRecords] at h
    split at h
    · obtain ⟨s1, h1, h2⟩ := ifOk_some h
      exact ih _ s1 x (hp id r s s1 h0 h1) h2
    · exact ih _ s x h0 h

theorem readAll_some {ρ σ : Type} {kind : ρ → Bool} {parse : Nat → ρ → σ → Option (Option σ)}
    {answer : Option (List ρ)} {s : σ} {x : Nat × σ} (h : readAll kind parse answer s = some (some x)) :
    ∃ l, answer = some l ∧ readRecords kind parse l 0 s = some (some x) := by
  unfold readAll at h
  split at h
  · cases h
  · rename_i l
    obtain ⟨y, h1, h2⟩ := ifOk_some h
    split at h2
    · cases h2
    · cases h2
      exact ⟨l, rfl, h1⟩

theorem readAll_inv {ρ σ : Type} (P : σ → Prop) {kind : ρ → Bool}
    {parse : Nat → ρ → σ → Option (Option σ)}
    (hp : ∀ id r s s', P s → parse id r s = some (some s') → P s') {answer : Option (List ρ)} {s : σ}
    {x : Nat × σ} (h0 : P s) (h : readAll kind parse answer s = some (some x)) : P x.2 := by
  obtain ⟨l, -, h1⟩ := readAll_some h
  exact readRecords_inv P kind parse hp l 0 s x h0 h1

theorem parse_inv {σ : Type} (P : σ → Prop) (before : List Nat) (n : Nat) (store : σ → Visit → Option σ)
    (hs : ∀ s v s', P s → store s v = some s' → P s') (info : Info) (s s' : σ) (h0 : P s)
    (h : parseProcessors before n store info s = some (some s')) : P s' := by
  refine loop_inv P _ ?_ info.groups s s' h0 h
  intro s g s' hp h
  obtain ⟨vs, -, h⟩ := Option.bind_eq_some_iff.mp h
  refine loop_inv P _ ?_ vs s s' hp h
  intro s v s' hp h
  split at h
  · cases h
  · cases hst : store s v with
    | none => rw [hst] at h; cases h
    | some s1 =>
      rw [hst] at h
      cases h
      exact hs s v _ hp hst

/-- The number of records of a kind bounds the counters. -/
theorem count_le (kind : CacheInfo → Bool) : ∀ (l : List CacheInfo) (id : Nat) (n : Numbers)
    (x : Nat × Numbers), n.total ≤ id →
    readRecords kind (fun _ r s => some (some (countCache r s))) l id n = some (some x) →
    x.2.total ≤ x.1 := by
  intro l
  induction l with
  | nil => intro id n x h0 h; cases h; exact h0
  | cons r l ih =>
    intro id n x h0 h
    rw [readRecords] at h
    split at h
    · refine ih _ _ x ?_ h
      unfold countCache
      split
      · rename_i k _
        cases k <;> simp only [Numbers.inc, Numbers.total] at h0 ⊢ <;> omega
      · omega
    · exact ih _ n x h0 h

/-- The lengths of the three tables. -/
def Tables.Lengths (nc nl np : Nat) (t : Tables) : Prop :=
  t.cores.length = nc ∧ t.clusters.length = nl ∧ t.packages.length = np

theorem connectProcessor_len {ps : List Processor} {np nc : Nat} {name : Option Bytes} {a b c : Nat}
    {t t' : Tables} {i : Nat} (h0 : t.Lengths a b c)
    (h : connectProcessor ps np nc name t i = some (some t')) : t'.Lengths a b c := by
  unfold connectProcessor at h
  split at h
  · cases h
  split at h
  · cases h
  split at h
  · cases h
  split at h
  · cases h
  simp only [bind, pure, Option.bind_eq_some_iff] at h
  obtain ⟨p1, h1, c1, h2, k, -, r1, h3, h4⟩ := h
  cases h4
  exact ⟨(modify_length h3).trans h0.1, (modify_length h2).trans h0.2.1, (modify_length h1).trans h0.2.2⟩

theorem connectCore_len {ps : List Processor} {vendor : Nat} {a b c : Nat} {t t' : Tables} {i : Nat}
    (h0 : t.Lengths a b c) (h : connectCore ps vendor t i = some t') : t'.Lengths a b c ∧ i < a := by
  unfold connectCore at h
  simp only [bind, pure, Option.bind_eq_some_iff] at h
  obtain ⟨k, hk, p, -, c1, h1, k', -, c2, h2, c3, h3, h4⟩ := h
  cases h4
  have := (List.getElem?_eq_some_iff.mp hk).1
  have h5 := h0.1
  exact ⟨⟨(modify_length h1).trans h0.1, (modify_length h2).trans h0.2.1, (modify_length h3).trans h0.2.2⟩,
    by omega⟩

theorem connect_len {ps : List Processor} {n np nc : Nat} {name : Option Bytes} {vendor : Nat} {a b c : Nat}
    {t t' : Tables} (h0 : t.Lengths a b c)
    (h : connect ps n np nc name vendor t = some (some t')) : t'.Lengths a b c ∧ nc ≤ a := by
  unfold connect at h
  obtain ⟨t1, h1, h2⟩ := ifOk_some h
  have hl := loop_inv (Tables.Lengths a b c) _ (fun s i s' hp hs => connectProcessor_len hp hs) _ _ _ h0 h1
  cases hf : (List.range nc).reverse.foldlM (connectCore ps vendor) t1 with
  | none => rw [hf] at h2; cases h2
  | some t2 =>
    rw [hf] at h2
    cases h2
    refine ⟨foldlM_inv (Tables.Lengths a b c) _ (fun s i s' hp hs => (connectCore_len hp hs).1) _ _ _ hl hf,
      ?_⟩
    cases nc with
    | zero => exact Nat.zero_le _
    | succ nc =>
      rw [List.range_succ, List.reverse_append] at hf
      change ([nc] ++ (List.range nc).reverse).foldlM _ _ = _ at hf
      rw [List.cons_append, List.foldlM_cons] at hf
      obtain ⟨t3, h3, -⟩ := Option.bind_eq_some_iff.mp hf
      exact (connectCore_len hl h3).2

theorem uarchLoop_len : ∀ (cs : List Core) (i : Nat) (s s' : UarchState), uarchLoop i cs s = some s' →
    s'.uarchs.length = s.uarchs.length := by
  intro cs
  induction cs with
  | nil => intro i s s' h; cases h; rfl
  | cons c cs ih =>
    intro i s s' h
    rw [uarchLoop] at h
    obtain ⟨s1, h1, h2⟩ := Option.bind_eq_some_iff.mp h
    rw [ih _ _ _ h2]
    unfold uarchStep at h1
    split at h1
    · simp only [bind, pure, Option.bind_eq_some_iff] at h1
      obtain ⟨u, h3, h4⟩ := h1
      cases h4
      exact modify_length h3
    · split at h1
      · simp only [bind, pure, Option.bind_eq_some_iff] at h1
        obtain ⟨u, h3, h4⟩ := h1
        cases h4
        exact modify_length h3
      · cases h1
        rfl

/-- The tables are as long as the counters say, or longer. -/
structure Sized (p : Published) : Prop where
  processors : p.processors.length = p.processorsCount
  packages : p.packages.length = p.packagesCount
  cores : p.coresCount ≤ p.cores.length
  clusters : p.coresCount ≤ p.clusters.length
  uarchs : p.uarchs.length = p.uarchsCount
  caches : p.numbers.total ≤ p.caches.length

theorem parseCache_len {before : List Nat} {n : Numbers} {r : CacheInfo} {s s' : CacheState} {a b : Nat}
    (h0 : s.processors.length = a ∧ s.caches.length = b) (h : parseCache before n r s = some s') :
    s'.processors.length = a ∧ s'.caches.length = b := by
  unfold parseCache at h
  split at h
  · cases h
  rename_i k _
  dsimp only at h
  split at h
  · cases h
  obtain ⟨c1, h1, h2⟩ := Option.bind_eq_some_iff.mp h
  refine foldlM_inv (fun s => s.processors.length = a ∧ s.caches.length = b) _ ?_ r.groups _ s'
    ⟨h0.1, (modify_length h1).trans h0.2⟩ h2
  intro s g s' hp h
  obtain ⟨vs, -, h⟩ := Option.bind_eq_some_iff.mp h
  refine foldlM_inv (fun s => s.processors.length = a ∧ s.caches.length = b) _ ?_ vs _ s' hp h
  intro s v s' hp h
  unfold storeCache at h
  simp only [bind, pure, Option.bind_eq_some_iff] at h
  obtain ⟨c2, h3, p2, h4, h5⟩ := h
  cases h5
  exact ⟨(modify_length h4).trans hp.1, (modify_length h3).trans hp.2⟩

/-- Whatever Windows answers: the tables that are published are as long as the counters say. -/
theorem init_sized {e : Env} {chip : Chip} {pub : Published}
    (h : initByInfo e chip = some (some (some pub))) : Sized pub := by
  unfold initByInfo at h
  dsimp only at h
  split at h
  · cases h
  obtain ⟨p, hp, h⟩ := ifOk_some h
  obtain ⟨c, hc, h⟩ := ifOk_some h
  obtain ⟨k, hk, h⟩ := ifOk_some h
  split at h
  · cases h
  unfold fill at h
  obtain ⟨c2, hc2, h⟩ := ifOk_some h
  obtain ⟨k2, hk2, h⟩ := ifOk_some h
  obtain ⟨t, ht, h⟩ := ifOk_some h
  have l1 : p.2.length = countLoop 0 (perGroup e.groupCount e.maxCount) := by
    refine readAll_inv (fun s : List Processor => s.length = countLoop 0 (perGroup e.groupCount e.maxCount))
      ?_ List.length_replicate hp
    intro id r s s' h0 hs
    refine parse_inv (fun s : List Processor => s.length =
      countLoop 0 (perGroup e.groupCount e.maxCount)) _ _ _ ?_ r s s' h0 hs
    intro s v s' h0 hs
    exact (modify_length hs).trans h0
  have l2 : k.2.total ≤ k.1 := by
    obtain ⟨l, -, hk⟩ := readAll_some hk
    exact count_le _ l 0 ⟨0, 0, 0, 0⟩ k (by decide) hk
  have l3 := readAll_inv (fun s : CacheState => s.processors.length =
      countLoop 0 (perGroup e.groupCount e.maxCount) ∧ s.caches.length = k.1) (by
    intro id r s s' h0 hs
    cases hq : parseCache (beforeLoop 0 (perGroup e.groupCount e.maxCount)) k.2 r s with
    | none => rw [hq] at hs; cases hs
    | some s1 =>
      rw [hq] at hs
      cases hs
      exact parseCache_len h0 hq) ⟨l1, by unfold resetCaches; rw [List.length_map, List.length_range]⟩ hc2
  have l4 := readAll_inv (fun s : CoreState => s.processors.length =
      countLoop 0 (perGroup e.groupCount e.maxCount) ∧ s.cores.length = c.1) (by
    intro id r s s' h0 hs
    refine parse_inv (fun s : CoreState => s.processors.length =
      countLoop 0 (perGroup e.groupCount e.maxCount) ∧ s.cores.length = c.1) _ _ _ ?_ r s s' h0 hs
    intro s v s' h0 hs
    unfold storeCore at hs
    simp only [bind, pure, Option.bind_eq_some_iff] at hs
    obtain ⟨a, h1, b, h2, h3⟩ := hs
    cases h3
    exact ⟨(modify_length h1).trans h0.1, (modify_length h2).trans h0.2⟩)
    ⟨l3.1, List.length_replicate⟩ hk2
  obtain ⟨⟨l5, l6, l7⟩, l8⟩ := connect_len (a := c.1) (b := c.1) (c := p.1)
    ⟨l4.2, List.length_replicate, List.length_replicate⟩ ht
  unfold finish at h
  dsimp only at h
  split at h
  · cases h
  simp only [bind, pure, Option.bind_eq_some_iff] at h
  obtain ⟨u, hu, x, -, a3, -, a2, -, a1, -, h⟩ := h
  cases h
  exact
    { processors := l4.1
      packages := l7
      cores := by show k2.1 ≤ t.cores.length; omega
      clusters := by show k2.1 ≤ t.clusters.length; omega
      uarchs := (uarchLoop_len _ _ _ _ hu).trans List.length_replicate
      caches := by show k.2.total ≤ c2.2.caches.length; rw [l3.2]; exact l2 }

end Verif.ArmWin
