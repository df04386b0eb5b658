import Verif.Spec.CpuidDump

/-!
# The loops of cpuid-dump in closed form
-/

set_option autoImplicit false

namespace Verif.CpuidDump
open X86Cpuid (Regs Cpuid)

/-- The lines of the sub-leaves `a` to `a + n - 1`. -/
def subs (leaf : Nat) (sub : Nat → Regs) (a n : Nat) : List Item :=
  (List.range' a n).map fun i => Item.sub leaf i (sub i)

theorem subs_succ (leaf : Nat) (sub : Nat → Regs) (a n : Nat) :
    subs leaf sub a (n + 1) = Item.sub leaf a (sub a) :: subs leaf sub (a + 1) n := by
  simp [subs, List.range'_succ]

theorem listLoop_some {stop : Nat → Regs → Bool} {leaf : Nat} {sub : Nat → Regs} :
    ∀ (fuel e : Nat) (l : List Item), e < U32 → (∀ j : Nat, j < e → stop j (sub j) = false) →
      listLoop stop leaf sub fuel e = some l →
      ∃ k : Nat, e ≤ k ∧ k < U32 ∧ stop k (sub k) = true ∧ (∀ j : Nat, j < k → stop j (sub j) = false) ∧
        l = subs leaf sub e (k - e) := by
  intro fuel
  induction fuel with
  | zero => intro e l _ _ h; simp [listLoop] at h
  | succ fuel ih =>
    intro e l he hb h
    unfold listLoop at h
    by_cases hs : stop e (sub e) = true
    · rw [if_pos hs] at h
      cases h
      exact ⟨e, Nat.le_refl _, he, hs, hb, by simp [subs]⟩
    · rw [if_neg hs] at h
      have hs' : stop e (sub e) = false := by simpa using hs
      obtain ⟨l', hl', rfl⟩ := Option.map_eq_some_iff.1 h
      by_cases hw : e + 1 < U32
      · rw [Nat.mod_eq_of_lt hw] at hl'
        obtain ⟨k, h1, h2, h3, h4, h5⟩ := ih (e + 1) l' hw
          (fun j hj => by
            by_cases h : j = e
            · subst h; exact hs'
            · exact hb j (by omega)) hl'
        refine ⟨k, by omega, h2, h3, h4, ?_⟩
        rw [h5, show k - e = (k - (e + 1)) + 1 by omega, subs_succ]
      · have h0 : (e + 1) % U32 = 0 := by omega
        rw [h0] at hl'
        obtain ⟨k, h1, h2, h3, h4, h5⟩ := ih 0 l' (by omega) (fun j hj => by omega) hl'
        exfalso
        have : stop k (sub k) = false := by
          by_cases h : k = e
          · subst h; exact hs'
          · exact hb k (by omega)
        rw [this] at h3
        cases h3

theorem listLoop_ends {stop : Nat → Regs → Bool} {leaf : Nat} {sub : Nat → Regs} :
    ∀ (n e fuel : Nat), e + n < U32 → stop (e + n) (sub (e + n)) = true → n < fuel →
      ∃ l : List Item, listLoop stop leaf sub fuel e = some l := by
  intro n
  induction n with
  | zero =>
    intro e fuel _ hs hf
    cases fuel with
    | zero => omega
    | succ fuel => exact ⟨[], by unfold listLoop; rw [if_pos (by simpa using hs)]⟩
  | succ n ih =>
    intro e fuel he hs hf
    cases fuel with
    | zero => omega
    | succ fuel =>
      unfold listLoop
      by_cases h : stop e (sub e) = true
      · exact ⟨[], by rw [if_pos h]⟩
      · rw [if_neg h, Nat.mod_eq_of_lt (by omega)]
        obtain ⟨l, hl⟩ := ih (e + 1) fuel (by omega)
          (by rw [show e + 1 + n = e + (n + 1) by omega]; exact hs) (by omega)
        exact ⟨_, by rw [hl]; rfl⟩

theorem countLoop_never {leaf : Nat} {sub : Nat → Regs} (hm : ¬ (sub 0).eax + 1 < U32) :
    ∀ (fuel e max : Nat), e < U32 → (e ≠ 0 → max = (sub 0).eax) →
      countLoop leaf sub fuel e max = none := by
  intro fuel
  induction fuel with
  | zero => intro e max _ _; rfl
  | succ fuel ih =>
    intro e max he hmax
    unfold countLoop
    have hle : e ≤ max := by
      by_cases h0 : e = 0
      · omega
      · rw [hmax h0]; omega
    rw [if_pos hle]
    dsimp only
    rw [ih ((e + 1) % U32) _ (by omega) (fun _ => by
      by_cases h0 : e = 0
      · rw [if_pos h0, h0]
      · rw [if_neg h0]; exact hmax h0)]
    rfl

theorem countLoop_rest {leaf : Nat} {sub : Nat → Regs} {m : Nat} (hm : m + 1 < U32) :
    ∀ (n e fuel : Nat), e ≠ 0 → e + n = m + 1 → n < fuel →
      countLoop leaf sub fuel e m = some (subs leaf sub e n, m) := by
  intro n
  induction n with
  | zero =>
    intro e fuel _ he hf
    cases fuel with
    | zero => omega
    | succ fuel =>
      unfold countLoop
      rw [if_neg (by omega)]
      rfl
  | succ n ih =>
    intro e fuel h0 he hf
    cases fuel with
    | zero => omega
    | succ fuel =>
      unfold countLoop
      rw [if_pos (by omega)]
      dsimp only
      rw [if_neg h0, Nat.mod_eq_of_lt (by omega), ih (e + 1) fuel (by omega) (by omega) (by omega)]
      simp [subs_succ]

theorem countLoop_mono {leaf : Nat} {sub : Nat → Regs} :
    ∀ (fuel fuel' e max : Nat) (r : List Item × Nat), fuel ≤ fuel' →
      countLoop leaf sub fuel e max = some r → countLoop leaf sub fuel' e max = some r := by
  intro fuel
  induction fuel with
  | zero => intro fuel' e max r _ h; simp [countLoop] at h
  | succ fuel ih =>
    intro fuel' e max r hf h
    cases fuel' with
    | zero => omega
    | succ fuel' =>
      unfold countLoop at h ⊢
      by_cases hle : e ≤ max
      · rw [if_pos hle] at h ⊢
        dsimp only at h ⊢
        obtain ⟨r', hr', rfl⟩ := Option.map_eq_some_iff.1 h
        rw [ih fuel' _ _ r' (by omega) hr']
        rfl
      · rw [if_neg hle] at h ⊢
        exact h

theorem countLoop_eq {leaf : Nat} {sub : Nat → Regs} (hm : (sub 0).eax + 1 < U32) (max fuel : Nat)
    (hf : (sub 0).eax + 1 < fuel) :
    countLoop leaf sub fuel 0 max = some (subs leaf sub 0 ((sub 0).eax + 1), (sub 0).eax) := by
  cases fuel with
  | zero => omega
  | succ fuel =>
    unfold countLoop
    rw [if_pos (Nat.zero_le _)]
    dsimp only
    rw [if_pos rfl, Nat.mod_eq_of_lt (by omega),
      countLoop_rest hm (sub 0).eax 1 fuel (by omega) (by omega) (by omega)]
    simp [subs_succ]

theorem countLoop_some {leaf : Nat} {sub : Nat → Regs} {fuel max : Nat} {r : List Item × Nat}
    (h : countLoop leaf sub fuel 0 max = some r) :
    (sub 0).eax + 1 < U32 ∧ r.1 = subs leaf sub 0 ((sub 0).eax + 1) := by
  by_cases hm : (sub 0).eax + 1 < U32
  · refine ⟨hm, ?_⟩
    have h1 := countLoop_mono fuel (fuel + (sub 0).eax + 2) 0 max r (by omega) h
    rw [countLoop_eq hm max _ (by omega)] at h1
    cases h1
    rfl
  · rw [countLoop_never hm fuel 0 max (by omega) (fun h => absurd rfl h)] at h
    cases h

/-- The lines of a basic leaf. -/
def Leaf (c : Cpuid) (n : Nat) (l : List Item) : Prop :=
  if n = 0 then l = [.vendor 0 (c.leaf 0)]
  else if n = 4 then ∃ k : Nat, k < U32 ∧ First (fun j => (c.sub 4 j).eax &&& 0x1F = 0) k ∧
    l = subs 4 (c.sub 4) 0 k
  else if n = 0xB then ∃ k : Nat, k < U32 ∧ First (fun j => (c.sub 0xB j).ecx &&& 0xFF00 = 0) k ∧
    l = subs 0xB (c.sub 0xB) 0 k
  else if n = 0x12 then
    if (c.sub 7 0).ebx &&& 4 ≠ 0 then
      ∃ k : Nat, k < U32 ∧ First (fun j => 2 ≤ j ∧ (c.sub 0x12 j).eax &&& 0xF = 0) k ∧
        l = subs 0x12 (c.sub 0x12) 0 k
    else l = []
  else if n = 7 ∨ n = 0x14 ∨ n = 0x17 ∨ n = 0x24 then
    (c.sub n 0).eax + 1 < U32 ∧ l = subs n (c.sub n) 0 ((c.sub n 0).eax + 1)
  else l = [.plain n (c.sub n 0)]

theorem list_leaf {stop : Nat → Regs → Bool} {p : Nat → Prop} {leaf fuel : Nat} {sub : Nat → Regs}
    {l : List Item} (hp : ∀ j : Nat, stop j (sub j) = true ↔ p j)
    (h : listLoop stop leaf sub fuel 0 = some l) :
    ∃ k : Nat, k < U32 ∧ First p k ∧ l = subs leaf sub 0 k := by
  obtain ⟨k, _, h2, h3, h4, h5⟩ := listLoop_some fuel 0 l (by omega) (fun j hj => by omega) h
  refine ⟨k, h2, ⟨(hp k).1 h3, fun j hj hpj => ?_⟩, by simpa using h5⟩
  have := (hp j).2 hpj
  rw [h4 j hj] at this
  cases this

theorem stop4_iff (e : Nat) (r : Regs) : stop4 e r = true ↔ r.eax &&& 0x1F = 0 := by simp [stop4]
theorem stopB_iff (e : Nat) (r : Regs) : stopB e r = true ↔ r.ecx &&& 0xFF00 = 0 := by simp [stopB]
theorem stop12_iff (e : Nat) (r : Regs) : stop12 e r = true ↔ 2 ≤ e ∧ r.eax &&& 0xF = 0 := by
  simp [stop12]

/-- What is known of the variables when leaf `e` is next. -/
def VarsOk (c : Cpuid) (e : Nat) (v : Vars) : Prop :=
  7 < e → (v.hasSgx = true ↔ (c.sub 7 0).ebx &&& 4 ≠ 0)

theorem baseLeaf_some {c : Cpuid} {fuel n : Nat} {v v' : Vars} {l : List Item} (hv : VarsOk c n v)
    (h : baseLeaf c fuel v n = some (l, v')) : Leaf c n l ∧ VarsOk c (n + 1) v' := by
  unfold baseLeaf at h
  by_cases h0 : n = 0
  · rw [if_pos h0] at h
    cases h
    subst h0
    exact ⟨by simp [Leaf], fun h => by omega⟩
  rw [if_neg h0] at h
  by_cases h4 : n = 4
  · subst h4
    rw [if_pos rfl] at h
    obtain ⟨l', hl', he⟩ := Option.map_eq_some_iff.1 h
    cases he
    refine ⟨?_, fun h => by omega⟩
    unfold Leaf
    rw [if_neg h0, if_pos rfl]
    exact list_leaf (fun j => stop4_iff j _) hl'
  rw [if_neg h4] at h
  by_cases h7 : n = 7
  · subst h7
    rw [if_pos rfl] at h
    obtain ⟨r, hr, he⟩ := Option.map_eq_some_iff.1 h
    cases he
    refine ⟨?_, fun _ => by simp⟩
    unfold Leaf
    rw [if_neg h0, if_neg h4, if_neg (by omega), if_neg (by omega), if_pos (Or.inl rfl)]
    exact countLoop_some hr
  rw [if_neg h7] at h
  by_cases hB : n = 0xB
  · subst hB
    rw [if_pos rfl] at h
    obtain ⟨l', hl', he⟩ := Option.map_eq_some_iff.1 h
    cases he
    refine ⟨?_, fun _ => hv (by omega)⟩
    unfold Leaf
    rw [if_neg h0, if_neg h4, if_pos rfl]
    exact list_leaf (fun j => stopB_iff j _) hl'
  rw [if_neg hB] at h
  by_cases h12 : n = 0x12
  · subst h12
    rw [if_pos rfl] at h
    have hs := hv (by omega)
    unfold Leaf
    rw [if_neg h0, if_neg h4, if_neg hB, if_pos rfl]
    by_cases hg : v.hasSgx = true
    · rw [if_pos hg] at h
      obtain ⟨l', hl', he⟩ := Option.map_eq_some_iff.1 h
      cases he
      rw [if_pos (hs.1 hg)]
      exact ⟨list_leaf (fun j => stop12_iff j _) hl', fun _ => hv (by omega)⟩
    · rw [if_neg hg] at h
      cases h
      rw [if_neg (fun h => hg (hs.2 h))]
      exact ⟨rfl, fun _ => hv (by omega)⟩
  rw [if_neg h12] at h
  have fin : ∀ (s : Nat) (v₁ : Vars → Nat → Vars), (∀ w m, (v₁ w m).hasSgx = w.hasSgx) →
      n = 0x14 ∨ n = 0x17 ∨ n = 0x24 →
      (countLoop n (c.sub n) fuel 0 s).map (fun r => (r.1, v₁ v r.2)) = some (l, v') →
      Leaf c n l ∧ VarsOk c (n + 1) v' := by
    intro s v₁ hv₁ hn h
    obtain ⟨r, hr, he⟩ := Option.map_eq_some_iff.1 h
    cases he
    refine ⟨?_, fun _ => ?_⟩
    · unfold Leaf
      rw [if_neg h0, if_neg h4, if_neg hB, if_neg h12, if_pos (Or.inr hn)]
      exact countLoop_some hr
    · rw [hv₁]; exact hv (by omega)
  by_cases h14 : n = 0x14
  · rw [if_pos h14] at h
    exact fin v.maxTrace (fun w m => { w with maxTrace := m }) (fun _ _ => rfl) (Or.inl h14) h
  rw [if_neg h14] at h
  by_cases h17 : n = 0x17
  · rw [if_pos h17] at h
    exact fin v.maxSocid (fun w m => { w with maxSocid := m }) (fun _ _ => rfl) (Or.inr (Or.inl h17)) h
  rw [if_neg h17] at h
  by_cases h24 : n = 0x24
  · rw [if_pos h24] at h
    exact fin v.maxSocid (fun w m => { w with maxSocid := m }) (fun _ _ => rfl) (Or.inr (Or.inr h24)) h
  rw [if_neg h24] at h
  cases h
  refine ⟨?_, fun _ => hv (by omega)⟩
  unfold Leaf
  rw [if_neg h0, if_neg h4, if_neg hB, if_neg h12, if_neg (by omega)]

theorem baseLoop_never {c : Cpuid} {inner : Nat} (hm : ¬ (c.leaf 0).eax + 1 < U32) :
    ∀ (fuel e : Nat) (v : Vars), e < U32 → baseLoop c inner fuel e v = none := by
  intro fuel
  induction fuel with
  | zero => intro e v _; rfl
  | succ fuel ih =>
    intro e v he
    unfold baseLoop
    rw [if_pos (by omega)]
    cases baseLeaf c inner v e with
    | none => rfl
    | some r =>
      dsimp only
      rw [ih _ _ (by omega)]
      rfl

theorem baseLoop_some {c : Cpuid} {inner : Nat} (hm : (c.leaf 0).eax + 1 < U32) :
    ∀ (fuel e : Nat) (v : Vars) (l : List Item), VarsOk c e v → e ≤ (c.leaf 0).eax + 1 →
      baseLoop c inner fuel e v = some l →
      ∃ f : Nat → List Item, (∀ n : Nat, e ≤ n → n ≤ (c.leaf 0).eax → Leaf c n (f n)) ∧
        l = (List.range' e ((c.leaf 0).eax + 1 - e)).flatMap f := by
  intro fuel
  induction fuel with
  | zero => intro e v l _ _ h; simp [baseLoop] at h
  | succ fuel ih =>
    intro e v l hv he h
    unfold baseLoop at h
    by_cases hle : e ≤ (c.leaf 0).eax
    · rw [if_pos hle] at h
      cases hb : baseLeaf c inner v e with
      | none => rw [hb] at h; cases h
      | some r =>
        obtain ⟨l₀, v₀⟩ := r
        rw [hb] at h
        dsimp only at h
        obtain ⟨l', hl', rfl⟩ := Option.map_eq_some_iff.1 h
        rw [Nat.mod_eq_of_lt (by omega)] at hl'
        obtain ⟨h1, h2⟩ := baseLeaf_some hv hb
        obtain ⟨f, hf, rfl⟩ := ih (e + 1) v₀ l' h2 (by omega) hl'
        refine ⟨fun n => if n = e then l₀ else f n, fun n hn hn' => ?_, ?_⟩
        · dsimp only
          by_cases hne : n = e
          · rw [if_pos hne, hne]; exact h1
          · rw [if_neg hne]; exact hf n (by omega) hn'
        · rw [show (c.leaf 0).eax + 1 - e = ((c.leaf 0).eax + 1 - (e + 1)) + 1 by omega,
            List.range'_succ, List.flatMap_cons, if_pos rfl]
          rw [List.flatMap_def, List.flatMap_def]
          congr 2
          refine List.map_congr_left fun n hn => ?_
          rw [List.mem_range'_1] at hn
          rw [if_neg (by omega)]
    · rw [if_neg hle] at h
      cases h
      refine ⟨fun _ => [], fun n h1 h2 => by omega, ?_⟩
      rw [show (c.leaf 0).eax + 1 - e = 0 by omega]
      rfl

theorem extLoop_never {c : Cpuid} (hm : ¬ (c.leaf 0x80000000).eax + 1 < U32) :
    ∀ (fuel e : Nat), e < U32 → extLoop c fuel e = none := by
  intro fuel
  induction fuel with
  | zero => intro e _; rfl
  | succ fuel ih =>
    intro e he
    unfold extLoop
    rw [if_pos (by omega), ih _ (by omega)]
    rfl

theorem extLoop_some {c : Cpuid} (hm : (c.leaf 0x80000000).eax + 1 < U32) :
    ∀ (fuel e : Nat) (l : List Item), extLoop c fuel e = some l →
      l = (List.range' e ((c.leaf 0x80000000).eax + 1 - e)).map (extLeaf c) := by
  intro fuel
  induction fuel with
  | zero => intro e l h; simp [extLoop] at h
  | succ fuel ih =>
    intro e l h
    unfold extLoop at h
    by_cases hle : e ≤ (c.leaf 0x80000000).eax
    · rw [if_pos hle] at h
      obtain ⟨l', hl', rfl⟩ := Option.map_eq_some_iff.1 h
      rw [Nat.mod_eq_of_lt (by omega)] at hl'
      rw [ih (e + 1) l' hl', show (c.leaf 0x80000000).eax + 1 - e =
        ((c.leaf 0x80000000).eax + 1 - (e + 1)) + 1 by omega, List.range'_succ, List.map_cons]
    · rw [if_neg hle] at h
      cases h
      rw [show (c.leaf 0x80000000).eax + 1 - e = 0 by omega]
      rfl

theorem extLoop_ends {c : Cpuid} (hm : (c.leaf 0x80000000).eax + 1 < U32) :
    ∀ (n e fuel : Nat), (c.leaf 0x80000000).eax + 1 ≤ e + n → e < U32 → n < fuel →
      ∃ l : List Item, extLoop c fuel e = some l := by
  intro n
  induction n with
  | zero =>
    intro e fuel h _ hf
    cases fuel with
    | zero => omega
    | succ fuel => exact ⟨[], by unfold extLoop; rw [if_neg (by omega)]⟩
  | succ n ih =>
    intro e fuel h he hf
    cases fuel with
    | zero => omega
    | succ fuel =>
      unfold extLoop
      by_cases hle : e ≤ (c.leaf 0x80000000).eax
      · rw [if_pos hle, Nat.mod_eq_of_lt (by omega)]
        obtain ⟨l, hl⟩ := ih (e + 1) fuel (by omega) (by omega) (by omega)
        exact ⟨_, by rw [hl]; rfl⟩
      · exact ⟨[], by rw [if_neg hle]⟩

/-- A dump that has ended is the sequence of the lines of all leaves. -/
theorem dump_some {c : Cpuid} {fuel : Nat} {l : List Item} (h : dump c fuel = some l) :
    (c.leaf 0).eax + 1 < U32 ∧ (c.leaf 0x80000000).eax + 1 < U32 ∧
    ∃ f : Nat → List Item, (∀ n : Nat, n ≤ (c.leaf 0).eax → Leaf c n (f n)) ∧
      l = (List.range' 0 ((c.leaf 0).eax + 1)).flatMap f ++
        (List.range' 0x80000000 ((c.leaf 0x80000000).eax + 1 - 0x80000000)).map (extLeaf c) := by
  unfold dump at h
  by_cases h1 : (c.leaf 0).eax + 1 < U32
  · by_cases h2 : (c.leaf 0x80000000).eax + 1 < U32
    · refine ⟨h1, h2, ?_⟩
      cases ha : baseLoop c fuel fuel 0 ⟨0, 0, 0, false⟩ with
      | none => rw [ha] at h; cases h
      | some a =>
        cases hb : extLoop c fuel 0x80000000 with
        | none => rw [ha, hb] at h; cases h
        | some b =>
          rw [ha, hb] at h
          cases h
          obtain ⟨f, hf, rfl⟩ := baseLoop_some h1 fuel 0 _ a (fun h => by omega) (by omega) ha
          exact ⟨f, fun n hn => hf n (Nat.zero_le _) hn, by rw [extLoop_some h2 fuel _ b hb]; rfl⟩
    · rw [extLoop_never h2 fuel _ (by omega)] at h
      revert h
      cases baseLoop c fuel fuel 0 ⟨0, 0, 0, false⟩ <;> (intro h; cases h)
  · rw [baseLoop_never h1 fuel 0 _ (by omega)] at h
    cases h

/-- The fuel that suffices for the sub-leaves of every basic leaf. -/
theorem baseLeaf_ends {c : Cpuid} (he : Ends c) :
    ∃ F : Nat, ∀ (fuel n : Nat) (v : Vars), F ≤ fuel → n ≤ (c.leaf 0).eax → VarsOk c n v →
      ∃ r : List Item × Vars, baseLeaf c fuel v n = some r := by
  refine ⟨U32 + 1, fun fuel n v hf hn hv => ?_⟩
  unfold baseLeaf
  by_cases h0 : n = 0
  · exact ⟨_, by rw [if_pos h0]⟩
  rw [if_neg h0]
  by_cases h4 : n = 4
  · subst h4
    rw [if_pos rfl]
    obtain ⟨k, hk, hs⟩ := he.leaf4 hn
    obtain ⟨l, hl⟩ := listLoop_ends (stop := stop4) (leaf := 4) (sub := c.sub 4) k 0 fuel
      (by omega) (by rw [Nat.zero_add]; exact (stop4_iff _ _).2 hs) (by omega)
    exact ⟨_, by rw [hl]; rfl⟩
  rw [if_neg h4]
  have cnt : n = 7 ∨ n = 0x14 ∨ n = 0x17 ∨ n = 0x24 → ∀ s : Nat,
      ∃ r : List Item × Nat, countLoop n (c.sub n) fuel 0 s = some r := by
    intro hc s
    have := he.counted n hc hn
    exact ⟨_, countLoop_eq this s fuel (by omega)⟩
  by_cases h7 : n = 7
  · obtain ⟨r, hr⟩ := cnt (Or.inl h7) v.maxStructured
    exact ⟨_, by rw [if_pos h7, hr]; rfl⟩
  rw [if_neg h7]
  by_cases hB : n = 0xB
  · subst hB
    rw [if_pos rfl]
    obtain ⟨k, hk, hs⟩ := he.leafB hn
    obtain ⟨l, hl⟩ := listLoop_ends (stop := stopB) (leaf := 0xB) (sub := c.sub 0xB) k 0 fuel
      (by omega) (by rw [Nat.zero_add]; exact (stopB_iff _ _).2 hs) (by omega)
    exact ⟨_, by rw [hl]; rfl⟩
  rw [if_neg hB]
  by_cases h12 : n = 0x12
  · subst h12
    rw [if_pos rfl]
    by_cases hg : v.hasSgx = true
    · rw [if_pos hg]
      obtain ⟨k, hk2, hk, hs⟩ := he.leaf12 hn ((hv (by omega)).1 hg)
      obtain ⟨l, hl⟩ := listLoop_ends (stop := stop12) (leaf := 0x12) (sub := c.sub 0x12) k 0 fuel
        (by omega) (by rw [Nat.zero_add]; exact (stop12_iff _ _).2 ⟨hk2, hs⟩) (by omega)
      exact ⟨_, by rw [hl]; rfl⟩
    · exact ⟨_, by rw [if_neg hg]⟩
  rw [if_neg h12]
  by_cases h14 : n = 0x14
  · obtain ⟨r, hr⟩ := cnt (Or.inr (Or.inl h14)) v.maxTrace
    exact ⟨_, by rw [if_pos h14, hr]; rfl⟩
  rw [if_neg h14]
  by_cases h17 : n = 0x17
  · obtain ⟨r, hr⟩ := cnt (Or.inr (Or.inr (Or.inl h17))) v.maxSocid
    exact ⟨_, by rw [if_pos h17, hr]; rfl⟩
  rw [if_neg h17]
  by_cases h24 : n = 0x24
  · obtain ⟨r, hr⟩ := cnt (Or.inr (Or.inr (Or.inr h24))) v.maxSocid
    exact ⟨_, by rw [if_pos h24, hr]; rfl⟩
  exact ⟨_, by rw [if_neg h24]⟩

theorem baseLoop_ends {c : Cpuid} {inner : Nat} (hm : (c.leaf 0).eax + 1 < U32)
    (hl : ∀ (n : Nat) (v : Vars), n ≤ (c.leaf 0).eax → VarsOk c n v →
      ∃ r : List Item × Vars, baseLeaf c inner v n = some r) :
    ∀ (n e fuel : Nat) (v : Vars), (c.leaf 0).eax + 1 ≤ e + n → e < U32 → VarsOk c e v → n < fuel →
      ∃ l : List Item, baseLoop c inner fuel e v = some l := by
  intro n
  induction n with
  | zero =>
    intro e fuel v h _ _ hf
    cases fuel with
    | zero => omega
    | succ fuel => exact ⟨[], by unfold baseLoop; rw [if_neg (by omega)]⟩
  | succ n ih =>
    intro e fuel v h he hv hf
    cases fuel with
    | zero => omega
    | succ fuel =>
      unfold baseLoop
      by_cases hle : e ≤ (c.leaf 0).eax
      · rw [if_pos hle]
        obtain ⟨⟨l₀, v₀⟩, hr⟩ := hl e v hle hv
        rw [hr]
        dsimp only
        rw [Nat.mod_eq_of_lt (by omega)]
        obtain ⟨l, hl'⟩ := ih (e + 1) fuel v₀ (by omega) (by omega) (baseLeaf_some hv hr).2 (by omega)
        exact ⟨_, by rw [hl']; rfl⟩
      · exact ⟨[], by rw [if_neg hle]⟩

theorem dump_ends {c : Cpuid} (he : Ends c) : ∃ (fuel : Nat) (l : List Item), dump c fuel = some l := by
  obtain ⟨F, hF⟩ := baseLeaf_ends he
  have hb := he.base
  have hx := he.ext
  obtain ⟨N, hN, h1, h2⟩ : ∃ N : Nat, F ≤ N ∧ (c.leaf 0).eax + 1 < N ∧
      (c.leaf 0x80000000).eax + 1 < N :=
    ⟨F + (c.leaf 0).eax + (c.leaf 0x80000000).eax + 2, by omega, by omega, by omega⟩
  obtain ⟨a, ha⟩ := baseLoop_ends (c := c) (inner := N) hb
    (fun n v hn hv => hF _ n v hN hn hv) ((c.leaf 0).eax + 1) 0 N
    ⟨0, 0, 0, false⟩ (by omega) (by omega) (fun h => by omega) h1
  obtain ⟨b, hb⟩ := extLoop_ends (c := c) hx ((c.leaf 0x80000000).eax + 1) 0x80000000
    N (by omega) (by omega) h2
  exact ⟨N, a ++ b, by unfold dump; rw [ha, hb]⟩

theorem ends_of_dump {c : Cpuid} {fuel : Nat} {l : List Item} (h : dump c fuel = some l) : Ends c := by
  obtain ⟨h1, h2, f, hf, _⟩ := dump_some h
  refine ⟨h1, h2, fun h => ?_, fun h => ?_, fun h hg => ?_, fun n hn h => ?_⟩
  · have := hf 4 h
    simp only [Leaf] at this
    rw [if_neg (by omega), if_pos trivial] at this
    obtain ⟨k, hk, hF, _⟩ := this
    exact ⟨k, hk, hF.1⟩
  · have := hf 0xB h
    simp only [Leaf] at this
    rw [if_neg (by omega), if_neg (by omega), if_pos trivial] at this
    obtain ⟨k, hk, hF, _⟩ := this
    exact ⟨k, hk, hF.1⟩
  · have := hf 0x12 h
    simp only [Leaf] at this
    rw [if_neg (by omega), if_neg (by omega), if_neg (by omega), if_pos trivial, if_pos hg] at this
    obtain ⟨k, hk, hF, _⟩ := this
    exact ⟨k, hF.1.1, hk, hF.1.2⟩
  · have := hf n h
    unfold Leaf at this
    rw [if_neg (by omega), if_neg (by omega), if_neg (by omega), if_neg (by omega), if_pos hn] at this
    exact this.1

end Verif.CpuidDump
