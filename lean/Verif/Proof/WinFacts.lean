import Verif.Proof.WinInit

/-!
# Facts about what is published on Windows
-/

set_option autoImplicit false

namespace Verif.Windows
open Spec
open X86Init (Topology)

/-! ## First index and number -/

theorem firstOf_least (n : Nat) (key : Nat → Nat) (g : Nat) (h : ∃ i < n, key i = g) :
    key (firstOf n key g) = g ∧ ∀ i < n, key i = g → firstOf n key g ≤ i := by
  unfold firstOf
  cases hf : (List.range n).find? fun i => key i == g with
  | none =>
    obtain ⟨i, hi, hk⟩ := h
    have := List.find?_eq_none.mp hf i (List.mem_range.mpr hi)
    simp [hk] at this
  | some m =>
    refine ⟨by simpa using List.find?_some hf, ?_⟩
    intro i hi hk
    rcases Nat.lt_or_ge i m with hlt | hge
    · obtain ⟨_, as, bs, hab, hnot⟩ := List.find?_eq_some_iff_append.mp hf
      have hm : i ∈ List.range n := List.mem_range.mpr hi
      rw [hab] at hm
      have hpw : (as ++ m :: bs).Pairwise (· < ·) := hab ▸ List.pairwise_lt_range
      rw [List.pairwise_append] at hpw
      rcases List.mem_append.mp hm with hm | hm
      · have := hnot i hm
        simp [hk] at this
      · rcases List.mem_cons.mp hm with rfl | hm
        · omega
        · have := (List.pairwise_cons.mp hpw.2.1).1 i hm
          omega
    · exact hge

theorem countOf_eq (n : Nat) (key : Nat → Nat) (g : Nat) (l : List Nat) (hn : l.Nodup)
    (h : ∀ i, i ∈ l ↔ i < n ∧ key i = g) : countOf n key g = l.length := by
  unfold countOf
  rw [List.countP_eq_length_filter]
  have hp : ((List.range n).filter fun i => key i == g).Nodup := List.Pairwise.filter _ List.nodup_range
  have h1 := hp.length_le_of_subset (l₂ := l) (by
    intro i hi
    rw [List.mem_filter, List.mem_range] at hi
    exact (h i).mpr ⟨hi.1, by simpa using hi.2⟩)
  have h2 := hn.length_le_of_subset (l₂ := (List.range n).filter fun i => key i == g) (by
    intro i hi
    rw [List.mem_filter, List.mem_range]
    have := (h i).mp hi
    exact ⟨this.1, by simpa using this.2⟩)
  omega

/-- Without gaps, the elements are those from the first on. -/
theorem filter_interval (n : Nat) (P : Nat → Bool)
    (hc : ∀ a b d, a < b → b < d → d < n → P a = true → P d = true → P b = true) :
    ∃ s c, (List.range n).filter P = List.range' s c := by
  induction n with
  | zero => exact ⟨0, 0, rfl⟩
  | succ n ih =>
    obtain ⟨s, c, h⟩ := ih fun a b d h1 h2 h3 => hc a b d h1 h2 (by omega)
    rw [List.range_succ, List.filter_append, h]
    cases hp : P n with
    | false => exact ⟨s, c, by simp [hp]⟩
    | true =>
      cases c with
      | zero => exact ⟨n, 1, by simp [hp]⟩
      | succ c =>
        have hlast : s + c ∈ (List.range n).filter P := by
          rw [h, List.mem_range']
          exact ⟨c, by omega, by omega⟩
        rw [List.mem_filter, List.mem_range] at hlast
        have hn : n = s + c + 1 := by
          rcases Nat.lt_or_ge (s + c + 1) n with hlt | hge
          · exfalso
            have := hc (s + c) (s + c + 1) n (by omega) hlt (by omega) hlast.2 hp
            have hm : s + c + 1 ∈ (List.range n).filter P := List.mem_filter.mpr
              ⟨List.mem_range.mpr hlt, this⟩
            rw [h, List.mem_range'] at hm
            obtain ⟨i, hi, he⟩ := hm
            omega
          · omega
        refine ⟨s, c + 1 + 1, ?_⟩
        rw [show List.range' s (c + 1 + 1) = List.range' s (c + 1) ++ [s + 1 * (c + 1)] from
          List.range'_concat, List.filter_cons_of_pos hp, List.filter_nil]
        congr 2
        omega

theorem range_exact (n : Nat) (key : Nat → Nat) (g : Nat) (h : ∃ i < n, key i = g)
    (hc : ∀ a b d, a < b → b < d → d < n → key a = g → key d = g → key b = g) (i : Nat) :
    InRange (firstOf n key g) (countOf n key g) i ↔ i < n ∧ key i = g := by
  obtain ⟨s, c, hsc⟩ := filter_interval n (fun i => key i == g) (by
    intro a b d h1 h2 h3 h4 h5
    have := hc a b d h1 h2 h3 (by simpa using h4) (by simpa using h5)
    simpa using this)
  have hmem : ∀ i, i < n ∧ key i = g ↔ s ≤ i ∧ i < s + c := by
    intro i
    have : i ∈ (List.range n).filter (fun i => key i == g) ↔ i ∈ List.range' s c := by rw [hsc]
    rw [List.mem_filter, List.mem_range, List.mem_range'_1] at this
    simpa using this
  have hcount : countOf n key g = c := by
    unfold countOf
    rw [List.countP_eq_length_filter, hsc, List.length_range']
  obtain ⟨h1, h2⟩ := firstOf_least n key g h
  have h3 : firstOf n key g < n := firstOf_lt n key g (by obtain ⟨i, hi, _⟩ := h; omega)
  have h4 := (hmem _).mp ⟨h3, h1⟩
  have h5 := (hmem s).mpr ⟨by omega, by omega⟩
  have h6 := h2 s h5.1 h5.2
  have : firstOf n key g = s := by omega
  rw [hmem, hcount, this]
  rfl

/-! ## The fields of the APIC id -/

theorem mask_mod (x len : Nat) : x &&& (2 ^ len - 1) = x % 2 ^ len := Nat.and_two_pow_sub_one_eq_mod x len

theorem apic_fields (t : Topology) (hlow : LowFields t) (hn : t.coreOffset + t.coreLength < 32)
    (q r k : Nat) :
    (q * 2 ^ packageOffset t) ||| ((k &&& (2 ^ t.threadLength - 1)) * 2 ^ t.threadOffset % U32 |||
      (r &&& (2 ^ t.coreLength - 1)) * 2 ^ t.coreOffset % U32) =
    (q * 2 ^ t.coreLength + r % 2 ^ t.coreLength) * 2 ^ t.threadLength + k % 2 ^ t.threadLength := by
  obtain ⟨h1, h2⟩ := hlow
  have hpo : packageOffset t = t.coreLength + t.threadLength := by
    unfold packageOffset
    rw [h1, h2]
    omega
  rw [mask_mod, mask_mod, h1, hpo, h2, Nat.pow_zero, Nat.mul_one]
  rw [h2] at hn
  have hk : k % 2 ^ t.threadLength < 2 ^ t.threadLength := Nat.mod_lt _ (Nat.pow_pos (by omega))
  have hr : r % 2 ^ t.coreLength < 2 ^ t.coreLength := Nat.mod_lt _ (Nat.pow_pos (by omega))
  have hp : 2 ^ t.threadLength ≤ 2 ^ 32 := Nat.pow_le_pow_right (by omega) (by omega)
  have hp2 : 2 ^ (t.coreLength + t.threadLength) ≤ 2 ^ 32 := Nat.pow_le_pow_right (by omega) (by omega)
  have hU : U32 = 2 ^ 32 := by decide
  have hrt : r % 2 ^ t.coreLength * 2 ^ t.threadLength + k % 2 ^ t.threadLength <
      2 ^ (t.coreLength + t.threadLength) := by
    rw [Nat.pow_add]
    have : (r % 2 ^ t.coreLength + 1) * 2 ^ t.threadLength ≤ 2 ^ t.coreLength * 2 ^ t.threadLength :=
      Nat.mul_le_mul_right _ hr
    rw [Nat.add_mul, Nat.one_mul] at this
    omega
  rw [Nat.mod_eq_of_lt (a := k % 2 ^ t.threadLength) (by omega),
    Nat.mod_eq_of_lt (a := r % 2 ^ t.coreLength * 2 ^ t.threadLength) (by omega)]
  have e1 : k % 2 ^ t.threadLength ||| r % 2 ^ t.coreLength * 2 ^ t.threadLength =
      r % 2 ^ t.coreLength * 2 ^ t.threadLength + k % 2 ^ t.threadLength := by
    rw [Nat.or_comm, Nat.mul_comm, ← Nat.two_pow_add_eq_or_of_lt hk]
  rw [e1, Nat.mul_comm q (2 ^ (t.coreLength + t.threadLength)),
    ← Nat.two_pow_add_eq_or_of_lt hrt, Nat.add_mul, Nat.mul_comm (2 ^ (t.coreLength + t.threadLength)),
    Nat.pow_add, Nat.mul_assoc, Nat.add_assoc]

/-! ## First cores -/

theorem runStart_first {e : Env} {ps cs : List Info} (hd : WinDisjoint e ps cs)
    (hg : WinGrouped (groupSizes e) ps cs) (off : Nat) {j q f : Nat}
    (hj : WinIn (groupSizes e) ps cs j q) (hf : WinFirst (groupSizes e) ps cs q f) :
    runStart (groupSizes e) ps cs off j = f := by
  have hpow : 0 < 2 ^ off := Nat.pow_pos (by omega)
  have hget : ∀ (a x : Nat), (cs.map fun c => packageIndex (groupSizes e) ps c * 2 ^ off)[a]? = some x →
      ∃ q, x = q * 2 ^ off ∧ WinIn (groupSizes e) ps cs a q := by
    intro a x ha
    rw [List.getElem?_map] at ha
    cases hc : cs[a]? with
    | none => rw [hc] at ha; cases ha
    | some c =>
      rw [hc] at ha
      cases ha
      exact ⟨_, rfl, (WinIn_iff hd hc _).mpr rfl⟩
  have hput : ∀ (a q : Nat), WinIn (groupSizes e) ps cs a q →
      (cs.map fun c => packageIndex (groupSizes e) ps c * 2 ^ off)[a]? = some (q * 2 ^ off) := by
    intro a q ha
    obtain ⟨c, p, h1, h2⟩ := ha
    rw [List.getElem?_map, h1, Option.map_some, (WinIn_iff hd h1 q).mp ⟨c, p, h1, h2⟩]
  have hcon : Contig (cs.map fun c => packageIndex (groupSizes e) ps c * 2 ^ off) := by
    intro a b c x hab hbc ha hc
    obtain ⟨q1, rfl, w1⟩ := hget a x ha
    obtain ⟨q2, e2, w2⟩ := hget c _ hc
    have := Nat.eq_of_mul_eq_mul_right hpow e2
    subst this
    exact hput b q1 (hg a b c q1 hab hbc w1 w2)
  unfold runStart
  have hstart := coreStarts_eq _ [] 0 0 (.inl ⟨rfl, rfl⟩) (by simpa using hcon) j (q * 2 ^ off)
    (hput j q hj)
  rw [List.nil_append, List.length_nil] at hstart
  rw [hstart]
  show List.idxOf _ _ = f
  have hff := hput f q hf.1
  have hm := List.mem_of_getElem? hff
  have hlt := List.idxOf_lt_length_of_mem hm
  have h1 : (cs.map fun c => packageIndex (groupSizes e) ps c * 2 ^ off)[
      (cs.map fun c => packageIndex (groupSizes e) ps c * 2 ^ off).idxOf (q * 2 ^ off)]? =
      some (q * 2 ^ off) := by
    rw [List.getElem?_eq_getElem hlt, List.getElem_idxOf]
  obtain ⟨q', e', w'⟩ := hget _ _ h1
  have := Nat.eq_of_mul_eq_mul_right hpow e'
  subst this
  have hge : f ≤ (cs.map fun c => packageIndex (groupSizes e) ps c * 2 ^ off).idxOf (q * 2 ^ off) := by
    rcases Nat.lt_or_ge ((cs.map fun c => packageIndex (groupSizes e) ps c * 2 ^ off).idxOf
      (q * 2 ^ off)) f with h | h
    · exact absurd w' (hf.2 _ h)
    · exact h
  rcases Nat.lt_or_ge f ((cs.map fun c => packageIndex (groupSizes e) ps c * 2 ^ off).idxOf
      (q * 2 ^ off)) with h | h
  · have hfl : f < (cs.map fun c => packageIndex (groupSizes e) ps c * 2 ^ off).length := by omega
    have := List.not_of_lt_findIdx (p := (· == q * 2 ^ off)) h
    rw [List.getElem?_eq_getElem hfl] at hff
    simp [Option.some.inj hff] at this
  · omega

/-- Every package that has a core has a first one. -/
theorem exists_first {per : List Nat} {ps cs : List Info} {j q : Nat} (h : WinIn per ps cs j q) :
    ∃ f, WinFirst per ps cs q f ∧ f ≤ j := by
  induction j using Nat.strongRecOn with
  | _ j ih =>
    by_cases hx : ∃ i < j, WinIn per ps cs i q
    · obtain ⟨i, hi, hw⟩ := hx
      obtain ⟨f, h1, h2⟩ := ih i hi hw
      exact ⟨f, h1, by omega⟩
    · exact ⟨j, ⟨h, fun i hi hw => hx ⟨i, hi, hw⟩⟩, Nat.le_refl _⟩

/-! ## Members -/

theorem mem_winIndices {per : List Nat} {info : Info} {i : Nat} (h : i ∈ winIndices per info) :
    ∃ (k : Nat) (m : Nat × Nat), (winMembers info)[k]? = some m ∧ winIndex per m.1 m.2 = i ∧
      (winIndices per info)[k]? = some i := by
  obtain ⟨k, hk⟩ := List.mem_iff_getElem?.mp h
  refine ⟨k, ?_⟩
  unfold winIndices at hk
  rw [List.getElem?_map] at hk
  cases hm : (winMembers info)[k]? with
  | none => rw [hm] at hk; cases hk
  | some m =>
    rw [hm] at hk
    cases hk
    refine ⟨m, rfl, rfl, ?_⟩
    unfold winIndices
    rw [List.getElem?_map, hm]
    rfl

theorem winIndices_nodup {per : List Nat} {l : List Info} (h : (l.flatMap (winIndices per)).Nodup)
    {c : Info} (hc : c ∈ l) : (winIndices per c).Nodup := by
  induction l with
  | nil => cases hc
  | cons a l ih =>
    rw [List.flatMap_cons, List.nodup_append] at h
    rcases List.mem_cons.mp hc with rfl | hc
    · exact h.1
    · exact ih h.2.1 hc

theorem winIndices_lt {per : List Nat} {info : Info} (h : WinFits per info) {i : Nat}
    (hi : i ∈ winIndices per info) : i < per.sum := by
  rw [← visitsOf_index] at hi
  obtain ⟨v, hv, rfl⟩ := List.mem_map.mp hi
  exact (visitsOf_lt per info h v hv).1

theorem procOf_get {ps : List Processor} {i : Nat} {p : Processor} (h : ps[i]? = some p) :
    procOf ps i = p := by
  unfold procOf
  rw [h]
  rfl

/-- Core and package of a reported processor. -/
theorem Exact.of_mem {e : Env} {ps cs : List Info} {procs : List Processor} (x : Exact e ps cs procs)
    (hd : WinDisjoint e ps cs) {i j : Nat} {c : Info} (hj : cs[j]? = some c)
    (hi : i ∈ winIndices (groupSizes e) c) :
    (procOf procs i).core = j ∧ ∃ p, ps[(procOf procs i).package]? = some p ∧
      i ∈ winIndices (groupSizes e) p := by
  obtain ⟨p, hp, hin⟩ := hd.inPackage c (List.mem_of_getElem? hj)
  obtain ⟨q, hq⟩ := List.mem_iff_getElem?.mp hp
  obtain ⟨k, m, hk, hm, _⟩ := mem_winIndices hi
  have := x.reported j k q c p m hj hk hq (by rw [hm]; exact hin i hi)
  rw [hm] at this
  rw [procOf_get this]
  exact ⟨rfl, p, hq, hin i hi⟩

theorem core_iff {e : Env} {ps cs : List Info} {procs : List Processor} (h : WinReports e ps cs)
    (x : Exact e ps cs procs) (hd : WinDisjoint e ps cs) (hc : WinComplete e cs) {j : Nat} {c : Info}
    (hj : cs[j]? = some c) (i : Nat) :
    i ∈ winIndices (groupSizes e) c ↔ i < (groupSizes e).sum ∧ (procOf procs i).core = j := by
  constructor
  · intro hi
    exact ⟨winIndices_lt (h.fitsCores c (List.mem_of_getElem? hj)) hi, (x.of_mem hd hj hi).1⟩
  · rintro ⟨hi, hcore⟩
    obtain ⟨c', hc', hi'⟩ := hc i hi
    obtain ⟨j', hj'⟩ := List.mem_iff_getElem?.mp hc'
    rw [(x.of_mem hd hj' hi').1] at hcore
    subst hcore
    rw [hj] at hj'
    cases hj'
    exact hi'

theorem package_iff {e : Env} {ps cs : List Info} {procs : List Processor} (h : WinReports e ps cs)
    (x : Exact e ps cs procs) (hd : WinDisjoint e ps cs) (hc : WinComplete e cs) {q : Nat} {p : Info}
    (hq : ps[q]? = some p) (i : Nat) :
    i ∈ winIndices (groupSizes e) p ↔ i < (groupSizes e).sum ∧ (procOf procs i).package = q := by
  have key : i < (groupSizes e).sum → ∃ p', ps[(procOf procs i).package]? = some p' ∧
      i ∈ winIndices (groupSizes e) p' := by
    intro hi
    obtain ⟨c', hc', hi'⟩ := hc i hi
    obtain ⟨j', hj'⟩ := List.mem_iff_getElem?.mp hc'
    exact (x.of_mem hd hj' hi').2
  constructor
  · intro hi
    have hlt := winIndices_lt (h.fitsPackages p (List.mem_of_getElem? hq)) hi
    obtain ⟨p', h1, h2⟩ := key hlt
    exact ⟨hlt, flatMap_unique hd.packages h1 hq h2 hi⟩
  · rintro ⟨hi, hpk⟩
    obtain ⟨p', h1, h2⟩ := key hi
    rw [hpk, hq] at h1
    cases h1
    exact h2

/-- The package of the first processor of a core is the package of the core. -/
theorem corePackage {e : Env} {ps cs : List Info} {procs : List Processor} (h : WinReports e ps cs)
    (x : Exact e ps cs procs) (hd : WinDisjoint e ps cs) (hc : WinComplete e cs) {j : Nat}
    (hj : j < cs.length) (q : Nat) :
    (procOf procs (firstOf (groupSizes e).sum (fun i => (procOf procs i).core) j)).package = q ↔
      WinIn (groupSizes e) ps cs j q := by
  have hcj := List.getElem?_eq_getElem hj
  have hcm : cs[j] ∈ cs := List.getElem_mem hj
  obtain ⟨i, hi⟩ := List.exists_mem_of_ne_nil _ (hd.nonempty _ hcm)
  have hi' := (core_iff h x hd hc hcj i).mp hi
  obtain ⟨h1, _⟩ := firstOf_least (groupSizes e).sum (fun i => (procOf procs i).core) j ⟨i, hi'⟩
  have hlt := firstOf_lt (groupSizes e).sum (fun i => (procOf procs i).core) j h.someProcessor
  have hf := (core_iff h x hd hc hcj _).mpr ⟨hlt, h1⟩
  obtain ⟨_, p, hp, hpi⟩ := x.of_mem hd hcj hf
  constructor
  · rintro rfl
    obtain ⟨p', hp', hin⟩ := hd.inPackage _ hcm
    obtain ⟨q', hq'⟩ := List.mem_iff_getElem?.mp hp'
    have := flatMap_unique hd.packages hq' hp (hin _ hf) hpi
    subst this
    exact ⟨_, p', hcj, hq', hd.nonempty _ hcm, hin⟩
  · rintro ⟨c', p', e1, e2, _, hin⟩
    rw [hcj] at e1
    cases e1
    exact flatMap_unique hd.packages hp e2 hpi (hin _ hf)

end Verif.Windows
