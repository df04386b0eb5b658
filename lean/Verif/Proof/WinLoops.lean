import Verif.Proof.WinBits

/-!
# The loops over the records of Windows
-/

set_option autoImplicit false

namespace Verif.Windows
open Spec
open X86Init (Topology modify? shl32 inc32)

theorem foldlM_cons_some {α β : Type} (f : β → α → Option β) (a : α) (l : List α) (s s1 : β)
    (h : f s a = some s1) : (a :: l).foldlM f s = l.foldlM f s1 := by
  rw [List.foldlM_cons, h]
  rfl

theorem foldlM_snoc {α β : Type} (f : β → α → Option β) (a : α) (l : List α) (s s1 : β)
    (h : l.foldlM f s = some s1) : (l ++ [a]).foldlM f s = f s1 a := by
  rw [List.foldlM_append, h]
  show (f s1 a).bind some = _
  cases f s1 a <;> rfl

/-- Records of other kinds are skipped. -/
theorem foldlM_records {σ : Type} (f : σ → Info → Option σ) (rel : Nat)
    (hf : ∀ s i, i.relationship ≠ rel → f s i = some s) (l : List Info) (s : σ) :
    l.foldlM f s = (recordsOf rel l).foldlM f s := by
  induction l generalizing s with
  | nil => rfl
  | cons i l ih =>
    unfold recordsOf at ih ⊢
    by_cases h : i.relationship = rel
    · rw [List.filter_cons_of_pos (by simp [h]), List.foldlM_cons, List.foldlM_cons]
      congr 1
      funext s'
      exact ih s'
    · rw [List.filter_cons_of_neg (by simp [h]), foldlM_cons_some f i l s s (hf s i h)]
      exact ih s

theorem modify_ok {α : Type} (t : List α) (i : Nat) (f : α → α) (h : i < t.length) :
    modify? t i f = some (t.set i (f t[i])) := by
  unfold modify?
  rw [List.getElem?_eq_getElem h]

/-- Read-modify-write of the entries of a list of visits. -/
theorem foldModify_ok {α ν : Type} (ix : ν → Nat) (f : ν → α → α) (vs : List ν) :
    ∀ ps : List α, (∀ v ∈ vs, ix v < ps.length) →
    ∃ ps', vs.foldlM (fun ps v => modify? ps (ix v) (f v)) ps = some ps' ∧ ps'.length = ps.length ∧
      (∀ i, i ∉ vs.map ix → ps'[i]? = ps[i]?) ∧
      ((vs.map ix).Nodup → ∀ v ∈ vs, ps'[ix v]? = (ps[ix v]?).map (f v)) ∧
      (∀ P : α → Prop, (∀ p ∈ ps, P p) → (∀ v ∈ vs, ∀ p, P p → P (f v p)) → ∀ p ∈ ps', P p) := by
  induction vs with
  | nil =>
    intro ps _
    exact ⟨ps, rfl, rfl, fun _ _ => rfl, (fun _ v hv => by cases hv), fun P h _ => h⟩
  | cons v vs ih =>
    intro ps h
    have hv := h v (.head _)
    obtain ⟨ps', h1, h2, h3, h4, h5⟩ := ih (ps.set (ix v) (f v ps[ix v])) (by
      intro w hw
      rw [List.length_set]
      exact h w (.tail _ hw))
    rw [List.length_set] at h2
    refine ⟨ps', ?_, h2, ?_, ?_, ?_⟩
    · rw [foldlM_cons_some _ v vs ps _ (modify_ok ps (ix v) (f v) hv)]
      exact h1
    · intro i hi
      rw [List.map_cons, List.mem_cons, not_or] at hi
      rw [h3 i hi.2, List.getElem?_set_ne (fun h => hi.1 h.symm)]
    · intro hn w hw
      rw [List.map_cons, List.nodup_cons] at hn
      rcases List.mem_cons.mp hw with rfl | hw
      · rw [h3 _ hn.1, List.getElem?_set_self hv, List.getElem?_eq_getElem hv]
        rfl
      · rw [h4 hn.2 w hw, List.getElem?_set_ne]
        intro he
        exact hn.1 (he ▸ List.mem_map_of_mem hw)
    · intro P hp hf p hp'
      refine h5 P ?_ (fun w hw => hf w (.tail _ hw)) p hp'
      intro q hq
      rcases List.mem_or_eq_of_mem_set hq with h | h
      · exact hp q h
      · rw [h]
        exact hf v (.head _) _ (hp _ (List.getElem_mem hv))

/-! ## Packages -/

/-- What a package record does to a processor. -/
def packageEntry (offset id : Nat) (v : Visit) (p : Processor) : Processor :=
  { p with package := id, groupId := v.group % 65536, processorId := v.number % 65536,
           apicId := id * 2 ^ offset % U32 }

theorem packageLoop_ok (per : List Nat) (hs : per.sum < U32) (off : Nat) (hoff : off < 32) :
    ∀ (R : List Info) (c : Nat) (ps : List Processor),
    (∀ r ∈ R, r.relationship = relationPackage) → (∀ r ∈ R, WinFits per r) → c + R.length < U32 →
    ps.length = per.sum →
    ∃ ps', R.foldlM (packageStep off (beforeLoop 0 per)) ⟨c, ps⟩ = some ⟨c + R.length, ps'⟩ ∧
      ps'.length = per.sum ∧
      (∀ i, i ∉ R.flatMap (winIndices per) → ps'[i]? = ps[i]?) ∧
      ((R.flatMap (winIndices per)).Nodup → ∀ (k : Nat) (r : Info), R[k]? = some r →
        ∀ v ∈ visitsOf per r, ps'[v.index]? = (ps[v.index]?).map (packageEntry off (c + k) v)) ∧
      (∀ P : Processor → Prop, (∀ p ∈ ps, P p) →
        (∀ (k : Nat) (r : Info), R[k]? = some r → ∀ v ∈ visitsOf per r, ∀ p, P p →
          P (packageEntry off (c + k) v p)) → ∀ p ∈ ps', P p) := by
  intro R
  induction R with
  | nil =>
    intro c ps _ _ _ hl
    exact ⟨ps, rfl, hl, fun _ _ => rfl, (fun _ k r h => by cases h), fun P h _ => h⟩
  | cons r R ih =>
    intro c ps hrel hfit hc hl
    rw [List.length_cons] at hc
    have hstep : shl32 c off = some (c * 2 ^ off % U32) := by unfold shl32; rw [if_pos hoff]
    have hvis := visits_eq per hs r (hfit r (.head _))
    obtain ⟨ps1, a1, a2, a3, a4, a5⟩ := foldModify_ok (Visit.index) (packageEntry off c)
      (visitsOf per r) ps (by
        intro v hv
        rw [hl]
        exact (visitsOf_lt per r (hfit r (.head _)) v hv).1)
    have h1 : packageStep off (beforeLoop 0 per) ⟨c, ps⟩ r = some ⟨c + 1, ps1⟩ := by
      unfold packageStep
      rw [if_neg (by rw [hrel r (.head _)]; simp)]
      have a1' : (visitsOf per r).foldlM (packageVisit c (c * 2 ^ off % U32)) ps = some ps1 := a1
      simp only [hstep, hvis, Option.bind_eq_bind, Option.bind_some, a1', Option.pure_def]
      unfold inc32
      rw [Nat.mod_eq_of_lt (by omega)]
    obtain ⟨ps', b1, b2, b3, b4, b5⟩ := ih (c + 1) ps1 (fun r' h' => hrel r' (.tail _ h'))
      (fun r' h' => hfit r' (.tail _ h')) (by omega) (by rw [a2, hl])
    refine ⟨ps', ?_, b2, ?_, ?_, ?_⟩
    · rw [foldlM_cons_some _ r R _ _ h1, b1, List.length_cons]
      congr 2
      omega
    · intro i hi
      rw [List.flatMap_cons, List.mem_append, not_or] at hi
      rw [b3 i hi.2, a3 i (by rw [visitsOf_index]; exact hi.1)]
    · intro hn k r' hk v hv
      rw [List.flatMap_cons, List.nodup_append] at hn
      cases k with
      | zero =>
        rw [List.getElem?_cons_zero] at hk
        cases hk
        have hm : v.index ∈ winIndices per r := by
          rw [← visitsOf_index]
          exact List.mem_map_of_mem hv
        rw [b3 v.index (fun h => hn.2.2 _ hm _ h rfl),
          a4 (by rw [visitsOf_index]; exact hn.1) v hv]
        rfl
      | succ k =>
        rw [List.getElem?_cons_succ] at hk
        have hm : v.index ∈ winIndices per r' := by
          rw [← visitsOf_index]
          exact List.mem_map_of_mem hv
        have hm' : v.index ∈ R.flatMap (winIndices per) :=
          List.mem_flatMap.mpr ⟨r', List.mem_of_getElem? hk, hm⟩
        rw [b4 hn.2.1 k r' hk v hv, a3 v.index (by
          rw [visitsOf_index]
          exact fun h => hn.2.2 _ h _ hm' rfl), show c + 1 + k = c + (k + 1) by omega]
    · intro P hp hf p hp'
      refine b5 P (a5 P hp fun v hv q hq => ?_) (fun k r' hk v hv q hq => ?_) p hp'
      · exact hf 0 r rfl v hv q hq
      · rw [show c + 1 + k = c + (k + 1) by omega]
        exact hf (k + 1) r' hk v hv q hq

/-! ## Cores -/

/-- What a core record does to a processor: `smt` is the rank in the core, `rank` that of the core. -/
def coreEntry (t : Topology) (threadMask coreMask id smt rank : Nat) (p : Processor) : Processor :=
  { p with apicId := p.apicId ||| ((smt &&& threadMask) * 2 ^ t.threadOffset % U32 |||
             (rank &&& coreMask) * 2 ^ t.coreOffset % U32), smtId := smt, core := id }

/-- A visit of the core loop. -/
theorem coreVisit_eq (t : Topology) (tm cm id : Nat) (ht : t.threadOffset < 32) (hc : t.coreOffset < 32)
    (s : CoreState) (v : Visit) (p : Processor) (hp : s.processors[v.index]? = some p) :
    coreVisit t tm cm id s v = some
      { s with packageCoreStart := if p.apicId ≠ s.currentPackage then id else s.packageCoreStart,
               currentPackage := p.apicId, smtId := inc32 s.smtId,
               processors := s.processors.set v.index (coreEntry t tm cm id s.smtId
                 (id - if p.apicId ≠ s.currentPackage then id else s.packageCoreStart) p) } := by
  unfold coreVisit modify?
  have e : (if p.apicId ≠ s.currentPackage then p.apicId else s.currentPackage) = p.apicId := by
    by_cases h : p.apicId = s.currentPackage
    · rw [if_neg (by simpa using h), h]
    · rw [if_pos h]
  simp only [hp, Option.bind_eq_bind, Option.bind_some, shl32, if_pos ht, if_pos hc, Option.pure_def, e]
  rfl

/-- The core loop never leaves the table, and keeps what its step keeps. -/
theorem coreFold_safe (t : Topology) (tm cm id : Nat) (ht : t.threadOffset < 32) (hc : t.coreOffset < 32)
    (P : Processor → Prop) (hP : ∀ smt rank p, P p → P (coreEntry t tm cm id smt rank p))
    (vs : List Visit) : ∀ s : CoreState, (∀ v ∈ vs, v.index < s.processors.length) →
    (∀ p ∈ s.processors, P p) →
    ∃ s', vs.foldlM (coreVisit t tm cm id) s = some s' ∧ s'.count = s.count ∧
      s'.processors.length = s.processors.length ∧ ∀ p ∈ s'.processors, P p := by
  induction vs with
  | nil => intro s _ hp; exact ⟨s, rfl, rfl, rfl, hp⟩
  | cons v vs ih =>
    intro s h hp
    have hv := h v (.head _)
    obtain ⟨s1, hstep, hs1, hs2⟩ : ∃ s1, coreVisit t tm cm id s v = some s1 ∧ s1.count = s.count ∧
        ∃ smt rank, s1.processors = s.processors.set v.index
          (coreEntry t tm cm id smt rank s.processors[v.index]) :=
      ⟨_, coreVisit_eq t tm cm id ht hc s v _ (List.getElem?_eq_getElem hv), rfl, _, _, rfl⟩
    obtain ⟨smt, rank, hs2⟩ := hs2
    rw [foldlM_cons_some _ v vs s _ hstep]
    obtain ⟨s', h1, h2, h3, h4⟩ := ih s1 (by
        intro w hw
        rw [hs2, List.length_set]
        exact h w (.tail _ hw)) (by
        intro q hq
        rw [hs2] at hq
        rcases List.mem_or_eq_of_mem_set hq with h | h
        · exact hp q h
        · rw [h]
          exact hP _ _ _ (hp _ (List.getElem_mem hv)))
    refine ⟨s', h1, h2.trans hs1, ?_, h4⟩
    rw [h3, hs2, List.length_set]

theorem coreLoop_safe (per : List Nat) (hs : per.sum < U32) (t : Topology) (tm cm : Nat)
    (ht : t.threadOffset < 32) (hc : t.coreOffset < 32) (M : Nat) (P : Processor → Prop)
    (hP : ∀ id, id < M → ∀ smt rank p, P p → P (coreEntry t tm cm id smt rank p)) (hM : M < U32) :
    ∀ (R : List Info) (s : CoreState), (∀ r ∈ R, r.relationship = relationCore) →
    (∀ r ∈ R, WinFits per r) → s.count + R.length ≤ M → s.processors.length = per.sum →
    (∀ p ∈ s.processors, P p) →
    ∃ s', R.foldlM (coreStep t tm cm (beforeLoop 0 per)) s = some s' ∧ s'.count = s.count + R.length ∧
      s'.processors.length = per.sum ∧ ∀ p ∈ s'.processors, P p := by
  intro R
  induction R with
  | nil => intro s _ _ _ hl hp; exact ⟨s, rfl, rfl, hl, hp⟩
  | cons r R ih =>
    intro s hrel hfit hcnt hl hp
    rw [List.length_cons] at hcnt
    have hvis := visits_eq per hs r (hfit r (.head _))
    obtain ⟨s1, a1, a2, a3, a4⟩ := coreFold_safe t tm cm s.count ht hc P (hP s.count (by omega))
      (visitsOf per r) { s with smtId := 0 } (by
        intro v hv
        show v.index < s.processors.length
        rw [hl]
        exact (visitsOf_lt per r (hfit r (.head _)) v hv).1) hp
    have h1 : coreStep t tm cm (beforeLoop 0 per) s r = some { s1 with count := s.count + 1 } := by
      unfold coreStep
      rw [if_neg (by rw [hrel r (.head _)]; simp)]
      simp only [shl32, if_pos hc, hvis, Option.bind_eq_bind, Option.bind_some, a1, Option.pure_def]
      unfold inc32
      rw [Nat.mod_eq_of_lt (by omega)]
    obtain ⟨s', b1, b2, b3, b4⟩ := ih { s1 with count := s.count + 1 }
      (fun r' h' => hrel r' (.tail _ h')) (fun r' h' => hfit r' (.tail _ h'))
      (by show s.count + 1 + R.length ≤ M; omega) (by rw [a3]; exact hl) a4
    refine ⟨s', ?_, ?_, b3, b4⟩
    · rw [foldlM_cons_some _ r R _ _ h1]
      exact b1
    · rw [b2, List.length_cons]
      show s.count + 1 + R.length = _
      omega

/-- One core whose processors are visited for the first time and are all in the package `a`. -/
theorem coreFold_exact (t : Topology) (tm cm id : Nat) (ht : t.threadOffset < 32)
    (hc : t.coreOffset < 32) (a : Nat) (vs : List Visit) : ∀ s : CoreState,
    (vs.map (·.index)).Nodup →
    (∀ v ∈ vs, ∃ p, s.processors[v.index]? = some p ∧ p.apicId = a) → s.smtId + vs.length < U32 →
    ∃ s', vs.foldlM (coreVisit t tm cm id) s = some s' ∧ s'.count = s.count ∧
      (vs ≠ [] → s'.packageCoreStart = (if a ≠ s.currentPackage then id else s.packageCoreStart) ∧
        s'.currentPackage = a) ∧
      s'.processors.length = s.processors.length ∧
      (∀ i, i ∉ vs.map (·.index) → s'.processors[i]? = s.processors[i]?) ∧
      (∀ (k : Nat) (v : Visit), vs[k]? = some v → s'.processors[v.index]? =
        (s.processors[v.index]?).map (coreEntry t tm cm id (s.smtId + k)
          (id - if a ≠ s.currentPackage then id else s.packageCoreStart))) := by
  induction vs with
  | nil =>
    intro s _ _ _
    exact ⟨s, rfl, rfl, fun h => absurd rfl h, rfl, fun _ _ => rfl, fun k v h => by cases h⟩
  | cons v vs ih =>
    intro s hn hp hsm
    rw [List.map_cons, List.nodup_cons] at hn
    rw [List.length_cons] at hsm
    obtain ⟨p, hpv, hpa⟩ := hp v (.head _)
    have hstep := coreVisit_eq t tm cm id ht hc s v p hpv
    rw [hpa] at hstep
    have hne : ∀ w ∈ vs, v.index ≠ w.index := fun w hw h => hn.1 (h ▸ List.mem_map_of_mem hw)
    have hlt : v.index < s.processors.length := (List.getElem?_eq_some_iff.mp hpv).1
    have hinc : inc32 s.smtId = s.smtId + 1 := Nat.mod_eq_of_lt (by omega)
    generalize hst : (if a ≠ s.currentPackage then id else s.packageCoreStart) = st at hstep ⊢
    obtain ⟨s', h1, h2, h3, h4, h5, h6⟩ := ih
      { s with packageCoreStart := st, currentPackage := a, smtId := inc32 s.smtId,
               processors := s.processors.set v.index (coreEntry t tm cm id s.smtId (id - st) p) }
      hn.2 (by
        intro w hw
        rw [List.getElem?_set_ne (hne w hw)]
        exact hp w (.tail _ hw)) (by
        show inc32 s.smtId + vs.length < U32
        rw [hinc]; omega)
    simp only [ne_eq, not_true_eq_false, if_false] at h3 h6
    refine ⟨s', ?_, h2, ?_, ?_, ?_, ?_⟩
    · rw [foldlM_cons_some _ v vs s _ hstep]
      exact h1
    · intro _
      by_cases hvs : vs = []
      · subst hvs
        cases h1
        exact ⟨rfl, rfl⟩
      · exact h3 hvs
    · rw [h4, List.length_set]
    · intro i hi
      rw [List.map_cons, List.mem_cons, not_or] at hi
      rw [h5 i hi.2, List.getElem?_set_ne (fun h => hi.1 h.symm)]
    · intro k w hk
      cases k with
      | zero =>
        rw [List.getElem?_cons_zero] at hk
        cases hk
        rw [h5 _ hn.1, List.getElem?_set_self hlt, hpv]
        rfl
      | succ k =>
        rw [List.getElem?_cons_succ] at hk
        rw [h6 k w hk, List.getElem?_set_ne (hne w (List.mem_of_getElem? hk)), hinc,
          show s.smtId + 1 + k = s.smtId + (k + 1) by omega]

/-- First core of the run of cores of the same package: `cur` and `st` are package and first core of the
run so far, `id` is the number of the core at the head. -/
def coreStarts : (cur st id : Nat) → List Nat → List Nat
  | _, _, _, [] => []
  | cur, st, id, a :: as =>
    (if a ≠ cur then id else st) :: coreStarts a (if a ≠ cur then id else st) (id + 1) as

theorem coreStarts_length (as : List Nat) : ∀ cur st id, (coreStarts cur st id as).length = as.length := by
  induction as with
  | nil => intro _ _ _; rfl
  | cons a as ih => intro _ _ _; rw [coreStarts, List.length_cons, ih, List.length_cons]

/-- The core loop for disjoint cores, each within one package. -/
theorem coreLoop_exact (per : List Nat) (hs : per.sum < U32) (t : Topology) (tm cm : Nat)
    (ht : t.threadOffset < 32) (hc : t.coreOffset < 32) :
    ∀ (R : List Info) (as : List Nat) (s : CoreState), (∀ r ∈ R, r.relationship = relationCore) →
    (∀ r ∈ R, WinFits per r) → s.count + R.length < U32 → s.processors.length = per.sum →
    (R.flatMap (winIndices per)).Nodup → (∀ r ∈ R, winIndices per r ≠ []) → as.length = R.length →
    (∀ (j : Nat) (r : Info) (a : Nat), R[j]? = some r → as[j]? = some a → ∀ i ∈ winIndices per r,
      ∃ p, s.processors[i]? = some p ∧ p.apicId = a) →
    ∃ s', R.foldlM (coreStep t tm cm (beforeLoop 0 per)) s = some s' ∧ s'.count = s.count + R.length ∧
      s'.processors.length = per.sum ∧
      (∀ i, i ∉ R.flatMap (winIndices per) → s'.processors[i]? = s.processors[i]?) ∧
      (∀ (j : Nat) (r : Info) (st : Nat), R[j]? = some r →
        (coreStarts s.currentPackage s.packageCoreStart s.count as)[j]? = some st →
        ∀ (k i : Nat), (winIndices per r)[k]? = some i →
          s'.processors[i]? = (s.processors[i]?).map
            (coreEntry t tm cm (s.count + j) k (s.count + j - st))) := by
  intro R
  induction R with
  | nil =>
    intro as s _ _ _ hl _ _ _ _
    exact ⟨s, rfl, rfl, hl, fun _ _ => rfl, fun j r st h => by cases h⟩
  | cons r R ih =>
    intro as s hrel hfit hcnt hl hn hne has hp
    rw [List.length_cons] at hcnt has
    rw [List.flatMap_cons, List.nodup_append] at hn
    obtain ⟨hn1, hn2, hn3⟩ := hn
    have hvis := visits_eq per hs r (hfit r (.head _))
    cases as with
    | nil => cases has
    | cons a as =>
      rw [List.length_cons] at has
      have hlen : (visitsOf per r).length ≤ per.sum := by
        have h1 : (winIndices per r).length ≤ (List.range per.sum).length := by
          refine hn1.length_le_of_subset ?_
          intro i hi
          rw [← visitsOf_index] at hi
          obtain ⟨v, hv, rfl⟩ := List.mem_map.mp hi
          exact List.mem_range.mpr (visitsOf_lt per r (hfit r (.head _)) v hv).1
        rw [List.length_range, ← visitsOf_index, List.length_map] at h1
        exact h1
      have hvne : visitsOf per r ≠ [] := by
        intro h
        refine hne r (.head _) ?_
        rw [← visitsOf_index, h]
        rfl
      obtain ⟨s1, a1, a2, a3, a4, a5, a6⟩ := coreFold_exact t tm cm s.count ht hc a (visitsOf per r)
        { s with smtId := 0 } (by rw [visitsOf_index]; exact hn1) (by
          intro v hv
          exact hp 0 r a rfl rfl v.index (by rw [← visitsOf_index]; exact List.mem_map_of_mem hv))
        (by show 0 + (visitsOf per r).length < U32; omega)
      obtain ⟨a3, a3'⟩ := a3 hvne
      simp only [Nat.zero_add] at a3 a6
      have h1 : coreStep t tm cm (beforeLoop 0 per) s r = some { s1 with count := s.count + 1 } := by
        unfold coreStep
        rw [if_neg (by rw [hrel r (.head _)]; simp)]
        simp only [shl32, if_pos hc, hvis, Option.bind_eq_bind, Option.bind_some, a1, Option.pure_def]
        unfold inc32
        rw [Nat.mod_eq_of_lt (by omega)]
      have hsep : ∀ i ∈ R.flatMap (winIndices per), i ∉ (visitsOf per r).map (·.index) := by
        intro i hi h
        rw [visitsOf_index] at h
        exact hn3 i h i hi rfl
      obtain ⟨s', b1, b2, b3, b4, b5⟩ := ih as { s1 with count := s.count + 1 }
        (fun r' h' => hrel r' (.tail _ h')) (fun r' h' => hfit r' (.tail _ h'))
        (by show s.count + 1 + R.length < U32; omega) (by rw [a4]; exact hl) hn2
        (fun r' h' => hne r' (.tail _ h')) (by omega) (by
          intro j r' a' hj ha' i hi
          show ∃ p, s1.processors[i]? = some p ∧ _
          rw [a5 i (hsep i (List.mem_flatMap.mpr ⟨r', List.mem_of_getElem? hj, hi⟩))]
          exact hp (j + 1) r' a' hj ha' i hi)
      refine ⟨s', ?_, ?_, b3, ?_, ?_⟩
      · rw [foldlM_cons_some _ r R _ _ h1]
        exact b1
      · rw [b2, List.length_cons]
        show s.count + 1 + R.length = _
        omega
      · intro i hi
        rw [List.flatMap_cons, List.mem_append, not_or] at hi
        rw [b4 i hi.2]
        exact a5 i (by rw [visitsOf_index]; exact hi.1)
      · intro j r' st hj hst k i hk
        rw [coreStarts] at hst
        cases j with
        | zero =>
          rw [List.getElem?_cons_zero] at hj hst
          cases hj
          cases hst
          have hi : i ∈ winIndices per r := List.mem_of_getElem? hk
          rw [b4 i (fun h => hn3 i hi i h rfl)]
          rw [← visitsOf_index, List.getElem?_map] at hk
          cases hv : (visitsOf per r)[k]? with
          | none => rw [hv] at hk; cases hk
          | some v =>
            rw [hv] at hk
            cases hk
            exact a6 k v hv
        | succ j =>
          rw [List.getElem?_cons_succ] at hj hst
          have hi : i ∈ R.flatMap (winIndices per) :=
            List.mem_flatMap.mpr ⟨r', List.mem_of_getElem? hj, List.mem_of_getElem? hk⟩
          have := b5 j r' st hj (by
            show (coreStarts s1.currentPackage s1.packageCoreStart (s.count + 1) as)[j]? = _
            rw [a3, a3']
            exact hst) k i hk
          rw [this]
          show (s1.processors[i]?).map _ = _
          rw [a5 i (hsep i hi)]
          show _ = Option.map (coreEntry t tm cm (s.count + (j + 1)) k (s.count + (j + 1) - st)) _
          rw [show s.count + (j + 1) = s.count + 1 + j by omega]

end Verif.Windows
