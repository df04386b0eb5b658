import Verif.Proof.WinFacts
import Verif.Spec.ArmWin

/-!
# The loops over the records of Windows on ARM
-/

set_option autoImplicit false

namespace Verif.ArmWin
open Spec
open Windows (GroupAffinity Info Visit visitGroup beforeLoop visitsOf visitsOf_lt visitsOf_index
  bitsLoop_eq beforeLoop_get foldlM_cons_some modify_ok visits visits_eq setBits_length mem_setBits)
open X86Init (modify?)

theorem ifOk_ok {α β : Type} (a : α) (f : α → Option (Option β)) : ifOk (some (some a)) f = f a := rfl

/-! ## Masks -/

theorem groupVisits_eq {before : List Nat} {g : GroupAffinity} (h : ∃ s, before[g.group]? = some s) :
    groupVisits before g = visitGroup before g := by
  unfold groupVisits
  split
  · rename_i h0
    obtain ⟨s, hs⟩ := h
    unfold visitGroup
    rw [hs, h0]
    rfl
  · rfl

theorem before_some {per : List Nat} (hs : per.sum < U32) {info : Info} (h : WinFits per info)
    {g : GroupAffinity} (hg : g ∈ info.groups) : ∃ s, (beforeLoop 0 per)[g.group]? = some s := by
  obtain ⟨_, n, hn, _⟩ := h g hg
  exact ⟨_, beforeLoop_get per 0 g.group n (by omega) hn⟩

/-- The masks of a record are a list of visits. -/
theorem foldGroups {σ : Type} (before : List Nat) (store : σ → Visit → Option σ) :
    ∀ (gs : List GroupAffinity) (vs : List Visit), (∀ g ∈ gs, ∃ s, before[g.group]? = some s) →
    visits before gs = some vs → ∀ s,
    gs.foldlM (fun s g => (groupVisits before g).bind fun vs => vs.foldlM store s) s =
      vs.foldlM store s := by
  intro gs
  induction gs with
  | nil =>
    intro vs _ h s
    cases h
    rfl
  | cons g gs ih =>
    intro vs hg h s
    rw [visits] at h
    simp only [Option.bind_eq_bind, Option.bind_eq_some_iff, Option.pure_def, Option.some.injEq] at h
    obtain ⟨v1, h1, v2, h2, rfl⟩ := h
    rw [List.foldlM_cons, groupVisits_eq (hg g (.head _)), h1, List.foldlM_append]
    show (v1.foldlM store s).bind _ = (v1.foldlM store s).bind _
    congr 1
    funext s'
    exact ih v2 (fun g h => hg g (.tail _ h)) h2 s'

theorem cacheGroups_eq {σ : Type} (per : List Nat) (hs : per.sum < U32) (info : Info)
    (h : WinFits per info) (store : σ → Visit → Option σ) (s : σ) :
    info.groups.foldlM (fun s g => (groupVisits (beforeLoop 0 per) g).bind fun vs =>
      vs.foldlM store s) s = (visitsOf per info).foldlM store s :=
  foldGroups _ store _ _ (fun _ hg => before_some hs h hg) (visits_eq per hs info h) s

theorem storeVisits_eq {σ : Type} (n : Nat) (store : σ → Visit → Option σ) (vs : List Visit)
    (h : ∀ v ∈ vs, v.index < n) (s : σ) :
    storeVisits n store vs s = (vs.foldlM store s).map some := by
  unfold storeVisits
  induction vs generalizing s with
  | nil => rfl
  | cons v vs ih =>
    rw [loop, if_neg (by have := h v (.head _); omega), List.foldlM_cons]
    cases store s v with
    | none => rfl
    | some s1 => exact ih (fun v hv => h v (.tail _ hv)) s1

theorem loopGroups {σ : Type} (before : List Nat) (n : Nat) (store : σ → Visit → Option σ) :
    ∀ (gs : List GroupAffinity) (vs : List Visit), (∀ g ∈ gs, ∃ s, before[g.group]? = some s) →
    visits before gs = some vs → (∀ v ∈ vs, v.index < n) → ∀ s,
    loop (fun s g => (groupVisits before g).bind fun vs => storeVisits n store vs s) gs s =
      (vs.foldlM store s).map some := by
  intro gs
  induction gs with
  | nil =>
    intro vs _ h _ s
    cases h
    rfl
  | cons g gs ih =>
    intro vs hg h hv s
    rw [visits] at h
    simp only [Option.bind_eq_bind, Option.bind_eq_some_iff, Option.pure_def, Option.some.injEq] at h
    obtain ⟨v1, h1, v2, h2, rfl⟩ := h
    rw [loop, groupVisits_eq (hg g (.head _)), h1, List.foldlM_append]
    show ifOk (storeVisits n store v1 s) _ = _
    rw [storeVisits_eq n store v1 (fun v h => hv v (List.mem_append_left _ h))]
    cases v1.foldlM store s with
    | none => rfl
    | some s1 =>
      exact ih v2 (fun g h => hg g (.tail _ h)) h2 (fun v h => hv v (List.mem_append_right _ h)) s1

/-- A record about processors is a list of visits. -/
theorem parse_eq {σ : Type} (per : List Nat) (hs : per.sum < U32) (info : Info) (h : WinFits per info)
    (store : σ → Visit → Option σ) (s : σ) :
    parseProcessors (beforeLoop 0 per) per.sum store info s =
      ((visitsOf per info).foldlM store s).map some :=
  loopGroups _ _ store _ _ (fun _ hg => before_some hs h hg) (visits_eq per hs info h)
    (fun v hv => (visitsOf_lt per info h v hv).1) s

/-! ## Records -/

theorem readRecords_filter {ρ σ : Type} (kind : ρ → Bool) (parse : Nat → ρ → σ → Option (Option σ))
    (l : List ρ) (id : Nat) (s : σ) :
    readRecords kind parse l id s = readRecords (fun _ => true) parse (l.filter kind) id s := by
  induction l generalizing id s with
  | nil => rfl
  | cons r l ih =>
    rw [readRecords]
    by_cases h : kind r = true
    · rw [if_pos h, List.filter_cons_of_pos h, readRecords, if_pos rfl]
      congr 1
      funext s'
      exact ih (id + 1) s'
    · rw [if_neg h, List.filter_cons_of_neg h]
      exact ih id s

/-- The records one after the other. -/
def foldRecords {ρ σ : Type} (f : Nat → ρ → σ → Option σ) : List ρ → Nat → σ → Option σ
  | [], _, s => some s
  | r :: rs, id, s => (f id r s).bind (foldRecords f rs (id + 1))

theorem readRecords_eq {ρ σ : Type} (parse : Nat → ρ → σ → Option (Option σ))
    (f : Nat → ρ → σ → Option σ) (l : List ρ) (h : ∀ id, ∀ r ∈ l, ∀ s, parse id r s = (f id r s).map some)
    (id : Nat) (s : σ) :
    readRecords (fun _ => true) parse l id s =
      (foldRecords f l id s).map fun s => some (id + l.length, s) := by
  induction l generalizing id s with
  | nil => rfl
  | cons r l ih =>
    rw [readRecords, if_pos rfl, foldRecords, h id r (.head _)]
    cases f id r s with
    | none => rfl
    | some s1 =>
      show readRecords _ parse l (id + 1) s1 = _
      rw [ih (fun id r hr => h id r (.tail _ hr)), List.length_cons,
        show id + 1 + l.length = id + (l.length + 1) by omega]
      rfl

theorem readAll_eq {ρ σ : Type} (kind : ρ → Bool) (parse : Nat → ρ → σ → Option (Option σ))
    (f : Nat → ρ → σ → Option σ) (l R : List ρ) (hR : R = l.filter kind) (h0 : R ≠ [])
    (h : ∀ id, ∀ r ∈ R, ∀ s, parse id r s = (f id r s).map some) (s : σ) :
    readAll kind parse (some l) s = (foldRecords f R 0 s).map fun s => some (R.length, s) := by
  unfold readAll
  dsimp only
  rw [readRecords_filter, ← hR, readRecords_eq parse f R h]
  cases foldRecords f R 0 s with
  | none => rfl
  | some s1 =>
    show (if 0 + R.length = 0 then _ else _) = _
    have : R.length ≠ 0 := fun h => h0 (List.eq_nil_of_length_eq_zero h)
    rw [if_neg (by omega), Nat.zero_add]
    rfl

/-! ## What the visits do to the table of processors -/

/-- A table after visits that overwrite each other: an entry is as before, or as one of its visits left
it. -/
theorem foldOver {α ν : Type} (ix : ν → Nat) (f : ν → α → α)
    (hf : ∀ v w a, f v (f w a) = f v a) (vs : List ν) :
    ∀ t : List α, (∀ v ∈ vs, ix v < t.length) →
    ∃ t', vs.foldlM (fun t v => modify? t (ix v) (f v)) t = some t' ∧ t'.length = t.length ∧
      ∀ i a, t[i]? = some a →
        ((∀ v ∈ vs, ix v ≠ i) ∧ t'[i]? = some a) ∨ ∃ v ∈ vs, ix v = i ∧ t'[i]? = some (f v a) := by
  induction vs with
  | nil =>
    intro t _
    exact ⟨t, rfl, rfl, fun i a h => Or.inl ⟨(fun v hv => by cases hv), h⟩⟩
  | cons v vs ih =>
    intro t h
    have hv := h v (.head _)
    obtain ⟨t', h1, h2, h3⟩ := ih (t.set (ix v) (f v t[ix v])) (by
      intro w hw
      rw [List.length_set]
      exact h w (.tail _ hw))
    rw [List.length_set] at h2
    refine ⟨t', ?_, h2, ?_⟩
    · rw [foldlM_cons_some _ v vs t _ (modify_ok t (ix v) (f v) hv)]
      exact h1
    · intro i a ha
      by_cases hi : ix v = i
      · subst hi
        have he : t[ix v] = a := (List.getElem?_eq_some_iff.mp ha).2
        have hset := List.getElem?_set_self (l := t) (i := ix v) (a := f v t[ix v]) hv
        right
        rcases h3 (ix v) _ hset with ⟨-, h5⟩ | ⟨w, hw, hi, h5⟩
        · exact ⟨v, .head _, rfl, by rw [h5, he]⟩
        · exact ⟨w, .tail _ hw, hi, by rw [h5, hf, he]⟩
      · have hset : (t.set (ix v) (f v t[ix v]))[i]? = some a := by
          rw [List.getElem?_set_ne hi]
          exact ha
        rcases h3 i a hset with ⟨h4, h5⟩ | ⟨w, hw, hi, h5⟩
        · refine Or.inl ⟨?_, h5⟩
          intro w hw
          rcases List.mem_cons.mp hw with rfl | hw
          · exact hi
          · exact h4 w hw
        · exact Or.inr ⟨w, .tail _ hw, hi, h5⟩

theorem mem_indices {per : List Nat} {info : Info} {i : Nat} :
    i ∈ winIndices per info ↔ ∃ v ∈ visitsOf per info, v.index = i := by
  rw [← visitsOf_index, List.mem_map]

/-- A table of processors after records whose visits overwrite each other: an entry is as before and in no
record, or as a record that has it left it. -/
def Overwritten (per : List Nat) (upd : Nat → Visit → Processor → Processor) (R : List Info) (c : Nat)
    (ps ps' : List Processor) : Prop :=
  ps'.length = ps.length ∧ ∀ i p, ps[i]? = some p →
    ((∀ r ∈ R, i ∉ winIndices per r) ∧ ps'[i]? = some p) ∨
    ∃ k r v, R[k]? = some r ∧ v ∈ visitsOf per r ∧ v.index = i ∧ ps'[i]? = some (upd (c + k) v p)

theorem overwritten_cons {per : List Nat} {upd : Nat → Visit → Processor → Processor}
    (hu : ∀ a v b w p, upd a v (upd b w p) = upd a v p) {r : Info} {R : List Info} {c : Nat}
    {ps ps1 ps2 : List Processor} (hl : ps1.length = ps.length)
    (h1 : ∀ i p, ps[i]? = some p →
      ((∀ v ∈ visitsOf per r, v.index ≠ i) ∧ ps1[i]? = some p) ∨
      ∃ v ∈ visitsOf per r, v.index = i ∧ ps1[i]? = some (upd c v p))
    (h2 : Overwritten per upd R (c + 1) ps1 ps2) : Overwritten per upd (r :: R) c ps ps2 := by
  obtain ⟨hl2, h2⟩ := h2
  refine ⟨hl2.trans hl, ?_⟩
  intro i p hp
  rcases h1 i p hp with ⟨a1, a2⟩ | ⟨v, hv, hi, a2⟩
  · rcases h2 i p a2 with ⟨b1, b2⟩ | ⟨k, r', v, hk, hv, hi, b2⟩
    · refine Or.inl ⟨?_, b2⟩
      intro r' hr'
      rcases List.mem_cons.mp hr' with rfl | hr'
      · intro hm
        obtain ⟨v, hv, he⟩ := mem_indices.mp hm
        exact a1 v hv he
      · exact b1 r' hr'
    · refine Or.inr ⟨k + 1, r', v, hk, hv, hi, ?_⟩
      rw [b2, show c + 1 + k = c + (k + 1) by omega]
  · rcases h2 i _ a2 with ⟨b1, b2⟩ | ⟨k, r', w, hk, hw, hi', b2⟩
    · exact Or.inr ⟨0, r, v, rfl, hv, hi, b2⟩
    · refine Or.inr ⟨k + 1, r', w, hk, hw, hi', ?_⟩
      rw [b2, hu, show c + 1 + k = c + (k + 1) by omega]

/-! ## Packages -/

/-- What a record about packages does to a processor. -/
def packageEntry (id : Nat) (v : Visit) (p : Processor) : Processor :=
  { p with package := id, groupId := v.group % 65536, processorId := v.number % 65536 }

theorem packages_ok (per : List Nat) : ∀ (R : List Info) (c : Nat) (ps : List Processor),
    (∀ r ∈ R, WinFits per r) → ps.length = per.sum →
    ∃ ps', foldRecords (fun id r s => (visitsOf per r).foldlM (storePackage id) s) R c ps = some ps' ∧
      Overwritten per packageEntry R c ps ps' := by
  intro R
  induction R with
  | nil =>
    intro c ps _ _
    exact ⟨ps, rfl, rfl, fun i p h => Or.inl ⟨(fun r hr => by cases hr), h⟩⟩
  | cons r R ih =>
    intro c ps hf hl
    obtain ⟨ps1, a1, a2, a3⟩ := foldOver (α := Processor) Visit.index (packageEntry c)
      (fun _ _ _ => rfl) (visitsOf per r) ps (fun v hv => by
        rw [hl]
        exact (visitsOf_lt per r (hf r (.head _)) v hv).1)
    obtain ⟨ps2, b1, b2⟩ := ih (c + 1) ps1 (fun r hr => hf r (.tail _ hr)) (by rw [a2, hl])
    refine ⟨ps2, ?_, overwritten_cons (upd := packageEntry) (fun _ _ _ _ _ => rfl) a2 a3 b2⟩
    rw [foldRecords]
    have a1' : (visitsOf per r).foldlM (storePackage c) ps = some ps1 := a1
    rw [a1']
    exact b1

/-! ## Cores -/

/-- What a record about cores does to a processor. -/
def coreEntry (id : Nat) (_ : Visit) (p : Processor) : Processor :=
  { p with core := some id, cluster := id }

/-- Two independent tables. -/
theorem foldCores (chip : Chip) (id : Nat) (vs : List Visit) : ∀ (ps ps' : List Processor) (cs : List Core),
    vs.foldlM (fun t v => modify? t v.index (coreEntry id v)) ps = some ps' → id < cs.length →
    ∃ cs', vs.foldlM (storeCore chip id) ⟨ps, cs⟩ = some ⟨ps', cs'⟩ ∧ cs'.length = cs.length ∧
      (∀ g, g ≠ id → cs'[g]? = cs[g]?) ∧
      (∀ c, cs[id]? = some c → cs'[id]? = some (if vs = [] then c else
        { c with coreId := id, uarch := chip.uarch, frequency := chip.frequency })) := by
  induction vs with
  | nil =>
    intro ps ps' cs h _
    cases h
    exact ⟨cs, rfl, rfl, fun _ _ => rfl, fun c hc => hc⟩
  | cons v vs ih =>
    intro ps ps' cs h hid
    rw [List.foldlM_cons] at h
    simp only [Option.bind_eq_bind, Option.bind_eq_some_iff] at h
    obtain ⟨ps1, h1, h2⟩ := h
    have hm := modify_ok cs id (fun c =>
      { c with coreId := id, uarch := chip.uarch, frequency := chip.frequency }) hid
    obtain ⟨cs', b1, b2, b3, b4⟩ := ih ps1 ps' (cs.set id { cs[id] with
      coreId := id, uarch := chip.uarch, frequency := chip.frequency }) h2
      (by rw [List.length_set]; exact hid)
    rw [List.length_set] at b2
    refine ⟨cs', ?_, b2, ?_, ?_⟩
    · have : storeCore chip id ⟨ps, cs⟩ v = some ⟨ps1, cs.set id { cs[id] with
          coreId := id, uarch := chip.uarch, frequency := chip.frequency }⟩ := by
        unfold storeCore
        have h1' : modify? ps v.index (fun p => { p with core := some id, cluster := id }) =
          some ps1 := h1
        simp only [h1', Option.bind_eq_bind, Option.bind_some, hm, Option.pure_def]
      rw [foldlM_cons_some _ v vs _ _ this]
      exact b1
    · intro g hg
      rw [b3 g hg, List.getElem?_set_ne (Ne.symm hg)]
    · intro c hc
      have he : cs[id] = c := (List.getElem?_eq_some_iff.mp hc).2
      rw [b4 _ (List.getElem?_set_self hid), he, if_neg (List.cons_ne_nil _ _)]
      split <;> rfl

/-- The table of cores after the records. -/
def coreOf (chip : Chip) (id : Nat) : Core :=
  { zeroCore with coreId := id, uarch := chip.uarch, frequency := chip.frequency }

theorem cores_ok (per : List Nat) (chip : Chip) : ∀ (R : List Info) (c : Nat) (ps : List Processor)
    (cs : List Core), (∀ r ∈ R, WinFits per r) → (∀ r ∈ R, winIndices per r ≠ []) →
    ps.length = per.sum → cs.length = c + R.length → (∀ g, c ≤ g → g < cs.length → cs[g]? = some zeroCore) →
    ∃ ps' cs', foldRecords (fun id r s => (visitsOf per r).foldlM (storeCore chip id) s) R c ⟨ps, cs⟩ =
        some ⟨ps', cs'⟩ ∧ Overwritten per coreEntry R c ps ps' ∧ cs'.length = cs.length ∧
      (∀ g < c, cs'[g]? = cs[g]?) ∧ (∀ g, c ≤ g → g < cs.length → cs'[g]? = some (coreOf chip g)) := by
  intro R
  induction R with
  | nil =>
    intro c ps cs _ _ _ hc _
    refine ⟨ps, cs, rfl, ⟨rfl, fun i p h => Or.inl ⟨(fun r hr => by cases hr), h⟩⟩, rfl,
      fun _ _ => rfl, ?_⟩
    intro g h1 h2
    rw [List.length_nil] at hc
    omega
  | cons r R ih =>
    intro c ps cs hf hn hl hc hz
    rw [List.length_cons] at hc
    obtain ⟨ps1, a1, a2, a3⟩ := foldOver (α := Processor) Visit.index (coreEntry c)
      (fun _ _ _ => rfl) (visitsOf per r) ps (fun v hv => by
        rw [hl]
        exact (visitsOf_lt per r (hf r (.head _)) v hv).1)
    obtain ⟨cs1, b1, b2, b3, b4⟩ := foldCores chip c (visitsOf per r) ps ps1 cs a1 (by omega)
    have hne : visitsOf per r ≠ [] := by
      intro he
      apply hn r (.head _)
      rw [← visitsOf_index, he]
      rfl
    obtain ⟨ps2, cs2, d1, d2, d3, d4, d5⟩ := ih (c + 1) ps1 cs1 (fun r hr => hf r (.tail _ hr))
      (fun r hr => hn r (.tail _ hr)) (by rw [a2, hl]) (by omega) (by
        intro g h1 h2
        rw [b3 g (by omega)]
        exact hz g (by omega) (by omega))
    refine ⟨ps2, cs2, ?_, overwritten_cons (upd := coreEntry) (fun _ _ _ _ _ => rfl) a2 a3 d2, d3.trans b2, ?_, ?_⟩
    · rw [foldRecords, b1]
      exact d1
    · intro g hg
      rw [d4 g (by omega), b3 g (by omega)]
    · intro g h1 h2
      rcases Nat.lt_or_ge c g with hlt | hge
      · exact d5 g hlt (by omega)
      · have : g = c := by omega
        subst this
        rw [d4 g (by omega), b4 _ (hz g (Nat.le_refl _) (by omega)), if_neg hne]
        rfl

/-- The first pass over cores only tests the indices. -/
theorem cores_first (per : List Nat) {σ : Type} : ∀ (R : List Info) (c : Nat) (s : σ),
    foldRecords (fun _ r s => (visitsOf per r).foldlM (fun s (_ : Visit) => some s) s) R c s = some s := by
  have key : ∀ (vs : List Visit) (s : σ), vs.foldlM (fun s (_ : Visit) => some s) s = some s := by
    intro vs
    induction vs with
    | nil => intro s; rfl
    | cons v vs ih => intro s; exact ih s
  intro R
  induction R with
  | nil => intro c s; rfl
  | cons r R ih =>
    intro c s
    rw [foldRecords, key]
    exact ih (c + 1) s

end Verif.ArmWin
