import Verif.Proof.RiscvSafe

/-!
# What arbitrary sibling lists make of the first RISC-V processor

The lists need not be consistent with each other.
-/

set_option autoImplicit false

namespace Verif.Riscv
open Spec Processors
open Platform (put)
open ArmClusters (forRange)

/-- A processor of a table is valid. -/
def V (t : List Proc) (k : Nat) : Prop := ∃ p, t[k]? = some p ∧ p.valid = true

theorem V_congr {t t' : List Proc} (h : vs t' = vs t) (k : Nat) : V t' k ↔ V t k := by
  have key : ∀ t : List Proc, V t k ↔ (vs t)[k]?.map Prod.fst = some true := by
    intro t
    unfold vs V
    rw [List.getElem?_map, Option.map_map]
    constructor
    · rintro ⟨p, h1, h2⟩
      rw [h1]
      exact congrArg some h2
    · intro h
      obtain ⟨p, h1, h2⟩ := Option.map_eq_some_iff.mp h
      exact ⟨p, h1, h2⟩
  rw [key, key, h]

/-- The group of a processor in a table. -/
def grpAt (l : Lvl) (t : List Proc) (k : Nat) : Option Group := t[k]?.map (·.get l)

/-- The start of a scan: it is kept, or the first valid processor of the range is taken. -/
def ScanStart (t : List Proc) (st0 a b start : Nat) : Prop :=
  (st0 ≠ U32MAX ∧ start = st0) ∨
  (st0 = U32MAX ∧ start = U32MAX ∧ ∀ k, a ≤ k → k < b → ¬ V t k) ∨
  (st0 = U32MAX ∧ a ≤ start ∧ start < b ∧ V t start ∧ ∀ k, a ≤ k → k < start → ¬ V t k)

open Classical in
/-- What a scan leaves of an entry. -/
noncomputable def scanned (l : Lvl) (t : List Proc) (a b start k : Nat) (p : Proc) : Proc :=
  if a ≤ k ∧ k < b ∧ V t k then p.set l { p.get l with leader := start } else p

theorem scanned_valid (l : Lvl) (t : List Proc) (a b start k : Nat) (p : Proc) :
    (scanned l t a b start k p).valid = p.valid := by
  unfold scanned
  split
  · exact set_valid _ _ _
  · rfl

theorem scanned_get (l : Lvl) (t : List Proc) (a b start k : Nat) (p : Proc) :
    (¬ (a ≤ k ∧ k < b ∧ V t k) → scanned l t a b start k p = p) ∧
    ((a ≤ k ∧ k < b ∧ V t k) →
      (scanned l t a b start k p).get l = { p.get l with leader := start }) ∧
    ∀ l', l' ≠ l → (scanned l t a b start k p).get l' = p.get l' := by
  unfold scanned
  refine ⟨fun h => if_neg h, fun h => by rw [if_pos h, get_set], fun l' hl => ?_⟩
  split
  · cases l <;> cases l' <;> first | rfl | exact absurd rfl hl
  · rfl

theorem scan_up (l : Lvl) (t : List Proc) (st0 a b : Nat) (hab : a ≤ b) (hb : b ≤ t.length)
    (hn : t.length ≤ U32MAX) :
    ∃ s, forRange (scanStep l) (b - a) a (t, ⟨st0, 0, 0, 0⟩) = some s ∧ vs s.1 = vs t ∧
      (∀ k, s.1[k]? = t[k]?.map (scanned l t a b s.2.start k)) ∧ ScanStart t st0 a b s.2.start ∧
      (s.2.processors = 0 ↔ ∀ k, a ≤ k → k < b → ¬ V t k) := by
  refine ArmClusters.forRange_total (scanStep l) (fun j (s : List Proc × Scan) =>
      a ≤ j ∧ vs s.1 = vs t ∧ (∀ k, s.1[k]? = t[k]?.map (scanned l t a j s.2.start k)) ∧
      ScanStart t st0 a j s.2.start ∧ (s.2.processors = 0 ↔ ∀ k, a ≤ k → k < j → ¬ V t k)) b
    (fun j s hj hP => ?_) (b - a) a _ (by omega) ?_ |>.imp fun s h => ⟨h.1, h.2.2⟩
  · obtain ⟨haj, h1, h2, h3, h4⟩ := hP
    have hlen := vs_length h1
    have hget : s.1[j]? = t[j]? := by
      rw [h2 j, List.getElem?_eq_getElem (by omega), Option.map_some,
        (scanned_get l t a j s.2.start j t[j]).1 (by omega)]
    obtain ⟨p, hp⟩ : ∃ p, t[j]? = some p := ⟨t[j], List.getElem?_eq_getElem (by omega)⟩
    rw [hp] at hget
    unfold scanStep
    rw [hget]
    by_cases hv : p.valid = true
    · have hV : V t j := ⟨p, hp, hv⟩
      simp only [Option.bind_eq_bind, Option.bind_some, if_pos hv, put_some _ (show j < s.1.length by omega)]
      refine ⟨_, rfl, Nat.le_succ_of_le haj, ⟨(vs_set hget (set_valid _ _ _) (set_linuxId _ _ _)).trans h1,
        fun k => ?_, ?_, ?_⟩⟩
      · dsimp only
        rw [get?_set _ _ _ (by omega)]
        by_cases e : k = j
        · subst e
          rw [if_pos rfl, hp, Option.map_some]
          unfold scanned
          exact congrArg some (if_pos (c := a ≤ k ∧ k < k + 1 ∧ V t k) ⟨haj, by omega, hV⟩).symm
        · rw [if_neg e, h2 k]
          cases t[k]? with
          | none => rfl
          | some q =>
            rw [Option.map_some, Option.map_some]
            refine congrArg some ?_
            unfold scanned
            by_cases hk : a ≤ k ∧ k < j ∧ V t k
            · rw [if_pos hk, if_pos ⟨hk.1, by omega, hk.2.2⟩]
              have : s.2.start ≠ U32MAX := by
                rcases h3 with ⟨g1, g2⟩ | ⟨_, _, g3⟩ | ⟨_, _, g3, _⟩
                · omega
                · exact absurd hk.2.2 (g3 k hk.1 hk.2.1)
                · omega
              rw [if_neg this]
            · rw [if_neg hk, if_neg (fun h => hk ⟨h.1, by omega, h.2.2⟩)]
      · dsimp only
        rcases h3 with ⟨g1, g2⟩ | ⟨g1, g2, g3⟩ | ⟨g1, g2, g3, g4⟩
        · exact .inl ⟨g1, by rw [if_neg (by omega)]; exact g2⟩
        · rw [if_pos g2]
          exact .inr (.inr ⟨g1, haj, by omega, hV, g3⟩)
        · rw [if_neg (by omega)]
          exact .inr (.inr ⟨g1, g2, by omega, g4⟩)
      · dsimp only
        exact ⟨fun h => by omega, fun h => absurd hV (h j haj (by omega))⟩
    · have hV : ¬ V t j := by
        rintro ⟨q, hq, hq'⟩
        rw [hp] at hq
        cases hq
        exact hv hq'
      simp only [Option.bind_eq_bind, Option.bind_some, if_neg hv, Option.pure_def]
      refine ⟨s, rfl, Nat.le_succ_of_le haj, ⟨h1, fun k => ?_, ?_, ?_⟩⟩
      · rw [h2 k]
        cases t[k]? with
        | none => rfl
        | some q =>
          rw [Option.map_some, Option.map_some]
          refine congrArg some ?_
          unfold scanned
          by_cases hk : a ≤ k ∧ k < j ∧ V t k
          · rw [if_pos hk, if_pos ⟨hk.1, by omega, hk.2.2⟩]
          · rw [if_neg hk, if_neg]
            rintro ⟨x1, x2, x3⟩
            have : k ≠ j := fun e => hV (e ▸ x3)
            exact hk ⟨x1, by omega, x3⟩
      · have ext : ∀ x, (∀ k, a ≤ k → k < x → ¬ V t k) → x = j → ∀ k, a ≤ k → k < j + 1 → ¬ V t k := by
          rintro x hx rfl k hk1 hk2
          by_cases e : k = x
          · rw [e]; exact hV
          · exact hx k hk1 (by omega)
        rcases h3 with g | ⟨g1, g2, g3⟩ | ⟨g1, g2, g3, g4⟩
        · exact .inl g
        · exact .inr (.inl ⟨g1, g2, ext j g3 rfl⟩)
        · exact .inr (.inr ⟨g1, g2, by omega, g4⟩)
      · rw [h4]
        constructor
        · intro h k hk1 hk2
          by_cases e : k = j
          · rw [e]; exact hV
          · exact h k hk1 (by omega)
        · exact fun h k hk1 hk2 => h k hk1 (by omega)
  · refine ⟨Nat.le_refl a, rfl, fun k => ?_, ?_, ?_⟩
    · cases t[k]? with
      | none => rfl
      | some q =>
        rw [Option.map_some]
        exact congrArg some ((scanned_get l t a a _ k q).1 (by omega)).symm
    · by_cases e : st0 = U32MAX
      · exact .inr (.inl ⟨e, e, fun k h1 h2 => by omega⟩)
      · exact .inl ⟨e, rfl⟩
    · exact ⟨fun _ k h1 h2 => by omega, fun _ => rfl⟩

theorem scan_any (l : Lvl) (t : List Proc) (st0 a b : Nat) (hb : b ≤ t.length)
    (hn : t.length ≤ U32MAX) :
    ∃ s, forRange (scanStep l) (b - a) a (t, ⟨st0, 0, 0, 0⟩) = some s ∧ vs s.1 = vs t ∧
      (∀ k, s.1[k]? = t[k]?.map (scanned l t a b s.2.start k)) ∧ ScanStart t st0 a b s.2.start ∧
      (s.2.processors = 0 ↔ ∀ k, a ≤ k → k < b → ¬ V t k) := by
  by_cases hab : a ≤ b
  · exact scan_up l t st0 a b hab hb hn
  · rw [show b - a = 0 by omega]
    refine ⟨_, rfl, rfl, fun k => ?_, ?_, ?_⟩
    · cases t[k]? with
      | none => rfl
      | some q =>
        rw [Option.map_some]
        exact congrArg some ((scanned_get l t a b _ k q).1 (by omega)).symm
    · by_cases e : st0 = U32MAX
      · exact .inr (.inl ⟨e, e, fun k h1 h2 => by omega⟩)
      · exact .inl ⟨e, rfl⟩
    · exact ⟨fun _ k h1 h2 => by omega, fun _ => rfl⟩

/-- What the parser starts from. -/
def begin (g : Group) : Nat := if g.seen then g.leader else U32MAX

/-- The end of the parser for a group. -/
def finGroup (g : Group) (s : Scan) : Group :=
  let g := if ¬ g.seen ∨ g.start > s.start then { g with start := s.start, leader := s.start } else g
  { g with
    processorCount := (g.processorCount + s.processors) % U32
    coreCount := (g.coreCount + s.cores) % U32
    clusterCount := (g.clusterCount + s.clusters) % U32
    seen := true }

theorem finGroup_leader (g : Group) (s : Scan) :
    (finGroup g s).leader = s.start ∨ (g.seen = true ∧ (finGroup g s).leader = g.leader) := by
  unfold finGroup
  by_cases c : ¬ g.seen = true ∨ g.start > s.start
  · rw [if_pos c]; exact .inl rfl
  · rw [if_neg c]
    exact .inr ⟨Classical.byContradiction fun h' => c (.inl h'), rfl⟩

/-- One range of the list of a processor. -/
theorem parser_any (l : Lvl) (i a b : Nat) (t : List Proc) (hi : i < t.length) (hb : b ≤ t.length)
    (hn : t.length ≤ U32MAX) :
    ∃ t' count start g g', parser l i a b t = some (t', count) ∧ vs t' = vs t ∧
      (count = 0 ↔ ∀ k, a ≤ k → k < b → ¬ V t k) ∧ grpAt l t i = some g ∧ grpAt l t' i = some g' ∧
      ScanStart t (begin g) a b start ∧ g'.seen = true ∧
      (g'.leader = start ∨ (g.seen = true ∧ g'.leader = g.leader ∧ ¬ (a ≤ i ∧ i < b ∧ V t i))) ∧
      (∀ k h, k ≠ i → grpAt l t k = some h → ∃ h', grpAt l t' k = some h' ∧ h'.seen = h.seen ∧
        ((a ≤ k ∧ k < b ∧ V t k) → h'.leader = start) ∧
        (¬ (a ≤ k ∧ k < b ∧ V t k) → h'.leader = h.leader)) ∧
      ∀ k l', l' ≠ l → grpAt l' t' k = grpAt l' t k := by
  obtain ⟨p, hp⟩ : ∃ p, t[i]? = some p := ⟨t[i], List.getElem?_eq_getElem hi⟩
  obtain ⟨s, e1, e2, e3, e4, e5⟩ := scan_any l t (begin (p.get l)) a b hb hn
  have hlen := vs_length e2
  have hq : s.1[i]? = some (scanned l t a b s.2.start i p) := by rw [e3 i, hp]; rfl
  obtain ⟨n1, n2, n3⟩ := scanned_get l t a b s.2.start i p
  have qseen : ((scanned l t a b s.2.start i p).get l).seen = (p.get l).seen := by
    by_cases e : a ≤ i ∧ i < b ∧ V t i
    · rw [n2 e]
    · rw [n1 e]
  have qlead : ((scanned l t a b s.2.start i p).get l).leader = s.2.start ∨
      (((scanned l t a b s.2.start i p).get l).leader = (p.get l).leader ∧
        ¬ (a ≤ i ∧ i < b ∧ V t i)) := by
    by_cases e : a ≤ i ∧ i < b ∧ V t i
    · rw [n2 e]; exact .inl rfl
    · rw [n1 e]; exact .inr ⟨rfl, e⟩
  generalize hqq : scanned l t a b s.2.start i p = q at *
  have hpars : ∃ g', g'.seen = true ∧
      (g'.leader = s.2.start ∨ ((p.get l).seen = true ∧ g'.leader = (p.get l).leader ∧
        ¬ (a ≤ i ∧ i < b ∧ V t i))) ∧
      parser l i a b t = some (s.1.set i (q.set l g'), s.2.processors) := by
    refine ⟨finGroup (q.get l) s.2, rfl, ?_, ?_⟩
    · rcases finGroup_leader (q.get l) s.2 with h | ⟨h1, h2⟩
      · exact .inl h
      · rcases qlead with h | h
        · exact .inl (h2.trans h)
        · exact .inr ⟨qseen ▸ h1, h2.trans h.1, h.2⟩
    · unfold parser finishParser
      rw [hp]
      simp only [Option.bind_eq_bind, Option.bind_some]
      show Option.bind (forRange (scanStep l) (b - a) a (t, ⟨begin (p.get l), 0, 0, 0⟩)) _ = _
      rw [e1, Option.bind_some]
      simp only [hq, Option.bind_some, put_some _ (show i < s.1.length by omega), Option.pure_def]
      rfl
  obtain ⟨g', g1, g2, g3⟩ := hpars
  have hget : ∀ k, (s.1.set i (q.set l g'))[k]? = if k = i then some (q.set l g') else s.1[k]? :=
    fun k => get?_set _ _ _ (by omega) k
  refine ⟨_, _, s.2.start, p.get l, g', g3, ?_, e5, ?_, ?_, e4, g1, g2, ?_, ?_⟩
  · exact (vs_set hq (set_valid _ _ _) (set_linuxId _ _ _)).trans e2
  · unfold grpAt; rw [hp]; rfl
  · unfold grpAt; rw [hget, if_pos rfl, Option.map_some, get_set]
  · intro k h hk hh
    unfold grpAt at hh ⊢
    obtain ⟨r, hr, hr'⟩ := Option.map_eq_some_iff.mp hh
    obtain ⟨m1, m2, _⟩ := scanned_get l t a b s.2.start k r
    rw [hget, if_neg hk, e3 k, hr]
    refine ⟨_, rfl, ?_, fun e => ?_, fun e => ?_⟩ <;> dsimp only
    · by_cases e : a ≤ k ∧ k < b ∧ V t k
      · rw [m2 e, ← hr']
      · rw [m1 e, ← hr']
    · rw [m2 e]
    · rw [m1 e, ← hr']
  · intro k l' hl
    unfold grpAt
    rw [hget]
    by_cases e : k = i
    · subst e
      rw [if_pos rfl, hp, Option.map_some, Option.map_some, ← n3 l' hl]
      refine congrArg some ?_
      cases l <;> cases l' <;> first | rfl | exact absurd rfl hl
    · rw [if_neg e, e3 k]
      cases t[k]? with
      | none => rfl
      | some r => exact congrArg some ((scanned_get l t a b s.2.start k r).2.2 l' hl)

theorem V_lt {t : List Proc} {k : Nat} (h : V t k) : k < t.length := by
  obtain ⟨p, hp, _⟩ := h
  exact (List.getElem?_eq_some_iff.mp hp).1

/-- One range of a list as the callback gets it. -/
theorem range_any (l : Lvl) (i n : Nat) (r : Nat × Nat) (t : List Proc) (ht : t.length = n) (hi : i < n)
    (hn : n ≤ U32MAX) (hr : r.2 < U32MAX) :
    ∃ t' ok start g g', siblingsCallback n i (callback l) (some t) r.1 ((r.2 + 1) % U32) =
        (some t', ok) ∧ vs t' = vs t ∧
      (ok = true ↔ l ≠ .core ∨ ∃ k, r.1 ≤ k ∧ k ≤ r.2 ∧ V t k) ∧
      grpAt l t i = some g ∧ grpAt l t' i = some g' ∧
      ScanStart t (begin g) r.1 (r.2 + 1) start ∧ g'.seen = true ∧
      (g'.leader = start ∨
        (g.seen = true ∧ g'.leader = g.leader ∧ ¬ (r.1 ≤ i ∧ i ≤ r.2 ∧ V t i))) ∧
      (∀ k h, k ≠ i → grpAt l t k = some h → ∃ h', grpAt l t' k = some h' ∧ h'.seen = h.seen ∧
        ((r.1 ≤ k ∧ k ≤ r.2 ∧ V t k) → h'.leader = start) ∧
        (¬ (r.1 ≤ k ∧ k ≤ r.2 ∧ V t k) → h'.leader = h.leader)) ∧
      ∀ k l', l' ≠ l → grpAt l' t' k = grpAt l' t k := by
  subst ht
  have hmod : (r.2 + 1) % U32 = r.2 + 1 := Nat.mod_eq_of_lt (by omega)
  generalize hb : (if r.2 + 1 > t.length then t.length else r.2 + 1) = b
  have hb1 : b ≤ t.length := by rw [← hb]; split <;> omega
  have hb2 : ∀ k, k < t.length → (k < b ↔ k ≤ r.2) := by
    intro k hk
    rw [← hb]; split <;> omega
  have hV : ∀ k, (r.1 ≤ k ∧ k < b ∧ V t k) ↔ (r.1 ≤ k ∧ k ≤ r.2 ∧ V t k) := fun k =>
    ⟨fun ⟨x1, x2, x3⟩ => ⟨x1, (hb2 k (V_lt x3)).mp x2, x3⟩,
     fun ⟨x1, x2, x3⟩ => ⟨x1, (hb2 k (V_lt x3)).mpr x2, x3⟩⟩
  obtain ⟨t', cnt, start, g, g', e1, e2, e3, e4, e5, e6, e7, e8, e9, e10⟩ :=
    parser_any l i r.1 b t hi hb1 hn
  refine ⟨t', decide (l ≠ .core ∨ cnt ≠ 0), start, g, g', ?_, e2, ?_, e4, e5, ?_, e7,
    e8.imp id (fun ⟨x1, x2, x3⟩ => ⟨x1, x2, fun z => x3 ((hV i).mpr z)⟩), fun k h hk hh => ?_, e10⟩
  · unfold siblingsCallback callback
    rw [hmod, hb, Option.bind_some, e1]
  · rw [decide_eq_true_eq]
    refine or_congr Iff.rfl ⟨fun h => ?_, fun ⟨k, h1, h2, h3⟩ h => ?_⟩
    · refine Classical.byContradiction fun hno => h (e3.mpr fun k h1 h2 h3 => hno ⟨k, ?_⟩)
      exact (hV k).mp ⟨h1, h2, h3⟩
    · exact e3.mp h k h1 ((hb2 k (V_lt h3)).mpr h2) h3
  · rcases e6 with h | ⟨h1, h2, h3⟩ | ⟨h1, h2, h3, h4, h5⟩
    · exact .inl h
    · exact .inr (.inl ⟨h1, h2, fun k k1 k2 k3 => h3 k k1 ((hb2 k (V_lt k3)).mpr (by omega)) k3⟩)
    · exact .inr (.inr ⟨h1, h2, by have := (hb2 start (V_lt h4)).mp h3; omega, h4, h5⟩)
  · obtain ⟨h', f1, f2, f3, f4⟩ := e9 k h hk hh
    exact ⟨h', f1, f2, fun x => f3 ((hV k).mpr x), fun x => f4 fun z => x ((hV k).mp z)⟩

/-- Ranges in ascending order from a number on. -/
def AscFrom : Nat → List (Nat × Nat) → Prop
  | _, [] => True
  | b, r :: rs => b ≤ r.1 ∧ r.1 ≤ r.2 ∧ r.2 < U32MAX ∧ AscFrom (r.2 + 1) rs

theorem ascFrom_of (rs : List (Nat × Nat)) : ∀ b, (∀ r ∈ rs, b ≤ r.1 ∧ r.1 ≤ r.2 ∧ r.2 < U32MAX) →
    rs.Pairwise (fun r s => r.2 < s.1) → AscFrom b rs := by
  induction rs with
  | nil => exact fun _ _ _ => trivial
  | cons r rs ih =>
    intro b h hp
    obtain ⟨h1, h2, h3⟩ := h r (by simp)
    obtain ⟨p1, p2⟩ := List.pairwise_cons.mp hp
    exact ⟨h1, h2, h3, ih _ (fun s hs => ⟨p1 s hs, (h s (by simp [hs])).2⟩) p2⟩

/-- A processor is the leader that its entry names. -/
def Own (l : Lvl) (t : List Proc) (m : Nat) : Prop := ∃ g, grpAt l t m = some g ∧ g.leader = m

/-- Every range of a list contains a valid processor, if the level is that of cores. -/
def Hits (l : Lvl) (t : List Proc) (rs : List (Nat × Nat)) : Prop :=
  l ≠ .core ∨ ∀ r ∈ rs, ∃ k, r.1 ≤ k ∧ k ≤ r.2 ∧ V t k

theorem hits_cons {l : Lvl} {t t' : List Proc} (h : vs t' = vs t) (r : Nat × Nat)
    (rs : List (Nat × Nat)) : Hits l t (r :: rs) ↔
      (l ≠ .core ∨ ∃ k, r.1 ≤ k ∧ k ≤ r.2 ∧ V t k) ∧ Hits l t' rs := by
  unfold Hits
  simp only [V_congr h, List.forall_mem_cons]
  by_cases e : l = .core
  · simp [e]
  · simp [e]

/-- What a run keeps. -/
structure Kept (l : Lvl) (i : Nat) (t t' : List Proc) : Prop where
  valid : vs t' = vs t
  seen : ∀ k h, k ≠ i → grpAt l t k = some h → ∃ h', grpAt l t' k = some h' ∧ h'.seen = h.seen
  others : ∀ k l', l' ≠ l → grpAt l' t' k = grpAt l' t k

theorem Kept.trans {l : Lvl} {i : Nat} {a b c : List Proc} (h1 : Kept l i a b) (h2 : Kept l i b c) :
    Kept l i a c where
  valid := h2.valid.trans h1.valid
  seen k h hk hh := by
    obtain ⟨x, x1, x2⟩ := h1.seen k h hk hh
    obtain ⟨z, z1, z2⟩ := h2.seen k x hk x1
    exact ⟨z, z1, z2.trans x2⟩
  others k l' hl := (h2.others k l' hl).trans (h1.others k l' hl)

theorem mem_cover_cons {m : Nat} {r : Nat × Nat} {rs : List (Nat × Nat)} :
    m ∈ cover (r :: rs) ↔ (r.1 ≤ m ∧ m ≤ r.2) ∨ m ∈ cover rs := by
  simp only [mem_cover, List.mem_cons, exists_eq_or_imp]

theorem cover_from {rs : List (Nat × Nat)} : ∀ {b m : Nat}, AscFrom b rs → m ∈ cover rs → b ≤ m := by
  induction rs with
  | nil => intro b m _ h; cases h
  | cons r rs ih =>
    intro b m ha h
    obtain ⟨h1, h2, h3, h4⟩ := ha
    rcases mem_cover_cons.mp h with h | h
    · omega
    · have := ih h4 h; omega

section
variable {l : Lvl} {n m : Nat}

/-- The list of another processor than the first. -/
theorem run_other {i : Nat} (hn : n ≤ U32MAX) (hi : i < n) (him : i ≠ m) :
    ∀ (rs : List (Nat × Nat)) (b : Nat) (t : List Proc), t.length = n → V t m →
    (∀ k, V t k → m ≤ k) → AscFrom b rs →
    (b ≤ m → ∀ g, grpAt l t i = some g → begin g = U32MAX) →
    ∃ t' ok, runEntries (siblingsCallback n i (callback l)) (some t) (rs.map some) = (some t', ok) ∧
      Kept l i t t' ∧ (ok = true ↔ Hits l t rs) ∧ (Own l t' m ↔ Own l t m ∨ m ∈ cover rs) := by
  intro rs
  induction rs with
  | nil =>
    intro b t _ _ _ _ _
    refine ⟨t, true, rfl, ⟨rfl, fun k h _ hh => ⟨h, hh, rfl⟩, fun _ _ _ => rfl⟩, ?_, ?_⟩
    · exact ⟨fun _ => .inr fun r hr => (by cases hr), fun _ => rfl⟩
    · exact ⟨.inl, fun h => h.elim id fun h => by cases h⟩
  | cons r rs ih =>
    intro b t ht hm hmin ha hbeg
    obtain ⟨a1, a2, a3, a4⟩ := ha
    obtain ⟨t1, ok1, start, g, g', e1, e2, e3, e4, e5, e6, e7, e8, e9, e10⟩ :=
      range_any l i n r t ht hi hn a3
    have hlt := vs_length e2
    have hV := V_congr e2
    obtain ⟨gm, hgm⟩ : ∃ gm, grpAt l t m = some gm := by
      obtain ⟨p, hp, _⟩ := hm
      exact ⟨p.get l, by unfold grpAt; rw [hp]; rfl⟩
    obtain ⟨gm', f1, f2, f3, f4⟩ := e9 m gm (Ne.symm him) hgm
    have own1 : Own l t1 m ↔ Own l t m ∨ (r.1 ≤ m ∧ m ≤ r.2) := by
      have o1 : Own l t m ↔ gm.leader = m :=
        ⟨fun ⟨x, hx, hx'⟩ => by rw [hgm] at hx; cases hx; exact hx', fun h => ⟨gm, hgm, h⟩⟩
      have o2 : Own l t1 m ↔ gm'.leader = m :=
        ⟨fun ⟨x, hx, hx'⟩ => by rw [f1] at hx; cases hx; exact hx', fun h => ⟨gm', f1, h⟩⟩
      rw [o1, o2]
      by_cases e : r.1 ≤ m ∧ m ≤ r.2
      · have hb := hbeg (by omega) g e4
        have hs : start = m := by
          rcases e6 with ⟨h, _⟩ | ⟨_, _, h⟩ | ⟨_, h1, h2, h3, h4⟩
          · exact absurd hb h
          · exact absurd hm (h m e.1 (by omega))
          · have := hmin start h3
            rcases Nat.lt_or_eq_of_le this with h | h
            · exact absurd hm (h4 m e.1 h)
            · exact h.symm
        rw [f3 ⟨e.1, e.2, hm⟩, hs]
        exact ⟨fun _ => .inr e, fun _ => rfl⟩
      · rw [f4 fun h => e ⟨h.1, h.2.1⟩]
        exact ⟨.inl, fun h => h.elim id fun h => absurd h e⟩
    obtain ⟨t2, ok2, r1, r2, r3, r4⟩ := ih (r.2 + 1) t1 (by omega) ((hV m).mpr hm)
      (fun k hk => hmin k ((hV k).mp hk)) a4 (fun hb x hx => by
        rw [e5] at hx
        cases hx
        have hb0 := hbeg (by omega) g e4
        have hs : start = U32MAX := by
          rcases e6 with ⟨h, _⟩ | ⟨_, h, _⟩ | ⟨_, h1, h2, h3, h4⟩
          · exact absurd hb0 h
          · exact h
          · have := hmin start h3; omega
        unfold begin
        rw [if_pos e7]
        rcases e8 with h | ⟨h1, h2, _⟩
        · exact h.trans hs
        · rw [h2]
          unfold begin at hb0
          rw [if_pos h1] at hb0
          exact hb0)
    have k1 : Kept l i t t1 := ⟨e2, fun k h hk hh => by
      obtain ⟨h', x1, x2, _⟩ := e9 k h hk hh
      exact ⟨h', x1, x2⟩, e10⟩
    refine ⟨t2, ok1 && ok2, ?_, k1.trans r2, ?_, ?_⟩
    · rw [List.map_cons, runEntries, e1]
      dsimp only
      rw [r1]
    · rw [Bool.and_eq_true, e3, r3, hits_cons e2]
    · rw [r4, own1, mem_cover_cons, or_assoc]

/-- The list of the first processor. -/
theorem run_self (hn : n ≤ U32MAX) (hmn : m < n) :
    ∀ (rs : List (Nat × Nat)) (b : Nat) (t : List Proc) (g : Group), t.length = n → V t m →
    (∀ k, V t k → m ≤ k) → AscFrom b rs → grpAt l t m = some g →
    (b ≤ m → begin g = U32MAX ∧ (rs = [] → g.leader ≠ m)) → (m < b → g.seen = true) →
    ∃ t' ok, runEntries (siblingsCallback n m (callback l)) (some t) (rs.map some) = (some t', ok) ∧
      Kept l m t t' ∧ (ok = true ↔ Hits l t rs) ∧
      (Own l t' m ↔ (m < b ∧ g.leader = m) ∨ m ∈ cover rs) := by
  intro rs
  induction rs with
  | nil =>
    intro b t g _ _ _ _ hg hbeg _
    refine ⟨t, true, rfl, ⟨rfl, fun k h _ hh => ⟨h, hh, rfl⟩, fun _ _ _ => rfl⟩, ?_, ?_⟩
    · exact ⟨fun _ => .inr fun r hr => (by cases hr), fun _ => rfl⟩
    · constructor
      · rintro ⟨x, hx, hx'⟩
        rw [hg] at hx
        cases hx
        refine .inl ⟨?_, hx'⟩
        exact Classical.byContradiction fun h => (hbeg (by omega)).2 rfl hx'
      · rintro (⟨_, h⟩ | h)
        · exact ⟨g, hg, h⟩
        · cases h
  | cons r rs ih =>
    intro b t g ht hm hmin ha hg hbeg hseen
    obtain ⟨a1, a2, a3, a4⟩ := ha
    obtain ⟨t1, ok1, start, g0, g', e1, e2, e3, e4, e5, e6, e7, e8, e9, e10⟩ :=
      range_any l m n r t ht hmn hn a3
    rw [hg] at e4
    cases e4
    have hlt := vs_length e2
    have hV := V_congr e2
    have hmU : m ≠ U32MAX := by omega
    -- the leader afterwards
    have hlead : g'.leader = m ↔ (m < b ∧ g.leader = m) ∨ (r.1 ≤ m ∧ m ≤ r.2) := by
      by_cases hb : m < b
      · have hs := hseen hb
        have hbg : begin g = g.leader := by unfold begin; rw [if_pos hs]
        rw [hbg] at e6
        have hout : ¬ (r.1 ≤ m ∧ m ≤ r.2) := by omega
        have hst : start = m ↔ g.leader = m := by
          rcases e6 with ⟨_, h⟩ | ⟨h1, h2, _⟩ | ⟨h1, h2, h3, _⟩
          · rw [h]
          · rw [h1, h2]
          · rw [h1]
            exact ⟨fun h => by omega, fun h => absurd h.symm hmU⟩
        rcases e8 with h | ⟨_, h, _⟩
        · rw [h, hst]
          exact ⟨fun h => .inl ⟨hb, h⟩, fun h => h.elim (·.2) fun h => absurd h hout⟩
        · rw [h]
          exact ⟨fun h => .inl ⟨hb, h⟩, fun h => h.elim (·.2) fun h => absurd h hout⟩
      · obtain ⟨hb0, _⟩ := hbeg (by omega)
        have hst : start = m ↔ (r.1 ≤ m ∧ m ≤ r.2) := by
          rcases e6 with ⟨h, _⟩ | ⟨_, h2, h3⟩ | ⟨_, h2, h3, h4, h5⟩
          · exact absurd hb0 h
          · exact ⟨fun h => by omega, fun h => absurd hm (h3 m h.1 (by omega))⟩
          · refine ⟨fun h => by omega, fun h => ?_⟩
            have := hmin start h4
            rcases Nat.lt_or_eq_of_le this with h' | h'
            · exact absurd hm (h5 m h.1 h')
            · exact h'.symm
        have hgl : g.seen = true → g.leader = U32MAX := fun h => by
          unfold begin at hb0
          rw [if_pos h] at hb0
          exact hb0
        rcases e8 with h | ⟨h1, h2, h3⟩
        · rw [h, hst]
          exact ⟨.inr, fun h => h.elim (fun h => absurd h.1 hb) id⟩
        · rw [h2, hgl h1]
          refine ⟨fun h => absurd h.symm hmU, fun h => h.elim (fun h => absurd h.1 hb) fun h => ?_⟩
          exact absurd ⟨h.1, h.2, hm⟩ h3
    obtain ⟨t2, ok2, r1, r2, r3, r4⟩ := ih (r.2 + 1) t1 g' (by omega) ((hV m).mpr hm)
      (fun k hk => hmin k ((hV k).mp hk)) a4 e5 (fun hb => by
        obtain ⟨hb0, _⟩ := hbeg (by omega)
        have hgl : g.seen = true → g.leader = U32MAX := fun h => by
          unfold begin at hb0
          rw [if_pos h] at hb0
          exact hb0
        have hs : start = U32MAX := by
          rcases e6 with ⟨h, _⟩ | ⟨_, h, _⟩ | ⟨_, h1, h2, h3, h4⟩
          · exact absurd hb0 h
          · exact h
          · have := hmin start h3; omega
        have : g'.leader = U32MAX := by
          rcases e8 with h | ⟨h1, h2, _⟩
          · exact h.trans hs
          · rw [h2]; exact hgl h1
        refine ⟨?_, fun _ => by omega⟩
        unfold begin
        rw [if_pos e7]
        exact this) (fun _ => e7)
    have k1 : Kept l m t t1 := ⟨e2, fun k h hk hh => by
      obtain ⟨h', x1, x2, _⟩ := e9 k h hk hh
      exact ⟨h', x1, x2⟩, e10⟩
    refine ⟨t2, ok1 && ok2, ?_, k1.trans r2, ?_, ?_⟩
    · rw [List.map_cons, runEntries, e1]
      dsimp only
      rw [r1]
    · rw [Bool.and_eq_true, e3, r3, hits_cons e2]
    · rw [r4, hlead, mem_cover_cons, ← or_assoc]
      refine or_congr ⟨fun h => h.2, fun h => ⟨?_, h⟩⟩ Iff.rfl
      omega

/-- The list file of a valid processor. -/
theorem readGroup_any (y : System) {i : Nat} {t : List Proc} (hn : t.length ≤ U32MAX) (hi : i < t.length)
    (hm : V t m) (hmin : ∀ k, V t k → m ≤ k) {rs : List (Nat × Nat)} (hne : rs ≠ [])
    (ha : AscFrom 0 rs) (hf : (y.cpus l i).1 = some (printCpuList rs)) (hs : (y.cpus l i).2.NoError)
    (hu : ∀ g, grpAt l t i = some g → g.seen = false) :
    (Hits l t rs → ∃ t', readGroup y l i t = some (some t') ∧ Kept l i t t' ∧
      (Own l t' m ↔ (i ≠ m ∧ Own l t m) ∨ m ∈ cover rs)) ∧
    (¬ Hits l t rs → readGroup y l i t = some none) := by
  have hrs : ∀ (rs : List (Nat × Nat)) (b : Nat), AscFrom b rs → ∀ r ∈ rs, r.1 ≤ r.2 ∧ r.2 < U32 := by
    intro rs
    induction rs with
    | nil => intro b _ r hr; cases hr
    | cons r rs ih =>
      intro b h x hx
      obtain ⟨_, h2, h3, h4⟩ := h
      rcases List.mem_cons.mp hx with rfl | hx
      · exact ⟨h2, by omega⟩
      · exact ih _ h4 x hx
  have hbeg : ∀ g, grpAt l t i = some g → begin g = U32MAX := fun g hg => by
    unfold begin
    rw [hu g hg]
    rfl
  have key : ∃ t' ok, runEntries (siblingsCallback t.length i (callback l)) (some t) (rs.map some) =
      (some t', ok) ∧ Kept l i t t' ∧ (ok = true ↔ Hits l t rs) ∧
      (Own l t' m ↔ (i ≠ m ∧ Own l t m) ∨ m ∈ cover rs) := by
    by_cases e : i = m
    · subst e
      obtain ⟨g, hg⟩ : ∃ g, grpAt l t i = some g := by
        obtain ⟨p, hp, _⟩ := hm
        exact ⟨p.get l, by unfold grpAt; rw [hp]; rfl⟩
      obtain ⟨t', ok, h1, h2, h3, h4⟩ := run_self (l := l) hn hi rs 0 t g rfl hm hmin ha hg
        (fun _ => ⟨hbeg g hg, fun h => absurd h hne⟩) (fun h => absurd h (Nat.not_lt_zero _))
      refine ⟨t', ok, h1, h2, h3, h4.trans (or_congr ⟨fun h => absurd h.1 (Nat.not_lt_zero _),
        fun h => absurd rfl h.1⟩ Iff.rfl)⟩
    · obtain ⟨t', ok, h1, h2, h3, h4⟩ := run_other (l := l) hn hi e rs 0 t rfl hm hmin ha
        (fun _ => hbeg)
      exact ⟨t', ok, h1, h2, h3, h4.trans (or_congr ⟨fun h => ⟨e, h⟩, fun h => h.2⟩ Iff.rfl)⟩
  obtain ⟨t', ok, h1, h2, h3, h4⟩ := key
  obtain ⟨es, he1, he2, he3, he4, he5⟩ := printed_entries rs hne (hrs rs 0 ha)
  have hread : readGroup y l i t = if ok = true then some (some t') else some none := by
    unfold readGroup detectSiblings
    rw [hf, he1, Props.C01_cpulist_independent_of_reads _ (some t) _ hs es (rs.map some) he2 he3 he4
      ⟨fun e he => by have := he5 e (List.dropLast_subset _ he); omega,
       fun e he => by have := he5 e (List.mem_of_getLast? he); omega⟩, h1]
    rfl
  rw [hread]
  exact ⟨fun h => ⟨t', if_pos (h3.mpr h), h2, h4⟩, fun h => if_neg fun hok => h (h3.mp hok)⟩

/-- The round of a processor. -/
theorem groupRound_any (y : System) {i : Nat} {t : List Proc} (hn : t.length ≤ U32MAX)
    (hi : V t i) (hm : V t m) (hmin : ∀ k, V t k → m ≤ k) {rs : List (Nat × Nat)} (hne : rs ≠ [])
    (ha : AscFrom 0 rs) (hf : (y.cpus l i).1 = some (printCpuList rs)) (hs : (y.cpus l i).2.NoError)
    (hu : ∀ g, grpAt l t i = some g → g.seen = false) :
    (Hits l t rs → ∃ t', groupRound y l i t = some (some t') ∧ Kept l i t t' ∧
      (Own l t' m ↔ (i ≠ m ∧ Own l t m) ∨ m ∈ cover rs)) ∧
    (¬ Hits l t rs → groupRound y l i t = some none) := by
  obtain ⟨h1, h2⟩ := readGroup_any (l := l) y hn (V_lt hi) hm hmin hne ha hf hs hu
  obtain ⟨p, hp, hv⟩ := hi
  have hg : groupRound y l i t = orFail (readGroup y l i t) fun t =>
      if l = .core then (coreDetails y i t).map some else some (some t) := by
    unfold groupRound
    rw [hp]
    simp only [Option.bind_eq_bind, Option.bind_some]
    exact if_pos hv
  rw [hg]
  refine ⟨fun h => ?_, fun h => by rw [h2 h]; rfl⟩
  obtain ⟨t', e1, e2, e3⟩ := h1 h
  rw [e1]
  show ∃ t'', (if l = .core then (coreDetails y i t').map some else some (some t')) = _ ∧ _
  by_cases e : l = .core
  · have hlen := vs_length e2.valid
    have hlt := (List.getElem?_eq_some_iff.mp hp).1
    rw [if_pos e, coreDetails_eq y i t' t'[i] (List.getElem?_eq_getElem (by omega))]
    have hgrp : ∀ l' k, grpAt l' (t'.set i (det y i t'[i])) k = grpAt l' t' k := by
      intro l' k
      unfold grpAt
      rw [get?_set _ _ _ (by omega)]
      by_cases ek : k = i
      · subst ek
        rw [if_pos rfl, List.getElem?_eq_getElem (by omega)]
        cases l' <;> rfl
      · rw [if_neg ek]
    refine ⟨_, rfl, e2.trans ⟨vs_set (List.getElem?_eq_getElem (by omega)) rfl rfl,
      fun k h _ hh => ⟨h, (hgrp l k).trans hh, rfl⟩, fun k l' _ => hgrp l' k⟩, ?_⟩
    unfold Own
    simp only [hgrp]
    exact e3
  · rw [if_neg e]; exact ⟨t', rfl, e2, e3⟩

theorem hits_congr {t t' : List Proc} (h : vs t' = vs t) (rs : List (Nat × Nat)) :
    Hits l t' rs ↔ Hits l t rs := by
  unfold Hits
  simp only [V_congr h]

/-- The loop over the processors for one level. -/
theorem phase_any (y : System) {t : List Proc} (hn : t.length ≤ U32MAX) (hm : V t m)
    (hmin : ∀ k, V t k → m ≤ k) (lists : Nat → List (Nat × Nat))
    (hl : ∀ i, V t i → lists i ≠ [] ∧ AscFrom 0 (lists i) ∧
      (y.cpus l i).1 = some (printCpuList (lists i)) ∧ (y.cpus l i).2.NoError)
    (hu : ∀ i g, grpAt l t i = some g → g.seen = false) :
    ((∀ i, V t i → Hits l t (lists i)) →
      ∃ t', overProcessors (groupRound y l) t.length 0 t = some (some t') ∧ vs t' = vs t ∧
        (∀ k l', l' ≠ l → grpAt l' t' k = grpAt l' t k) ∧
        (Own l t' m ↔ ∃ j, V t j ∧ m ∈ cover (lists j))) ∧
    ((∃ i, V t i ∧ ¬ Hits l t (lists i)) →
      overProcessors (groupRound y l) t.length 0 t = some none) := by
  have key : ∀ (c i : Nat) (s : List Proc), i + c = t.length → vs s = vs t →
      (∀ k l', l' ≠ l → grpAt l' s k = grpAt l' t k) →
      (∀ k g, i ≤ k → grpAt l s k = some g → g.seen = false) →
      (m < i → (Own l s m ↔ ∃ j, j < i ∧ V t j ∧ m ∈ cover (lists j))) →
      ((∀ j, i ≤ j → V t j → Hits l t (lists j)) →
        ∃ t', overProcessors (groupRound y l) c i s = some (some t') ∧ vs t' = vs t ∧
          (∀ k l', l' ≠ l → grpAt l' t' k = grpAt l' t k) ∧
          (Own l t' m ↔ ∃ j, V t j ∧ m ∈ cover (lists j))) ∧
      ((∃ j, i ≤ j ∧ V t j ∧ ¬ Hits l t (lists j)) →
        overProcessors (groupRound y l) c i s = some none) := by
    intro c
    induction c with
    | zero =>
      intro i s hi hvs hoth _ hown
      refine ⟨fun _ => ⟨s, rfl, hvs, hoth, ?_⟩, fun ⟨j, h1, h2, _⟩ => ?_⟩
      · rw [hown (by have := V_lt hm; omega)]
        exact ⟨fun ⟨j, _, h⟩ => ⟨j, h⟩, fun ⟨j, h⟩ => ⟨j, by have := V_lt h.1; omega, h⟩⟩
      · have := V_lt h2; omega
    | succ c ih =>
      intro i s hi hvs hoth hseen hown
      have hlen := vs_length hvs
      have hVs := V_congr hvs
      rw [overProcessors]
      by_cases hv : V t i
      · obtain ⟨l1, l2, l3, l4⟩ := hl i hv
        obtain ⟨g1, g2⟩ := groupRound_any (l := l) y (t := s) (by omega) ((hVs i).mpr hv)
          ((hVs m).mpr hm) (fun k hk => hmin k ((hVs k).mp hk)) l1 l2 l3 l4
          (fun g hg => hseen i g (Nat.le_refl _) hg)
        rw [hits_congr hvs] at g1 g2
        by_cases hh : Hits l t (lists i)
        · obtain ⟨s', e1, e2, e3⟩ := g1 hh
          rw [e1]
          obtain ⟨r1, r2⟩ := ih (i + 1) s' (by omega) (e2.valid.trans hvs)
            (fun k l' h => (e2.others k l' h).trans (hoth k l' h))
            (fun k g hk hg => by
              have hks : k < s.length := by
                obtain ⟨q, hq, _⟩ := Option.map_eq_some_iff.mp hg
                have := (List.getElem?_eq_some_iff.mp hq).1
                have := vs_length e2.valid
                omega
              have hg0 : grpAt l s k = some (s[k].get l) := by
                unfold grpAt; rw [List.getElem?_eq_getElem hks]; rfl
              obtain ⟨h', x1, x2⟩ := e2.seen k _ (by omega) hg0
              rw [hg] at x1
              cases x1
              rw [x2]
              exact hseen k _ (by omega) hg0)
            (fun hmi => by
              rw [e3]
              by_cases e : i = m
              · subst e
                constructor
                · rintro (h | h)
                  · exact absurd rfl h.1
                  · exact ⟨i, by omega, hv, h⟩
                · rintro ⟨j, h1, h2, h3⟩
                  have := hmin j h2
                  have : j = i := by omega
                  subst this
                  exact .inr h3
              · have hlt : m < i := by omega
                rw [hown hlt]
                constructor
                · rintro (⟨_, j, h1, h2⟩ | h)
                  · exact ⟨j, by omega, h2⟩
                  · exact ⟨i, by omega, hv, h⟩
                · rintro ⟨j, h1, h2, h3⟩
                  by_cases ej : j = i
                  · subst ej; exact .inr h3
                  · exact .inl ⟨e, j, by omega, h2, h3⟩)
          refine ⟨fun h => r1 fun j hj => h j (by omega), fun ⟨j, h1, h2, h3⟩ => r2 ⟨j, ?_, h2, h3⟩⟩
          have : j ≠ i := fun ej => h3 (ej ▸ hh)
          omega
        · rw [g2 hh]
          exact ⟨fun h => absurd (h i (Nat.le_refl _) hv) hh, fun _ => rfl⟩
      · have hround : groupRound y l i s = some (some s) := by
          have his : i < s.length := by omega
          unfold groupRound
          rw [List.getElem?_eq_getElem his]
          simp only [Option.bind_eq_bind, Option.bind_some]
          refine if_neg fun h => hv ((hVs i).mp ⟨_, List.getElem?_eq_getElem his, h⟩)
        rw [hround]
        obtain ⟨r1, r2⟩ := ih (i + 1) s (by omega) hvs hoth (fun k g hk => hseen k g (by omega))
          (fun hmi => by
            have hne : m ≠ i := fun e => hv (e ▸ hm)
            rw [hown (by omega)]
            exact ⟨fun ⟨j, h1, h2⟩ => ⟨j, by omega, h2⟩, fun ⟨j, h1, h2⟩ => ⟨j, by
              have : j ≠ i := fun e => hv (e ▸ h2.1)
              omega, h2⟩⟩)
        refine ⟨fun h => r1 fun j hj => h j (by omega), fun ⟨j, h1, h2, h3⟩ => r2 ⟨j, ?_, h2, h3⟩⟩
        have : j ≠ i := fun ej => hv (ej ▸ h2)
        omega
  obtain ⟨k1, k2⟩ := key t.length 0 t (by omega) rfl (fun _ _ _ => rfl) (fun k g _ => hu k g)
    (fun h => absurd h (Nat.not_lt_zero _))
  exact ⟨fun h => k1 fun j _ => h j, fun ⟨j, h1, h2⟩ => k2 ⟨j, Nat.zero_le _, h1, h2⟩⟩

end

/-- Reading lists of any kind: it fails if a range of a core list names no present processor;
otherwise the first processor leads those of its groups in whose lists it is named. -/
theorem gather_lists {y : System} {n m : Nat} {present : Nat → Prop}
    {lists : Lvl → Nat → List (Nat × Nat)}
    (limit : ∃ v, y.kernelMax.1 = some (printNat v ++ [10]) ∧ y.kernelMax.2.NoError ∧ v < U32MAX ∧
      n ≤ v + 1)
    (list : ∃ rs, y.present.1 = some (printCpuList rs) ∧ y.present.2.NoError ∧ rs ≠ [] ∧
      (∀ r ∈ rs, r.1 ≤ r.2 ∧ r.2 < n) ∧ (∃ r ∈ rs, r.2 + 1 = n) ∧ ∀ i, present i ↔ i ∈ cover rs)
    (hl : ∀ l i, present i → lists l i ≠ [] ∧ AscFrom 0 (lists l i) ∧
      (y.cpus l i).1 = some (printCpuList (lists l i)) ∧ (y.cpus l i).2.NoError)
    (hm : present m) (hmin : ∀ k, present k → m ≤ k) :
    ((∀ i, present i → ∀ r ∈ lists .core i, ∃ k, r.1 ≤ k ∧ k ≤ r.2 ∧ present k) →
      ∃ t, gather y = some (some t) ∧ t.length = n ∧ (∀ k, V t k ↔ present k) ∧
        (∀ (i : Nat) p, t[i]? = some p → p.valid = true → p.linuxId = i) ∧
        ∀ l, Own l t m ↔ ∃ j, present j ∧ m ∈ cover (lists l j)) ∧
    ((∃ i, present i ∧ ∃ r ∈ lists .core i, ∀ k, r.1 ≤ k → k ≤ r.2 → ¬ present k) →
      gather y = some none) := by
  obtain ⟨hn0, hn1, hlt, mc, flags, e1, e2, d1, hflag⟩ := present_spec limit list
  have hn : (1 + (n - 1)) % U32 = n := by
    rw [Nat.mod_eq_of_lt (by omega)]; omega
  generalize ht0 : ((List.range n).map fun i =>
      let valid := (flags.getD i 0).testBit 0
      ({ zeroProc with valid := valid, linuxId := if valid then i else 0 } : Proc)) = t0
  have hl0 : t0.length = n := by rw [← ht0]; simp
  have hgather : gather y = orFail (overProcessors (groupRound y .core) n 0 t0) fun t =>
      orFail (overProcessors (groupRound y .cluster) n 0 t) fun t =>
      overProcessors (groupRound y .package) n 0 t := by
    unfold gather
    simp only [e1, e2, Option.bind_eq_bind, Option.bind_some, hn, d1, if_neg (show ¬ n = 0 by omega)]
    rw [← ht0]
    rfl
  have hget : ∀ i, i < n → t0[i]? = some { zeroProc with
      valid := (flags.getD i 0).testBit 0, linuxId := if (flags.getD i 0).testBit 0 then i else 0 } := by
    intro i hi
    rw [← ht0, List.getElem?_map, List.getElem?_range hi]; rfl
  have hV : ∀ k, V t0 k ↔ present k := by
    intro k
    constructor
    · intro h
      have hk : k < n := hl0 ▸ V_lt h
      obtain ⟨p, hp, hv⟩ := h
      rw [hget k hk] at hp
      cases hp
      exact (hflag k hk).mp hv
    · intro h
      exact ⟨_, hget k (hlt k h), (hflag k (hlt k h)).mpr h⟩
  have hunseen : ∀ l i g, grpAt l t0 i = some g → g.seen = false := by
    intro l i g hg
    unfold grpAt at hg
    obtain ⟨p, hp, rfl⟩ := Option.map_eq_some_iff.mp hg
    have hi : i < n := hl0 ▸ (List.getElem?_eq_some_iff.mp hp).1
    rw [hget i hi] at hp
    cases hp
    cases l <;> rfl
  have hm0 := (hV m).mpr hm
  have hmin0 : ∀ k, V t0 k → m ≤ k := fun k hk => hmin k ((hV k).mp hk)
  have hl' : ∀ l i, V t0 i → lists l i ≠ [] ∧ AscFrom 0 (lists l i) ∧
      (y.cpus l i).1 = some (printCpuList (lists l i)) ∧ (y.cpus l i).2.NoError :=
    fun l i hi => hl l i ((hV i).mp hi)
  have any : ∀ (l : Lvl), l ≠ .core → ∀ (t : List Proc) rs, Hits l t rs := fun l h t rs => .inl h
  obtain ⟨c1, c2⟩ := phase_any (l := .core) y (t := t0) (by omega) hm0 hmin0 (lists .core) (hl' .core)
    (hunseen .core)
  rw [hl0] at c1 c2
  rw [hgather]
  constructor
  · intro hits
    obtain ⟨t1, a1, a2, a3, a4⟩ := c1 fun i hi => .inr fun r hr => by
      obtain ⟨k, k1, k2, k3⟩ := hits i ((hV i).mp hi) r hr
      exact ⟨k, k1, k2, (hV k).mpr k3⟩
    have l1 := vs_length a2
    have v1 := V_congr a2
    obtain ⟨t2, b1, b2, b3, b4⟩ := (phase_any (l := .cluster) y (t := t1) (m := m) (by omega)
      ((v1 m).mpr hm0) (fun k hk => hmin0 k ((v1 k).mp hk)) (lists .cluster)
      (fun i hi => hl' .cluster i ((v1 i).mp hi))
      (fun i g hg => hunseen .cluster i g (by rw [← a3 i .cluster (by decide)]; exact hg))).1
      (fun i _ => any .cluster (by decide) _ _)
    have l2 := vs_length b2
    have v2 := V_congr b2
    obtain ⟨t3, f1, f2, f3, f4⟩ := (phase_any (l := .package) y (t := t2) (m := m) (by omega)
      ((v2 m).mpr ((v1 m).mpr hm0)) (fun k hk => hmin0 k ((v1 k).mp ((v2 k).mp hk))) (lists .package)
      (fun i hi => hl' .package i ((v1 i).mp ((v2 i).mp hi)))
      (fun i g hg => hunseen .package i g (by
        rw [← a3 i .package (by decide), ← b3 i .package (by decide)]; exact hg))).1
      (fun i _ => any .package (by decide) _ _)
    have l3 := vs_length f2
    have v3 := V_congr f2
    rw [l1, hl0] at b1
    rw [l2, l1, hl0] at f1
    have hvs : vs t3 = vs t0 := f2.trans (b2.trans a2)
    refine ⟨t3, ?_, by omega, fun k => (v3 k).trans ((v2 k).trans ((v1 k).trans (hV k))),
      fun i p hp hv => ?_, fun l => ?_⟩
    · rw [a1]
      show orFail (overProcessors (groupRound y .cluster) n 0 t1) _ = _
      rw [b1]
      exact f1
    · have hi : i < n := by have := (List.getElem?_eq_some_iff.mp hp).1; omega
      have h := congrArg (fun x : List (Bool × Nat) => x[i]?) hvs
      dsimp only [vs] at h
      rw [List.getElem?_map, List.getElem?_map, hp, hget i hi] at h
      have h := Option.some.inj h
      have h1 := congrArg Prod.fst h
      have h2 := congrArg Prod.snd h
      dsimp only at h1 h2
      rw [h2, ← h1, if_pos hv]
    · cases l with
      | package =>
        rw [f4]
        exact exists_congr fun j => and_congr ((v2 j).trans ((v1 j).trans (hV j))) Iff.rfl
      | cluster =>
        have : Own .cluster t3 m ↔ Own .cluster t2 m := by
          unfold Own; rw [f3 m .cluster (by decide)]
        rw [this, b4]
        exact exists_congr fun j => and_congr ((v1 j).trans (hV j)) Iff.rfl
      | core =>
        have : Own .core t3 m ↔ Own .core t1 m := by
          unfold Own; rw [f3 m .core (by decide), b3 m .core (by decide)]
        rw [this, a4]
        exact exists_congr fun j => and_congr (hV j) Iff.rfl
  · rintro ⟨i, hi, r, hr, hno⟩
    rw [c2 ⟨i, (hV i).mpr hi, fun h => ?_⟩]
    · rfl
    · rcases h with h | h
      · exact h rfl
      · obtain ⟨k, k1, k2, k3⟩ := h r hr
        exact hno k k1 k2 ((hV k).mp k3)

end Verif.Riscv
