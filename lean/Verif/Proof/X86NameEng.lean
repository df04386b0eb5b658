import Verif.Proof.X86Name
import Verif.Spec.X86Name

/-!
# Engineering samples
-/

set_option autoImplicit false

namespace Verif.X86Name
open Spec

/-- `At`, character by character. -/
def Reads (b : Bytes) (p : Nat) (w : Bytes) : Prop :=
  ∀ (j : Nat) (c : Byte), w[j]? = some c → b[p + j]? = some c

theorem at_of_reads {b : Bytes} {p : Nat} {w : Bytes} (hw : w ≠ []) (h : Reads b p w) :
    At b p w := by
  have hl : 0 < w.length := List.length_pos_iff.mpr hw
  have hlast := h (w.length - 1) (w[w.length - 1]) (List.getElem?_eq_getElem (by omega))
  have hlen : p + w.length ≤ b.length := by
    rcases Nat.lt_or_ge (p + (w.length - 1)) b.length with k | k
    · omega
    · rw [List.getElem?_eq_none k] at hlast; cases hlast
  refine ⟨b.take p, b.drop (p + w.length), ?_, by rw [List.length_take]; omega⟩
  apply List.ext_getElem?
  intro i
  rw [List.append_assoc]
  by_cases h1 : i < p
  · rw [List.getElem?_append_left (by rw [List.length_take]; omega), List.getElem?_take, if_pos h1]
  · have htl : (b.take p).length = p := by rw [List.length_take]; omega
    rw [List.getElem?_append_right (by omega), htl]
    by_cases h2 : i - p < w.length
    · rw [List.getElem?_append_left h2]
      have := h (i - p) w[i - p] (List.getElem?_eq_getElem h2)
      rw [show p + (i - p) = i by omega] at this
      rw [this, List.getElem?_eq_getElem h2]
    · rw [List.getElem?_append_right (by omega), List.getElem?_drop]
      congr 1; omega

/-- Where the pointer to "Engineering" and the verdict come from. -/
structure Eng (b0 : Bytes) (n : Nat) (st : NState) : Prop where
  ptr : ∀ p, st.contextEngineering = some p → p + 3 ≤ n ∧ Reads b0 p b!"Eng"
  verdict : st.engineeringSample = true → ∃ p q, p + 3 ≤ q ∧ q + 6 ≤ n ∧ Reads b0 p b!"Eng" ∧
    Reads b0 q b!"Sample"

theorem Eng.mono {b0 : Bytes} (n m : Nat) (st : NState) (h : n ≤ m) (he : Eng b0 n st) :
    Eng b0 m st :=
  ⟨fun p hp => ⟨by have := (he.ptr p hp).1; omega, (he.ptr p hp).2⟩, fun hv => by
    obtain ⟨p, q, h1, h2, h3, h4⟩ := he.verdict hv
    exact ⟨p, q, h1, by omega, h3, h4⟩⟩

/-- How a token changes what is known about samples. -/
def Moves (t : Bytes) (ts : Nat) (prev st st' : NState) : Prop :=
  (st'.contextEngineering = st.contextEngineering ∨
    (st'.contextEngineering = some ts ∧ t.take 3 = b!"Eng")) ∧
  (st'.engineeringSample = st.engineeringSample ∨
    (prev.contextEngineering ≠ none ∧ t.take 6 = b!"Sample"))

def StepMoves (t : Bytes) (ts : Nat) (prev st : NState) (o : Option Step) : Prop :=
  ∀ r, o = some r → (∀ b' st' k, r = .ret b' st' k → Moves t ts prev st st') ∧
    ∀ st', r = .goOn st' → Moves t ts prev st st'

theorem StepMoves.ite {t : Bytes} {ts : Nat} {prev st : NState} {c : Prop} [Decidable c]
    {x y : Option Step} (h1 : c → StepMoves t ts prev st x) (h2 : ¬ c → StepMoves t ts prev st y) :
    StepMoves t ts prev st (if c then x else y) := by
  by_cases hc : c
  · rw [if_pos hc]; exact h1 hc
  · rw [if_neg hc]; exact h2 hc

theorem StepMoves.go {t : Bytes} {ts : Nat} {prev st st' : NState} (h : Moves t ts prev st st') :
    StepMoves t ts prev st (some (.goOn st')) := by
  intro r hr; cases hr
  exact ⟨fun _ _ _ e => (by cases e), fun _ e => by cases e; exact h⟩

theorem StepMoves.stop {t : Bytes} {ts : Nat} {prev st st' : NState} {b : Bytes} {k : Bool}
    (h : Moves t ts prev st st') : StepMoves t ts prev st (some (.ret b st' k)) := by
  intro r hr; cases hr
  exact ⟨fun _ _ _ e => (by cases e; exact h), fun _ e => by cases e⟩

theorem StepMoves.map {t : Bytes} {ts : Nat} {prev st st' : NState} {k : Bool} {o : Option Bytes}
    (h : Moves t ts prev st st') :
    StepMoves t ts prev st (o.map fun b' => .ret b' st' k) := by
  cases o with
  | none => intro r hr; cases hr
  | some b => exact StepMoves.stop h

theorem longWords_moves (b t : Bytes) (ts te : Nat) (prev st : NState) :
    StepMoves t ts prev st (longWords b t ts te prev st) := by
  have same : ∀ st', st'.contextEngineering = st.contextEngineering →
      st'.engineeringSample = st.engineeringSample → Moves t ts prev st st' :=
    fun st' h1 h2 => ⟨.inl h1, .inl h2⟩
  unfold longWords
  refine StepMoves.ite (fun h => .go ⟨.inr ⟨rfl, by rw [h]; decide⟩, .inl rfl⟩) (fun _ => ?_)
  refine StepMoves.ite (fun _ => .go (same _ rfl rfl)) (fun _ => ?_)
  refine StepMoves.ite (fun _ => .go (same _ rfl rfl)) (fun _ => ?_)
  refine StepMoves.ite (fun _ => ?_) (fun _ => ?_)
  · cases prev.contextDual
    · exact .go (same _ rfl rfl)
    · exact .map (same _ rfl rfl)
  refine StepMoves.ite (fun _ => .stop (same _ rfl rfl)) (fun _ => ?_)
  refine StepMoves.ite (fun _ => .stop (same _ rfl rfl)) (fun _ => ?_)
  refine StepMoves.ite (fun _ => ?_) (fun _ => ?_)
  · cases prev.contextCore
    · exact .go (same _ rfl rfl)
    · exact .map (same _ rfl rfl)
  refine StepMoves.ite (fun h => ?_) (fun _ => ?_)
  · cases hp : prev.contextEngineering
    · exact .go (same _ rfl rfl)
    · exact .stop ⟨.inl rfl, .inr ⟨by simp [hp], by rw [h]; decide⟩⟩
  refine StepMoves.ite (fun _ => ?_) (fun _ => ?_)
  · cases prev.contextModel
    · exact .go (same _ rfl rfl)
    · exact .map (same _ rfl rfl)
  refine StepMoves.ite (fun h => ?_) (fun _ => ?_)
  · cases hp : prev.contextEngineering
    · exact .go (same _ rfl rfl)
    · exact .stop ⟨.inl rfl, .inr ⟨by simp [hp], by rcases h with h | h <;> rw [h] <;> decide⟩⟩
  refine StepMoves.ite (fun h => .stop ⟨.inr ⟨rfl, by rw [h]; decide⟩, .inl rfl⟩) (fun _ => ?_)
  exact .go (same _ rfl rfl)

theorem specialWords_moves (b t : Bytes) (ts te : Nat) (prev st : NState) :
    StepMoves t ts prev st (specialWords b t ts te prev st) := by
  unfold specialWords
  split
  · exact StepMoves.ite (fun _ => .stop ⟨.inl rfl, .inl rfl⟩) (fun _ => .go ⟨.inl rfl, .inl rfl⟩)
  · exact StepMoves.ite (fun _ => .map ⟨.inl rfl, .inl rfl⟩) (fun _ => .go ⟨.inl rfl, .inl rfl⟩)
  · exact longWords_moves _ _ _ _ _ _

theorem finishToken_state {b : Bytes} {ts te : Nat} {prev st : NState} {b' : Bytes} {st' : NState}
    {r : Bool} (h : finishToken b ts te prev st = some (b', st', r)) :
    st'.contextEngineering = st.contextEngineering ∧
      st'.engineeringSample = st.engineeringSample := by
  unfold finishToken at h
  split at h
  · cases h
  split at h
  · cases hb : blank b ts _ with
    | none => rw [hb] at h; cases h
    | some x => rw [hb] at h; cases h; exact ⟨rfl, rfl⟩
  split at h
  · cases h
  split at h
  · cases h
  · cases h; exact ⟨rfl, rfl⟩

/-- A token of the blanked buffer is in the buffer. -/
theorem reads_of_load {b b0 b3 : Bytes} {n m ts te : Nat} {t w : Bytes} (hbl : Blanked b b3 n m)
    (h0 : ∀ (j : Nat), n ≤ j → b[j]? = b0[j]?) (hn : n ≤ ts)
    (hld : load b3 ts (te - ts) = some t) (hw : t.take w.length = w) (h32 : 32 ∉ w) :
    Reads b0 ts w ∧ w.length ≤ te - ts := by
  obtain ⟨_, h2, h3⟩ := load_some hld
  have hwl : w.length ≤ te - ts := by
    have := congrArg List.length hw
    rw [List.length_take] at this; omega
  refine ⟨fun j c hc => ?_, hwl⟩
  have hj : j < w.length := (List.getElem?_eq_some_iff.mp hc).1
  have hc' := hc
  rw [← hw, List.getElem?_take, if_pos hj, h3 j (by omega)] at hc
  rcases hbl.2 (ts + j) with k | ⟨_, _, k⟩
  · rw [← h0 _ (by omega), ← k, hc]
  · rw [k] at hc; cases hc
    exact absurd (List.mem_of_getElem? hc') h32

theorem eng_of_moves {b b0 b3 : Bytes} {n m ts te : Nat} {t : Bytes} {prev st st' : NState}
    (hbl : Blanked b b3 n m) (h0 : ∀ (j : Nat), n ≤ j → b[j]? = b0[j]?) (hn : n ≤ ts) (hm : te ≤ m)
    (hts : ts ≤ te)
    (hld : load b3 ts (te - ts) = some t) (hE : Eng b0 n prev)
    (hs1 : st.contextEngineering = prev.contextEngineering)
    (hs2 : st.engineeringSample = prev.engineeringSample) (hmv : Moves t ts prev st st') :
    Eng b0 m st' := by
  constructor
  · intro p hp
    rcases hmv.1 with k | ⟨k, k'⟩
    · rw [k, hs1] at hp
      obtain ⟨a1, a2⟩ := hE.ptr p hp
      exact ⟨by omega, a2⟩
    · rw [k] at hp; cases hp
      obtain ⟨a1, a2⟩ := reads_of_load (w := b!"Eng") hbl h0 hn hld k' (by decide)
      have : (b!"Eng" : Bytes).length = 3 := by decide
      exact ⟨by omega, a1⟩
  · intro hv
    rcases hmv.2 with k | ⟨k, k'⟩
    · rw [k, hs2] at hv
      obtain ⟨p, q, a1, a2, a3, a4⟩ := hE.verdict hv
      exact ⟨p, q, a1, by omega, a3, a4⟩
    · obtain ⟨a1, a2⟩ := reads_of_load (w := b!"Sample") hbl h0 hn hld k' (by decide)
      have : (b!"Sample" : Bytes).length = 6 := by decide
      cases hp : prev.contextEngineering with
      | none => exact absurd hp k
      | some p =>
        obtain ⟨c1, c2⟩ := hE.ptr p hp
        exact ⟨p, ts, by omega, by omega, c2, a1⟩

theorem transformToken_eng (b0 : Bytes) (b : Bytes) (ts te : Nat) (prev : NState) (b' : Bytes)
    (st' : NState) (r : Bool) (h : Pre b ts ts te te prev)
    (h0 : ∀ (j : Nat), ts ≤ j → b[j]? = b0[j]?)
    (hr : transformToken b ts te prev = some (b', st', r)) (hE : Eng b0 ts prev) :
    Eng b0 te st' := by
  unfold transformToken at hr
  dsimp only at hr
  obtain ⟨b1, e1, p1, k1⟩ := blankFrequency_spec h (resetContext prev)
  rw [e1] at hr
  dsimp only at hr
  obtain ⟨b2, te', e2, p2, k2, _⟩ := stripTm_spec p1
  rw [e2] at hr
  dsimp only at hr
  obtain ⟨b3, ts', e3, p3, k3, _⟩ := stripAmd_spec p2
  rw [e3] at hr
  dsimp only at hr
  have hbl := (k1.trans k2).trans k3
  have hnts := p3.nts; have htse := p3.tse; have htem := p3.tem; have hml := p3.mlen
  have hld : load b3 ts' (te' - ts') = some ((b3.drop ts').take (te' - ts')) :=
    load_eq b3 ts' _ (by omega)
  have fin : ∀ st2, Moves ((b3.drop ts').take (te' - ts')) ts' prev (resetContext prev) st2 →
      Eng b0 te st2 := fun st2 hm =>
    eng_of_moves hbl h0 hnts htem (by omega) hld hE rfl rfl hm
  unfold switchWords at hr
  rw [hld] at hr
  dsimp only at hr
  cases hf : findWord ((b3.drop ts').take (te' - ts')) eraseWords with
  | some v =>
    obtain ⟨v, core⟩ := v
    rw [hf] at hr
    dsimp only at hr
    cases hb : blank b3 ts' ((b3.drop ts').take (te' - ts')).length with
    | none => rw [hb] at hr; cases hr
    | some x =>
      rw [hb] at hr
      cases hr
      apply fin
      cases core <;> exact ⟨.inl rfl, .inl rfl⟩
  | none =>
    rw [hf] at hr
    dsimp only at hr
    have hmv := specialWords_moves b3 ((b3.drop ts').take (te' - ts')) ts' te' prev
      (resetContext prev)
    cases hs : specialWords b3 ((b3.drop ts').take (te' - ts')) ts' te' prev (resetContext prev) with
    | none => rw [hs] at hr; cases hr
    | some o =>
      rw [hs] at hr
      obtain ⟨m1, m2⟩ := hmv o hs
      cases o with
      | ret b4 st4 k4 => cases hr; exact fin _ (m1 _ _ _ rfl)
      | goOn st4 =>
        obtain ⟨f1, f2⟩ := finishToken_state hr
        have hm := m2 st4 rfl
        apply fin
        exact ⟨by rw [f1]; exact hm.1, by rw [f2]; exact hm.2⟩

/-- Text left by the first loop is in the string. -/
theorem unify_reads (l : Bytes) : ∀ (i : Nat) (inside : Bool) (sep : Option Nat) (j : Nat) (c : Byte),
    (unify l i inside sep).1[j]? = some c → c ≠ 32 → l[j]? = some c := by
  induction l with
  | nil => intro i inside sep j c h _; simp [unify] at h
  | cons x l ih =>
    intro i inside sep j c h hc
    have key : ∀ (y : Byte) (i' : Nat) (inside' : Bool) (sep' : Option Nat), (y = 32 ∨ y = x) →
        (y :: (unify l i' inside' sep').1)[j]? = some c → (x :: l)[j]? = some c := by
      intro y i' inside' sep' hy hh
      cases j with
      | zero =>
        simp only [List.getElem?_cons_zero, Option.some.injEq] at hh ⊢
        rcases hy with rfl | rfl
        · exact absurd hh.symm hc
        · exact hh
      | succ j =>
        simp only [List.getElem?_cons_succ] at hh ⊢
        exact ih _ _ _ j c hh hc
    unfold unify at h
    split at h
    · exact key _ _ _ _ (.inl rfl) h
    split at h
    · exact key _ _ _ _ (.inl rfl) h
    split at h
    · exact key _ _ _ _ (.inl rfl) h
    split at h
    · exact key _ _ _ _ (.inl rfl) h
    · exact key _ _ _ _ (.inr rfl) h

end Verif.X86Name
