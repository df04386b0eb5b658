import Verif.Model.X86Name

/-!
# Lemmas about brand string normalization
-/

set_option autoImplicit false

namespace Verif.X86Name

/-! ## Buffers -/

theorem load_eq (b : Bytes) (s n : Nat) (h : s + n ≤ b.length) :
    load b s n = some ((b.drop s).take n) := if_pos h

theorem load_some {b : Bytes} {s n : Nat} {t : Bytes} (h : load b s n = some t) :
    s + n ≤ b.length ∧ t.length = n ∧ ∀ j, j < n → t[j]? = b[s + j]? := by
  unfold load at h
  split at h
  · rename_i hle
    cases h
    refine ⟨hle, by simp; omega, fun j hj => ?_⟩
    rw [List.getElem?_take, if_pos hj, List.getElem?_drop]
  · cases h

theorem store_some {b : Bytes} {s : Nat} {x b' : Bytes} (h : store b s x = some b') :
    s + x.length ≤ b.length ∧ b'.length = b.length ∧
    ∀ i, b'[i]? = if s ≤ i ∧ i < s + x.length then x[i - s]? else b[i]? := by
  unfold store at h
  split at h
  · rename_i hle
    cases h
    refine ⟨hle, by simp; omega, fun i => ?_⟩
    have hts : (b.take s).length = s := by simp; omega
    by_cases h1 : i < s
    · rw [if_neg (by omega), List.append_assoc, List.getElem?_append_left (by omega),
        List.getElem?_take, if_pos h1]
    · by_cases h2 : i < s + x.length
      · rw [if_pos ⟨by omega, h2⟩, List.append_assoc, List.getElem?_append_right (by omega), hts,
          List.getElem?_append_left (by omega)]
      · rw [if_neg (by omega), List.getElem?_append_right (by simp; omega),
          List.getElem?_drop]
        congr 1
        simp
        omega
  · cases h

theorem store_total (b : Bytes) (s : Nat) (x : Bytes) (h : s + x.length ≤ b.length) :
    ∃ b', store b s x = some b' := ⟨_, if_pos h⟩

theorem blank_some {b : Bytes} {s n : Nat} {b' : Bytes} (h : blank b s n = some b') :
    s + n ≤ b.length ∧ b'.length = b.length ∧
    ∀ i, b'[i]? = if s ≤ i ∧ i < s + n then some 32 else b[i]? := by
  obtain ⟨h1, h2, h3⟩ := store_some h
  rw [List.length_replicate] at h1 h3
  refine ⟨h1, h2, fun i => ?_⟩
  rw [h3]
  by_cases hi : s ≤ i ∧ i < s + n
  · rw [if_pos hi, if_pos hi, List.getElem?_replicate, if_pos (by omega)]
  · rw [if_neg hi, if_neg hi]

theorem blank_total (b : Bytes) (s n : Nat) (h : s + n ≤ b.length) :
    ∃ b', blank b s n = some b' := store_total b s _ (by rw [List.length_replicate]; exact h)

/-- Tokens agree if the buffers agree. -/
theorem load_congr {b b' : Bytes} {s n : Nat} (hl : b'.length = b.length)
    (h : ∀ i, s ≤ i → i < s + n → b'[i]? = b[i]?) : load b' s n = load b s n := by
  unfold load
  rw [hl]
  split
  · congr 1
    apply List.ext_getElem?
    intro j
    rw [List.getElem?_take, List.getElem?_take]
    split
    · rw [List.getElem?_drop, List.getElem?_drop]
      exact h _ (by omega) (by omega)
    · rfl
  · rfl

/-! ## Words -/

/-- A word can start here. -/
def Boundary (b : Bytes) (p : Nat) : Prop := p = 0 ∨ b[p - 1]? = some 32

/-- The words that the table erases. -/
def noise : List Bytes := eraseWords.map Prod.fst

/-- No word of the first `n` characters is one that the table erases. -/
def NoNoise (b : Bytes) (n : Nat) : Prop :=
  ∀ s e, s < e → e ≤ n → Boundary b s → (e = n ∨ b[e]? = some 32) →
    (∀ i, s ≤ i → i < e → b[i]? ≠ some 32) → ∀ t, load b s (e - s) = some t → t ∉ noise

theorem noNoise_zero (b : Bytes) : NoNoise b 0 := by
  intro s e h1 h2; omega

/-- Cutting at a boundary. -/
theorem NoNoise.cut {b : Bytes} {n p : Nat} (h : NoNoise b n) (hp : p ≤ n) (hb : Boundary b p) :
    NoNoise b p := by
  intro s e hse hep hs he hns t ht
  have : e < p := by
    rcases Nat.lt_or_ge e p with h' | h'
    · exact h'
    · exfalso
      have hpe : e = p := by omega
      subst hpe
      rcases hb with hb | hb
      · omega
      · exact hns (e - 1) (by omega) (by omega) hb
  rcases he with he | he
  · omega
  · exact h s e hse (by omega) hs (.inr he) hns t ht

/-- A prefix followed by blanks around at most one word. -/
theorem NoNoise.extend {b b' : Bytes} {n m s0 e0 : Nat} (h : NoNoise b n) (hb : Boundary b n)
    (hl : b'.length = b.length) (hns0 : n ≤ s0) (hem : e0 ≤ m)
    (hpre : ∀ i, i < n → b'[i]? = b[i]?)
    (hblank : ∀ i, n ≤ i → i < m → ¬ (s0 ≤ i ∧ i < e0) → b'[i]? = some 32)
    (hword : ∀ i, s0 ≤ i → i < e0 → b'[i]? ≠ some 32)
    (ht : ∀ t, load b' s0 (e0 - s0) = some t → s0 < e0 → t ∉ noise) (_hnm : n ≤ m) :
    NoNoise b' m := by
  intro s e hse hem' hs he hns t hld
  by_cases hsn : s < n
  · -- within the prefix
    have hen : e ≤ n := by
      rcases Nat.lt_or_ge n e with h' | h'
      · exfalso
        rcases hb with hb | hb
        · omega
        · have := hns (n - 1) (by omega) (by omega)
          rw [hpre _ (by omega)] at this
          exact this hb
      · exact h'
    have hld' : load b s (e - s) = some t := by
      rw [← hld]
      exact (load_congr hl (fun i _ _ => hpre i (by omega))).symm
    refine h s e hse hen ?_ ?_ ?_ t hld'
    · rcases hs with hs | hs
      · exact .inl hs
      · right; rw [← hpre _ (by omega)]; exact hs
    · rcases Nat.lt_or_ge e n with hlt | hge
      · rcases he with he | he
        · omega
        · right; rw [← hpre _ hlt]; exact he
      · left; omega
    · intro i hi hi'
      rw [← hpre _ (by omega)]
      exact hns i hi hi'
  · -- behind it: the word is the one word
    have hin : ∀ i, s ≤ i → i < e → s0 ≤ i ∧ i < e0 := by
      intro i hi hi'
      rcases Classical.em (s0 ≤ i ∧ i < e0) with h' | h'
      · exact h'
      · exact absurd (hblank i (by omega) (by omega) h') (hns i hi hi')
    have h1 := hin s (by omega) hse
    have h2 := hin (e - 1) (by omega) (by omega)
    have hs' : s = s0 := by
      rcases Nat.lt_or_ge s0 s with h' | h'
      · exfalso
        rcases hs with hs | hs
        · omega
        · exact hword (s - 1) (by omega) (by omega) hs
      · omega
    have he' : e = e0 := by
      rcases Nat.lt_or_ge e e0 with h' | h'
      · exfalso
        rcases he with he | he
        · omega
        · exact hword e (by omega) h' he
      · omega
    subst hs' he'
    exact ht t hld hse

theorem findWord_none {t : Bytes} (l : List (Bytes × Bool × Bool)) (h : findWord t l = none) :
    t ∉ l.map Prod.fst := by
  induction l with
  | nil => simp
  | cons w l ih =>
    obtain ⟨w, r⟩ := w
    unfold findWord at h
    split at h
    · cases h
    · rename_i hne
      simp only [List.map_cons, List.mem_cons, not_or]
      exact ⟨hne, ih h⟩

/-! ## One token -/

/-- The pointers of the state into the characters before `n`. -/
structure Ptrs (b : Bytes) (n : Nat) (st : NState) : Prop where
  model : ∀ p, st.contextModel = some p → p < n ∧ Boundary b p
  dual : ∀ p, st.contextDual = some p → p < n ∧ Boundary b p
  upper : ∀ p, st.contextUpperLetter = some p →
    p < n ∧ Boundary b p ∧ b[p]? ≠ some 32 ∧ ∀ i, p < i → i < n → b[i]? = some 32

/-- The token from `ts` to `te` is one word or blank. -/
def Uniform (b : Bytes) (ts te : Nat) : Prop :=
  (∀ i, ts ≤ i → i < te → b[i]? ≠ some 32) ∨ (∀ i, ts ≤ i → i < te → b[i]? = some 32)

/-- What is known before a token at `n`, whose remaining part is `ts` to `te`, when the original
end was `m`. -/
structure Pre (b : Bytes) (n ts te m : Nat) (st : NState) : Prop where
  nts : n ≤ ts
  tse : ts < te
  tem : te ≤ m
  mlen : m ≤ b.length
  boundary : Boundary b n
  clean : NoNoise b n
  before : ∀ i, n ≤ i → i < ts → b[i]? = some 32
  after : ∀ i, te ≤ i → i < m → b[i]? = some 32
  uniform : Uniform b ts te
  ptrs : Ptrs b n st
  upper : ∀ p, st.contextUpperLetter = some p → p + 1 < n

/-- What holds after a token. -/
structure Post (b : Bytes) (m : Nat) (b' : Bytes) (st' : NState) : Prop where
  len : b'.length = b.length
  rest : ∀ i, m ≤ i → b'[i]? = b[i]?
  chars : ∀ i c, i < m → b'[i]? = some c →
    c = 32 ∨ c = 118 ∨ ∃ j, j < m ∧ b[j]? = some c
  clean : NoNoise b' m
  ptrs : Ptrs b' m st'

theorem Pre.word_boundary {b : Bytes} {n ts te m : Nat} {st : NState} (h : Pre b n ts te m st) :
    Boundary b ts := by
  rcases Nat.lt_or_ge n ts with h' | h'
  · exact .inr (h.before _ (by have := h.nts; omega) (by omega))
  · have : ts = n := by have := h.nts; omega
    rw [this]; exact h.boundary

/-- Blanking from a boundary before the token to its end. -/
theorem post_blank {b b' : Bytes} {n ts te m p q : Nat} {st st' : NState} (h : Pre b n ts te m st)
    (hp : p ≤ ts) (hpb : Boundary b p) (hq : q = te - p) (hb' : blank b p q = some b')
    (hpn : p ≤ n ∨ p = ts)
    (hst : st'.contextModel = none ∧ st'.contextUpperLetter = none ∧ st'.contextDual = none) :
    Post b m b' st' := by
  obtain ⟨h1, h2, h3⟩ := blank_some hb'
  have := h.nts; have := h.tse; have := h.tem
  refine ⟨h2, fun i hi => ?_, fun i c hi hc => ?_, ?_, ?_⟩
  · rw [h3, if_neg (by omega)]
  · rw [h3] at hc
    split at hc
    · cases hc; exact .inl rfl
    · exact .inr (.inr ⟨i, hi, hc⟩)
  · have hpn' : ∃ k, k ≤ n ∧ k ≤ p ∧ Boundary b k ∧ ∀ i, k ≤ i → i < p → b[i]? = some 32 := by
      rcases hpn with h' | h'
      · exact ⟨p, h', Nat.le_refl _, hpb, by intro i _ _; omega⟩
      · exact ⟨n, Nat.le_refl _, by omega, h.boundary, fun i hi hi' => h.before i hi (by omega)⟩
    obtain ⟨k, hk1, hk2, hk3, hk4⟩ := hpn'
    refine NoNoise.extend (s0 := m) (e0 := m) (h.clean.cut hk1 hk3) hk3 h2 (by omega)
      (Nat.le_refl m) ?_ ?_ ?_ ?_ (by omega)
    · intro i hi; rw [h3, if_neg (by omega)]
    · intro i hi hi' _
      rw [h3]
      split
      · rfl
      · rcases Nat.lt_or_ge i p with hh | hh
        · exact hk4 i hi hh
        · exact h.after i (by omega) hi'
    · intro i hi hi'; omega
    · intro t _ hh; omega
  · exact ⟨by simp [hst.1], by simp [hst.2.2], by simp [hst.2.1]⟩

/-- Leaving the buffer as it is: the word is none of the table's. -/
theorem post_keep {b : Bytes} {n ts te m : Nat} {st st' : NState} (h : Pre b n ts te m st)
    {t : Bytes} (hld : load b ts (te - ts) = some t) (ht : t ∉ noise) (hptrs : Ptrs b m st') :
    Post b m b st' := by
  have := h.nts; have := h.tse; have := h.tem
  refine ⟨rfl, fun i hi => rfl, fun i c hi hc => .inr (.inr ⟨i, hi, hc⟩), ?_, hptrs⟩
  rcases h.uniform with hu | hu
  · refine NoNoise.extend (s0 := ts) (e0 := te) h.clean h.boundary rfl h.nts h.tem
      (fun i _ => rfl) ?_ hu ?_ (by omega)
    · intro i hi hi' hno
      rcases Nat.lt_or_ge i ts with hh | hh
      · exact h.before i hi hh
      · exact h.after i (by omega) hi'
    · intro t' ht' _
      rw [hld] at ht'; cases ht'; exact ht
  · refine NoNoise.extend (s0 := m) (e0 := m) h.clean h.boundary rfl (by omega) (Nat.le_refl m)
      (fun i _ => rfl) ?_ ?_ ?_ (by omega)
    · intro i hi hi' hno
      rcases Nat.lt_or_ge i ts with hh | hh
      · exact h.before i hi hh
      · rcases Nat.lt_or_ge i te with hh' | hh'
        · exact hu i hh hh'
        · exact h.after i hh' hi'
    · intro i hi hi'; omega
    · intro t _ hh; omega

/-- A state without pointers. -/
theorem ptrs_none {b : Bytes} {n : Nat} {st : NState}
    (h : st.contextModel = none ∧ st.contextUpperLetter = none ∧ st.contextDual = none) :
    Ptrs b n st := ⟨by simp [h.1], by simp [h.2.2], by simp [h.2.1]⟩

/-- What a test of the switch must do. -/
def OkStep (b : Bytes) (m : Nat) (t : Bytes) (o : Option Step) : Prop :=
  ∃ r, o = some r ∧ (∀ b' st' k, r = .ret b' st' k → Post b m b' st') ∧
    (∀ st', r = .goOn st' → Ptrs b m st' ∧ st'.contextUpperLetter = none ∧
      st'.contextModel = none ∧ (st'.contextDual = none ∨ t = b!"Dual"))

theorem OkStep.ite {b : Bytes} {m : Nat} {t : Bytes} {c : Prop} [Decidable c] {x y : Option Step}
    (h1 : c → OkStep b m t x) (h2 : ¬ c → OkStep b m t y) : OkStep b m t (if c then x else y) := by
  by_cases hc : c
  · rw [if_pos hc]; exact h1 hc
  · rw [if_neg hc]; exact h2 hc

/-- The switch without the table. -/
theorem specialWords_spec {b : Bytes} {n ts te m : Nat} {prev st : NState}
    (h : Pre b n ts te m prev) {t : Bytes} (hld : load b ts (te - ts) = some t) (ht : t ∉ noise)
    (hst : st.contextModel = none ∧ st.contextUpperLetter = none ∧ st.contextDual = none) :
    OkStep b m t (specialWords b t ts te prev st) := by
  have hnts := h.nts; have htse := h.tse; have htem := h.tem
  obtain ⟨hl1, hl2, hl3⟩ := load_some hld
  have hkeep : ∀ st', Ptrs b m st' → Post b m b st' := fun st' hp => post_keep h hld ht hp
  have goOn : ∀ st' : NState, Ptrs b m st' → st'.contextUpperLetter = none →
      st'.contextModel = none → (st'.contextDual = none ∨ t = b!"Dual") →
      OkStep b m t (some (Step.goOn st')) :=
    fun st' hp hu hm hd => ⟨.goOn st', rfl, fun _ _ _ hh => (by cases hh),
      fun st'' hh => (by cases hh; exact ⟨hp, hu, hm, hd⟩)⟩
  have ret : ∀ (o : Option Bytes) (st' : NState) (k : Bool),
      (∃ b', o = some b') → (∀ b', o = some b' → Post b m b' st') →
      OkStep b m t (o.map (fun b' => Step.ret b' st' k)) := by
    intro o st' k ⟨b', hb'⟩ hp
    exact ⟨.ret b' st' k, by rw [hb']; rfl, fun _ _ _ hh => (by cases hh; exact hp _ hb'),
      fun _ hh => (by cases hh)⟩
  have retk : ∀ (st' : NState) (k : Bool), Ptrs b m st' →
      OkStep b m t (some (Step.ret b st' k)) :=
    fun st' k hp => ret (some b) st' k ⟨b, rfl⟩ (fun b' hb' => by cases hb'; exact hkeep _ hp)
  have hp0 : Ptrs b m st := ptrs_none hst
  have hwb := h.word_boundary
  have blankFrom : ∀ (p : Nat) (st' : NState) (k : Bool), p < n → Boundary b p →
      (st'.contextModel = none ∧ st'.contextUpperLetter = none ∧ st'.contextDual = none) →
      OkStep b m t ((blank b p (te - p)).map (fun b' => Step.ret b' st' k)) := by
    intro p st' k hp hpb hst'
    refine ret _ st' k (blank_total b p _ (by have := h.mlen; omega)) ?_
    intro b' hb'
    exact post_blank h (by omega) hpb rfl hb' (.inl (by omega)) hst'
  match t, hld, ht, hl2, hl3, goOn, ret, retk, blankFrom with
  | [c], hld, ht, hl2, hl3, goOn, ret, retk, blankFrom =>
    unfold specialWords
    dsimp only
    by_cases hc : isUpperLetter c = true
    · rw [if_pos hc]
      refine retk _ _ ⟨by simp [hst.1], by simp [hst.2.2], ?_⟩
      intro p hp
      cases hp
      refine ⟨by omega, hwb, ?_, fun i hi hi' => h.after i ?_ hi'⟩
      · have h0 := hl3 0 (by omega)
        rw [Nat.add_zero] at h0
        rw [← h0]
        intro hh
        cases hh
        revert hc; decide
      have : te - ts = 1 := hl2.symm
      omega
    · rw [if_neg hc]
      exact goOn _ hp0 hst.2.1 hst.1 (.inl hst.2.2)
  | [c, d], hld, ht, hl2, hl3, goOn, ret, retk, blankFrom =>
    unfold specialWords
    dsimp only
    by_cases hc : (c == 86 && isDigit d) = true
    · rw [if_pos hc]
      have hlen : te - ts = 2 := hl2.symm
      refine ret _ st true (store_total b ts [118] (by simp; have := h.mlen; omega)) ?_
      intro b' hb'
      obtain ⟨s1, s2, s3⟩ := store_some hb'
      have hd : isDigit d = true := (Bool.and_eq_true _ _ ▸ hc).2
      have hget1 : b[ts + 1]? = some d := by
        have := hl3 1 (by omega)
        rw [← this]; rfl
      refine ⟨s2, fun i hi => ?_, fun i c' hi hc' => ?_, ?_, ptrs_none hst⟩
      · rw [s3, if_neg (by simp only [List.length_singleton]; omega)]
      · rw [s3] at hc'
        split at hc'
        · rename_i hh
          have : i - ts = 0 := by simp only [List.length_singleton] at hh; omega
          rw [this] at hc'
          cases hc'; exact .inr (.inl rfl)
        · exact .inr (.inr ⟨i, hi, hc'⟩)
      · have hlow : ∀ i, i ≠ ts → b'[i]? = b[i]? := by
          intro i hi
          rw [s3, if_neg (by simp only [List.length_singleton]; omega)]
        have hts : b'[ts]? = some 118 := by
          rw [s3, if_pos (by simp)]
          simp
        refine NoNoise.extend (s0 := ts) (e0 := te) h.clean h.boundary s2 h.nts h.tem
          (fun i hi => hlow i (by omega)) ?_ ?_ ?_ (by omega)
        · intro i hi hi' hno
          rw [hlow i (by omega)]
          rcases Nat.lt_or_ge i ts with hh | hh
          · exact h.before i hi hh
          · exact h.after i (by omega) hi'
        · intro i hi hi'
          rcases (show i = ts ∨ i = ts + 1 by omega) with rfl | rfl
          · rw [hts]; decide
          · rw [hlow _ (by omega), hget1]
            intro hh
            cases hh
            simp [isDigit] at hd
        · intro t' ht' _
          obtain ⟨_, q2, q3⟩ := load_some ht'
          have h0 := q3 0 (by omega)
          rw [Nat.add_zero, hts] at h0
          intro hmem
          have : ∀ w ∈ noise, w[0]? ≠ some 118 := by decide
          exact this t' hmem h0
    · rw [if_neg hc]
      exact goOn _ hp0 hst.2.1 hst.1 (.inl hst.2.2)
  | [], hld, ht, hl2, hl3, goOn, ret, retk, blankFrom =>
    exfalso
    simp at hl2
    omega
  | c1 :: c2 :: c3 :: t', hld, ht, hl2, hl3, goOn, ret, retk, blankFrom =>
    show OkStep b m _ (longWords b (c1 :: c2 :: c3 :: t') ts te prev st)
    generalize c1 :: c2 :: c3 :: t' = t at *
    unfold longWords
    refine OkStep.ite (fun _ => ?_) (fun _ => ?_)
    · exact goOn _ (ptrs_none hst) hst.2.1 hst.1 (.inl hst.2.2)
    refine OkStep.ite (fun hdual => ?_) (fun _ => ?_)
    · refine goOn _ ⟨by simp [hst.1], ?_, by simp [hst.2.1]⟩ hst.2.1 hst.1 (.inr hdual)
      intro p hp
      cases hp
      exact ⟨by omega, hwb⟩
    refine OkStep.ite (fun _ => ?_) (fun _ => ?_)
    · exact goOn _ (ptrs_none hst) hst.2.1 hst.1 (.inl hst.2.2)
    refine OkStep.ite (fun _ => ?_) (fun _ => ?_)
    · cases hd : prev.contextDual with
      | some p =>
        obtain ⟨p1, p2⟩ := h.ptrs.dual p hd
        exact blankFrom p _ _ p1 p2 hst
      | none => exact goOn _ hp0 hst.2.1 hst.1 (.inl hst.2.2)
    refine OkStep.ite (fun _ => ?_) (fun _ => ?_)
    · exact retk _ _ hp0
    refine OkStep.ite (fun _ => ?_) (fun _ => ?_)
    · refine retk _ _ ⟨?_, by simp [hst.2.2], by simp [hst.2.1]⟩
      intro p hp
      cases hp
      exact ⟨by omega, hwb⟩
    refine OkStep.ite (fun _ => ?_) (fun _ => ?_)
    · cases hd : prev.contextCore with
      | some p =>
        dsimp only
        rw [hl2]
        refine ret _ _ _ (blank_total b ts _ (by have := h.mlen; omega)) ?_
        intro b' hb'
        exact post_blank h (Nat.le_refl _) hwb rfl hb' (.inr rfl) hst
      | none => exact goOn _ hp0 hst.2.1 hst.1 (.inl hst.2.2)
    refine OkStep.ite (fun _ => ?_) (fun _ => ?_)
    · cases hd : prev.contextEngineering with
      | some p => exact retk _ _ (ptrs_none hst)
      | none => exact goOn _ hp0 hst.2.1 hst.1 (.inl hst.2.2)
    refine OkStep.ite (fun _ => ?_) (fun _ => ?_)
    · cases hd : prev.contextModel with
      | some p =>
        obtain ⟨p1, p2⟩ := h.ptrs.model p hd
        exact blankFrom p _ _ p1 p2 hst
      | none => exact goOn _ hp0 hst.2.1 hst.1 (.inl hst.2.2)
    refine OkStep.ite (fun _ => ?_) (fun _ => ?_)
    · cases hd : prev.contextEngineering with
      | some p => exact retk _ _ (ptrs_none hst)
      | none => exact goOn _ hp0 hst.2.1 hst.1 (.inl hst.2.2)
    refine OkStep.ite (fun _ => ?_) (fun _ => ?_)
    · exact retk _ _ (ptrs_none hst)
    · exact goOn _ hp0 hst.2.1 hst.1 (.inl hst.2.2)

/-- Merging a letter with the number after it. -/
theorem mergeLetter_spec {b : Bytes} {n ts te m : Nat} {prev : NState}
    (h : Pre b n ts te m prev) {t : Bytes} (hld : load b ts (te - ts) = some t) (ht : t ∉ noise)
    (st' : NState) (hp : Ptrs b m st') (hu : st'.contextUpperLetter = none)
    (hm : st'.contextModel = none) (hd : st'.contextDual = none ∨ t = b!"Dual") :
    ∃ b' ts', mergeLetter b ts te prev = some (b', ts') ∧ Post b m b' st' ∧ ts' ≤ te := by
  have hnts := h.nts; have htse := h.tse; have htem := h.tem; have hml := h.mlen
  obtain ⟨hl1, hl2, hl3⟩ := load_some hld
  unfold mergeLetter
  cases hup : prev.contextUpperLetter with
  | none => exact ⟨b, ts, rfl, post_keep h hld ht hp, by omega⟩
  | some p =>
    dsimp only
    rw [hld]
    dsimp only
    by_cases hc : 2 ≤ t.length ∧ t.length ≤ 5 ∧ isNumber t = true
    · rw [if_pos hc]
      obtain ⟨hc1, hc2, hnum⟩ := hc
      obtain ⟨hp1, hp2, hlet32, hp3⟩ := h.ptrs.upper p hup
      have hpn := h.upper p hup
      obtain ⟨letter, hlet⟩ : ∃ c, b[p]? = some c := ⟨b[p], List.getElem?_eq_getElem (by omega)⟩
      rw [hlet]
      dsimp only
      obtain ⟨b1, hb1⟩ := store_total b p [32] (by simp; omega)
      rw [hb1]
      dsimp only
      rw [if_neg (show ¬ ts = 0 by omega)]
      obtain ⟨q1, q2, q3⟩ := store_some hb1
      have q3' : ∀ i, b1[i]? = if i = p then some 32 else b[i]? := by
        intro i
        rw [q3]
        simp only [List.length_singleton]
        by_cases hi : i = p
        · subst hi; simp
        · rw [if_neg (by omega), if_neg hi]
      have hld1 : load b1 ts (te - ts) = some t := by
        rw [← hld]
        exact load_congr q2 (fun i hi _ => by rw [q3', if_neg (by omega)])
      rw [hld1]
      dsimp only
      obtain ⟨b2, hb2⟩ := store_total b1 (ts - 1) t (by omega)
      rw [hb2]
      dsimp only
      obtain ⟨r1, r2, r3⟩ := store_some hb2
      obtain ⟨b3, hb3⟩ := store_total b2 (te - 1) [letter] (by simp; omega)
      rw [hb3]
      obtain ⟨u1, u2, u3⟩ := store_some hb3
      refine ⟨b3, ts - 1, rfl, ?_, by omega⟩
      have hget : ∀ i, b3[i]? = if i = te - 1 then some letter
          else if ts - 1 ≤ i ∧ i < te - 1 then t[i - (ts - 1)]?
          else if i = p then some 32 else b[i]? := by
        intro i
        rw [u3]
        simp only [List.length_singleton]
        by_cases hi : i = te - 1
        · subst hi; rw [if_pos (by omega), if_pos rfl, Nat.sub_self]; rfl
        · rw [if_neg (by omega), if_neg hi, r3]
          by_cases hi2 : ts - 1 ≤ i ∧ i < te - 1
          · rw [if_pos (by omega), if_pos hi2]
          · rw [if_neg (by omega), if_neg hi2, q3']
      have hdig : ∀ (j : Nat) (c : Byte), t[j]? = some c → isDigit c = true := by
        intro j c hj
        exact List.all_eq_true.mp hnum c (List.mem_of_getElem? hj)
      have htget : ∀ j, j < te - ts → ∃ c, t[j]? = some c ∧ b[ts + j]? = some c := by
        intro j hj
        refine ⟨t[j]'(by omega), List.getElem?_eq_getElem _, ?_⟩
        rw [← hl3 j hj]; exact List.getElem?_eq_getElem _
      have hbl3 : b3.length = b.length := by rw [u2, r2, q2]
      have hdual : st'.contextDual = none := by
        rcases hd with h' | h'
        · exact h'
        · subst h'; exact absurd hnum (by decide)
      refine ⟨hbl3, fun i hi => ?_, fun i c hi hci => ?_, ?_, ptrs_none ⟨hm, hu, hdual⟩⟩
      · rw [hget, if_neg (by omega), if_neg (by omega), if_neg (by omega)]
      · rw [hget] at hci
        split at hci
        · cases hci; exact .inr (.inr ⟨p, by omega, hlet⟩)
        split at hci
        · rename_i h1 h2
          right; right
          refine ⟨ts + (i - (ts - 1)), by omega, ?_⟩
          rw [← hl3 _ (by omega)]; exact hci
        split at hci
        · cases hci; exact .inl rfl
        · exact .inr (.inr ⟨i, hi, hci⟩)
      · refine NoNoise.extend (n := p) (s0 := ts - 1) (e0 := te) (h.clean.cut (by omega) hp2) hp2
          hbl3 (by omega) h.tem ?_ ?_ ?_ ?_ (by omega)
        · intro i hi
          rw [hget, if_neg (by omega), if_neg (by omega), if_neg (by omega)]
        · intro i hi hi' hno
          rw [hget, if_neg (by omega), if_neg (by omega)]
          by_cases hip : i = p
          · rw [if_pos hip]
          · rw [if_neg hip]
            rcases Nat.lt_or_ge i n with h1 | h1
            · exact hp3 i (by omega) h1
            rcases Nat.lt_or_ge i ts with h2 | h2
            · exact h.before i h1 h2
            · exact h.after i (by omega) hi'
        · intro i hi hi'
          rw [hget]
          by_cases hi3 : i = te - 1
          · rw [if_pos hi3]
            intro hh
            cases hh
            exact hlet32 hlet
          · rw [if_neg hi3, if_pos (by omega)]
            intro hh
            exact absurd (hdig _ _ hh) (by decide)
        · intro t' ht' _ hmem
          obtain ⟨_, w2, w3⟩ := load_some ht'
          have h0 := w3 0 (by omega)
          rw [hget, if_neg (by omega), if_pos (by omega)] at h0
          obtain ⟨c, hc1', hc2'⟩ := htget 0 (by omega)
          rw [show ts - 1 + 0 - (ts - 1) = 0 by omega, hc1'] at h0
          have hdc := hdig _ _ hc1'
          have hn : ∀ w ∈ noise, w.length ≤ 6 → w[0]?.map isDigit ≠ some true := by
            decide
          refine hn t' hmem (by omega) ?_
          rw [h0, Option.map_some, hdc]
    · rw [if_neg hc]
      exact ⟨b, ts, rfl, post_keep h hld ht hp, by omega⟩

/-- The end of `transform_token`. -/
theorem finishToken_spec {b : Bytes} {n ts te m : Nat} {prev : NState}
    (h : Pre b n ts te m prev) {t : Bytes} (hld : load b ts (te - ts) = some t) (ht : t ∉ noise)
    (st : NState) (hp : Ptrs b m st) (hu : st.contextUpperLetter = none)
    (hm : st.contextModel = none) (hd : st.contextDual = none ∨ t = b!"Dual") :
    ∃ b' st', finishToken b ts te prev st = some (b', st', true) ∧ Post b m b' st' := by
  have hnts := h.nts; have htse := h.tse; have htem := h.tem; have hml := h.mlen
  obtain ⟨hl1, hl2, hl3⟩ := load_some hld
  unfold finishToken
  rw [hld]
  dsimp only
  by_cases hz : isZeroNumber t = true
  · rw [if_pos hz, hl2]
    obtain ⟨b', hb'⟩ := blank_total b ts (te - ts) (by omega)
    rw [hb']
    refine ⟨b', st, rfl, post_blank h (Nat.le_refl _) h.word_boundary rfl hb' (.inr rfl)
      ⟨hm, hu, ?_⟩⟩
    rcases hd with h' | h'
    · exact h'
    · subst h'; exact absurd hz (by decide)
  · rw [if_neg hz]
    obtain ⟨b', ts', hmg, hpost, hts'⟩ := mergeLetter_spec h hld ht st hp hu hm hd
    rw [hmg]
    dsimp only
    have hlen := hpost.len
    rw [load_eq b' ts' (te - ts') (by omega)]
    exact ⟨b', _, rfl, hpost.len, hpost.rest, hpost.chars, hpost.clean,
      ⟨hpost.ptrs.model, hpost.ptrs.dual, hpost.ptrs.upper⟩⟩

/-- `b'` is `b` with some characters from `n` to `m` blanked. -/
def Blanked (b b' : Bytes) (n m : Nat) : Prop :=
  b'.length = b.length ∧ ∀ i, b'[i]? = b[i]? ∨ (n ≤ i ∧ i < m ∧ b'[i]? = some 32)

theorem Blanked.refl (b : Bytes) (n m : Nat) : Blanked b b n m := ⟨rfl, fun _ => .inl rfl⟩

theorem Blanked.trans {b b1 b2 : Bytes} {n m : Nat} (h1 : Blanked b b1 n m)
    (h2 : Blanked b1 b2 n m) : Blanked b b2 n m := by
  refine ⟨h2.1.trans h1.1, fun i => ?_⟩
  rcases h2.2 i with h | ⟨h, h', h''⟩
  · rcases h1.2 i with k | ⟨k, k', k''⟩
    · exact .inl (h.trans k)
    · exact .inr ⟨k, k', h.trans k''⟩
  · exact .inr ⟨h, h', h''⟩

theorem Blanked.low {b b' : Bytes} {n m : Nat} (h : Blanked b b' n m) (i : Nat) (hi : i < n) :
    b'[i]? = b[i]? := by
  rcases h.2 i with k | ⟨k, _, _⟩
  · exact k
  · omega

theorem blanked_of_blank {b b' : Bytes} {s q n m : Nat} (h : blank b s q = some b') (hn : n ≤ s)
    (hm : s + q ≤ m) : Blanked b b' n m := by
  obtain ⟨_, h2, h3⟩ := blank_some h
  refine ⟨h2, fun i => ?_⟩
  rw [h3]
  by_cases hi : s ≤ i ∧ i < s + q
  · rw [if_pos hi]; exact .inr ⟨by omega, by omega, rfl⟩
  · rw [if_neg hi]; exact .inl rfl

theorem noNoise_congr {b b' : Bytes} {n : Nat} (hl : b'.length = b.length)
    (hpre : ∀ i, i < n → b'[i]? = b[i]?) (h : NoNoise b n) : NoNoise b' n := by
  intro s e hse hem hs he hns t hld
  refine h s e hse hem ?_ ?_ ?_ t ?_
  · rcases hs with hs | hs
    · exact .inl hs
    · rcases Nat.eq_zero_or_pos s with h0 | h0
      · exact .inl h0
      · right; rw [← hpre _ (by omega)]; exact hs
  · rcases Nat.lt_or_ge e n with h' | h'
    · rcases he with he | he
      · exact .inl he
      · right; rw [← hpre _ h']; exact he
    · left; omega
  · intro i hi hi'
    rw [← hpre _ (by omega)]; exact hns i hi hi'
  · rw [← hld]
    exact (load_congr hl (fun i _ _ => hpre i (by omega))).symm

theorem boundary_congr {b b' : Bytes} {n p : Nat} (hpre : ∀ i, i < n → b'[i]? = b[i]?)
    (hp : p ≤ n) (h : Boundary b p) : Boundary b' p := by
  rcases h with h | h
  · exact .inl h
  · rcases Nat.eq_zero_or_pos p with h0 | h0
    · exact .inl h0
    · right; rw [hpre _ (by omega)]; exact h

theorem ptrs_congr {b b' : Bytes} {n : Nat} {st : NState} (hpre : ∀ i, i < n → b'[i]? = b[i]?)
    (h : Ptrs b n st) : Ptrs b' n st := by
  refine ⟨fun p hp => ?_, fun p hp => ?_, fun p hp => ?_⟩
  · obtain ⟨h1, h2⟩ := h.model p hp
    exact ⟨h1, boundary_congr hpre (by omega) h2⟩
  · obtain ⟨h1, h2⟩ := h.dual p hp
    exact ⟨h1, boundary_congr hpre (by omega) h2⟩
  · obtain ⟨h1, h2, h3, h4⟩ := h.upper p hp
    refine ⟨h1, boundary_congr hpre (by omega) h2, ?_, fun i hi hi' => ?_⟩
    · rw [hpre _ (by omega)]; exact h3
    · rw [hpre _ hi']; exact h4 i hi hi'

/-- Blanking parts of the token on either side. -/
theorem Pre.strip {b b' : Bytes} {n ts te ts' te' m : Nat} {st : NState} (h : Pre b n ts te m st)
    (hb : Blanked b b' n m) (h1 : ts ≤ ts') (h2 : te' ≤ te) (h3 : ts' < te')
    (hbl : ∀ i, ts ≤ i → i < te → ¬ (ts' ≤ i ∧ i < te') → b'[i]? = some 32)
    (hun : Uniform b' ts' te') : Pre b' n ts' te' m st := by
  have hnts := h.nts; have htse := h.tse; have htem := h.tem
  have hout : ∀ (i : Nat), b[i]? = some 32 → b'[i]? = some 32 := by
    intro i hi
    rcases hb.2 i with k | ⟨_, _, k⟩
    · rw [k]; exact hi
    · exact k
  refine ⟨by omega, h3, by omega, by rw [hb.1]; exact h.mlen,
    boundary_congr hb.low (Nat.le_refl _) h.boundary, noNoise_congr hb.1 hb.low h.clean,
    fun i hi hi' => ?_, fun i hi hi' => ?_, hun, ptrs_congr hb.low h.ptrs, h.upper⟩
  · rcases Nat.lt_or_ge i ts with k | k
    · exact hout i (h.before i hi k)
    · exact hbl i k (by omega) (by omega)
  · rcases Nat.lt_or_ge i te with k | k
    · exact hbl i (by omega) k (by omega)
    · exact hout i (h.after i k hi')

theorem uniform_sub {b b' : Bytes} {ts te ts' te' : Nat} (h : Uniform b ts te) (h1 : ts ≤ ts')
    (h2 : te' ≤ te) (heq : ∀ i, ts' ≤ i → i < te' → b'[i]? = b[i]?) : Uniform b' ts' te' := by
  rcases h with h | h
  · exact .inl fun i hi hi' => by rw [heq i hi hi']; exact h i (by omega) (by omega)
  · exact .inr fun i hi hi' => by rw [heq i hi hi']; exact h i (by omega) (by omega)

theorem blankFrequency_spec {b : Bytes} {n ts te m : Nat} {prev : NState}
    (h : Pre b n ts te m prev) (st : NState) :
    ∃ b', blankFrequency b ts te st = some b' ∧ Pre b' n ts te m prev ∧ Blanked b b' n m := by
  have hnts := h.nts; have htse := h.tse; have htem := h.tem; have hml := h.mlen
  have keep : ∃ b', some b = some b' ∧ Pre b' n ts te m prev ∧ Blanked b b' n m :=
    ⟨b, rfl, h, Blanked.refl b n m⟩
  unfold blankFrequency
  cases st.frequencySeparator with
  | none => exact keep
  | some sep =>
    dsimp only
    by_cases hc : ts > sep ∧ st.parsedModelNumber = true
    · rw [if_pos hc]
      obtain ⟨b', hb'⟩ := blank_total b ts (te - ts) (by omega)
      rw [hb']
      have hbl := blanked_of_blank (n := n) (m := m) hb' h.nts (by omega)
      have h3 := (blank_some hb').2.2
      exact ⟨b', rfl, h.strip hbl (Nat.le_refl _) (Nat.le_refl _) h.tse
        (fun i hi hi' hno => absurd ⟨hi, hi'⟩ hno)
        (.inr fun i hi hi' => by rw [h3, if_pos (by omega)]), hbl⟩
    · rw [if_neg hc]; exact keep

theorem stripTm_spec {b : Bytes} {n ts te m : Nat} {prev : NState} (h : Pre b n ts te m prev) :
    ∃ b' te', stripTm b ts te = some (b', te') ∧ Pre b' n ts te' m prev ∧ Blanked b b' n m ∧
      te' ≤ te := by
  have hnts := h.nts; have htse := h.tse; have htem := h.tem; have hml := h.mlen
  unfold stripTm
  by_cases hlen : te - ts > 2
  · rw [if_pos hlen, load_eq b (te - 3) 3 (by omega)]
    have hl : ((b.drop (te - 3)).take 3).length = 3 := by simp; omega
    generalize (b.drop (te - 3)).take 3 = w at hl
    match w, hl with
    | [x, y, z], _ =>
      dsimp only
      by_cases hc : ((isDigit x || isUpperLetter x) && [y, z] == b!"tm") = true
      · rw [if_pos hc]
        obtain ⟨b', hb'⟩ := blank_total b (te - 2) 2 (by omega)
        rw [hb']
        have hbl := blanked_of_blank (n := n) (m := m) hb' (by omega) (by omega)
        have h3 := (blank_some hb').2.2
        exact ⟨b', te - 2, rfl, h.strip hbl (Nat.le_refl _) (by omega) (by omega)
          (fun i hi hi' hno => by rw [h3, if_pos (by omega)])
          (uniform_sub h.uniform (Nat.le_refl _) (by omega)
            (fun i hi hi' => by rw [h3, if_neg (by omega)])), hbl, by omega⟩
      · rw [if_neg hc]; exact ⟨b, te, rfl, h, Blanked.refl b n m, Nat.le_refl _⟩
  · rw [if_neg hlen]; exact ⟨b, te, rfl, h, Blanked.refl b n m, Nat.le_refl _⟩

theorem stripAmd_spec {b : Bytes} {n ts te m : Nat} {prev : NState} (h : Pre b n ts te m prev) :
    ∃ b' ts', stripAmd b ts te = some (b', ts') ∧ Pre b' n ts' te m prev ∧ Blanked b b' n m ∧
      ts ≤ ts' := by
  have hnts := h.nts; have htse := h.tse; have htem := h.tem; have hml := h.mlen
  unfold stripAmd
  by_cases hlen : te - ts > 4
  · rw [if_pos hlen, load_eq b ts 4 (by omega)]
    dsimp only
    by_cases hc : (b.drop ts).take 4 = b!"AMD-"
    · rw [if_pos hc]
      obtain ⟨b', hb'⟩ := blank_total b ts 4 (by omega)
      rw [hb']
      have hbl := blanked_of_blank (n := n) (m := m) hb' h.nts (by omega)
      have h3 := (blank_some hb').2.2
      exact ⟨b', ts + 4, rfl, h.strip hbl (by omega) (Nat.le_refl _) (by omega)
        (fun i hi hi' hno => by rw [h3, if_pos (by omega)])
        (uniform_sub h.uniform (by omega) (Nat.le_refl _)
          (fun i hi hi' => by rw [h3, if_neg (by omega)])), hbl, by omega⟩
    · rw [if_neg hc]; exact ⟨b, ts, rfl, h, Blanked.refl b n m, Nat.le_refl _⟩
  · rw [if_neg hlen]; exact ⟨b, ts, rfl, h, Blanked.refl b n m, Nat.le_refl _⟩

theorem Post.of_blanked {b b1 b' : Bytes} {n m : Nat} {st' : NState} (h : Post b1 m b' st')
    (hb : Blanked b b1 n m) : Post b m b' st' := by
  refine ⟨h.len.trans hb.1, fun i hi => ?_, fun i c hi hc => ?_, h.clean, h.ptrs⟩
  · rw [h.rest i hi]
    rcases hb.2 i with k | ⟨_, k, _⟩
    · exact k
    · omega
  · rcases h.chars i c hi hc with k | k | ⟨j, hj, k⟩
    · exact .inl k
    · exact .inr (.inl k)
    · rcases hb.2 j with l | ⟨_, _, l⟩
      · exact .inr (.inr ⟨j, hj, l ▸ k⟩)
      · rw [l] at k; cases k; exact .inl rfl

/-- `transform_token` stays inside the buffer and leaves no word of the table. -/
theorem transformToken_spec {b : Bytes} {ts te : Nat} {prev : NState}
    (h : Pre b ts ts te te prev) :
    ∃ b' st' r, transformToken b ts te prev = some (b', st', r) ∧ Post b te b' st' := by
  unfold transformToken
  dsimp only
  obtain ⟨b1, e1, p1, k1⟩ := blankFrequency_spec h (resetContext prev)
  rw [e1]
  dsimp only
  obtain ⟨b2, te', e2, p2, k2, _⟩ := stripTm_spec p1
  rw [e2]
  dsimp only
  obtain ⟨b3, ts', e3, p3, k3, _⟩ := stripAmd_spec p2
  rw [e3]
  dsimp only
  have hbl := (k1.trans k2).trans k3
  have hnts := p3.nts; have htse := p3.tse; have htem := p3.tem; have hml := p3.mlen
  have hld : load b3 ts' (te' - ts') = some ((b3.drop ts').take (te' - ts')) :=
    load_eq b3 ts' _ (by omega)
  have hst : (resetContext prev).contextModel = none ∧
      (resetContext prev).contextUpperLetter = none ∧ (resetContext prev).contextDual = none :=
    ⟨rfl, rfl, rfl⟩
  unfold switchWords
  rw [hld]
  dsimp only
  cases hf : findWord ((b3.drop ts').take (te' - ts')) eraseWords with
  | some r =>
    obtain ⟨r, core⟩ := r
    dsimp only
    obtain ⟨_, hl2, _⟩ := load_some hld
    rw [hl2]
    obtain ⟨b', hb'⟩ := blank_total b3 ts' (te' - ts') (by omega)
    rw [hb']
    refine ⟨b', _, r, rfl, Post.of_blanked (post_blank p3 (Nat.le_refl _) p3.word_boundary rfl hb'
      (.inr rfl) ?_) hbl⟩
    cases core
    · exact hst
    · exact hst
  | none =>
    dsimp only
    have hnz := findWord_none _ hf
    obtain ⟨r, er, hret, hgo⟩ := specialWords_spec p3 hld hnz hst
    rw [er]
    cases r with
    | ret b4 st' k => exact ⟨b4, st', k, rfl, (hret b4 st' k rfl).of_blanked hbl⟩
    | goOn st' =>
      obtain ⟨g1, g2, g3, g4⟩ := hgo st' rfl
      obtain ⟨b', st'', ef, hp⟩ := finishToken_spec p3 hld hnz st' g1 g2 g3 g4
      exact ⟨b', st'', true, ef, hp.of_blanked hbl⟩

/-! ## The loop over tokens -/

/-- Everything allowed in the buffer before the end of the string stays so; tokens are read as
they are in the text `b0`; what each token keeps true of the state stays true. -/
theorem tokenLoop_spec (P : Byte → Prop) (h32 : P 32) (hv : P 118) (b0 : Bytes)
    (Q : Nat → NState → Prop) (hmono : ∀ (n m : Nat) (st : NState), n ≤ m → Q n st → Q m st)
    (hstep : ∀ (b : Bytes) (ts te : Nat) (prev : NState) (b' : Bytes) (st' : NState) (r : Bool),
      Pre b ts ts te te prev → (∀ (j : Nat), ts ≤ j → b[j]? = b0[j]?) →
      transformToken b ts te prev = some (b', st', r) → Q ts prev → Q te st') (k : Nat) :
    ∀ (i : Nat) (b : Bytes) (tok : Option Nat) (st : NState), i + k ≤ b.length →
    (∀ j c, j < i + k → b[j]? = some c → P c) →
    (∀ (j : Nat), tok.getD i ≤ j → b[j]? = b0[j]?) → Q (tok.getD i) st →
    (match tok with
      | none => NoNoise b i ∧ Boundary b i ∧ Ptrs b i st ∧
          ∀ p, st.contextUpperLetter = some p → p + 1 < i ∧ 0 < i
      | some ts => (∀ j, ts ≤ j → j < i → b[j]? ≠ some 32) ∧ Pre b ts ts i i st) →
    ∃ b' e st', tokenLoop k i b tok st = some (b', e, st') ∧ e ≤ i + k ∧ b'.length = b.length ∧
      NoNoise b' e ∧ (∀ j c, j < i + k → b'[j]? = some c → P c) ∧ Q (i + k) st' := by
  induction k with
  | zero =>
    intro i b tok st hlen hP h0 hQ hinv
    cases tok with
    | none => exact ⟨b, i, st, rfl, Nat.le_refl _, rfl, hinv.1, hP, hQ⟩
    | some ts =>
      obtain ⟨hts, hpre⟩ := hinv
      obtain ⟨b', st', r, e, hpost⟩ := transformToken_spec hpre
      refine ⟨b', i, st', by unfold tokenLoop; dsimp only; rw [e]; rfl, Nat.le_refl _,
        hpost.len, hpost.clean, fun j c hj hc => ?_, hstep _ _ _ _ _ _ _ hpre h0 e hQ⟩
      rcases hpost.chars j c hj hc with rfl | rfl | ⟨j', hj', hc'⟩
      · exact h32
      · exact hv
      · exact hP j' c hj' hc'
  | succ k ih =>
    intro i b tok st hlen hP h0 hQ hinv
    obtain ⟨c, hc⟩ : ∃ c, b[i]? = some c := ⟨b[i], List.getElem?_eq_getElem (by omega)⟩
    unfold tokenLoop
    rw [hc]
    dsimp only
    by_cases h : c = 32
    · subst h
      rw [if_pos rfl]
      cases tok with
      | none =>
        obtain ⟨q1, q2, q3, q4⟩ := hinv
        have hext : NoNoise b (i + 1) :=
          NoNoise.extend (s0 := i + 1) (e0 := i + 1) q1 q2 rfl (by omega) (Nat.le_refl _)
            (fun _ _ => rfl) (fun j hj hj' _ => by
              have : j = i := by omega
              subst this; exact hc) (fun j hj hj' => by omega) (fun t _ hh => by omega) (by omega)
        obtain ⟨b', e, st', r1, r2, r3, r4, r5, r6⟩ := ih (i + 1) b none st (by omega)
          (fun j c hj hcj => hP j c (by omega) hcj)
          (fun j hj => h0 j (by simp only [Option.getD_none] at hj ⊢; omega))
          (hmono _ _ _ (by simp only [Option.getD_none]; omega) hQ)
          ⟨hext, .inr hc, ⟨fun p hp => ⟨by have := (q3.model p hp).1; omega, (q3.model p hp).2⟩,
            fun p hp => ⟨by have := (q3.dual p hp).1; omega, (q3.dual p hp).2⟩,
            fun p hp => ⟨by have := (q3.upper p hp).1; omega, (q3.upper p hp).2.1,
              (q3.upper p hp).2.2.1, fun j hj hj' => by
                rcases Nat.lt_or_ge j i with hh | hh
                · exact (q3.upper p hp).2.2.2 j hj hh
                · have : j = i := by omega
                  subst this; exact hc⟩⟩,
            fun p hp => ⟨by have := (q3.upper p hp).1; omega, by omega⟩⟩
        exact ⟨b', e, st', r1, by omega, r3, r4, fun j c hj hcj => r5 j c (by omega) hcj,
          hmono _ _ _ (by omega) r6⟩
      | some ts =>
        obtain ⟨hts, hpre⟩ := hinv
        obtain ⟨b1, st1, r, e, hpost⟩ := transformToken_spec hpre
        dsimp only
        rw [e]
        dsimp only
        have hP1 : ∀ j c, j < i + (k + 1) → b1[j]? = some c → P c := by
          intro j c hj hcj
          rcases Nat.lt_or_ge j i with hh | hh
          · rcases hpost.chars j c hh hcj with rfl | rfl | ⟨j', hj', hc'⟩
            · exact h32
            · exact hv
            · exact hP j' c (by omega) hc'
          · rw [hpost.rest j hh] at hcj
            exact hP j c hj hcj
        cases r with
        | false =>
          exact ⟨b1, i, st1, rfl, by omega, hpost.len, hpost.clean, hP1,
            hmono i _ _ (by omega) (hstep _ _ _ _ _ _ _ hpre h0 e hQ)⟩
        | true =>
          rw [if_pos rfl]
          have hci : b1[i]? = some 32 := by rw [hpost.rest i (Nat.le_refl _)]; exact hc
          have hext : NoNoise b1 (i + 1) := by
            intro s e' hse he' hs hend hns t hld
            have : e' ≤ i := by
              rcases Nat.lt_or_ge i e' with hh | hh
              · exact absurd hci (hns i (by omega) hh)
              · exact hh
            refine hpost.clean s e' hse this hs ?_ hns t hld
            rcases hend with hh | hh
            · omega
            · exact .inr hh
          have hp1 := hpost.ptrs
          obtain ⟨b', e', st', r1, r2, r3, r4, r5, r6⟩ := ih (i + 1) b1 none st1
            (by rw [hpost.len]; omega) (fun j c hj hcj => hP1 j c (by omega) hcj)
            (fun j hj => by
              have h1 := hpre.tse
              simp only [Option.getD_none] at hj
              rw [hpost.rest j (by omega)]; exact h0 j (by simp only [Option.getD_some]; omega))
            (hmono i _ _ (by simp only [Option.getD_none]; omega)
              (hstep _ _ _ _ _ _ _ hpre h0 e hQ))
            ⟨hext, .inr hci, ⟨fun p hp => ⟨by have := (hp1.model p hp).1; omega,
                (hp1.model p hp).2⟩,
              fun p hp => ⟨by have := (hp1.dual p hp).1; omega, (hp1.dual p hp).2⟩,
              fun p hp => ⟨by have := (hp1.upper p hp).1; omega, (hp1.upper p hp).2.1,
                (hp1.upper p hp).2.2.1, fun j hj hj' => by
                  rcases Nat.lt_or_ge j i with hh | hh
                  · exact (hp1.upper p hp).2.2.2 j hj hh
                  · have : j = i := by omega
                    subst this; exact hci⟩⟩,
              fun p hp => ⟨by have := (hp1.upper p hp).1; omega, by omega⟩⟩
          exact ⟨b', e', st', r1, by omega, by rw [r3, hpost.len], r4,
            fun j c hj hcj => r5 j c (by omega) hcj,
          hmono _ _ _ (by omega) r6⟩
    · rw [if_neg h]
      have hne : b[i]? ≠ some 32 := by rw [hc]; intro hh; cases hh; exact h rfl
      cases tok with
      | none =>
        obtain ⟨q1, q2, q3, q4⟩ := hinv
        have hne' : ∀ j, i ≤ j → j < i + 1 → b[j]? ≠ some 32 := by
          intro j hj hj'
          have : j = i := by omega
          subst this; exact hne
        obtain ⟨b', e, st', r1, r2, r3, r4, r5, r6⟩ := ih (i + 1) b (some i) st (by omega)
          (fun j c hj hcj => hP j c (by omega) hcj) h0 hQ
          ⟨hne', ⟨Nat.le_refl _, by omega, Nat.le_refl _, by omega, q2, q1,
            fun j hj hj' => by omega, fun j hj hj' => by omega,
            .inl hne', q3, fun p hp => (q4 p hp).1⟩⟩
        exact ⟨b', e, st', r1, by omega, r3, r4, fun j c hj hcj => r5 j c (by omega) hcj,
          hmono _ _ _ (by omega) r6⟩
      | some ts =>
        obtain ⟨hts, hpre⟩ := hinv
        have htsi := hpre.tse
        have hne' : ∀ j, ts ≤ j → j < i + 1 → b[j]? ≠ some 32 := by
          intro j hj hj'
          rcases Nat.lt_or_ge j i with hh | hh
          · exact hts j hj hh
          · have : j = i := by omega
            subst this; exact hne
        obtain ⟨b', e, st', r1, r2, r3, r4, r5, r6⟩ := ih (i + 1) b (some ts) st (by omega)
          (fun j c hj hcj => hP j c (by omega) hcj) h0 hQ
          ⟨hne', ⟨Nat.le_refl _, by omega, Nat.le_refl _, by omega, hpre.boundary,
            hpre.clean, fun j hj hj' => by omega, fun j hj hj' => by omega,
            .inl hne', hpre.ptrs, hpre.upper⟩⟩
        exact ⟨b', e, st', r1, by omega, r3, r4, fun j c hj hcj => r5 j c (by omega) hcj,
          hmono _ _ _ (by omega) r6⟩

end Verif.X86Name
