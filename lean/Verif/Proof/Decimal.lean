import Verif.Proof.CpuList

/-! Decimal printing and parsing. -/

set_option autoImplicit false

namespace Verif
open Spec CpuList

theorem decFrom_append (n : Nat) (xs ys : Bytes) : decFrom n (xs ++ ys) = decFrom (decFrom n xs) ys := by
  simp [decFrom, List.foldl_append]

theorem printNat_lt {n : Nat} (h : n < 10) : printNat n = [48 + n] := by
  rw [printNat]; simp [h]

theorem printNat_ge {n : Nat} (h : ¬ n < 10) : printNat n = printNat (n / 10) ++ [48 + n % 10] := by
  rw [printNat]; simp [h]

theorem decimal_printNat (n : Nat) : decimal (printNat n) = n := by
  induction n using Nat.strongRecOn with
  | _ n ih =>
    by_cases h : n < 10
    · rw [printNat_lt h]; simp [decimal]
    · rw [printNat_ge h, decimal_eq, decFrom_append, ← decimal_eq, ih (n / 10) (by omega)]
      simp [decFrom]; omega

theorem printNat_numeral (n : Nat) : IsNumeral (printNat n) := by
  induction n using Nat.strongRecOn with
  | _ n ih =>
    by_cases h : n < 10
    · rw [printNat_lt h]; refine ⟨by simp, ?_⟩; intro d hd; simp at hd; subst hd
      unfold IsDigit; omega
    · rw [printNat_ge h]; refine ⟨by simp, ?_⟩
      intro d hd
      simp at hd
      rcases hd with hd | hd
      · exact (ih (n / 10) (by omega)).2 d hd
      · subst hd; unfold IsDigit; omega

theorem printNat_length (n k : Nat) (h : n < 10 ^ (k + 1)) : (printNat n).length ≤ k + 1 := by
  induction k generalizing n with
  | zero => rw [printNat_lt (by simpa using h)]; simp
  | succ k ih =>
    by_cases h10 : n < 10
    · rw [printNat_lt h10]; simp
    · rw [printNat_ge h10]
      have : n / 10 < 10 ^ (k + 1) := by
        rw [Nat.div_lt_iff_lt_mul (by decide)]; rw [Nat.pow_succ] at h; exact h
      have := ih _ this
      simp; omega

theorem printNat_length_u32 {n : Nat} (h : n < U32) : (printNat n).length ≤ 10 :=
  printNat_length n 9 (by omega)

/-- A numeral contains no blank, comma or dash. -/
theorem IsDigit.ne {d : Byte} (h : IsDigit d) : ¬ IsBlank d ∧ d ≠ 44 ∧ d ≠ 45 := by
  unfold IsDigit at h; unfold IsBlank; omega

theorem printRange_denotes (a b : Nat) (hab : a ≤ b) (hb : b < U32) (post : Bytes)
    (hp : ∀ c ∈ post, IsBlank c) : EntryDenotes (printRange (a, b) ++ post) a b := by
  have ha : a < U32 := by omega
  have na := printNat_numeral a
  have nb := printNat_numeral b
  refine ⟨[], printRange (a, b), post, by simp, by simp, hp, ?_, ?_, ?_⟩
  · intro c hc
    have hmem : c ∈ printRange (a, b) := List.mem_of_head? hc
    unfold printRange at hc
    split at hc
    · exact (IsDigit.ne (na.2 c (List.mem_of_head? hc))).1
    · rw [List.head?_append] at hc
      cases hh : (printNat a).head? with
      | none => simp at hh; exact absurd hh na.1
      | some d =>
        rw [hh] at hc; simp at hc; subst hc
        exact (IsDigit.ne (na.2 d (List.mem_of_head? hh))).1
  · intro c hc
    unfold printRange at hc
    split at hc
    · exact (IsDigit.ne (na.2 c (List.mem_of_getLast? hc))).1
    · rw [List.getLast?_append] at hc
      rw [List.getLast?_cons] at hc
      cases hh : (printNat b).getLast? with
      | none => simp at hh; exact absurd hh nb.1
      | some d =>
        rw [hh] at hc; simp at hc; subst hc
        exact (IsDigit.ne (nb.2 d (List.mem_of_getLast? hh))).1
  · unfold printRange
    split
    · rename_i h; simp at h; subst h
      have := BodyDenotes.single (printNat a) na
      rw [decimal_printNat, Nat.mod_eq_of_lt ha] at this; exact this
    · have := BodyDenotes.range (printNat a) (printNat b) [] na nb (by simp)
        (by rw [decimal_printNat, decimal_printNat, Nat.mod_eq_of_lt ha, Nat.mod_eq_of_lt hb]; exact hab)
      rw [decimal_printNat, decimal_printNat, Nat.mod_eq_of_lt ha, Nat.mod_eq_of_lt hb] at this
      simpa using this

theorem printRange_length (a b : Nat) (ha : a < U32) (hb : b < U32) :
    (printRange (a, b)).length ≤ 21 := by
  unfold printRange
  have := printNat_length_u32 ha
  have := printNat_length_u32 hb
  split <;> simp <;> omega

theorem printRange_noComma (r : Nat × Nat) : 44 ∉ printRange r := by
  unfold printRange
  have na := printNat_numeral r.1
  have nb := printNat_numeral r.2
  split
  · intro h; exact (IsDigit.ne (na.2 _ h)).2.1 rfl
  · intro h
    simp at h
    rcases h with h | h
    · exact (IsDigit.ne (na.2 _ h)).2.1 rfl
    · exact (IsDigit.ne (nb.2 _ h)).2.1 rfl

theorem exists_meanings (es : List Bytes) : ∃ ms, Forall2 EntryMeaning es ms := by
  induction es with
  | nil => exact ⟨[], .nil⟩
  | cons e es ih =>
    obtain ⟨ms, ih⟩ := ih
    obtain ⟨m, hm⟩ := CpuList.exists_meaning e
    exact ⟨m :: ms, .cons hm ih⟩

/-- The entries of a printed list (the newline belongs to the last one). -/
theorem printed_entries (rs : List (Nat × Nat)) (hne : rs ≠ [])
    (hrs : ∀ r ∈ rs, r.1 ≤ r.2 ∧ r.2 < U32) :
    ∃ es, printCpuList rs = joinComma es ∧ es ≠ [] ∧ (∀ e ∈ es, 44 ∉ e) ∧
      Forall2 EntryMeaning es (rs.map some) ∧ ∀ e ∈ es, e.length ≤ 22 := by
  induction rs with
  | nil => contradiction
  | cons r rs ih =>
    have hr := hrs r (by simp)
    have hl := printRange_length r.1 r.2 (by omega) hr.2
    by_cases hr0 : rs = []
    · subst hr0
      refine ⟨[printRange r ++ [10]], by simp [printCpuList, joinComma], by simp, ?_, ?_, ?_⟩
      · intro e he; simp at he; subst he
        have := printRange_noComma r
        simp [this]
      · exact .cons (printRange_denotes r.1 r.2 hr.1 hr.2 [10] (by simp [IsBlank])) .nil
      · intro e he; simp at he; subst he; simp at hl ⊢; omega
    · obtain ⟨es, h1, h2, h3, h4, h5⟩ := ih hr0 (fun x hx => hrs x (by simp [hx]))
      refine ⟨printRange r :: es, ?_, by simp, ?_, ?_, ?_⟩
      · unfold printCpuList at *
        rw [List.map_cons, joinComma_cons (by simpa using hr0), joinComma_cons h2, ← h1]
        simp
      · intro e he; simp at he
        rcases he with rfl | he
        · exact printRange_noComma r
        · exact h3 e he
      · refine .cons ?_ h4
        have := printRange_denotes r.1 r.2 hr.1 hr.2 [] (by simp)
        rw [List.append_nil] at this
        exact this
      · intro e he; simp at he
        rcases he with rfl | he
        · exact Nat.le_succ_of_le hl
        · exact h5 e he

theorem run_record (rs cs : List (Nat × Nat)) (hrs : ∀ r ∈ rs, r.1 ≤ r.2 ∧ r.2 < U32MAX) :
    runEntries CpuList.record cs (rs.map some) =
      (cs ++ rs.map (fun r => (r.1, r.2 + 1)), true) := by
  induction rs generalizing cs with
  | nil => simp [runEntries]
  | cons r rs ih =>
    have hr := hrs r (by simp)
    have e : (r.2 + 1) % U32 = r.2 + 1 := by omega
    simp only [List.map_cons, runEntries, CpuList.record]
    rw [ih _ (fun x hx => hrs x (by simp [hx])), e]
    simp

theorem run_record_mono (ms : List (Option (Nat × Nat))) (cs : List (Nat × Nat)) :
    ∀ c ∈ cs, c ∈ (runEntries CpuList.record cs ms).1 := by
  induction ms generalizing cs with
  | nil => simp [runEntries]
  | cons m ms ih =>
    intro c hc
    cases m with
    | none => simp only [runEntries]; exact ih cs c hc
    | some r => simp only [runEntries, CpuList.record]; exact ih _ c (by simp [hc])

theorem complete_of_run (es : List Bytes) (ms : List (Option (Nat × Nat)))
    (hm : Forall2 EntryMeaning es ms) (cs calls : List (Nat × Nat))
    (h : runEntries CpuList.record cs ms = (calls, true)) :
    ∀ e ∈ es, ∃ a b, EntryDenotes e a b ∧ (a, (b + 1) % U32) ∈ calls := by
  induction hm generalizing cs with
  | nil => simp
  | cons h1 _ ih =>
    rename_i e m es ms _
    cases m with
    | none => simp [runEntries] at h
    | some r =>
      obtain ⟨a, b⟩ := r
      simp only [runEntries, CpuList.record, Bool.true_and] at h
      intro e' he'
      simp at he'
      rcases he' with rfl | he'
      · refine ⟨a, b, h1, ?_⟩
        have := run_record_mono ms (cs ++ [(a, (b + 1) % U32)]) (a, (b + 1) % U32) (by simp)
        rw [(Prod.mk.inj h).1] at this
        exact this
      · exact ih _ h e' he'

theorem drain_noComma {σ : Type} (cb : σ → Nat → Nat → σ × Bool) (cur data : Bytes) (s : σ) (ok : Bool) (h : 44 ∉ data) :
    drain cb cur data s ok = (s, ok, cur ++ data) := by
  induction data generalizing cur with
  | nil => simp [drain]
  | cons c cs ih =>
    simp at h
    have hc : c ≠ 44 := fun e => h.1 e.symm
    rw [drain, if_neg hc, ih _ h.2]
    simp

theorem CpuList.long_loop {σ : Type} (cb : σ → Nat → Nat → σ × Bool) (sched : Sched) (hs : sched.NoError)
    (fuel i : Nat) (buf mid rest : Bytes) (s : σ) (hlen : (buf ++ mid).length = 256)
    (hc : 44 ∉ buf ++ mid) (hf : mid.length < fuel) :
    loop sched cb fuel i buf (mid ++ rest) s true = some (entryStep cb s (buf ++ mid)) := by
  induction fuel generalizing i buf mid with
  | zero => omega
  | succ fuel ih =>
    unfold loop
    cases hw : sched i with
    | none => have := hs i; simp [hw] at this
    | some k =>
      unfold sysRead
      dsimp only
      by_cases hm : mid = []
      · subst hm
        simp at hlen
        simp [bufferSize, hlen]
      · have hml : 0 < mid.length := by cases mid <;> simp at *
        simp at hlen
        have h1 : min (k + 1) (bufferSize - buf.length) ≤ mid.length := by unfold bufferSize; omega
        generalize hj : min (k + 1) (bufferSize - buf.length) = j at *
        have hj0 : 0 < j := by unfold bufferSize at hj; omega
        rw [List.take_append_of_le_length h1, List.drop_append_of_le_length h1]
        cases ht : mid.take j with
        | nil => rw [List.take_eq_nil_iff] at ht; rcases ht with h | h <;> simp_all
        | cons g gs =>
          dsimp only
          rw [← ht, drain_noComma _ _ _ _ _ (by
            intro h
            apply hc
            simp at h ⊢
            rcases h with h | h
            · exact .inl h
            · exact .inr (List.mem_of_mem_take h))]
          have e : buf ++ mid = ([] ++ (buf ++ mid.take j)) ++ mid.drop j := by simp
          rw [e]
          apply ih
          · rw [← e]; simpa using hlen
          · rw [← e]; exact hc
          · simp; omega

end Verif
