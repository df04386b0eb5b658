import Verif.Model.Multiline
import Verif.Model.SmallFile
import Verif.Spec.Text
import Verif.Proof.Decimal

/-! Helper lemmas for the multi-line and the small-file reader. -/

set_option autoImplicit false

namespace Verif
open Spec

namespace Multiline

theorem joinLines_cons {l : Bytes} {ls : List Bytes} (h : ls ≠ []) :
    joinLines (l :: ls) = l ++ 10 :: joinLines ls := by
  cases ls with
  | nil => contradiction
  | cons a as => rfl

theorem prefix_of_first {buf rest e : Bytes} {t : Bytes} (hb : 10 ∉ buf)
    (h : buf ++ rest = e ++ 10 :: t) : buf.length ≤ e.length := by
  induction buf generalizing e with
  | nil => simp
  | cons y ys ih =>
    cases e with
    | nil => simp at h; simp at hb; exact absurd h.1.symm hb.1
    | cons x xs =>
      simp at h hb
      have := ih hb.2 h.2
      simpa using this

/-- A prefix without newline that is followed by a newline is the first line. -/
theorem first_line {cur t : Bytes} {ls : List Bytes} (hc : 10 ∉ cur) (hcf : ∀ l ∈ ls, 10 ∉ l)
    (h : cur ++ 10 :: t = joinLines ls) :
    ∃ ls', ls = cur :: ls' ∧ ls' ≠ [] ∧ t = joinLines ls' := by
  cases ls with
  | nil => simp [joinLines] at h
  | cons l ls =>
    have hl := hcf l (by simp)
    by_cases h0 : ls = []
    · subst h0
      simp only [joinLines] at h
      exfalso; apply hl; rw [← h]; simp
    · rw [joinLines_cons h0] at h
      have : cur = l ∧ t = joinLines ls := by
        clear hcf
        induction cur generalizing l with
        | nil =>
          cases l with
          | nil => simpa using h
          | cons x xs => simp at h hl; exact absurd h.1 hl.1
        | cons y ys ih =>
          cases l with
          | nil => simp at h hc; exact absurd h.1.symm hc.1
          | cons x xs =>
            simp at h hc hl
            have := ih hc.2 xs h.2 hl.2
            simp [h.1, this.1, this.2]
      exact ⟨ls, by rw [this.1], h0, this.2⟩

section
variable {σ : Type} (cb : Handler σ)

theorem drain_spec (cur data rest : Bytes) (s : σ) (n : Nat) (ls : List Bytes)
    (hne : ls ≠ []) (hcf : ∀ l ∈ ls, 10 ∉ l) (hcur : 10 ∉ cur)
    (heq : cur ++ data ++ rest = joinLines ls) :
    match drain cb cur data s n with
    | .stopped s' => runLines cb s n ls = (s', false)
    | .more s' n' left => ∃ ls1 ls2, ls = ls1 ++ ls2 ∧ ls2 ≠ [] ∧ 10 ∉ left ∧
        left ++ rest = joinLines ls2 ∧ runLines cb s n ls = runLines cb s' n' ls2 := by
  induction data generalizing cur s n ls with
  | nil =>
    simp only [drain]
    exact ⟨[], ls, rfl, hne, hcur, by simpa using heq, rfl⟩
  | cons c cs ih =>
    unfold drain
    by_cases hc : c = 10
    · subst hc
      rw [if_pos rfl]
      obtain ⟨ls', rfl, h1, h2⟩ := first_line (cur := cur) (t := cs ++ rest) hcur hcf (by simpa using heq)
      cases hk : cb s cur n with
      | mk s' k =>
        cases k with
        | false => simp [runLines, hk]
        | true =>
          simp only [if_true]
          have := ih [] s' (n + 1) ls' h1 (fun l hl => hcf l (by simp [hl])) (by simp) (by simpa using h2)
          revert this
          split
          · intro h; simp [runLines, hk, h]
          · rintro ⟨a, b, h1, h2, h3, h4, h5⟩
            exact ⟨cur :: a, b, by simp [h1], h2, h3, h4, by simp [runLines, hk, h5]⟩
    · rw [if_neg hc]
      exact ih (cur ++ [c]) s n ls hne hcf (by simp [hcur, Ne.symm hc]) (by simpa using heq)

/-- Lines fit the buffer: every line but the last needs room for its newline as well. -/
def Fits (size : Nat) (ls : List Bytes) : Prop :=
  ∀ ls1 l ls2, ls = ls1 ++ l :: ls2 → l.length ≤ size ∧ (ls2 ≠ [] → l.length < size)

theorem Fits.suffix {size : Nat} {ls1 ls2 : List Bytes} (h : Fits size (ls1 ++ ls2)) :
    Fits size ls2 := by
  intro a e b hb
  exact h (ls1 ++ a) e b (by rw [hb, List.append_assoc])

theorem loop_spec (size : Nat) (sched : Sched) (hs : sched.NoError) (fuel i : Nat)
    (buf rest : Bytes) (s : σ) (n : Nat) (ls : List Bytes) (hne : ls ≠ [])
    (hcf : ∀ l ∈ ls, 10 ∉ l) (hb : 10 ∉ buf) (heq : buf ++ rest = joinLines ls)
    (hfit : Fits size ls) (hfuel : rest.length < fuel) :
    loop size sched cb fuel i buf rest s n = some (runLines cb s n ls) := by
  induction fuel generalizing i buf rest s n ls with
  | zero => omega
  | succ fuel ih =>
    unfold loop
    cases hw : sched i with
    | none => exact absurd hw (hs i)
    | some k =>
      simp only [sysRead]
      cases ls with
      | nil => contradiction
      | cons e es =>
      have hfe := hfit [] e es rfl
      by_cases hr : rest = []
      · subst hr
        have hes : es = [] := by
          by_cases h : es = []
          · exact h
          · rw [joinLines_cons h] at heq
            exfalso; apply hb
            have : buf = e ++ 10 :: joinLines es := by simpa using heq
            rw [this]; simp
        subst hes
        have : buf = e := by simpa [joinLines] using heq
        subst this
        cases hk : cb s buf n with
        | mk s' k' => cases k' <;> simp [runLines, hk]
      · have hcap : buf.length < size := by
          by_cases hes : es = []
          · subst hes
            have : (buf ++ rest).length = e.length := by rw [heq]; simp [joinLines]
            have h0 : rest.length ≠ 0 := by simpa using hr
            simp at this; omega
          · rw [joinLines_cons hes] at heq
            have := prefix_of_first hb heq
            have := hfe.2 hes
            omega
        have hn : min (k + 1) (size - buf.length) ≠ 0 := by omega
        cases hg : rest.take (min (k + 1) (size - buf.length)) with
        | nil => rw [List.take_eq_nil_iff] at hg; rcases hg with hg | hg <;> contradiction
        | cons g gs =>
          dsimp only
          have hd := drain_spec cb [] (buf ++ (g :: gs)) (rest.drop (min (k + 1) (size - buf.length)))
              s n (e :: es) (by simp) hcf (by simp) (by rw [← heq, ← hg]; simp)
          cases hdr : drain cb [] (buf ++ (g :: gs)) s n with
          | stopped s' => rw [hdr] at hd; simp [hd]
          | more s' n' left =>
            rw [hdr] at hd
            obtain ⟨es1, es2, h1, h2, h3, h4, h5⟩ := hd
            dsimp only
            rw [ih (i + 1) _ _ _ _ es2 h2 (fun x hx => hcf x (by rw [h1]; simp [hx])) h3 h4
              (Fits.suffix (h1 ▸ hfit))
              (by
                have : rest.length ≠ 0 := by simpa using hr
                rw [List.length_drop]; omega), h5]

theorem drain_noNewline (cur data : Bytes) (s : σ) (n : Nat) (h : 10 ∉ data) :
    drain cb cur data s n = .more s n (cur ++ data) := by
  induction data generalizing cur with
  | nil => simp [drain]
  | cons c cs ih =>
    simp at h
    have hc : c ≠ 10 := fun e => h.1 e.symm
    rw [drain, if_neg hc, ih _ h.2]
    simp

theorem long_loop (size : Nat) (sched : Sched) (hs : sched.NoError)
    (fuel i : Nat) (buf mid rest : Bytes) (s : σ) (n : Nat) (hlen : (buf ++ mid).length = size)
    (hc : 10 ∉ buf ++ mid) (hf : mid.length < fuel) :
    loop size sched cb fuel i buf (mid ++ rest) s n = some (cb s (buf ++ mid) n) := by
  induction fuel generalizing i buf mid with
  | zero => omega
  | succ fuel ih =>
    unfold loop
    cases hw : sched i with
    | none => exact absurd hw (hs i)
    | some k =>
      unfold sysRead
      dsimp only
      by_cases hm : mid = []
      · subst hm
        simp at hlen
        simp [hlen]
      · have hml : 0 < mid.length := by cases mid <;> simp at *
        simp at hlen
        have h1 : min (k + 1) (size - buf.length) ≤ mid.length := by omega
        generalize hj : min (k + 1) (size - buf.length) = j at *
        have hj0 : 0 < j := by omega
        rw [List.take_append_of_le_length h1, List.drop_append_of_le_length h1]
        cases ht : mid.take j with
        | nil => rw [List.take_eq_nil_iff] at ht; rcases ht with h | h <;> simp_all
        | cons g gs =>
          dsimp only
          rw [← ht, drain_noNewline cb _ _ _ _ (by
            intro h
            apply hc
            simp at h ⊢
            rcases h with h | h
            · exact .inl h
            · exact .inr (List.mem_of_mem_take h))]
          have e : buf ++ mid = ([] ++ (buf ++ mid.take j)) ++ mid.drop j := by simp
          rw [e]
          apply ih
          · rw [← e]; simpa using hlen
          · rw [← e]; exact hc
          · simp; omega

end

theorem exists_lines (content : Bytes) :
    ∃ ls, ls ≠ [] ∧ (∀ l ∈ ls, 10 ∉ l) ∧ content = joinLines ls := by
  induction content with
  | nil => exact ⟨[[]], by simp [joinLines]⟩
  | cons c cs ih =>
    obtain ⟨es, h1, h2, h3⟩ := ih
    cases es with
    | nil => contradiction
    | cons e es =>
      by_cases hc : c = 10
      · subst hc
        refine ⟨[] :: e :: es, by simp, ?_, ?_⟩
        · intro x hx; simp at hx
          rcases hx with rfl | rfl | hx
          · simp
          · exact h2 _ (by simp)
          · exact h2 _ (by simp [hx])
        · rw [joinLines_cons (by simp), h3]; rfl
      · refine ⟨(c :: e) :: es, by simp, ?_, ?_⟩
        · intro x hx; simp at hx
          rcases hx with rfl | hx
          · have := h2 e (by simp)
            simp [this, Ne.symm hc]
          · exact h2 _ (by simp [hx])
        · rw [h3]; cases es <;> rfl

/-- Whatever the reads (errors included), an invariant of the handler is kept and the loop ends. -/
theorem loop_invariant {σ : Type} (cb : Handler σ) (P : σ → Prop)
    (hcb : ∀ s l n, P s → P (cb s l n).1) (size : Nat) (sched : Sched) (fuel i : Nat)
    (buf rest : Bytes) (s : σ) (n : Nat) (hP : P s) (hf : rest.length < fuel) :
    ∃ s' ok, loop size sched cb fuel i buf rest s n = some (s', ok) ∧ P s' := by
  induction fuel generalizing i buf rest s n with
  | zero => omega
  | succ fuel ih =>
    unfold loop
    cases hw : sched i with
    | none => exact ⟨s, false, rfl, hP⟩
    | some k =>
      simp only [sysRead]
      cases hg : rest.take (min (k + 1) (size - buf.length)) with
      | nil => exact ⟨_, _, rfl, hcb _ _ _ hP⟩
      | cons g gs =>
        dsimp only
        have hd : ∀ (cur data : Bytes) (s : σ) (n : Nat), P s →
            match drain cb cur data s n with
            | .stopped s' => P s'
            | .more s' _ _ => P s' := by
          intro cur data
          induction data generalizing cur with
          | nil => intro s n h; simpa [drain] using h
          | cons c cs ihd =>
            intro s n h
            unfold drain
            by_cases hc : c = 10
            · rw [if_pos hc]
              have h2 := hcb s cur n h
              revert h2
              cases cb s cur n with
              | mk s' k =>
                intro h2
                cases k with
                | false => simpa using h2
                | true => exact ihd [] s' (n + 1) h2
            · rw [if_neg hc]; exact ihd _ s n h
        have := hd [] (buf ++ g :: gs) s n hP
        cases hdr : drain cb [] (buf ++ (g :: gs)) s n with
        | stopped s' => rw [hdr] at this; exact ⟨_, _, rfl, this⟩
        | more s' n' left =>
          rw [hdr] at this
          apply ih _ _ _ _ _ this
          have : (rest.take (min (k + 1) (size - buf.length))).length = gs.length + 1 := by
            rw [hg]; simp
          rw [List.length_take] at this
          rw [List.length_drop]; omega

end Multiline

namespace SmallFile

theorem loop_fits (size : Nat) (sched : Sched) (hs : sched.NoError) (fuel i : Nat)
    (buf rest : Bytes) (h : (buf ++ rest).length < size) (hf : rest.length < fuel) :
    loop size sched fuel i buf rest = some (.callback (buf ++ rest)) := by
  induction fuel generalizing i buf rest with
  | zero => omega
  | succ fuel ih =>
    unfold loop
    cases hw : sched i with
    | none => exact absurd hw (hs i)
    | some k =>
      simp only [sysRead]
      simp at h
      rw [if_neg (by simp; omega)]
      by_cases hr : rest = []
      · subst hr; simp
      · have : rest.length ≠ 0 := by simpa using hr
        rw [if_neg (by rw [List.take_eq_nil_iff]; intro h; rcases h with h | h; omega; contradiction)]
        rw [ih]
        · simp
        · simp; omega
        · simp; omega

theorem loop_long (size : Nat) (sched : Sched) (hs : sched.NoError) (fuel i : Nat)
    (buf rest : Bytes) (h : size ≤ (buf ++ rest).length) (hf : rest.length < fuel) :
    loop size sched fuel i buf rest = some .failed := by
  induction fuel generalizing i buf rest with
  | zero => omega
  | succ fuel ih =>
    unfold loop
    cases hw : sched i with
    | none => exact absurd hw (hs i)
    | some k =>
      simp only [sysRead]
      simp at h
      by_cases hl : size ≤ (buf ++ rest.take (min (k + 1) (size - buf.length))).length
      · rw [if_pos hl]
      · rw [if_neg hl]
        have hl' := hl
        simp at hl'
        by_cases hr : rest.take (min (k + 1) (size - buf.length)) = []
        · exfalso
          rw [List.take_eq_nil_iff] at hr
          rcases hr with hr | hr
          · omega
          · subst hr; simp at *; omega
        · rw [if_neg hr]
          have : 0 < (rest.take (min (k + 1) (size - buf.length))).length := by
            cases h : rest.take (min (k + 1) (size - buf.length)) <;> simp_all
          apply ih
          · simp; omega
          · simp at this ⊢; omega

theorem loop_total (size : Nat) (sched : Sched) (fuel i : Nat)
    (buf rest : Bytes) (hf : rest.length < fuel) :
    loop size sched fuel i buf rest = some .failed ∨
      (loop size sched fuel i buf rest = some (.callback (buf ++ rest)) ∧
        (buf ++ rest).length < size) := by
  induction fuel generalizing i buf rest with
  | zero => omega
  | succ fuel ih =>
    unfold loop
    cases hw : sched i with
    | none => exact .inl rfl
    | some k =>
      simp only [sysRead]
      by_cases hl : size ≤ (buf ++ rest.take (min (k + 1) (size - buf.length))).length
      · rw [if_pos hl]; exact .inl rfl
      · rw [if_neg hl]
        have hl' := hl
        simp at hl'
        by_cases hr : rest.take (min (k + 1) (size - buf.length)) = []
        · rw [if_pos hr]
          have : rest = [] := by
            rw [List.take_eq_nil_iff] at hr
            rcases hr with hr | hr
            · omega
            · exact hr
          subst this
          right
          simp at hl' ⊢; omega
        · rw [if_neg hr]
          have h0 : 0 < (rest.take (min (k + 1) (size - buf.length))).length := by
            cases h : rest.take (min (k + 1) (size - buf.length)) <;> simp_all
          have e : buf ++ rest = (buf ++ rest.take (min (k + 1) (size - buf.length))) ++
            rest.drop (min (k + 1) (size - buf.length)) := by simp
          rw [e]
          apply ih
          simp at h0 ⊢; omega

end SmallFile

namespace CpuList

/-- Whatever the reads (errors included), an invariant of the callback is kept and the loop ends. -/
theorem loop_invariant {σ : Type} (cb : σ → Nat → Nat → σ × Bool) (P : σ → Prop)
    (hcb : ∀ s a b, P s → P (cb s a b).1) (sched : Sched) (fuel i : Nat)
    (buf rest : Bytes) (s : σ) (ok : Bool) (hP : P s) (hf : rest.length < fuel) :
    ∃ s' ok', loop sched cb fuel i buf rest s ok = some (s', ok') ∧ P s' := by
  have he : ∀ s e, P s → P (entryStep cb s e).1 := by
    intro s e h
    unfold entryStep
    split
    · exact h
    · exact hcb _ _ _ h
  induction fuel generalizing i buf rest s ok with
  | zero => omega
  | succ fuel ih =>
    unfold loop
    cases hw : sched i with
    | none => exact ⟨s, false, rfl, hP⟩
    | some k =>
      simp only [sysRead]
      cases hg : rest.take (min (k + 1) (bufferSize - buf.length)) with
      | nil => exact ⟨_, _, rfl, he _ _ hP⟩
      | cons g gs =>
        dsimp only
        have hd : ∀ (cur data : Bytes) (s : σ) (ok : Bool), P s → P (drain cb cur data s ok).1 := by
          intro cur data
          induction data generalizing cur with
          | nil => intro s n h; simpa [drain] using h
          | cons c cs ihd =>
            intro s n h
            unfold drain
            split
            · exact ihd _ _ _ (he _ _ h)
            · exact ihd _ _ _ h
        apply ih _ _ _ _ _ (hd _ _ _ _ hP)
        have : (rest.take (min (k + 1) (bufferSize - buf.length))).length = gs.length + 1 := by
          rw [hg]; simp
        rw [List.length_take] at this
        rw [List.length_drop]; omega

theorem parse_invariant {σ : Type} (cb : σ → Nat → Nat → σ × Bool) (P : σ → Prop)
    (hcb : ∀ s a b, P s → P (cb s a b).1) (file : Option Bytes) (sched : Sched) (s : σ) (hP : P s) :
    ∃ s' ok', parse file sched cb s = some (s', ok') ∧ P s' := by
  cases file with
  | none => exact ⟨s, false, rfl, hP⟩
  | some content => exact loop_invariant cb P hcb sched _ 0 [] content s true hP (by omega)

end CpuList
end Verif
