import Verif.Model.CpuList
import Verif.Spec.CpuList

/-! Helper lemmas for the CPU-list reader. -/

set_option autoImplicit false

namespace Verif.CpuList
open Spec

theorem isWs_iff (c : Byte) : isWs c = true ↔ IsBlank c := by
  simp [isWs, IsBlank, or_assoc]

theorem digitVal_lt (c : Byte) : digitVal c < 10 ↔ IsDigit c := by
  unfold digitVal IsDigit; split <;> omega

theorem digitVal_eq {c : Byte} (h : IsDigit c) : digitVal c = c - 48 := by
  unfold digitVal; unfold IsDigit at h; split <;> omega

/-- Folding digits from accumulator `n`. -/
def decFrom (n : Nat) (ds : Bytes) : Nat := ds.foldl (fun n d => n * 10 + (d - 48)) n

theorem decFrom_mod (ds : Bytes) (n : Nat) : decFrom (n % U32) ds % U32 = decFrom n ds % U32 := by
  induction ds generalizing n with
  | nil => simp [decFrom]
  | cons d ds ih =>
    have e1 := ih ((n % U32) * 10 + (d - 48))
    have e2 := ih (n * 10 + (d - 48))
    simp only [decFrom, List.foldl_cons] at *
    rw [← e1, ← e2]
    have : ((n % U32) * 10 + (d - 48)) % U32 = (n * 10 + (d - 48)) % U32 := by omega
    rw [this]

/-- `parseNumber` on a run of digits followed by something that is not a digit. -/
theorem parseNumber_run (ds r : Bytes) (n : Nat) (hd : ∀ d ∈ ds, IsDigit d)
    (hr : ∀ c, r.head? = some c → ¬ IsDigit c) (hn : n < U32) :
    parseNumber (ds ++ r) n = (decFrom n ds % U32, r) := by
  induction ds generalizing n with
  | nil =>
    cases r with
    | nil => simp [parseNumber, decFrom, Nat.mod_eq_of_lt hn]
    | cons c cs =>
      have : ¬ IsDigit c := hr c rfl
      have : digitVal c ≥ 10 := by
        rw [← digitVal_lt] at this; omega
      simp [parseNumber, this, decFrom, Nat.mod_eq_of_lt hn]
  | cons d ds ih =>
    have hd1 : IsDigit d := hd d (by simp)
    have h1 : digitVal d < 10 := (digitVal_lt d).mpr hd1
    have h2 : ¬ (digitVal d ≥ 10) := by omega
    simp only [List.cons_append, parseNumber, h2, if_false]
    rw [ih _ (fun x hx => hd x (by simp [hx])) (Nat.mod_lt _ (by decide))]
    rw [decFrom_mod, digitVal_eq hd1]
    simp [decFrom]

/-- Split a list at its maximal digit prefix. -/
theorem exists_digit_run (l : Bytes) :
    ∃ ds r, l = ds ++ r ∧ (∀ d ∈ ds, IsDigit d) ∧ (∀ c, r.head? = some c → ¬ IsDigit c) := by
  induction l with
  | nil => exact ⟨[], [], by simp⟩
  | cons c cs ih =>
    by_cases h : IsDigit c
    · obtain ⟨ds, r, rfl, h1, h2⟩ := ih
      refine ⟨c :: ds, r, by simp, ?_, h2⟩
      intro d hd; simp at hd; rcases hd with rfl | hd
      · exact h
      · exact h1 d hd
    · exact ⟨[], c :: cs, by simp, by simp, by simpa using h⟩

theorem dropWhile_all {p : Byte → Bool} (l r : Bytes) (h : ∀ c ∈ l, p c = true)
    (hr : ∀ c, r.head? = some c → p c = false) : (l ++ r).dropWhile p = r := by
  induction l with
  | nil =>
    cases r with
    | nil => rfl
    | cons c cs => simp [hr c rfl]
  | cons c cs ih =>
    simp only [List.cons_append, List.dropWhile_cons, h c (by simp), if_true]
    exact ih (fun x hx => h x (by simp [hx]))

theorem trim_eq (pre body post : Bytes) (h1 : ∀ c ∈ pre, IsBlank c) (h2 : ∀ c ∈ post, IsBlank c)
    (hb : body ≠ [])
    (h3 : ∀ c, body.head? = some c → ¬ IsBlank c) (h4 : ∀ c, body.getLast? = some c → ¬ IsBlank c) :
    trim (pre ++ body ++ post) = body := by
  unfold trim
  have e1 : (pre ++ body ++ post).dropWhile isWs = body ++ post := by
    rw [List.append_assoc]
    apply dropWhile_all
    · intro c hc; exact (isWs_iff c).mpr (h1 c hc)
    · intro c hc
      rw [List.head?_append] at hc
      cases hbh : body.head? with
      | none => simp at hbh; exact absurd hbh hb
      | some d =>
        rw [hbh] at hc; simp at hc; subst hc
        have := h3 d hbh
        rw [← isWs_iff] at this; simpa using this
  rw [e1, List.reverse_append]
  have e2 : (post.reverse ++ body.reverse).dropWhile isWs = body.reverse := by
    apply dropWhile_all
    · intro c hc; exact (isWs_iff c).mpr (h2 c (by simpa using hc))
    · intro c hc
      rw [List.head?_reverse] at hc
      have := h4 c hc
      rw [← isWs_iff] at this; simpa using this
  rw [e2]; simp

theorem exists_trim (e : Bytes) :
    ∃ pre post, e = pre ++ trim e ++ post ∧ (∀ c ∈ pre, IsBlank c) ∧ (∀ c ∈ post, IsBlank c) ∧
      (∀ c, (trim e).head? = some c → ¬ IsBlank c) ∧
      (∀ c, (trim e).getLast? = some c → ¬ IsBlank c) := by
  have tw : ∀ l : Bytes, ∀ c ∈ l.takeWhile isWs, IsBlank c := by
    intro l c hc
    exact (isWs_iff c).mp (List.all_eq_true.mp List.all_takeWhile c hc)
  have dw : ∀ l : Bytes, ∀ c, (l.dropWhile isWs).head? = some c → ¬ IsBlank c := by
    intro l c hc
    have := List.head?_dropWhile_not isWs l
    rw [hc] at this; simp at this
    rw [← isWs_iff]; simpa using this
  let m := e.dropWhile isWs
  have hm : m = trim e ++ (m.reverse.takeWhile isWs).reverse := by
    have : m.reverse = m.reverse.takeWhile isWs ++ m.reverse.dropWhile isWs :=
      (List.takeWhile_append_dropWhile).symm
    have := congrArg List.reverse this
    rw [List.reverse_reverse, List.reverse_append] at this
    exact this
  refine ⟨e.takeWhile isWs, (m.reverse.takeWhile isWs).reverse, ?_, tw e, ?_, ?_, ?_⟩
  · rw [List.append_assoc, ← hm]; exact (List.takeWhile_append_dropWhile).symm
  · intro c hc; exact tw _ c (by simpa using hc)
  · intro c hc
    apply dw e c
    show m.head? = some c
    rw [hm, List.head?_append, hc]; rfl
  · intro c hc
    have : (m.reverse.dropWhile isWs).head? = some c := by
      rw [← hc]; simp [trim, m]
    exact dw _ c this

theorem decimal_eq (ds : Bytes) : decimal ds = decFrom 0 ds := rfl

/-- `parse_entry` computes exactly the meaning of an entry. -/
theorem parseEntry_of_denotes {entry : Bytes} {a b : Nat} (h : EntryDenotes entry a b) :
    parseEntry entry = some (a, (b + 1) % U32) := by
  obtain ⟨pre, body, post, rfl, h1, h2, h3, h4, hb⟩ := h
  have hne : body ≠ [] := by
    cases hb with
    | single ds h => exact h.1
    | range => simp
  unfold parseEntry
  rw [trim_eq pre body post h1 h2 hne h3 h4]
  have hl : body.length ≠ 0 := by simpa using hne
  simp only [hl, if_false]
  cases hb with
  | single _ h =>
    have := parseNumber_run body [] 0 h.2 (by simp) (by decide)
    rw [List.append_nil] at this
    rw [this]
    simp only [decimal_eq]
    have : ¬ ([] : Bytes).length = body.length := fun h => hl h.symm
    simp only [this, if_false]
  | range ds₁ ds₂ junk g1 g2 hj hle =>
    rw [parseNumber_run ds₁ (45 :: (ds₂ ++ junk)) 0 g1.2 (by simp [IsDigit]) (by decide)]
    have : ds₁.length ≠ 0 := by simpa using g1.1
    have hlen : ¬ (45 :: (ds₂ ++ junk) : Bytes).length = (ds₁ ++ 45 :: (ds₂ ++ junk)).length := by
      rw [List.length_append]; omega
    simp only [hlen, if_false]
    rw [parseNumber_run ds₂ junk 0 g2.2 hj (by decide)]
    have : ds₂.length ≠ 0 := by simpa using g2.1
    have hlen2 : ¬ junk.length = (ds₂ ++ junk).length := by simp; exact g2.1
    simp only [hlen2, if_false, decimal_eq]
    rw [decimal_eq, decimal_eq] at hle
    have : ¬ (decFrom 0 ds₂ % U32 < decFrom 0 ds₁ % U32) := by omega
    simp [this]

theorem denotes_of_parseEntry {entry : Bytes} {a b' : Nat} (h : parseEntry entry = some (a, b')) :
    ∃ b, b' = (b + 1) % U32 ∧ EntryDenotes entry a b := by
  obtain ⟨pre, post, he, h1, h2, h3, h4⟩ := exists_trim entry
  unfold parseEntry at h
  generalize ht : trim entry = e at *
  dsimp only at h
  obtain ⟨ds, r, rfl, hd, hr⟩ := exists_digit_run e
  rw [parseNumber_run ds r 0 hd hr (by decide)] at h
  by_cases hl : (ds ++ r).length = 0
  · simp [hl] at h
  simp only [hl, if_false] at h
  by_cases hl2 : r.length = (ds ++ r).length
  · rw [if_pos hl2] at h; cases h
  simp only [hl2, if_false] at h
  have hds : ds ≠ [] := by intro h0; subst h0; simp at hl2
  cases r with
  | nil =>
    have h := Prod.mk.inj (Option.some.inj h)
    refine ⟨decimal ds % U32, ?_, pre, ds, post, ?_, h1, h2, ?_, ?_, ?_⟩
    · rw [decimal_eq]; omega
    · simpa using he
    · simpa using h3
    · simpa using h4
    · have := BodyDenotes.single ds ⟨hds, hd⟩
      rw [decimal_eq] at this; rw [← h.1]; rw [decimal_eq]; exact this
  | cons c r' =>
    by_cases hc : c = 45
    · subst hc
      simp only [ne_eq, not_true_eq_false, if_false] at h
      obtain ⟨ds2, r2, rfl, hd2, hr2⟩ := exists_digit_run r'
      rw [parseNumber_run ds2 r2 0 hd2 hr2 (by decide)] at h
      by_cases hl3 : r2.length = (ds2 ++ r2).length
      · rw [if_pos hl3] at h; cases h
      simp only [hl3, if_false] at h
      have hds2 : ds2 ≠ [] := by intro h0; subst h0; simp at hl3
      by_cases hlt : decFrom 0 ds2 % U32 < decFrom 0 ds % U32
      · rw [if_pos hlt] at h; cases h
      rw [if_neg hlt] at h
      have h := Prod.mk.inj (Option.some.inj h)
      refine ⟨decimal ds2 % U32, ?_, pre, _, post, he, h1, h2, h3, h4, ?_⟩
      · rw [decimal_eq]; omega
      · rw [← h.1]
        exact BodyDenotes.range ds ds2 r2 ⟨hds, hd⟩ ⟨hds2, hd2⟩ hr2
          (by rw [decimal_eq, decimal_eq]; omega)
    · simp [hc] at h

theorem parseEntry_of_meaning {entry : Bytes} {m : Option (Nat × Nat)} (h : EntryMeaning entry m) :
    parseEntry entry = m.map fun r => (r.1, (r.2 + 1) % U32) := by
  cases m with
  | some r => exact parseEntry_of_denotes h
  | none =>
    cases hp : parseEntry entry with
    | none => rfl
    | some r =>
      obtain ⟨b, _, hb⟩ := denotes_of_parseEntry (a := r.1) (b' := r.2) hp
      exact absurd hb (h _ _)

/-- Every entry has a meaning. -/
theorem exists_meaning (entry : Bytes) : ∃ m, EntryMeaning entry m := by
  by_cases h : ∃ a b, EntryDenotes entry a b
  · obtain ⟨a, b, h⟩ := h; exact ⟨some (a, b), h⟩
  · exact ⟨none, fun a b hab => h ⟨a, b, hab⟩⟩

/-! ## The reader loop -/

section
variable {σ : Type} (cb : σ → Nat → Nat → σ × Bool)

/-- Left fold of `entryStep` with a conjunctive status. -/
def foldEntries (s : σ) (ok : Bool) : List Bytes → σ × Bool
  | [] => (s, ok)
  | e :: es => foldEntries (entryStep cb s e).1 (ok && (entryStep cb s e).2) es

theorem foldEntries_append (s : σ) (ok : Bool) (as bs : List Bytes) :
    foldEntries cb s ok (as ++ bs) =
      foldEntries cb (foldEntries cb s ok as).1 (foldEntries cb s ok as).2 bs := by
  induction as generalizing s ok with
  | nil => rfl
  | cons a as ih => simp [foldEntries, ih]

theorem foldEntries_eq_run (s : σ) (ok : Bool) (es : List Bytes) (ms : List (Option (Nat × Nat)))
    (h : Forall2 EntryMeaning es ms) :
    foldEntries cb s ok es = ((runEntries cb s ms).1, ok && (runEntries cb s ms).2) := by
  induction h generalizing s ok with
  | nil => simp [foldEntries, runEntries]
  | cons h1 _ ih =>
    rename_i e m es ms _
    simp only [foldEntries, ih]
    have := parseEntry_of_meaning h1
    cases m with
    | none =>
      have hp : parseEntry e = none := by simpa using this
      simp [entryStep, hp, runEntries]
    | some r =>
      have hp : parseEntry e = some (r.1, (r.2 + 1) % U32) := by simpa using this
      simp [entryStep, hp, runEntries, Bool.and_assoc]

theorem joinComma_cons {e : Bytes} {es : List Bytes} (h : es ≠ []) :
    joinComma (e :: es) = e ++ 44 :: joinComma es := by
  cases es with
  | nil => contradiction
  | cons a as => rfl

/-- Draining data that continues the current entry. -/
theorem drain_spec (cur data rest : Bytes) (s : σ) (ok : Bool) (es : List Bytes)
    (hne : es ≠ []) (hcf : ∀ e ∈ es, 44 ∉ e) (hcur : 44 ∉ cur)
    (heq : cur ++ data ++ rest = joinComma es) :
    ∃ es1 es2 left, es = es1 ++ es2 ∧ es2 ≠ [] ∧ 44 ∉ left ∧ left ++ rest = joinComma es2 ∧
      left.length ≤ cur.length + data.length ∧
      drain cb cur data s ok = ((foldEntries cb s ok es1).1, (foldEntries cb s ok es1).2, left) := by
  induction data generalizing cur s ok es with
  | nil =>
    exact ⟨[], es, cur, rfl, hne, hcur, by simpa using heq, by simp, by simp [drain, foldEntries]⟩
  | cons c cs ih =>
    by_cases hc : c = 44
    · subst hc
      -- the current entry is complete
      cases es with
      | nil => contradiction
      | cons e es =>
        by_cases hes : es = []
        · subst hes
          have : (44 : Nat) ∈ joinComma [e] := by rw [← heq]; simp
          simp [joinComma] at this
          exact absurd this (hcf e (by simp))
        · rw [joinComma_cons hes] at heq
          have hce : cur = e ∧ cs ++ rest = joinComma es := by
            have he : 44 ∉ e := hcf e (by simp)
            clear ih
            have heq' : cur ++ 44 :: (cs ++ rest) = e ++ 44 :: joinComma es := by simpa using heq
            clear heq hcf hne
            induction cur generalizing e with
            | nil =>
              cases e with
              | nil => simpa using heq'
              | cons x xs => simp at heq'; exact absurd heq'.1.symm (by simp at he; exact fun h => he.1 h.symm)
            | cons y ys ih2 =>
              cases e with
              | nil => simp at heq'; simp at hcur; exact absurd heq'.1.symm hcur.1
              | cons x xs =>
                simp at heq' hcur he
                have := ih2 hcur.2 xs he.2 heq'.2
                exact ⟨by rw [heq'.1, this.1], this.2⟩
          obtain ⟨rfl, hrest⟩ := hce
          obtain ⟨es1, es2, left, h1, h2, h3, h4, h5, h6⟩ :=
            ih [] (entryStep cb s cur).1 (ok && (entryStep cb s cur).2) es hes
              (fun x hx => hcf x (by simp [hx])) (by simp) (by simpa using hrest)
          refine ⟨cur :: es1, es2, left, by rw [h1]; rfl, h2, h3, h4, ?_, ?_⟩
          · simp at h5 ⊢; omega
          · simp only [drain, if_true, foldEntries]; rw [h6]
    · obtain ⟨es1, es2, left, h1, h2, h3, h4, h5, h6⟩ :=
        ih (cur ++ [c]) s ok es hne hcf (by simp [hcur]; exact fun h => hc h.symm)
          (by simpa using heq)
      refine ⟨es1, es2, left, h1, h2, h3, h4, ?_, ?_⟩
      · simp at h5 ⊢; omega
      · simp only [drain, hc, if_false]; exact h6

theorem prefix_of_first {buf rest e : Bytes} {t : Bytes} (hb : 44 ∉ buf)
    (h : buf ++ rest = e ++ 44 :: t) : buf.length ≤ e.length := by
  induction buf generalizing e with
  | nil => simp
  | cons y ys ih =>
    cases e with
    | nil => simp at h; simp at hb; exact absurd h.1.symm hb.1
    | cons x xs =>
      simp at h hb
      have := ih hb.2 h.2
      simpa using this

/-- Entries fit the buffer: every entry but the last needs room for its comma as well. -/
def Fits (es : List Bytes) : Prop :=
  ∀ es1 e es2, es = es1 ++ e :: es2 →
    e.length ≤ bufferSize ∧ (es2 ≠ [] → e.length < bufferSize)

theorem Fits.suffix {es1 es2 : List Bytes} (h : Fits (es1 ++ es2)) : Fits es2 := by
  intro a e b hb
  exact h (es1 ++ a) e b (by rw [hb, List.append_assoc])

theorem loop_spec (sched : Sched) (hs : sched.NoError) (fuel i : Nat) (buf rest : Bytes) (s : σ)
    (ok : Bool) (es : List Bytes) (hne : es ≠ []) (hcf : ∀ e ∈ es, 44 ∉ e) (hb : 44 ∉ buf)
    (heq : buf ++ rest = joinComma es) (hfit : Fits es) (hfuel : rest.length < fuel) :
    loop sched cb fuel i buf rest s ok = some (foldEntries cb s ok es) := by
  induction fuel generalizing i buf rest s ok es with
  | zero => omega
  | succ fuel ih =>
    unfold loop
    cases hw : sched i with
    | none => exact absurd hw (hs i)
    | some k =>
      simp only [sysRead]
      -- decompose `es`
      cases es with
      | nil => contradiction
      | cons e es =>
      have hfe := hfit [] e es rfl
      by_cases hr : rest = []
      · subst hr
        have hes : es = [] := by
          by_cases h : es = []
          · exact h
          · rw [joinComma_cons h] at heq
            exfalso; apply hb
            have : buf = e ++ 44 :: joinComma es := by simpa using heq
            rw [this]; simp
        subst hes
        have : buf = e := by simpa [joinComma] using heq
        subst this
        simp [foldEntries]
      · have hcap : buf.length < bufferSize := by
          by_cases hes : es = []
          · subst hes
            have : (buf ++ rest).length = e.length := by rw [heq]; simp [joinComma]
            have h0 : rest.length ≠ 0 := by simpa using hr
            simp at this; omega
          · rw [joinComma_cons hes] at heq
            have := prefix_of_first hb heq
            have := hfe.2 hes
            omega
        have hn : min (k + 1) (bufferSize - buf.length) ≠ 0 := by omega
        cases hg : rest.take (min (k + 1) (bufferSize - buf.length)) with
        | nil => rw [List.take_eq_nil_iff] at hg; rcases hg with hg | hg <;> contradiction
        | cons g gs =>
          dsimp only
          obtain ⟨es1, es2, left, h1, h2, h3, h4, _, h6⟩ :=
            drain_spec cb [] (buf ++ (g :: gs)) (rest.drop (min (k + 1) (bufferSize - buf.length)))
              s ok (e :: es) (by simp) hcf (by simp)
              (by rw [← heq, ← hg]; simp)
          rw [h6]
          dsimp only
          rw [ih (i + 1) left _ _ _ es2 h2 (fun x hx => hcf x (by rw [h1]; simp [hx])) h3 h4
            (Fits.suffix (h1 ▸ hfit))
            (by
              have : rest.length ≠ 0 := by simpa using hr
              rw [List.length_drop]; omega)]
          rw [h1, foldEntries_append]

end

/-- Splitting a file at commas: every content has such a decomposition. -/
theorem exists_split (content : Bytes) :
    ∃ es, es ≠ [] ∧ (∀ e ∈ es, 44 ∉ e) ∧ content = joinComma es := by
  induction content with
  | nil => exact ⟨[[]], by simp [joinComma]⟩
  | cons c cs ih =>
    obtain ⟨es, h1, h2, h3⟩ := ih
    cases es with
    | nil => contradiction
    | cons e es =>
      by_cases hc : c = 44
      · subst hc
        refine ⟨[] :: e :: es, by simp, ?_, ?_⟩
        · intro x hx; simp at hx
          rcases hx with rfl | rfl | hx
          · simp
          · exact h2 _ (by simp)
          · exact h2 _ (by simp [hx])
        · rw [joinComma_cons (by simp), h3]; rfl
      · refine ⟨(c :: e) :: es, by simp, ?_, ?_⟩
        · intro x hx; simp at hx
          rcases hx with rfl | hx
          · simp [Ne.symm hc]; exact h2 _ (by simp)
          · exact h2 _ (by simp [hx])
        · by_cases hes : es = []
          · subst hes; simp [joinComma] at h3 ⊢; exact h3
          · rw [joinComma_cons hes] at h3 ⊢; rw [h3]; rfl

end Verif.CpuList
