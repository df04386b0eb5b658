import Verif.Props.CpuList
import Verif.Props.Files

/-!
# C03 and C07: what the two readers report of files that do not fit their buffers
-/

set_option autoImplicit false

namespace Verif.Props
open Spec

/-- What is left of the lines (or entries) of a file if a buffer of `size` bytes has to hold each of
them together with its terminator: the first that does not fit is cut, and nothing follows it. -/
def keptPieces (size : Nat) : List Bytes → List Bytes
  | [] => []
  | l :: ls => if ls = [] then [l.take size]
    else if l.length < size then l :: keptPieces size ls else [l.take size]

private theorem kept_ne {size : Nat} {ls : List Bytes} (h : ls ≠ []) : keptPieces size ls ≠ [] := by
  cases ls with
  | nil => exact absurd rfl h
  | cons l ls => unfold keptPieces; split <;> simp; split <;> simp

private theorem kept_append {size : Nat} : ∀ {as bs : List Bytes}, bs ≠ [] → (∀ l ∈ as, l.length < size) →
    keptPieces size (as ++ bs) = as ++ keptPieces size bs
  | [], _, _, _ => rfl
  | a :: as, bs, hb, h => by
    have : as ++ bs ≠ [] := by simp [hb]
    rw [List.cons_append, keptPieces, if_neg this, if_pos (h a (by simp)),
      kept_append hb fun l hl => h l (by simp [hl])]
    rfl

private theorem take_first {buf rest l t : Bytes} {size : Nat} (hlen : buf.length = size)
    (hle : buf.length ≤ l.length) (h : buf ++ rest = l ++ t) : l.take size = buf := by
  have := congrArg (List.take size) h
  rw [List.take_append_of_le_length (by omega), List.take_append_of_le_length (by omega)] at this
  rw [← this, ← hlen, List.take_length]

section Lines
variable {σ : Type} (cb : Multiline.Handler σ)

private theorem drain_all (cur data rest : Bytes) (s : σ) (n : Nat) (ls : List Bytes)
    (hne : ls ≠ []) (hcf : ∀ l ∈ ls, 10 ∉ l) (hcur : 10 ∉ cur)
    (heq : cur ++ data ++ rest = joinLines ls) :
    ∃ ls1 ls2, ls = ls1 ++ ls2 ∧ ls2 ≠ [] ∧ (∀ l ∈ ls1, l.length < (cur ++ data).length) ∧
    match Multiline.drain cb cur data s n with
    | .stopped s' => ∀ xs, runLines cb s n (ls1 ++ xs) = (s', false)
    | .more s' n' left => 10 ∉ left ∧ left ++ rest = joinLines ls2 ∧
        left.length ≤ (cur ++ data).length ∧
        ∀ xs, runLines cb s n (ls1 ++ xs) = runLines cb s' n' xs := by
  induction data generalizing cur s n ls with
  | nil =>
    simp only [Multiline.drain]
    exact ⟨[], ls, rfl, hne, by simp, hcur, by simpa using heq, by simp, fun _ => rfl⟩
  | cons c cs ih =>
    unfold Multiline.drain
    by_cases hc : c = 10
    · subst hc
      rw [if_pos rfl]
      obtain ⟨ls', rfl, h1, h2⟩ :=
        Multiline.first_line (cur := cur) (t := cs ++ rest) hcur hcf (by simpa using heq)
      cases hk : cb s cur n with
      | mk s' k =>
        cases k with
        | false => exact ⟨[cur], ls', rfl, h1, by simp, by simp [runLines, hk]⟩
        | true =>
          simp only [if_true]
          obtain ⟨a, b, e1, e2, e3, e4⟩ :=
            ih [] s' (n + 1) ls' h1 (fun l hl => hcf l (by simp [hl])) (by simp) (by simpa using h2)
          refine ⟨cur :: a, b, by simp [e1], e2, ?_, ?_⟩
          · intro l hl
            simp only [List.mem_cons] at hl
            rcases hl with rfl | hl
            · simp
            · have := e3 l hl
              simp at this ⊢; omega
          · revert e4
            cases Multiline.drain cb [] cs s' (n + 1) with
            | stopped x => intro e4 xs; simp [runLines, hk, e4 xs]
            | more x m left =>
              rintro ⟨f1, f2, f3, f4⟩
              exact ⟨f1, f2, by simp at f3 ⊢; omega, fun xs => by simp [runLines, hk, f4 xs]⟩
    · rw [if_neg hc]
      have := ih (cur ++ [c]) s n ls hne hcf (by simp [hcur, Ne.symm hc]) (by simpa using heq)
      simpa using this

private theorem loop_all (size : Nat) (sched : Sched) (hs : sched.NoError) (fuel i : Nat)
    (buf rest : Bytes) (s : σ) (n : Nat) (ls : List Bytes) (hne : ls ≠ [])
    (hcf : ∀ l ∈ ls, 10 ∉ l) (hb : 10 ∉ buf) (heq : buf ++ rest = joinLines ls)
    (hlen : buf.length ≤ size) (hfuel : rest.length < fuel) :
    Multiline.loop size sched cb fuel i buf rest s n = some (runLines cb s n (keptPieces size ls)) := by
  induction fuel generalizing i buf rest s n ls with
  | zero => omega
  | succ fuel ih =>
    unfold Multiline.loop
    cases hw : sched i with
    | none => exact absurd hw (hs i)
    | some k =>
      simp only [sysRead]
      cases ls with
      | nil => contradiction
      | cons e es =>
      have one : ∀ x, runLines cb s n [x] = cb s x n := by
        intro x
        cases hk : cb s x n with
        | mk s' k' => cases k' <;> simp [runLines, hk]
      by_cases hr : rest = []
      · subst hr
        have hes : es = [] := by
          by_cases h : es = []
          · exact h
          · rw [Multiline.joinLines_cons h] at heq
            exfalso; apply hb
            have : buf = e ++ 10 :: joinLines es := by simpa using heq
            rw [this]; simp
        subst hes
        have : buf = e := by simpa [joinLines] using heq
        subst this
        rw [keptPieces, if_pos rfl, List.take_of_length_le hlen, one]
        simp
      · by_cases hfull : buf.length = size
        · have hz : min (k + 1) (size - buf.length) = 0 := by omega
          rw [hz]
          simp only [List.take_zero]
          have hk : keptPieces size (e :: es) = [buf] := by
            unfold keptPieces
            by_cases hes : es = []
            · subst hes
              rw [if_pos rfl]
              have hj : buf ++ rest = e ++ [] := by simpa [joinLines] using heq
              rw [take_first hfull (by
                have := congrArg List.length hj; simp at this; omega) hj]
            · rw [if_neg hes]
              rw [Multiline.joinLines_cons hes] at heq
              have hle := Multiline.prefix_of_first hb heq
              rw [if_neg (by omega), take_first hfull hle heq]
          rw [hk, one]
        · have hn : min (k + 1) (size - buf.length) ≠ 0 := by omega
          cases hg : rest.take (min (k + 1) (size - buf.length)) with
          | nil => rw [List.take_eq_nil_iff] at hg; rcases hg with hg | hg <;> contradiction
          | cons g gs =>
            dsimp only
            have hdl : (buf ++ (g :: gs)).length ≤ size := by
              rw [← hg, List.length_append, List.length_take]; omega
            have hall : buf ++ (g :: gs) ++ rest.drop (min (k + 1) (size - buf.length)) =
                joinLines (e :: es) := by rw [← heq, ← hg]; simp
            obtain ⟨es1, es2, h1, h2, h3, h4⟩ := drain_all cb [] (buf ++ (g :: gs))
              (rest.drop (min (k + 1) (size - buf.length))) s n (e :: es) (by simp) hcf (by simp)
              (by simpa using hall)
            rw [h1, kept_append h2 fun l hl => Nat.lt_of_lt_of_le (h3 l hl) (by simpa using hdl)]
            cases hdr : Multiline.drain cb [] (buf ++ (g :: gs)) s n with
            | stopped s' => rw [hdr] at h4; simp [h4]
            | more s' n' left =>
              rw [hdr] at h4
              obtain ⟨f1, f2, f3, f4⟩ := h4
              dsimp only
              rw [ih (i + 1) _ _ _ _ es2 h2 (fun x hx => hcf x (by rw [h1]; simp [hx])) f1 f2
                (Nat.le_trans f3 (by simpa using hdl))
                (by
                  have : rest.length ≠ 0 := by simpa using hr
                  rw [List.length_drop]; omega), f4]

end Lines

private theorem kept_all_iff (size : Nat) : ∀ ls : List Bytes,
    keptPieces size ls = ls ↔ LinesFit size ls
  | [] => by simp [keptPieces, LinesFit]
  | [l] => by
    have : l.take size = l ↔ l.length ≤ size :=
      ⟨fun h => by have := congrArg List.length h; rw [List.length_take] at this; omega,
        List.take_of_length_le⟩
    simp [keptPieces, LinesFit, this]
  | l :: m :: ls => by
    have ih := kept_all_iff size (m :: ls)
    rw [keptPieces, if_neg (by simp)]
    unfold LinesFit at ih ⊢
    rw [List.dropLast_cons_of_ne_nil (by simp), List.getLast?_cons_cons]
    split
    · rename_i h
      rw [List.cons.injEq, ih]
      simp [h]
    · rename_i h
      constructor
      · intro hc; simp at hc
      · rintro ⟨h1, -⟩
        exact absurd (h1 l (by simp)) h

private theorem collect_run : ∀ (ls acc : List Bytes) (n : Nat),
    runLines collectLines acc n ls = (acc ++ ls, true)
  | [], acc, n => by simp [runLines]
  | l :: ls, acc, n => by simp [runLines, collectLines, collect_run ls]

/-- **C07 (exact).** For every file, every buffer size, every split of the reads and every handler: the
handler gets the lines that fit the buffer together with their newlines, in order; the first one that
does not is cut to the size of the buffer and is the last. -/
theorem C07_exact {σ : Type} (cb : σ → Bytes → Nat → σ × Bool) (s : σ) (size : Nat) (sched : Sched)
    (hs : sched.NoError) (ls : List Bytes) (hne : ls ≠ []) (hnl : ∀ l ∈ ls, 10 ∉ l) :
    Multiline.parse (some (joinLines ls)) size sched cb s =
      some (runLines cb s 1 (keptPieces size ls)) := by
  unfold Multiline.parse
  exact loop_all cb size sched hs _ 0 [] (joinLines ls) s 1 ls hne hnl (by simp) (by simp)
    (by simp) (by omega)

/-- **C07 (complete).** An accepting handler gets the lines of the file exactly if each of them fits the
buffer; success is reported in any case. -/
theorem C07_complete_iff (size : Nat) (sched : Sched) (hs : sched.NoError) (ls : List Bytes)
    (hne : ls ≠ []) (hnl : ∀ l ∈ ls, 10 ∉ l) :
    (Multiline.parse (some (joinLines ls)) size sched collectLines [] = some (ls, true) ↔
      LinesFit size ls) ∧
    ∃ ls', Multiline.parse (some (joinLines ls)) size sched collectLines [] = some (ls', true) := by
  rw [C07_exact collectLines [] size sched hs ls hne hnl, collect_run, List.nil_append]
  refine ⟨?_, _, rfl⟩
  rw [← kept_all_iff]
  simp

/-- The second line is too long for 6 bytes: the rest of it and what follows are lost. -/
example : keptPieces 6 [b!"ab", b!"processor", b!"cd"] = [b!"ab", b!"proces"] ∧
    Multiline.parse (some b!"ab\nprocessor\ncd") 6 (fun _ => some 1) collectLines [] =
      some ([b!"ab", b!"proces"], true) := by decide +kernel

section Entries
variable {σ : Type} (cb : σ → Nat → Nat → σ × Bool)

private theorem entries_short {as bs : List Bytes} {data left rest : Bytes} (hb : bs ≠ [])
    (h1 : data ++ rest = joinComma (as ++ bs)) (h2 : left ++ rest = joinComma bs) :
    ∀ l ∈ as, l.length < data.length := by
  have len : ∀ (xs : List Bytes), (joinComma bs).length ≤ (joinComma (xs ++ bs)).length ∧
      ∀ l ∈ xs, l.length + (joinComma bs).length < (joinComma (xs ++ bs)).length := by
    intro xs
    induction xs with
    | nil => simp
    | cons x xs ih =>
      rw [List.cons_append, CpuList.joinComma_cons (by simp [hb])]
      simp only [List.length_append, List.length_cons]
      refine ⟨by omega, fun l hl => ?_⟩
      simp only [List.mem_cons] at hl
      rcases hl with rfl | hl
      · omega
      · have := ih.2 l hl
        omega
  intro l hl
  have e := (len as).2 l hl
  rw [← h1, ← h2] at e
  simp only [List.length_append] at e
  omega

private theorem entries_all (sched : Sched) (hs : sched.NoError) (fuel i : Nat) (buf rest : Bytes)
    (s : σ) (ok : Bool) (es : List Bytes) (hne : es ≠ []) (hcf : ∀ e ∈ es, 44 ∉ e) (hb : 44 ∉ buf)
    (heq : buf ++ rest = joinComma es) (hlen : buf.length ≤ 256) (hfuel : rest.length < fuel) :
    CpuList.loop sched cb fuel i buf rest s ok =
      some (CpuList.foldEntries cb s ok (keptPieces 256 es)) := by
  induction fuel generalizing i buf rest s ok es with
  | zero => omega
  | succ fuel ih =>
    unfold CpuList.loop
    cases hw : sched i with
    | none => exact absurd hw (hs i)
    | some k =>
      simp only [sysRead, CpuList.bufferSize]
      cases es with
      | nil => contradiction
      | cons e es =>
      by_cases hr : rest = []
      · subst hr
        have hes : es = [] := by
          by_cases h : es = []
          · exact h
          · rw [CpuList.joinComma_cons h] at heq
            exfalso; apply hb
            have : buf = e ++ 44 :: joinComma es := by simpa using heq
            rw [this]; simp
        subst hes
        have : buf = e := by simpa [joinComma] using heq
        subst this
        rw [keptPieces, if_pos rfl, List.take_of_length_le hlen]
        simp [CpuList.foldEntries]
      · by_cases hfull : buf.length = 256
        · have hz : min (k + 1) (256 - buf.length) = 0 := by omega
          rw [hz]
          simp only [List.take_zero]
          have hk : keptPieces 256 (e :: es) = [buf] := by
            unfold keptPieces
            by_cases hes : es = []
            · subst hes
              rw [if_pos rfl]
              have hj : buf ++ rest = e ++ [] := by simpa [joinComma] using heq
              rw [take_first hfull (by
                have := congrArg List.length hj; simp at this; omega) hj]
            · rw [if_neg hes]
              rw [CpuList.joinComma_cons hes] at heq
              have hle := CpuList.prefix_of_first hb heq
              rw [if_neg (by omega), take_first hfull hle heq]
          rw [hk]
          simp [CpuList.foldEntries]
        · have hn : min (k + 1) (256 - buf.length) ≠ 0 := by omega
          cases hg : rest.take (min (k + 1) (256 - buf.length)) with
          | nil => rw [List.take_eq_nil_iff] at hg; rcases hg with hg | hg <;> contradiction
          | cons g gs =>
            dsimp only
            have hdl : (buf ++ (g :: gs)).length ≤ 256 := by
              rw [← hg, List.length_append, List.length_take]; omega
            have hall : buf ++ (g :: gs) ++ rest.drop (min (k + 1) (256 - buf.length)) =
                joinComma (e :: es) := by rw [← heq, ← hg]; simp
            obtain ⟨es1, es2, left, h1, h2, h3, h4, h5, h6⟩ :=
              CpuList.drain_spec cb [] (buf ++ (g :: gs)) (rest.drop (min (k + 1) (256 - buf.length)))
                s ok (e :: es) (by simp) hcf (by simp) (by simpa using hall)
            have hsh := entries_short h2 (h1 ▸ hall) h4
            rw [h6]
            dsimp only
            rw [ih (i + 1) left _ _ _ es2 h2 (fun x hx => hcf x (by rw [h1]; simp [hx])) h3 h4
              (by simp only [List.length_nil, Nat.zero_add] at h5; omega)
              (by
                have : rest.length ≠ 0 := by simpa using hr
                rw [List.length_drop]; omega)]
            rw [h1, kept_append h2 fun l hl => Nat.lt_of_lt_of_le (hsh l hl) hdl,
              CpuList.foldEntries_append]

end Entries

/-- **C03 (exact).** For every file, every split of the reads and every callback: the parser behaves as
if the file consisted of the entries that fit the 256-byte buffer together with their commas and the
first 256 bytes of the first one that does not. -/
theorem C03_exact {σ : Type} (cb : σ → Nat → Nat → σ × Bool) (s : σ) (sched : Sched)
    (hs : sched.NoError) (es : List Bytes) (ms : List (Option (Nat × Nat))) (hne : es ≠ [])
    (hcomma : ∀ e ∈ es, 44 ∉ e) (hm : Forall2 EntryMeaning (keptPieces 256 es) ms) :
    CpuList.parse (some (joinComma es)) sched cb s = some (runEntries cb s ms) := by
  unfold CpuList.parse
  dsimp only
  rw [entries_all cb sched hs _ 0 [] (joinComma es) s true es hne hcomma (by simp) (by simp) (by simp)
    (by omega), CpuList.foldEntries_eq_run cb s true _ ms hm]
  simp

/-- Nothing is lost exactly if each entry fits the buffer. -/
theorem C03_kept_all_iff (es : List Bytes) : keptPieces 256 es = es ↔ EntriesFit es :=
  kept_all_iff 256 es

/-- The second entry has 300 digits and is cut to 256; the third is lost. -/
example : keptPieces 256 [b!"0-3", List.replicate 300 48, b!"7"] = [b!"0-3", List.replicate 256 48] ∧
    CpuList.parse (some (joinComma [b!"0-3", List.replicate 300 48, b!"7"])) (fun _ => some 9)
      CpuList.record [] = some ([(0, 4), (0, 1)], true) := by decide +kernel

end Verif.Props
