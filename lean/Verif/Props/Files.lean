import Verif.Proof.Files
import Verif.Props.CpuList

/-!
# C06, C07, C08: multi-line and small files
-/

set_option autoImplicit false

namespace Verif.Props
open Spec

/-- Every line of the file fits the buffer (a non-final one together with its newline). -/
def LinesFit (size : Nat) (ls : List Bytes) : Prop :=
  (∀ l ∈ ls.dropLast, l.length < size) ∧ (∀ l ∈ ls.getLast?, l.length ≤ size)

/-- **C06.** For every file (given by its lines), every buffer size the lines fit, every split of
the reads and every line handler, the handler gets the lines in order, numbered from 1, until it
rejects one; the verdict is positive exactly when none is rejected. -/
theorem C06_lines_independent_of_reads {σ : Type} (cb : σ → Bytes → Nat → σ × Bool) (s : σ)
    (size : Nat) (sched : Sched) (hs : sched.NoError) (ls : List Bytes) (hne : ls ≠ [])
    (hnl : ∀ l ∈ ls, 10 ∉ l) (hfit : LinesFit size ls) :
    Multiline.parse (some (joinLines ls)) size sched cb s = some (runLines cb s 1 ls) := by
  have hf : Multiline.Fits size ls := by
    intro as e bs hb
    subst hb
    by_cases hbs : bs = []
    · subst hbs
      refine ⟨hfit.2 e (by simp), by simp⟩
    · have : e ∈ (as ++ e :: bs).dropLast := by
        rw [List.dropLast_append_of_ne_nil (by simp)]
        obtain ⟨x, xs, rfl⟩ := List.exists_cons_of_ne_nil hbs
        simp
      have := hfit.1 e this
      exact ⟨by omega, fun _ => this⟩
  exact Multiline.loop_spec cb size sched hs _ 0 [] (joinLines ls) s 1 ls hne hnl (by simp)
    (by simp) hf (by omega)

/-- Every file content is of the form C06 speaks about. -/
theorem C06_every_content (content : Bytes) :
    ∃ ls, ls ≠ [] ∧ (∀ l ∈ ls, 10 ∉ l) ∧ content = joinLines ls :=
  Multiline.exists_lines content

/-- The decomposition into lines is unique, so C06 determines the calls. -/
theorem C06_lines_unique (ls ls' : List Bytes) (h : ls ≠ []) (h' : ls' ≠ [])
    (hn : ∀ l ∈ ls, 10 ∉ l) (hn' : ∀ l ∈ ls', 10 ∉ l) (he : joinLines ls = joinLines ls') :
    ls = ls' := by
  induction ls generalizing ls' with
  | nil => contradiction
  | cons l ls ih =>
    by_cases h0 : ls = []
    · subst h0
      cases ls' with
      | nil => contradiction
      | cons l' ls' =>
        by_cases h1 : ls' = []
        · subst h1; simpa [joinLines] using he
        · rw [Multiline.joinLines_cons h1] at he
          exfalso
          apply hn l (by simp)
          simp only [joinLines] at he
          rw [he]; simp
    · rw [Multiline.joinLines_cons h0] at he
      obtain ⟨t, rfl, ht, he'⟩ := Multiline.first_line (hn l (by simp)) hn' he
      rw [ih t h0 ht (fun x hx => hn x (by simp [hx])) (fun x hx => hn' x (by simp [hx])) he']

/-- Non-vacuity of C06: a 3-byte buffer, one byte per read, a handler rejecting line `cd`. -/
example : Multiline.parse (some b!"ab\ncd\nef") 3 (fun _ => some 0)
    (fun (s : List (Bytes × Nat)) l n => (s ++ [(l, n)], l ≠ b!"cd")) [] =
    some ([(b!"ab", 1), (b!"cd", 2)], false) := by decide +kernel

/-- A handler that accepts all lines and concatenates what it was given, restoring newlines. -/
def collectLines (s : List Bytes) (l : Bytes) (_n : Nat) : List Bytes × Bool := (s ++ [l], true)

/-- **C07 is violated**, for every buffer size: a successful parse need not have delivered the
complete file. -/
theorem C07_violated (size : Nat) :
    ¬ ∀ (content : Bytes) (sched : Sched) (ls : List Bytes), sched.NoError →
      Multiline.parse (some content) size sched collectLines [] = some (ls, true) →
      joinLines ls = content := by
  intro h
  have h1 := Multiline.long_loop collectLines size (fun _ => some 0) (fun _ => by simp)
    (size + 1 + 1) 0 [] (List.replicate size 120) [120] [] 1 (by simp)
    (by simp) (by simp; omega)
  have := h (List.replicate size 120 ++ [120]) (fun _ => some 0) [List.replicate size 120]
    (fun _ => by simp) (by simp only [Multiline.parse]; simpa [collectLines] using h1)
  have := congrArg List.length this
  simp [joinLines] at this

/-- **C07, in general.** Whatever follows a first line that fills the buffer is lost. -/
theorem C07_long_line_hides_rest {σ : Type} (cb : σ → Bytes → Nat → σ × Bool) (s : σ)
    (size : Nat) (sched : Sched) (hs : sched.NoError) (first rest : Bytes)
    (hlen : first.length = size) (hnl : 10 ∉ first) :
    Multiline.parse (some (first ++ rest)) size sched cb s = some (cb s first 1) := by
  have := Multiline.long_loop cb size sched hs ((first ++ rest).length + 1) 0 [] first rest s 1
    (by simpa using hlen) (by simpa using hnl) (by simp; omega)
  simpa [Multiline.parse] using this

/-- Non-vacuity of the previous theorem: the second line is never seen. -/
example : Multiline.parse (some b!"abc\nprocessor") 3 (fun _ => some 9) collectLines [] =
    some ([b!"abc"], true) := by decide +kernel

/-- **C07, what holds.** When the lines fit the buffer, an accepting handler gets the complete
file.  Missing for the full C07: longer lines (false, see `C07_violated`). -/
theorem C07_complete_partial (size : Nat) (sched : Sched) (hs : sched.NoError) (ls : List Bytes)
    (hne : ls ≠ []) (hnl : ∀ l ∈ ls, 10 ∉ l) (hfit : LinesFit size ls) :
    Multiline.parse (some (joinLines ls)) size sched collectLines [] = some (ls, true) := by
  rw [C06_lines_independent_of_reads _ _ _ _ hs ls hne hnl hfit]
  have : ∀ (ls acc : List Bytes) (n : Nat), runLines collectLines acc n ls = (acc ++ ls, true) := by
    intro ls
    induction ls with
    | nil => intro acc n; simp [runLines]
    | cons l ls ih => intro acc n; simp [runLines, collectLines, ih]
  rw [this]; simp

/-- **C08.** A file shorter than the buffer is handed over whole, for every split of the reads. -/
theorem C08_small_file_whole (content : Bytes) (size : Nat) (sched : Sched) (hs : sched.NoError)
    (h : content.length < size) :
    SmallFile.parse (some content) size sched = some (.callback content) := by
  have := SmallFile.loop_fits size sched hs (content.length + 1) 0 [] content (by simpa using h)
    (by omega)
  simpa [SmallFile.parse] using this

/-- **C08.** A file of at least the buffer size is never handed over. -/
theorem C08_large_file_rejected (content : Bytes) (size : Nat) (sched : Sched) (hs : sched.NoError)
    (h : size ≤ content.length) :
    SmallFile.parse (some content) size sched = some .failed := by
  have := SmallFile.loop_long size sched hs (content.length + 1) 0 [] content (by simpa using h)
    (by omega)
  simpa [SmallFile.parse] using this

/-- **C08.** Whatever happens (read errors included), the handler gets the complete file or is not
called at all. -/
theorem C08_whole_or_nothing (content : Bytes) (size : Nat) (sched : Sched) :
    SmallFile.parse (some content) size sched = some .failed ∨
      SmallFile.parse (some content) size sched = some (.callback content) := by
  have := SmallFile.loop_total size sched (content.length + 1) 0 [] content (by omega)
  rcases this with h | h
  · exact .inl h
  · exact .inr (by simpa [SmallFile.parse] using h.1)

/-- The most bytes a schedule can have delivered before its `i`-th read. -/
def deliveredBefore (sched : Sched) : Nat → Nat
  | 0 => 0
  | i + 1 => deliveredBefore sched i + ((sched i).getD 0 + 1)

/-- **C08.** An error of any read up to the end of the file (the read that detects the end
included) fails without calling the handler. -/
theorem C08_error_fails (content : Bytes) (size : Nat) (sched : Sched) (i : Nat)
    (hi : sched i = none) (hreach : deliveredBefore sched i ≤ content.length) :
    SmallFile.parse (some content) size sched = some .failed := by
  have mono : ∀ j k, deliveredBefore sched j + k ≤ deliveredBefore sched (j + k) := by
    intro j k
    induction k with
    | zero => simp
    | succ k ih =>
      have : deliveredBefore sched (j + (k + 1)) = deliveredBefore sched (j + k) + ((sched (j + k)).getD 0 + 1) := rfl
      omega
  have key : ∀ fuel j buf rest, rest.length < fuel → j ≤ i →
      deliveredBefore sched i ≤ deliveredBefore sched j + rest.length →
      SmallFile.loop size sched fuel j buf rest = some .failed := by
    intro fuel
    induction fuel with
    | zero => intros; omega
    | succ fuel ih =>
      intro j buf rest hf hj hr
      unfold SmallFile.loop
      by_cases hji : j = i
      · subst hji; simp [hi, sysRead]
      · cases hsj : sched j with
        | none => rfl
        | some k =>
          simp only [sysRead]
          split
          · rfl
          · rename_i hl
            simp at hl
            have h1 : deliveredBefore sched (j + 1) = deliveredBefore sched j + (k + 1) := by
              simp [deliveredBefore, hsj]
            have h2 := mono (j + 1) (i - (j + 1))
            rw [show j + 1 + (i - (j + 1)) = i by omega] at h2
            have h3 : (rest.take (min (k + 1) (size - buf.length))) ≠ [] := by
              rw [Ne, List.take_eq_nil_iff]
              intro h; rcases h with h | h
              · omega
              · subst h; simp at hr; omega
            rw [if_neg h3]
            apply ih
            · simp; omega
            · omega
            · simp; omega
  exact key _ 0 [] content (by omega) (by omega) (by simpa [deliveredBefore] using hreach)

/-- Non-vacuity of C08: whole file, too large a file, and an error at the third read. -/
example : SmallFile.parse (some b!"1023\n") 6 (fun _ => some 1) = some (.callback b!"1023\n") ∧
    SmallFile.parse (some b!"1023\n") 5 (fun _ => some 1) = some .failed ∧
    SmallFile.parse (some b!"1023\n") 32 (fun i => if i = 2 then none else some 0) = some .failed := by
  decide +kernel

/-- **C01/C06/C08: termination.** Every reader returns, whatever the file and the reads. -/
theorem C06_readers_terminate {σ : Type} (file : Option Bytes) (size : Nat) (sched : Sched)
    (cb : σ → Nat → Nat → σ × Bool) (cbl : σ → Bytes → Nat → σ × Bool) (s : σ) :
    (∃ r, CpuList.parse file sched cb s = some r) ∧
    (∃ r, Multiline.parse file size sched cbl s = some r) ∧
    (∃ r, SmallFile.parse file size sched = some r) := by
  refine ⟨?_, ?_, ?_⟩
  · obtain ⟨s', ok, h, _⟩ := CpuList.parse_invariant cb (fun _ => True) (by simp) file sched s trivial
    exact ⟨_, h⟩
  · cases file with
    | none => exact ⟨_, rfl⟩
    | some content =>
      obtain ⟨s', ok, h, _⟩ := Multiline.loop_invariant cbl (fun _ => True) (by simp) size sched
        (content.length + 1) 0 [] content s 1 trivial (by omega)
      exact ⟨_, h⟩
  · cases file with
    | none => exact ⟨_, rfl⟩
    | some content => rcases C08_whole_or_nothing content size sched with h | h <;> exact ⟨_, h⟩

end Verif.Props
