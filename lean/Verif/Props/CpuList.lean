import Verif.Proof.Decimal

/-!
# C01, C02, C03: reading CPU lists
-/

set_option autoImplicit false

namespace Verif.Props
open Spec

/-- Every entry of the file fits the 256-byte buffer (a non-final one together with its comma). -/
def EntriesFit (es : List Bytes) : Prop :=
  (∀ e ∈ es.dropLast, e.length < 256) ∧ (∀ e ∈ es.getLast?, e.length ≤ 256)

/-- **C01.** For every file (given as its comma-separated entries `es`, whose meanings are `ms`),
every split of the reads and every callback, the parser calls the callback for exactly the
well-formed entries in order and succeeds iff all entries are well-formed and accepted. -/
theorem C01_cpulist_independent_of_reads {σ : Type} (cb : σ → Nat → Nat → σ × Bool) (s : σ)
    (sched : Sched) (hs : sched.NoError) (es : List Bytes) (ms : List (Option (Nat × Nat)))
    (hne : es ≠ []) (hcomma : ∀ e ∈ es, 44 ∉ e) (hm : Forall2 EntryMeaning es ms)
    (hfit : EntriesFit es) :
    CpuList.parse (some (joinComma es)) sched cb s = some (runEntries cb s ms) := by
  unfold CpuList.parse
  have hf : CpuList.Fits es := by
    intro as e bs hb
    subst hb
    by_cases hbs : bs = []
    · subst hbs
      refine ⟨hfit.2 e (by simp), by simp⟩
    · have : e ∈ (as ++ e :: bs).dropLast := by
        rw [List.dropLast_append_of_ne_nil (by simp)]
        obtain ⟨x, xs, rfl⟩ := List.exists_cons_of_ne_nil hbs
        simp
      have := hfit.1 e this
      exact ⟨by unfold CpuList.bufferSize; omega, fun _ => this⟩
  show CpuList.loop sched cb _ 0 [] _ s true = _
  rw [CpuList.loop_spec cb sched hs _ 0 [] (joinComma es) s true es hne hcomma (by simp) (by simp)
    hf (by omega)]
  rw [CpuList.foldEntries_eq_run cb s true es ms hm]
  simp

/-- Every file content is of the form C01 speaks about. -/
theorem C01_every_content (content : Bytes) :
    ∃ es ms, es ≠ [] ∧ (∀ e ∈ es, 44 ∉ e) ∧ Forall2 EntryMeaning es ms ∧ content = joinComma es := by
  obtain ⟨es, h1, h2, h3⟩ := CpuList.exists_split content
  obtain ⟨ms, hm⟩ := exists_meanings es
  exact ⟨es, ms, h1, h2, hm, h3⟩

/-- The meaning of an entry is unique, so C01 determines the calls. -/
theorem C01_meaning_unique (e : Bytes) (a b a' b' : Nat) (h : EntryDenotes e a b)
    (h' : EntryDenotes e a' b') : a = a' ∧ (b + 1) % U32 = (b' + 1) % U32 := by
  have h1 := CpuList.parseEntry_of_denotes h
  rw [CpuList.parseEntry_of_denotes h'] at h1
  have := Prod.mk.inj (Option.some.inj h1)
  exact ⟨this.1.symm, this.2.symm⟩

/-- Non-vacuity of C01: one byte per read, a well-formed, a malformed and a spaced entry. -/
example : CpuList.parse (some b!"0-3,x, 7 \n") (fun _ => some 0) CpuList.record [] =
    some ([(0, 4), (7, 8)], false) := by decide +kernel

/-- **C01 (errors).** A read error is never masked: whenever the parser reports success under a
schedule, it reports the same success when every error of the schedule is removed. -/
theorem C01_errors_not_masked {σ : Type} (cb : σ → Nat → Nat → σ × Bool) (s s' : σ)
    (sched : Sched) (content : Bytes)
    (h : CpuList.parse (some content) sched cb s = some (s', true)) :
    CpuList.parse (some content) (fun i => some ((sched i).getD 0)) cb s = some (s', true) := by
  have key : ∀ fuel i buf rest s ok, CpuList.loop sched cb fuel i buf rest s ok = some (s', true) →
      CpuList.loop (fun i => some ((sched i).getD 0)) cb fuel i buf rest s ok = some (s', true) := by
    intro fuel
    induction fuel with
    | zero => intro i buf rest s ok h; simp [CpuList.loop] at h
    | succ fuel ih =>
      intro i buf rest s ok h
      unfold CpuList.loop at h ⊢
      cases hw : sched i with
      | none => rw [hw] at h; simp [sysRead] at h
      | some k =>
        rw [hw] at h
        simp only [Option.getD_some]
        revert h
        split
        · simp
        · exact id
        · exact ih _ _ _ _ _
  exact key _ _ _ _ _ _ h

/-- Non-vacuity: an error behind the end of the file does not matter. -/
example : CpuList.parse (some b!"0-3\n") (fun i => if i < 2 then some 255 else none)
    CpuList.record [] = some ([(0, 4)], true) := by decide +kernel

/-- **C02.** Round trip: the text the kernel prints for a list of ranges is parsed back to exactly
these ranges, in order, with success, for every split of the reads. -/
theorem C02_cpulist_round_trip (sched : Sched) (hs : sched.NoError) (rs : List (Nat × Nat))
    (hne : rs ≠ []) (hrs : ∀ r ∈ rs, r.1 ≤ r.2 ∧ r.2 < U32MAX) :
    CpuList.parse (some (printCpuList rs)) sched CpuList.record [] =
      some (rs.map (fun r => (r.1, r.2 + 1)), true) := by
  obtain ⟨es, he1, he2, he3, he4, he5⟩ := printed_entries rs hne
    (fun r hr => ⟨(hrs r hr).1, by have := (hrs r hr).2; omega⟩)
  rw [he1, C01_cpulist_independent_of_reads CpuList.record [] sched hs es (rs.map some) he2 he3 he4
    ⟨fun e he => by have := he5 e (List.dropLast_subset _ he); omega,
     fun e he => by have := he5 e (List.mem_of_getLast? he); omega⟩]
  rw [run_record rs [] hrs]
  simp

/-- Non-vacuity of C02. -/
example : (∀ r ∈ [(0, 3), (5, 5), (8, 11)], r.1 ≤ r.2 ∧ r.2 < U32MAX) ∧
    printCpuList [(0, 3), (5, 5), (8, 11)] = b!"0-3,5,8-11\n" := by
  refine ⟨by decide, ?_⟩
  simp [printCpuList, printRange, joinComma, printNat]

/-- The bound `< 2^32 - 1` in C02 is necessary: the last processor number wraps to an empty range. -/
theorem C02_wraps_at_last_number :
    CpuList.parse (some b!"4294967295\n") (fun _ => some 255) CpuList.record [] =
      some ([(4294967295, 0)], true) := by decide +kernel

/-- A file with one 256-byte entry (255 zeros and a one) and the entry 7. -/
def longEntryFile : Bytes := List.replicate 255 48 ++ b!"1,7\n"

/-- **C03 is violated.** A successful parse need not have reported every entry of the file: with a
256-byte first entry, the second entry is lost although success is returned. -/
theorem C03_violated :
    ¬ ∀ (content : Bytes) (sched : Sched) (calls : List (Nat × Nat)) (es : List Bytes),
      sched.NoError → (∀ e ∈ es, 44 ∉ e) → content = joinComma es →
      CpuList.parse (some content) sched CpuList.record [] = some (calls, true) →
      ∀ e ∈ es, ∀ a b, EntryDenotes e a b → (a, (b + 1) % U32) ∈ calls := by
  intro h
  have h1 := h longEntryFile (fun _ => some 255) [(1, 2)]
    [List.replicate 255 48 ++ b!"1", b!"7\n"] (fun _ => by simp) (by decide +kernel) (by decide +kernel)
    (by decide +kernel) b!"7\n" (.tail _ (.head _)) 7 7
    ⟨[], [55], [10], by decide, by simp, by simp [IsBlank], by simp [IsBlank], by simp [IsBlank],
      BodyDenotes.single [55] ⟨by decide, by simp [IsDigit]⟩⟩
  exact absurd h1 (by decide)

/-- **C03, in general.** Whatever follows a first entry that fills the buffer is lost: the parser
behaves as if the file ended after 256 bytes. -/
theorem C03_long_entry_hides_rest {σ : Type} (cb : σ → Nat → Nat → σ × Bool) (s : σ)
    (sched : Sched) (hs : sched.NoError) (first rest : Bytes) (hlen : first.length = 256)
    (hcomma : 44 ∉ first) :
    CpuList.parse (some (first ++ rest)) sched cb s = CpuList.parse (some first) sched cb s := by
  have hb : CpuList.parse (some first) sched cb s = some (CpuList.entryStep cb s first) := by
    have := CpuList.long_loop cb sched hs (first.length + 1) 0 [] first [] s (by simpa using hlen)
      (by simpa using hcomma) (by omega)
    simpa [CpuList.parse] using this
  rw [hb]
  have := CpuList.long_loop cb sched hs ((first ++ rest).length + 1) 0 [] first rest s
    (by simpa using hlen) (by simpa using hcomma) (by simp; omega)
  simpa [CpuList.parse] using this

/-- Non-vacuity of the previous theorem. -/
example : (List.replicate 255 48 ++ [49]).length = 256 ∧ 44 ∉ (List.replicate 255 48 ++ [49]) := by
  decide +kernel

/-- **C03, what holds.** When the entries fit the buffer, a successful parse has reported every
entry of the file.  Missing for the full C03: longer entries (false, see `C03_violated`). -/
theorem C03_success_is_complete_partial (sched : Sched) (hs : sched.NoError) (es : List Bytes)
    (calls : List (Nat × Nat)) (hne : es ≠ []) (hcomma : ∀ e ∈ es, 44 ∉ e) (hfit : EntriesFit es)
    (h : CpuList.parse (some (joinComma es)) sched CpuList.record [] = some (calls, true)) :
    ∀ e ∈ es, ∃ a b, EntryDenotes e a b ∧ (a, (b + 1) % U32) ∈ calls := by
  obtain ⟨ms, hm⟩ := exists_meanings es
  rw [C01_cpulist_independent_of_reads CpuList.record [] sched hs es ms hne hcomma hm hfit] at h
  exact complete_of_run es ms hm [] calls (Option.some.inj h)

end Verif.Props
