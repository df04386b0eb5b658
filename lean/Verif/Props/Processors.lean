import Verif.Proof.Processors
import Verif.Props.Files

/-!
# C04, C05, C09, C10, C56: sysfs processor information
-/

set_option autoImplicit false

namespace Verif.Props
open Spec

/-- Processor `i` is listed by a CPU list whose entries mean `ms`. -/
def Listed (ms : List (Option (Nat × Nat))) (i : Nat) : Prop :=
  ∃ a b, some (a, b) ∈ ms ∧ a ≤ i ∧ i ≤ b

open Classical in
/-- **C04.** After detection into a table of at least `maxCount` flag words, the flag is added to
exactly the listed processors below `maxCount`; nothing else changes, nothing is accessed out of
bounds (the table result is not `none`), and success means that all entries are well-formed. -/
theorem C04_detect_exact (sched : Sched) (hs : sched.NoError) (es : List Bytes)
    (ms : List (Option (Nat × Nat))) (maxCount flag : Nat) (table : List Nat)
    (hne : es ≠ []) (hcomma : ∀ e ∈ es, 44 ∉ e) (hm : Forall2 EntryMeaning es ms)
    (hfit : EntriesFit es) (hwrap : ∀ a b, some (a, b) ∈ ms → b < U32MAX)
    (hsize : maxCount ≤ table.length) :
    ∃ table', Processors.detectProcessors (some (joinComma es)) sched maxCount flag table =
        some (some table', ms.all Option.isSome) ∧
      table'.length = table.length ∧
      ∀ i, table'[i]? = (table[i]?).map fun w =>
        if i < maxCount ∧ Listed ms i then w ||| flag else w := by
  unfold Processors.detectProcessors
  rw [C01_cpulist_independent_of_reads _ _ sched hs es ms hne hcomma hm hfit]
  obtain ⟨t', h1, h2, h3⟩ := Processors.run_detect maxCount flag ms table hsize hwrap
  exact ⟨t', by rw [h1], h2, h3⟩

open Classical in
/-- **C04**, for the text the kernel prints for a list of ranges. -/
theorem C04_detect_printed (sched : Sched) (hs : sched.NoError) (rs : List (Nat × Nat))
    (hne : rs ≠ []) (hrs : ∀ r ∈ rs, r.1 ≤ r.2 ∧ r.2 < U32MAX) (maxCount flag : Nat)
    (table : List Nat) (hsize : maxCount ≤ table.length) :
    ∃ table', Processors.detectProcessors (some (printCpuList rs)) sched maxCount flag table =
        some (some table', true) ∧
      table'.length = table.length ∧
      ∀ i, table'[i]? = (table[i]?).map fun w =>
        if i < maxCount ∧ ∃ r ∈ rs, r.1 ≤ i ∧ i ≤ r.2 then w ||| flag else w := by
  obtain ⟨es, he1, he2, he3, he4, he5⟩ := printed_entries rs hne
    (fun r hr => ⟨(hrs r hr).1, by have := (hrs r hr).2; omega⟩)
  obtain ⟨t', h1, h2, h3⟩ := C04_detect_exact sched hs es (rs.map some) maxCount flag table he2 he3 he4
    ⟨fun e he => by have := he5 e (List.dropLast_subset _ he); omega,
     fun e he => by have := he5 e (List.mem_of_getLast? he); omega⟩
    (by intro a b hab; simp at hab; exact (hrs _ hab).2) hsize
  refine ⟨t', by rw [he1, h1]; simp, h2, ?_⟩
  intro i; rw [h3 i]
  congr 1
  funext w
  have : Listed (rs.map some) i ↔ ∃ r ∈ rs, r.1 ≤ i ∧ i ≤ r.2 := by
    unfold Listed
    constructor
    · rintro ⟨a, b, h, h'⟩; simp at h; exact ⟨(a, b), h, h'⟩
    · rintro ⟨⟨a, b⟩, h, h'⟩; exact ⟨a, b, by simp [h], h'⟩
  by_cases hc : i < maxCount ∧ ∃ r ∈ rs, r.1 ≤ i ∧ i ≤ r.2
  · rw [if_pos hc, if_pos ⟨hc.1, this.mpr hc.2⟩]
  · rw [if_neg hc, if_neg (fun x => hc ⟨x.1, this.mp x.2⟩)]

/-- **C04 (memory safety).** For every file, every read behaviour (errors included) and every
limit within the table, detection accesses only existing table entries. -/
theorem C04_detect_in_bounds (file : Option Bytes) (sched : Sched) (maxCount flag : Nat)
    (table : List Nat) (hsize : maxCount ≤ table.length) :
    ∃ table' ok, Processors.detectProcessors file sched maxCount flag table =
        some (some table', ok) ∧ table'.length = table.length := by
  obtain ⟨s', ok, h1, t', h2, h3⟩ := CpuList.parse_invariant (Processors.detectCallback maxCount flag)
    (fun s => ∃ t : List Nat, s = some t ∧ t.length = table.length)
    (by
      rintro s a b ⟨t, rfl, ht⟩
      obtain ⟨t', g1, g2, _⟩ := Processors.detectLoop_spec maxCount flag (b - a) a t (by omega)
      exact ⟨t', by simp [Processors.detectCallback, g1], by omega⟩)
    file sched (some table) ⟨table, rfl, rfl⟩
  exact ⟨t', ok, by rw [← h2]; exact h1, h3⟩

/-- Non-vacuity of C04: bit 0x1 is added to processors 0, 1 and 3 of a table of four. -/
example : Processors.detectProcessors (some b!"0-1,3-9\n") (fun _ => some 1) 4 1 [2, 0, 2, 1] =
    some (some [3, 1, 2, 1], true) := by decide +kernel

/-- **C05.** Whatever the file and the reads, the maximum is the failure value or below the
limit. -/
theorem C05_max_below_limit (file : Option Bytes) (sched : Sched) (maxCount : Nat)
    (h0 : 0 < maxCount) (h1 : maxCount < U32) :
    ∃ m, Processors.maxProcessor file sched maxCount = some m ∧ (m = U32MAX ∨ m < maxCount) := by
  obtain ⟨s', ok, h, _⟩ := CpuList.parse_invariant Processors.maxNumberCallback (fun _ => True)
    (by simp) file sched 0 trivial
  unfold Processors.maxProcessor
  rw [h]
  cases ok with
  | false => exact ⟨_, rfl, .inl rfl⟩
  | true =>
    refine ⟨_, rfl, .inr ?_⟩
    dsimp only
    split
    · omega
    · omega

/-- **C05.** For a well-formed list the maximum is the largest listed processor number, or the
last number below the limit when the largest listed number is not below it. -/
theorem C05_max_is_largest (sched : Sched) (hs : sched.NoError) (es : List Bytes)
    (rs : List (Nat × Nat)) (maxCount : Nat) (hne : es ≠ []) (hcomma : ∀ e ∈ es, 44 ∉ e)
    (hm : Forall2 EntryMeaning es (rs.map some)) (hfit : EntriesFit es)
    (hwrap : ∀ r ∈ rs, r.2 < U32MAX) (h0 : 0 < maxCount) (h1 : maxCount < U32) :
    ∃ largest, (∃ r ∈ rs, r.2 = largest) ∧ (∀ r ∈ rs, r.2 ≤ largest) ∧
      Processors.maxProcessor (some (joinComma es)) sched maxCount =
        some (min largest (maxCount - 1)) := by
  obtain ⟨m, h2, _, h4, h5⟩ := Processors.run_max rs 0 hwrap
  have hrs : rs ≠ [] := by
    intro h; subst h; cases hm; contradiction
  refine ⟨m, ?_, h4, ?_⟩
  · rcases h5 with h5 | h5
    · obtain ⟨r, rs', rfl⟩ := List.exists_cons_of_ne_nil hrs
      have := h4 r (by simp)
      exact ⟨r, by simp, by omega⟩
    · exact h5
  · unfold Processors.maxProcessor
    rw [C01_cpulist_independent_of_reads _ _ sched hs es _ hne hcomma hm hfit, h2]
    simp only [Option.map_some, Option.some.injEq]
    split <;> omega

/-- Non-vacuity of C05. -/
example : Processors.maxProcessor (some b!"0-3,8-11\n") (fun _ => some 2) 1024 = some 11 ∧
    Processors.maxProcessor (some b!"0-3,8-11\n") (fun _ => some 2) 8 = some 7 ∧
    Processors.maxProcessor (some b!"0-3,x\n") (fun _ => some 2) 8 = some 4294967295 := by
  decide +kernel

/-- **C09.** The decimal text of a 32-bit value, optionally with a newline, is read as that value,
for every split of the reads. -/
theorem C09_value_round_trip (v : Nat) (hv : v < U32) (tail : Bytes) (ht : tail = [] ∨ tail = [10])
    (sched : Sched) (hs : sched.NoError) :
    Processors.readNumber (some (printNat v ++ tail)) 32 sched = some (some v) := by
  unfold Processors.readNumber
  have hl := printNat_length_u32 hv
  rw [C08_small_file_whole _ _ _ hs (by rcases ht with rfl | rfl <;> simp <;> omega)]
  simp only [Option.map_some]
  rw [Processors.uint32_of_numeral _ _ (printNat_numeral v)
    (by rcases ht with rfl | rfl <;> simp [IsDigit])]
  rw [decimal_printNat, Nat.mod_eq_of_lt hv]

/-- **C09.** Exactly the texts starting with a digit are accepted; the value is that of the
leading digits modulo 2^32. -/
theorem C09_accepts_exactly (content : Bytes) (hlen : content.length < 32) (sched : Sched)
    (hs : sched.NoError) (r : Option Nat) :
    Processors.readNumber (some content) 32 sched = some r ↔
      (∃ ds junk, content = ds ++ junk ∧ IsNumeral ds ∧
        (∀ c, junk.head? = some c → ¬ IsDigit c) ∧ r = some (decimal ds % U32)) ∨
      ((∀ c, content.head? = some c → ¬ IsDigit c) ∧ r = none) := by
  unfold Processors.readNumber
  rw [C08_small_file_whole _ _ _ hs hlen]
  simp only [Option.map_some, Option.some.injEq]
  constructor
  · intro h
    obtain ⟨ds, junk, h1, h2, h3⟩ := CpuList.exists_digit_run content
    by_cases h0 : ds = []
    · right
      subst h0
      have h1 : content = junk := by simpa using h1
      subst h1
      rw [Processors.uint32_none _ h3] at h
      exact ⟨h3, h.symm⟩
    · left
      refine ⟨ds, junk, h1, ⟨h0, h2⟩, h3, ?_⟩
      rw [h1, Processors.uint32_of_numeral _ _ ⟨h0, h2⟩ h3] at h
      exact h.symm
  · rintro (⟨ds, junk, rfl, h2, h3, rfl⟩ | ⟨h, rfl⟩)
    · exact Processors.uint32_of_numeral _ _ h2 h3
    · exact Processors.uint32_none _ h

/-- **C09.** The processor-count limit is `kernel_max + 1` whenever that fits 32 bits, and 1024
when the file is missing. -/
theorem C09_kernel_max (v : Nat) (hv : v < U32MAX) (tail : Bytes) (ht : tail = [] ∨ tail = [10])
    (sched : Sched) (hs : sched.NoError) :
    Processors.maxProcessorsCount (some (printNat v ++ tail)) sched = some (v + 1) ∧
    Processors.maxProcessorsCount none sched = some 1024 := by
  refine ⟨?_, rfl⟩
  unfold Processors.maxProcessorsCount
  rw [C09_value_round_trip v (by omega) tail ht sched hs]
  simp only [Option.map_some, Option.some.injEq]
  omega

/-- The bound in `C09_kernel_max` is necessary: `kernel_max = 2^32 - 1` yields a limit of zero. -/
theorem C09_kernel_max_wraps :
    Processors.maxProcessorsCount (some b!"4294967295\n") (fun _ => some 31) = some 0 := by
  decide +kernel

/-- **C09.** Frequencies: the value of the file, 0 when it is missing. -/
theorem C09_frequency (v : Nat) (hv : v < U32) (tail : Bytes) (ht : tail = [] ∨ tail = [10])
    (sched : Sched) (hs : sched.NoError) :
    Processors.processorFrequency (some (printNat v ++ tail)) sched = some v ∧
    Processors.processorFrequency none sched = some 0 := by
  refine ⟨?_, rfl⟩
  unfold Processors.processorFrequency
  rw [C09_value_round_trip v hv tail ht sched hs]
  rfl

/-- Non-vacuity of C09. -/
example : Processors.maxProcessorsCount (some b!"255\n") (fun _ => some 0) = some 256 ∧
    Processors.readNumber (some b!"x1\n") 32 (fun _ => some 0) = some none := by decide +kernel

/-- A sibling callback that records its arguments. -/
def recordSiblings (calls : List (Nat × Nat × Nat)) (p a b : Nat) : List (Nat × Nat × Nat) × Bool :=
  (calls ++ [(p, a, b)], true)

/-- **C10.** The ranges reported for processor `p` never exceed the table, and together they cover
exactly the listed processors below the table size. -/
theorem C10_siblings_clamped (sched : Sched) (hs : sched.NoError) (es : List Bytes)
    (ms : List (Option (Nat × Nat))) (maxCount p : Nat)
    (hne : es ≠ []) (hcomma : ∀ e ∈ es, 44 ∉ e) (hm : Forall2 EntryMeaning es ms)
    (hfit : EntriesFit es) (hwrap : ∀ a b, some (a, b) ∈ ms → b < U32MAX) :
    ∃ calls, Processors.detectSiblings (some (joinComma es)) sched maxCount p recordSiblings [] =
        some (calls, ms.all Option.isSome) ∧
      (∀ c ∈ calls, c.1 = p ∧ c.2.2 ≤ maxCount) ∧
      ∀ i, (∃ c ∈ calls, c.2.1 ≤ i ∧ i < c.2.2) ↔ (Listed ms i ∧ i < maxCount) := by
  unfold Processors.detectSiblings
  rw [C01_cpulist_independent_of_reads _ _ sched hs es ms hne hcomma hm hfit]
  clear hm hfit hcomma hne
  have key : ∀ (ms : List (Option (Nat × Nat))) (acc : List (Nat × Nat × Nat)),
      (∀ a b, some (a, b) ∈ ms → b < U32MAX) →
      ∃ calls, runEntries (Processors.siblingsCallback maxCount p recordSiblings) acc ms =
          (acc ++ calls, ms.all Option.isSome) ∧
        (∀ c ∈ calls, c.1 = p ∧ c.2.2 ≤ maxCount) ∧
        ∀ i, (∃ c ∈ calls, c.2.1 ≤ i ∧ i < c.2.2) ↔ (Listed ms i ∧ i < maxCount) := by
    intro ms
    induction ms with
    | nil => intro acc _; exact ⟨[], by simp [runEntries], by simp, by simp [Listed]⟩
    | cons m ms ih =>
      intro acc hw
      have hw' : ∀ a b, some (a, b) ∈ ms → b < U32MAX := fun a b h => hw a b (by simp [h])
      cases m with
      | none =>
        obtain ⟨calls, h1, h2, h3⟩ := ih acc hw'
        refine ⟨calls, by simp [runEntries, h1], h2, ?_⟩
        intro i; rw [h3 i]; simp [Listed]
      | some r =>
        obtain ⟨a, b⟩ := r
        have hb := hw a b (by simp)
        have e : (b + 1) % U32 = b + 1 := by omega
        obtain ⟨calls, h1, h2, h3⟩ :=
          ih (acc ++ [(p, a, if b + 1 > maxCount then maxCount else b + 1)]) hw'
        refine ⟨(p, a, if b + 1 > maxCount then maxCount else b + 1) :: calls, ?_, ?_, ?_⟩
        · simp only [runEntries, Processors.siblingsCallback, recordSiblings, e, Bool.true_and]
          rw [h1]; simp
        · intro c hc; simp at hc
          rcases hc with rfl | hc
          · refine ⟨rfl, ?_⟩; dsimp only; split <;> omega
          · exact h2 c hc
        · intro i
          have h3 := h3 i
          constructor
          · rintro ⟨c, hc, hi⟩
            simp at hc
            rcases hc with rfl | hc
            · dsimp only at hi
              refine ⟨⟨a, b, by simp, hi.1, ?_⟩, ?_⟩
              · split at hi <;> omega
              · split at hi <;> omega
            · obtain ⟨⟨a', b', h, h'⟩, hm⟩ := h3.mp ⟨c, hc, hi⟩
              exact ⟨⟨a', b', by simp [h], h'⟩, hm⟩
          · rintro ⟨⟨a', b', h, h'⟩, hm⟩
            simp at h
            rcases h with ⟨rfl, rfl⟩ | h
            · refine ⟨_, by simp; exact .inl rfl, h'.1, ?_⟩
              dsimp only; split <;> omega
            · obtain ⟨c, hc, hi⟩ := h3.mpr ⟨⟨a', b', h, h'⟩, hm⟩
              exact ⟨c, by simp [hc], hi⟩
  obtain ⟨calls, h1, h2, h3⟩ := key ms [] hwrap
  exact ⟨calls, by rw [h1]; simp, h2, h3⟩

/-- Non-vacuity of C10: `0,2-5` clamped to a table of four processors. -/
example : Processors.detectSiblings (some b!"0,2-5\n") (fun _ => some 0) 4 2 recordSiblings [] =
    some ([(2, 0, 1), (2, 2, 4)], true) := by decide +kernel

/-- **C56.** The per-processor sysfs file name with its terminator fits its buffer for every 32-bit
processor number and every suffix. -/
theorem C56_filename_fits (p : Nat) (hp : p < U32) (suffix : Bytes) :
    (b!"/sys/devices/system/cpu/cpu" ++ printNat p ++ suffix).length + 1 ≤
      Processors.filenameSize suffix := by
  have := printNat_length_u32 hp
  unfold Processors.filenameSize
  simp
  omega

/-- Non-vacuity of C56 (the buffer is tight for ten-digit numbers). -/
example : (b!"/sys/devices/system/cpu/cpu" ++ b!"4294967295" ++ b!"/topology/core_id").length + 1 =
    Processors.filenameSize b!"/topology/core_id" := by decide

end Verif.Props
