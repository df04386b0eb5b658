import Verif.Proof.X86Fault
import Verif.Spec.X86Init
import Verif.Proof.Processors
import Verif.Proof.X86Cpuinfo
import Verif.Props.X86Cpuinfo
import Verif.Props.Processors

/-!
# The table collected before sorting
-/

set_option autoImplicit false

namespace Verif.X86Init
open Runs Spec
open X86Cpuinfo (LinuxProc)

theorem bitmaskAll_iff (b m : Nat) :
    bitmaskAll b m = true ↔ ∀ i, m.testBit i = true → b.testBit i = true := by
  unfold bitmaskAll
  rw [beq_iff_eq]
  constructor
  · intro h i hi
    have := congrArg (fun n => Nat.testBit n i) h
    simp only [Nat.testBit_and, hi, Bool.and_true] at this
    exact this
  · intro h
    apply Nat.eq_of_testBit_eq
    intro i
    rw [Nat.testBit_and]
    cases hm : m.testBit i
    · simp
    · simp [h i hm]

theorem valid_iff (b : Nat) : bitmaskAll b flagValid = true ↔ b.testBit 12 = true := by
  rw [bitmaskAll_iff]
  have : ∀ i, flagValid.testBit i = decide (12 = i) := by
    intro i
    rw [show flagValid = 2 ^ 12 from rfl, Nat.testBit_two_pow]
  constructor
  · intro h; exact h 12 (by rw [this]; rfl)
  · intro h i hi
    rw [this] at hi
    have : 12 = i := by simpa using hi
    subst this; exact h

/-- Entries before marking: the VALID bit is clear and the APIC id is a 32-bit number. -/
def Fresh (p : LinuxProc) : Prop := p.flags.testBit 12 = false ∧ p.apicId < U32

theorem withFlags_length (t : List LinuxProc) (fs : List Nat) (h : fs.length = t.length) :
    (withFlags t fs).length = t.length := by
  induction t generalizing fs with
  | nil => cases fs <;> simp [withFlags]
  | cons p t ih =>
    cases fs with
    | nil => simp at h
    | cons f fs => simp [withFlags, ih fs (by simpa using h)]

theorem withFlags_get (t : List LinuxProc) (fs : List Nat) (h : fs.length = t.length) (i : Nat) :
    (withFlags t fs)[i]? = (t[i]?).bind fun p => (fs[i]?).map fun f => { p with flags := f } := by
  induction t generalizing fs i with
  | nil => cases fs <;> simp [withFlags]
  | cons p t ih =>
    cases fs with
    | nil => simp at h
    | cons f fs =>
      cases i with
      | zero => simp [withFlags]
      | succ i => simpa [withFlags] using ih fs (by simpa using h) i

theorem mem_iff_get {α : Type} {x : α} {t : List α} : x ∈ t ↔ ∃ i : Nat, t[i]? = some x :=
  List.mem_iff_getElem?

/-- A detector pass cannot fault, keeps the length, and keeps entries fresh. -/
theorem detect_fresh (known : Bool) (file : Option Bytes × Sched) (n flag : Nat)
    (t : List LinuxProc) (hn : t.length = n) (hflag : flag.testBit 12 = false)
    (hf : ∀ p ∈ t, Fresh p) :
    ∃ t', detect known file n flag t = some t' ∧ t'.length = n ∧ ∀ p ∈ t', Fresh p := by
  unfold detect
  cases known with
  | false => exact ⟨t, rfl, hn, hf⟩
  | true =>
    obtain ⟨s', ok, h1, t', h2, h3, h4⟩ := CpuList.parse_invariant
      (Processors.detectCallback n flag)
      (fun s => ∃ t' : List Nat, s = some t' ∧ t'.length = n ∧ ∀ f ∈ t', f.testBit 12 = false)
      (by
        rintro s a b ⟨t', rfl, ht', hb⟩
        obtain ⟨t'', g1, g2, g3⟩ := Processors.detectLoop_spec n flag (b - a) a t' (by omega)
        refine ⟨t'', by simp [Processors.detectCallback, g1], by omega, ?_⟩
        intro f hfm
        obtain ⟨i, hi⟩ := mem_iff_get.mp hfm
        rw [g3 i] at hi
        obtain ⟨w, hw, rfl⟩ := Option.map_eq_some_iff.mp hi
        have := hb w (mem_iff_get.mpr ⟨i, hw⟩)
        split
        · rw [Nat.testBit_or, this, hflag]; rfl
        · exact this)
      file.1 file.2 (some (t.map (·.flags)))
      ⟨_, rfl, by simpa using hn, by
        intro f hfm
        obtain ⟨p, hp, rfl⟩ := List.mem_map.mp hfm
        exact (hf p hp).1⟩
    subst h2
    have e : Processors.detectProcessors file.1 file.2 n flag (t.map (·.flags)) = some (some t', ok) :=
      h1
    simp only [if_true, e, Option.bind_eq_bind, Option.bind_some, Option.pure_def]
    refine ⟨_, rfl, by rw [withFlags_length _ _ (by omega)]; exact hn, ?_⟩
    intro p hp
    obtain ⟨i, hi⟩ := mem_iff_get.mp hp
    rw [withFlags_get _ _ (by omega)] at hi
    obtain ⟨q, hq, hi⟩ := Option.bind_eq_some_iff.mp hi
    obtain ⟨f, hfi, rfl⟩ := Option.map_eq_some_iff.mp hi
    exact ⟨h4 f (mem_iff_get.mpr ⟨i, hfi⟩), (hf q (mem_iff_get.mpr ⟨i, hq⟩)).2⟩

theorem apicLoop_lt (v : Bytes) (n a : Nat) (hn : n < U32) (h : X86Cpuinfo.apicLoop v n = some a) :
    a < U32 := by
  induction v generalizing n with
  | nil => unfold X86Cpuinfo.apicLoop at h; cases h; exact hn
  | cons c cs ih =>
    unfold X86Cpuinfo.apicLoop at h
    split at h
    · cases h
    · exact ih _ (Nat.mod_lt _ (by omega)) h

theorem fresh_apic (v : Bytes) (p : LinuxProc) (h : Fresh p) : Fresh (X86Cpuinfo.parseApicId v p) := by
  unfold X86Cpuinfo.parseApicId
  cases ha : X86Cpuinfo.apicLoop v 0 with
  | none => exact h
  | some a =>
    refine ⟨?_, apicLoop_lt v 0 a (by omega) ha⟩
    simp only [Nat.testBit_or, h.1]
    decide

theorem fresh_listed (p : LinuxProc) (h : Fresh p) :
    Fresh { p with flags := p.flags ||| X86Cpuinfo.flagProcCpuinfo } := by
  refine ⟨?_, h.2⟩
  simp only [Nat.testBit_or, h.1]
  decide

theorem fresh_set (t : List LinuxProc) (i : Nat) (f : LinuxProc → LinuxProc)
    (hf : ∀ p, Fresh p → Fresh (f p)) (h : ∀ p ∈ t, Fresh p) (hi : i < t.length) :
    ∃ t', X86Cpuinfo.modifyAt t i f = some t' ∧ t'.length = t.length ∧ ∀ p ∈ t', Fresh p := by
  unfold X86Cpuinfo.modifyAt
  rw [List.getElem?_eq_getElem hi]
  refine ⟨_, rfl, by simp, ?_⟩
  intro p hp
  rcases List.mem_or_eq_of_mem_set hp with h1 | rfl
  · exact h p h1
  · exact hf _ (h _ (List.getElem_mem hi))

/-- Reading /proc/cpuinfo cannot fault and keeps entries fresh. -/
theorem parse_fresh (file : Option Bytes) (sched : Sched) (n : Nat) (t : List LinuxProc)
    (hn : t.length = n) (hf : ∀ p ∈ t, Fresh p) :
    ∃ idx t' ok, X86Cpuinfo.parseProcCpuinfo file sched n t = some (some ⟨idx, t'⟩, ok) ∧
      t'.length = n ∧ ∀ p ∈ t', Fresh p := by
  unfold X86Cpuinfo.parseProcCpuinfo Multiline.parse
  cases file with
  | none => exact ⟨0, t, false, rfl, hn, hf⟩
  | some content =>
    obtain ⟨s', ok, h1, st, rfl, h3, h4⟩ := Multiline.loop_invariant (X86Cpuinfo.parseLine n)
      (fun s => ∃ st : X86Cpuinfo.State, s = some st ∧ st.table.length = n ∧
        ∀ p ∈ st.table, Fresh p)
      (by
        rintro s l k ⟨st, rfl, ht, hfr⟩
        unfold X86Cpuinfo.parseLine
        simp only [Option.bind_some]
        split
        · exact ⟨st, rfl, ht, hfr⟩
        · split
          · split
            · obtain ⟨t', g1, g2, g3⟩ := fresh_set st.table st.index (X86Cpuinfo.parseApicId _)
                (fresh_apic _) hfr (by omega)
              rw [g1]
              exact ⟨_, rfl, by simp only []; omega, g3⟩
            · exact ⟨st, rfl, ht, hfr⟩
          · split
            · next key value _ _ _ =>
              split
              · exact ⟨_, rfl, ht, hfr⟩
              · obtain ⟨t', g1, g2, g3⟩ := fresh_set st.table (X86Cpuinfo.parseProcessorNumber value) _
                  fresh_listed hfr (by omega)
                rw [g1]
                exact ⟨_, rfl, by simp only []; omega, g3⟩
            · exact ⟨st, rfl, ht, hfr⟩)
      2048 sched (content.length + 1) 0 [] content (some ⟨0, t⟩) 1 ⟨_, rfl, hn, hf⟩ (by omega)
    exact ⟨st.index, st.table, ok, h1, h3, h4⟩

theorem markValid_get (mask : Nat) (t : List LinuxProc) (i : Nat) :
    (markValid mask t)[i]? = (t[i]?).map fun p =>
      if bitmaskAll p.flags mask then { p with flags := p.flags ||| flagValid } else p := by
  simp [markValid]

theorem assignIds_get (j : Nat) (t : List LinuxProc) (i : Nat) :
    (assignIds j t)[i]? = (t[i]?).map fun p =>
      if bitmaskAll p.flags flagValid then { p with linuxId := j + i } else p := by
  induction t generalizing i j with
  | nil => simp [assignIds]
  | cons p t ih =>
    cases i with
    | zero => simp [assignIds]
    | succ i => simp [assignIds, ih, Nat.add_assoc, Nat.add_comm 1 i]

theorem assignIds_length (j : Nat) (t : List LinuxProc) : (assignIds j t).length = t.length := by
  induction t generalizing j with
  | nil => rfl
  | cons p t ih => simp [assignIds, ih]

/-- Bit 12 is not part of the mask of usable processors. -/
theorem tableShape_mask (a b c : Nat) : (tableShape a b c).2.1.testBit 12 = false := by
  unfold tableShape
  by_cases h1 : (1 + c) % U32 = 0 <;> by_cases h2 : (1 + b) % U32 = 0 <;> simp [h1, h2] <;> decide

theorem tableShape_le (a b c : Nat) : (tableShape a b c).1 ≤ a := by
  unfold tableShape
  by_cases h1 : (1 + c) % U32 = 0 <;> by_cases h2 : (1 + b) % U32 = 0 <;> simp [h1, h2] <;> omega

theorem maxProcessorsCount_total (file : Option Bytes) (sched : Sched) :
    ∃ m, Processors.maxProcessorsCount file sched = some m ∧ m < U32 := by
  have h : ∃ r, Processors.readNumber file 32 sched = some r := by
    unfold Processors.readNumber SmallFile.parse
    cases file with
    | none => exact ⟨_, rfl⟩
    | some c =>
      rcases SmallFile.loop_total 32 sched (c.length + 1) 0 [] c (by omega) with h | ⟨h, _⟩
      · simp only [h]; exact ⟨_, rfl⟩
      · simp only [h]; exact ⟨_, rfl⟩
  obtain ⟨r, hr⟩ := h
  unfold Processors.maxProcessorsCount
  rw [hr]
  cases r with
  | none => exact ⟨1024, rfl, by omega⟩
  | some k => exact ⟨_, rfl, Nat.mod_lt _ (by omega)⟩

theorem maxProcessor_total (file : Option Bytes) (sched : Sched) (n : Nat) :
    ∃ m, Processors.maxProcessor file sched n = some m := by
  obtain ⟨s', ok, h, _⟩ := CpuList.parse_invariant Processors.maxNumberCallback (fun _ => True)
    (by simp) file sched 0 trivial
  unfold Processors.maxProcessor
  rw [h]
  cases ok <;> exact ⟨_, rfl⟩

/-- What the collected table looks like. -/
structure Collected (t : List LinuxProc) (mask : Nat) : Prop where
  length : t.length < U32
  apic : ∀ p ∈ t, p.apicId < U32
  valid : ∀ p ∈ t, bitmaskAll p.flags mask = bitmaskAll p.flags flagValid
  ids : ∀ (i : Nat) (p : LinuxProc), t[i]? = some p → bitmaskAll p.flags flagValid = true → p.linuxId = i

theorem collected_of_fresh (t : List LinuxProc) (mask : Nat) (hl : t.length < U32)
    (hf : ∀ p ∈ t, Fresh p) (hm : mask.testBit 12 = false) :
    Collected (assignIds 0 (markValid mask t)) mask := by
  have key : ∀ i p, (assignIds 0 (markValid mask t))[i]? = some p → ∃ q ∈ t,
      (bitmaskAll q.flags mask = true ∧ p = { q with flags := q.flags ||| flagValid, linuxId := i }) ∨
      (bitmaskAll q.flags mask = false ∧ p = q) := by
    intro i p h
    rw [assignIds_get, markValid_get] at h
    cases hq : t[i]? with
    | none => rw [hq] at h; simp at h
    | some q =>
      have hqm := List.mem_of_getElem? hq
      refine ⟨q, hqm, ?_⟩
      rw [hq] at h
      simp only [Option.map_some, Option.some.injEq, Nat.zero_add] at h
      cases hb : bitmaskAll q.flags mask
      · right
        have hnv : bitmaskAll q.flags flagValid = false := by
          cases hv : bitmaskAll q.flags flagValid
          · rfl
          · rw [valid_iff, (hf q hqm).1] at hv; cases hv
        simp [hb, hnv] at h
        exact ⟨rfl, h.symm⟩
      · left
        have hv : bitmaskAll (q.flags ||| flagValid) flagValid = true := by
          rw [valid_iff, Nat.testBit_or]
          have : flagValid.testBit 12 = true := by decide
          rw [this]; simp
        simp [hb, hv] at h
        exact ⟨rfl, h.symm⟩
  constructor
  · rw [assignIds_length]; simpa [markValid] using hl
  · intro p hp
    obtain ⟨i, hi⟩ := mem_iff_get.mp hp
    obtain ⟨q, hq, ⟨_, rfl⟩ | ⟨_, rfl⟩⟩ := key i p hi
    · exact (hf q hq).2
    · exact (hf _ hq).2
  · intro p hp
    obtain ⟨i, hi⟩ := mem_iff_get.mp hp
    obtain ⟨q, hq, ⟨hb, rfl⟩ | ⟨hb, rfl⟩⟩ := key i p hi
    · have h1 : bitmaskAll (q.flags ||| flagValid) mask = true := by
        rw [bitmaskAll_iff] at hb ⊢
        intro j hj
        rw [Nat.testBit_or, hb j hj]; rfl
      have h2 : bitmaskAll (q.flags ||| flagValid) flagValid = true := by
        rw [valid_iff, Nat.testBit_or]
        have : flagValid.testBit 12 = true := by decide
        rw [this]; simp
      rw [h1, h2]
    · have : bitmaskAll p.flags flagValid = false := by
        cases hv : bitmaskAll p.flags flagValid
        · rfl
        · rw [valid_iff, (hf _ hq).1] at hv; cases hv
      rw [hb, this]
  · intro i p hi hv
    obtain ⟨q, hq, ⟨hb, rfl⟩ | ⟨hb, rfl⟩⟩ := key i p hi
    · rfl
    · rw [valid_iff, (hf _ hq).1] at hv; cases hv

theorem fresh_zero (n : Nat) : ∀ p ∈ List.replicate n (LinuxProc.mk 0 0 0), Fresh p := by
  intro p hp
  rw [List.eq_of_mem_replicate hp]
  exact ⟨by decide, by decide⟩

/-- Collecting never faults. -/
theorem gather_total (e : Env) :
    ∃ r, gather e = some r ∧ ∀ t mask, r = some (t, mask) → Collected t mask := by
  obtain ⟨mc, h1, hmc⟩ := maxProcessorsCount_total e.kernelMax.1 e.kernelMax.2
  obtain ⟨mp, h2⟩ := maxProcessor_total e.possibleMax.1 e.possibleMax.2 mc
  obtain ⟨mq, h3⟩ := maxProcessor_total e.presentMax.1 e.presentMax.2 mc
  unfold gather
  simp only [h1, h2, h3, Option.bind_eq_bind, Option.bind_some, Option.pure_def]
  by_cases ha : e.alloc 0 = true
  · rw [if_neg (by simpa using ha)]
    obtain ⟨t1, g1, l1, f1⟩ := detect_fresh (tableShape mc mp mq).2.2.1 e.possible
      (tableShape mc mp mq).1 flagPossible (List.replicate (tableShape mc mp mq).1 ⟨0, 0, 0⟩)
      (by simp) (by decide) (fresh_zero _)
    obtain ⟨t2, g2, l2, f2⟩ := detect_fresh (tableShape mc mp mq).2.2.2 e.present
      (tableShape mc mp mq).1 flagPresent t1 l1 (by decide) f1
    obtain ⟨idx, t3, ok, g3, l3, f3⟩ := parse_fresh e.cpuinfo.1 e.cpuinfo.2
      (tableShape mc mp mq).1 t2 l2 f2
    simp only [g1, g2, g3, Option.bind_some]
    cases ok with
    | false => exact ⟨none, rfl, by simp⟩
    | true =>
      refine ⟨_, rfl, ?_⟩
      intro t mask h
      have h := Option.some.inj h
      cases h
      have := tableShape_le mc mp mq
      exact collected_of_fresh t3 _ (by omega) f3 (tableShape_mask mc mp mq)
  · rw [if_pos (by simpa using ha)]
    exact ⟨none, rfl, by simp⟩

/-- The input of `build` for a collected table. -/
theorem input_of_collected (sort : List LinuxProc → List LinuxProc) (hs : Spec.QSorts sort)
    (t : List LinuxProc) (mask : Nat) (h : Collected t mask) :
    ∃ I : Input, I.v ++ I.w = sort t ∧ I.vm = mask ∧ I.v = (sort t).filter usable ∧
      I.v.length = countValid t := by
  obtain ⟨hperm, hpw⟩ := hs t
  obtain ⟨h1, h2⟩ := sorted_split (sort t) hpw
  have hmem : ∀ p ∈ sort t, p ∈ t := fun p hp => hperm.mem_iff.mp hp
  refine ⟨{ v := (sort t).filter usable, w := (sort t).filter (fun p => !usable p), vm := mask,
            hv := fun p hp => (List.mem_filter.mp hp).2,
            hw := fun p hp => by
              have := (List.mem_filter.mp hp).2
              simpa [usable] using this,
            hvm := fun p hp => h.valid p (hmem p (by rw [h1]; exact hp)),
            sorted := h2,
            hapic := fun p hp => h.apic p (hmem p (List.mem_filter.mp hp).1),
            hlen := by rw [← h1, hperm.length_eq]; exact h.length,
            hlid := fun p hp => by
              have hp := List.mem_filter.mp hp
              obtain ⟨i, hi⟩ := mem_iff_get.mp (hmem p hp.1)
              rw [h.ids i p hi hp.2, ← h1, hperm.length_eq]
              rcases Nat.lt_or_ge i t.length with h' | h'
              · exact h'
              · rw [List.getElem?_eq_none h'] at hi; cases hi
            hnodup := ?_ }, h1.symm, rfl, rfl, (hperm.filter _).length_eq⟩
  have hp2 := (hperm.filter usable).map (·.linuxId)
  rw [hp2.nodup_iff, List.nodup_iff_pairwise_ne, List.pairwise_map, List.pairwise_filter]
  rw [List.pairwise_iff_getElem]
  intro i j hi hj hij hu1 hu2 heq
  rw [h.ids i _ (List.getElem?_eq_getElem hi) hu1, h.ids j _ (List.getElem?_eq_getElem hj) hu2] at heq
  omega

end Verif.X86Init
