import Verif.Proof.X86Facts

/-!
# The collected table for well-formed kernel files
-/

set_option autoImplicit false

namespace Verif.X86Init
open Runs Spec Props
open X86Cpuinfo (LinuxProc)

/-- Processor `n` is in a list that exists. -/
def InList (l : Option (List (Nat × Nat))) (n : Nat) : Prop := ∃ rs, l = some rs ∧ InRanges rs n

/-- The largest number of a list, clamped; the failure value without a list. -/
theorem maxProcessor_printed (l : Option (List (Nat × Nat)))
    (hl : ∀ rs, l = some rs → RangesOk rs) (sched : Sched) (hs : sched.NoError) (km : Nat)
    (hkm : km < U32MAX) :
    (l = none ∧ Processors.maxProcessor (l.map printCpuList) sched (km + 1) = some U32MAX) ∨
    (∃ rs largest, l = some rs ∧ (∀ n, InRanges rs n → n ≤ largest) ∧
      Processors.maxProcessor (l.map printCpuList) sched (km + 1) = some (min largest km)) := by
  cases l with
  | none => left; exact ⟨rfl, rfl⟩
  | some rs =>
    right
    obtain ⟨h1, h2⟩ := hl rs rfl
    obtain ⟨es, he1, he2, he3, he4, he5⟩ := printed_entries rs h1
      (fun r hr => ⟨(h2 r hr).1, by have := (h2 r hr).2; omega⟩)
    obtain ⟨largest, g1, g2, g3⟩ := C05_max_is_largest sched hs es rs (km + 1) he2 he3 he4
      ⟨fun e he => by have := he5 e (List.dropLast_subset _ he); omega,
       fun e he => by have := he5 e (List.mem_of_getLast? he); omega⟩
      (fun r hr => (h2 r hr).2) (by omega) (by omega)
    refine ⟨rs, largest, rfl, ?_, ?_⟩
    · rintro n ⟨r, hr, hn⟩
      have := g2 r hr; omega
    · rw [Option.map_some, he1, g3]
      congr 1

open Classical in
/-- A detector pass for a printed list. -/
theorem detect_printed (l : Option (List (Nat × Nat))) (hl : ∀ rs, l = some rs → RangesOk rs)
    (sched : Sched) (hs : sched.NoError) (n flag : Nat) (t : List LinuxProc) (hn : t.length = n) :
    ∃ t', detect l.isSome (l.map printCpuList, sched) n flag t = some t' ∧ t'.length = n ∧
      ∀ i : Nat, t'[i]? = (t[i]?).map fun p =>
        { p with flags := p.flags ||| if InList l i then flag else 0 } := by
  cases l with
  | none =>
    refine ⟨t, rfl, hn, ?_⟩
    intro i
    have : ¬ InList none i := by rintro ⟨rs, h, _⟩; cases h
    simp [this]
  | some rs =>
    obtain ⟨h1, h2⟩ := hl rs rfl
    obtain ⟨fs, g1, g2, g3⟩ := C04_detect_printed sched hs rs h1 h2 n flag (t.map (·.flags))
      (by simp [hn])
    rw [List.length_map] at g2
    refine ⟨withFlags t fs, ?_, by rw [withFlags_length _ _ g2, hn], ?_⟩
    · simp only [detect, Option.isSome_some, if_true, Option.map_some, g1, Option.bind_eq_bind,
        Option.bind_some, Option.pure_def]
    · intro i
      rw [withFlags_get _ _ g2, g3 i, List.getElem?_map]
      cases hi : t[i]? with
      | none => rfl
      | some p =>
        have hin : i < n := by
          rw [← hn]; exact (List.getElem?_eq_some_iff.mp hi).1
        have : InList (some rs) i ↔ ∃ r ∈ rs, r.1 ≤ i ∧ i ≤ r.2 :=
          ⟨by rintro ⟨rs', h, h'⟩; cases h; exact h', fun h => ⟨rs, rfl, h⟩⟩
        by_cases hc : InList (some rs) i
        · simp [hin, hc, this.mp hc]
        · simp [hc, mt this.mpr hc]

/-- The flags of a processor before marking. -/
noncomputable def rawFlags (m : Machine) (i : Nat) : Nat :=
  open Classical in
  (if InList m.possible i then flagPossible else 0) ||| (if InList m.present i then flagPresent else 0)
    ||| (if m.Online i then 0x880 else 0)

/-- The mask of usable processors for a machine. -/
def machineMask (m : Machine) : Nat :=
  (if m.present.isSome then flagPresent else X86Cpuinfo.flagProcCpuinfo) |||
    (if m.possible.isSome then flagPossible else 0)

theorem usable_bits (m : Machine) (i : Nat) :
    bitmaskAll (rawFlags m i) (machineMask m) = true ↔
      (∀ rs, m.possible = some rs → InRanges rs i) ∧ (∀ rs, m.present = some rs → InRanges rs i) ∧
        (m.present = none → m.Online i) := by
  unfold rawFlags machineMask
  have hP : (∀ rs, m.possible = some rs → InRanges rs i) ↔ (m.possible.isSome → InList m.possible i) := by
    constructor
    · intro h hs
      obtain ⟨rs, hrs⟩ := Option.isSome_iff_exists.mp hs
      exact ⟨rs, hrs, h rs hrs⟩
    · intro h rs hrs
      obtain ⟨rs', h1, h2⟩ := h (by simp [hrs])
      rw [hrs] at h1; cases h1; exact h2
  have hR : (∀ rs, m.present = some rs → InRanges rs i) ↔ (m.present.isSome → InList m.present i) := by
    constructor
    · intro h hs
      obtain ⟨rs, hrs⟩ := Option.isSome_iff_exists.mp hs
      exact ⟨rs, hrs, h rs hrs⟩
    · intro h rs hrs
      obtain ⟨rs', h1, h2⟩ := h (by simp [hrs])
      rw [hrs] at h1; cases h1; exact h2
  have hN : m.present = none ↔ m.present.isSome = false := by simp
  rw [hP, hR, hN]
  cases m.possible.isSome <;> cases m.present.isSome <;> by_cases h1 : InList m.possible i <;>
    by_cases h2 : InList m.present i <;> by_cases h3 : m.Online i <;> simp only [h1, h2, h3] <;> decide

theorem tableShape_known (mc mp mq : Nat) (hmp : mp < U32MAX) (hmq : mq < U32MAX) :
    tableShape mc mp mq = (min (min mc (1 + mq)) (1 + mp), flagPresent ||| flagPossible, true, true) := by
  unfold tableShape
  have h1 : (1 + mp) % U32 = 1 + mp := Nat.mod_eq_of_lt (by omega)
  have h2 : (1 + mq) % U32 = 1 + mq := Nat.mod_eq_of_lt (by omega)
  simp [h1, h2]

theorem tableShape_possible (mc mp : Nat) (hmp : mp < U32MAX) :
    tableShape mc mp U32MAX =
      (min mc (1 + mp), X86Cpuinfo.flagProcCpuinfo ||| flagPossible, true, false) := by
  unfold tableShape
  have h1 : (1 + mp) % U32 = 1 + mp := Nat.mod_eq_of_lt (by omega)
  simp [h1]

theorem tableShape_present (mc mq : Nat) (hmq : mq < U32MAX) :
    tableShape mc U32MAX mq = (min mc (1 + mq), flagPresent, false, true) := by
  unfold tableShape
  have h1 : (1 + mq) % U32 = 1 + mq := Nat.mod_eq_of_lt (by omega)
  simp [h1]

theorem tableShape_none (mc : Nat) :
    tableShape mc U32MAX U32MAX = (mc, X86Cpuinfo.flagProcCpuinfo, false, false) := by
  simp [tableShape]

/-- Table size and mask for a machine. -/
theorem shape_of_machine (m : Machine) (hm : m.Ok 2048) (e : Env) (hd : m.Describes e) :
    ∃ mp mq n, Processors.maxProcessorsCount e.kernelMax.1 e.kernelMax.2 = some (m.kernelMax + 1) ∧
      Processors.maxProcessor e.possibleMax.1 e.possibleMax.2 (m.kernelMax + 1) = some mp ∧
      Processors.maxProcessor e.presentMax.1 e.presentMax.2 (m.kernelMax + 1) = some mq ∧
      tableShape (m.kernelMax + 1) mp mq =
        (n, machineMask m, m.possible.isSome, m.present.isSome) ∧
      n ≤ m.kernelMax + 1 ∧
      ∀ i, i ≤ m.kernelMax → (∀ rs, m.possible = some rs → InRanges rs i) →
        (∀ rs, m.present = some rs → InRanges rs i) → i < n := by
  obtain ⟨r1, r2, r3, -, -, -⟩ := hd.reads
  have hk := (C09_kernel_max m.kernelMax hm.kernelMax [10] (.inr rfl) e.kernelMax.2 r1).1
  rw [← hd.kernelMax] at hk
  have hp := maxProcessor_printed m.possible hm.possible e.possibleMax.2 r2 m.kernelMax hm.kernelMax
  have hq := maxProcessor_printed m.present hm.present e.presentMax.2 r3 m.kernelMax hm.kernelMax
  rw [← hd.possibleMax] at hp
  rw [← hd.presentMax] at hq
  have hkm := hm.kernelMax
  unfold machineMask
  rcases hp with ⟨p1, p2⟩ | ⟨rp, lp, p1, p2, p3⟩ <;> rcases hq with ⟨q1, q2⟩ | ⟨rq, lq, q1, q2, q3⟩
  · refine ⟨_, _, m.kernelMax + 1, hk, p2, q2, ?_, by omega, ?_⟩
    · rw [tableShape_none, p1, q1]; rfl
    · intro i hi _ _; omega
  · refine ⟨_, _, min (m.kernelMax + 1) (1 + min lq m.kernelMax), hk, p2, q3, ?_, ?_, ?_⟩
    · rw [tableShape_present _ _ (by omega), p1, q1]; simp
    · omega
    · intro i hi _ h; have := q2 i (h rq q1); omega
  · refine ⟨_, _, min (m.kernelMax + 1) (1 + min lp m.kernelMax), hk, p3, q2, ?_, ?_, ?_⟩
    · rw [tableShape_possible _ _ (by omega), p1, q1]; rfl
    · omega
    · intro i hi h _; have := p2 i (h rp p1); omega
  · refine ⟨_, _, min (min (m.kernelMax + 1) (1 + min lq m.kernelMax)) (1 + min lp m.kernelMax), hk, p3, q3, ?_, ?_, ?_⟩
    · rw [tableShape_known _ _ _ (by omega) (by omega), p1, q1]; rfl
    · omega
    · intro i hi h h'; have := p2 i (h rp p1); have := q2 i (h' rq q1); omega

open Classical in
/-- What collecting finds for a machine: which entries are usable, and their APIC ids. -/
theorem gather_machine (m : Machine) (hm : m.Ok 2048) (e : Env) (hd : m.Describes e)
    (ha : e.alloc 0 = true) :
    ∃ t, gather e = some (some (t, machineMask m)) ∧
      (∀ (i : Nat) (p : LinuxProc), t[i]? = some p →
        (bitmaskAll p.flags (machineMask m) = true ↔ m.Usable i) ∧
        (m.ApicId i p.apicId ∨ (¬ m.Online i ∧ p.apicId = 0))) ∧
      ∀ i, m.Usable i → ∃ p, t[i]? = some p := by
  obtain ⟨mp, mq, n, s1, s2, s3, s4, s5, s6⟩ := shape_of_machine m hm e hd
  obtain ⟨-, -, -, r4, r5, r6⟩ := hd.reads
  obtain ⟨t1, a1, a2, a3⟩ := detect_printed m.possible hm.possible e.possible.2 r4 n flagPossible
    (List.replicate n ⟨0, 0, 0⟩) (by simp)
  obtain ⟨t2, b1, b2, b3⟩ := detect_printed m.present hm.present e.present.2 r5 n flagPresent t1 a2
  obtain ⟨idx, t3, c1, c2, c3⟩ := C11_every_processor_gets_its_apic_id e.cpuinfo.2 r6 m.blocks m.tail
    n t2 hm.blocks hm.tail hm.nonempty hm.newline
    ⟨fun l hl => hm.short l (List.dropLast_subset _ hl),
     fun l hl => Nat.le_of_lt (hm.short l (List.mem_of_getLast? hl))⟩ hm.distinct (by omega)
  rw [← hd.possible] at a1
  rw [← hd.present] at b1
  have hl : joinLines (m.blocks.flatMap ProcBlock.lines ++ m.tail) = joinLines m.lines := rfl
  rw [hl, ← hd.cpuinfo] at c1
  have hg : gather e = some (some (assignIds 0 (markValid (machineMask m) t3), machineMask m)) := by
    unfold gather
    simp only [s1, s2, s3, s4, Option.bind_eq_bind, Option.bind_some, Option.pure_def, ha,
      not_true_eq_false, if_false, c1, a1, b1]
  -- the table before marking
  have hraw : ∀ (i : Nat) (p : LinuxProc), t3[i]? = some p → i < n ∧ p.flags = rawFlags m i ∧
      (m.ApicId i p.apicId ∨ (¬ m.Online i ∧ p.apicId = 0)) := by
    intro i p hp
    have ht2 : ∀ i : Nat, i < n → t2[i]? = some ⟨0, 0, 
        (0 ||| if InList m.possible i then flagPossible else 0) |||
          if InList m.present i then flagPresent else 0⟩ := by
      intro i hi
      rw [b3 i, a3 i, List.getElem?_replicate, if_pos hi]
      rfl
    have ht2n : ∀ i : Nat, n ≤ i → t2[i]? = none := by
      intro i hi; exact List.getElem?_eq_none (by omega)
    by_cases hin : i < n
    · refine ⟨hin, ?_⟩
      by_cases hon : m.Online i
      · obtain ⟨b, hb, rfl⟩ := hon
        have hc := c2 b hb hin
        rw [hp, ht2 _ hin, Option.map_some, Option.some.injEq] at hc
        subst hc
        refine ⟨?_, .inl ⟨b, hb, rfl, rfl⟩⟩
        unfold rawFlags
        rw [if_pos (show m.Online b.number from ⟨b, hb, rfl⟩)]
        simp only [Nat.zero_or, Nat.or_assoc]
        rfl
      · have hc := c3 i (fun b hb hbi => absurd ⟨b, hb, hbi⟩ hon)
        rw [hp, ht2 _ hin, Option.some.injEq] at hc
        subst hc
        refine ⟨?_, .inr ⟨hon, rfl⟩⟩
        unfold rawFlags
        rw [if_neg hon]
        simp only [Nat.zero_or, Nat.or_zero]
    · exfalso
      have hc := c3 i (fun b hb hbi => by omega)
      rw [hp, ht2n i (by omega)] at hc
      cases hc
  have hlen3 : ∀ i, i < n → ∃ p, t3[i]? = some p := by
    intro i hi
    have ht2 : ∃ q, t2[i]? = some q := ⟨_, List.getElem?_eq_getElem (by omega)⟩
    obtain ⟨q, hq⟩ := ht2
    by_cases hon : m.Online i
    · obtain ⟨b, hb, rfl⟩ := hon
      rw [c2 b hb hi, hq]; exact ⟨_, rfl⟩
    · rw [c3 i (fun b hb hbi => absurd ⟨b, hb, hbi⟩ hon)]; exact ⟨q, hq⟩
  have hmask12 : (machineMask m).testBit 12 = false := by
    unfold machineMask
    cases m.present.isSome <;> cases m.possible.isSome <;> decide
  have hor : ∀ f, bitmaskAll (f ||| flagValid) (machineMask m) = bitmaskAll f (machineMask m) := by
    intro f
    have hv : ∀ i, flagValid.testBit i = decide (12 = i) := by
      intro i
      rw [show flagValid = 2 ^ 12 from rfl, Nat.testBit_two_pow]
    rw [Bool.eq_iff_iff, bitmaskAll_iff, bitmaskAll_iff]
    constructor
    · intro h i hi
      have := h i hi
      rw [Nat.testBit_or, hv] at this
      by_cases h12 : 12 = i
      · subst h12; rw [hmask12] at hi; cases hi
      · simpa [h12] using this
    · intro h i hi
      rw [Nat.testBit_or, h i hi]; rfl
  refine ⟨_, hg, ?_, ?_⟩
  · intro i p hp
    rw [assignIds_get, markValid_get] at hp
    cases hq : t3[i]? with
    | none => rw [hq] at hp; cases hp
    | some q =>
      rw [hq] at hp
      simp only [Option.map_some, Option.some.injEq] at hp
      obtain ⟨h1, h2, h3⟩ := hraw i q hq
      have hflags : bitmaskAll p.flags (machineMask m) = bitmaskAll q.flags (machineMask m) := by
        rw [← hp]
        by_cases hb : bitmaskAll q.flags (machineMask m) = true
        · rw [if_pos hb]
          split <;> exact hor _
        · rw [if_neg hb]
          split <;> rfl
      have hapic : p.apicId = q.apicId := by
        rw [← hp]
        split <;> split <;> rfl
      rw [hflags, hapic, h2, usable_bits]
      refine ⟨?_, h3⟩
      constructor
      · rintro ⟨u1, u2, u3⟩; exact ⟨by omega, u1, u2, u3⟩
      · rintro ⟨_, u1, u2, u3⟩; exact ⟨u1, u2, u3⟩
  · intro i hu
    obtain ⟨u0, u1, u2, u3⟩ := hu
    obtain ⟨q, hq⟩ := hlen3 i (s6 i u0 u1 u2)
    rw [assignIds_get, markValid_get, hq]
    exact ⟨_, rfl⟩

end Verif.X86Init
