import Verif.Proof.ArmGather
import Verif.Proof.X86Machine
import Verif.Spec.ArmPublished

/-!
# Which processors the ARM tables contain, for well-formed kernel files
-/

set_option autoImplicit false

namespace Verif.ArmInit
open Spec Props
open ArmCpuinfo ArmClusters
open X86Init (InList bitmaskAll)

theorem withFlags_get : ∀ (t : List Proc) (fs : List Nat), fs.length = t.length → ∀ i : Nat,
    (withFlags t fs)[i]? = (t[i]?).bind fun p => (fs[i]?).map fun f => { p with flags := f }
  | [], fs, h, i => by
    have : fs = [] := List.length_eq_zero_iff.mp h
    subst this; simp [withFlags]
  | p :: t, [], h, i => by simp at h
  | p :: t, f :: fs, h, 0 => by simp [withFlags]
  | p :: t, f :: fs, h, i + 1 => by
    simp only [withFlags, List.getElem?_cons_succ]
    exact withFlags_get t fs (by simpa using h) i

open Classical in
/-- A detector pass for a printed list. -/
theorem detect_printed (l : Option (List (Nat × Nat))) (hl : ∀ rs, l = some rs → RangesOk rs)
    (sched : Sched) (hs : sched.NoError) (n flag : Nat) (t : List Proc) (hn : t.length = n) :
    ∃ t', detect l.isSome (l.map printCpuList, sched) n flag t = some t' ∧ t'.length = n ∧
      ∀ i : Nat, t'[i]? = (t[i]?).map fun p =>
        { p with flags := p.flags ||| if InList l i then flag else 0 } := by
  cases l with
  | none =>
    refine ⟨t, rfl, hn, ?_⟩
    intro i
    have : ¬ InList none i := by rintro ⟨rs, h, _⟩; cases h
    simp [this]
  | some rs =>
    obtain ⟨h1, h2⟩ := hl rs rfl
    obtain ⟨fs, g1, g2, g3⟩ := C04_detect_printed sched hs rs h1 h2 n flag (t.map (·.flags))
      (by simp [hn])
    rw [List.length_map] at g2
    refine ⟨withFlags t fs, ?_, by rw [withFlags_length _ _ g2, hn], ?_⟩
    · simp only [detect, Option.isSome_some, if_true, Option.map_some, g1, Option.bind_eq_bind,
        Option.bind_some, Option.pure_def]
    · intro i
      rw [withFlags_get _ _ g2, g3 i, List.getElem?_map]
      cases hi : t[i]? with
      | none => rfl
      | some p =>
        have hin : i < n := by
          rw [← hn]; exact (List.getElem?_eq_some_iff.mp hi).1
        have : InList (some rs) i ↔ ∃ r ∈ rs, r.1 ≤ i ∧ i ≤ r.2 :=
          ⟨by rintro ⟨rs', h, h'⟩; cases h; exact h', fun h => ⟨rs, rfl, h⟩⟩
        by_cases hc : InList (some rs) i
        · simp [hin, hc, this.mp hc]
        · simp [hc, mt this.mpr hc]

/-- The mask of usable processors. -/
def listMask (k : KernelLists) : Nat :=
  (if k.present.isSome then flagPresent else 0) ||| (if k.possible.isSome then flagPossible else 0)

theorem usable_bits (k : KernelLists) (i f : Nat)
    (h1 : f.testBit 1 = true ↔ InList k.possible i) (h2 : f.testBit 0 = true ↔ InList k.present i) :
    bitmaskAll f (listMask k) = true ↔
      (∀ rs, k.possible = some rs → InRanges rs i) ∧ (∀ rs, k.present = some rs → InRanges rs i) := by
  have key : ∀ l : Option (List (Nat × Nat)),
      (∀ rs, l = some rs → InRanges rs i) ↔ (l.isSome → InList l i) := by
    intro l
    constructor
    · intro h hs
      obtain ⟨rs, hrs⟩ := Option.isSome_iff_exists.mp hs
      exact ⟨rs, hrs, h rs hrs⟩
    · intro h rs hrs
      obtain ⟨rs', h1, h2⟩ := h (by simp [hrs])
      rw [hrs] at h1; cases h1; exact h2
  rw [key, key, ← h1, ← h2, X86Init.bitmaskAll_iff]
  unfold listMask
  have b1 : ∀ j, flagPresent.testBit j = true ↔ j = 0 := by
    intro j
    rw [show flagPresent = 2 ^ 0 from rfl, Nat.testBit_two_pow, decide_eq_true_iff, eq_comm]
  have b2 : ∀ j, flagPossible.testBit j = true ↔ j = 1 := by
    intro j
    rw [show flagPossible = 2 ^ 1 from rfl, Nat.testBit_two_pow, decide_eq_true_iff, eq_comm]
  cases k.possible.isSome <;> cases k.present.isSome <;>
    simp [Nat.testBit_or, b1, b2, or_imp, forall_and, and_comm]

/-- Table size and mask for printed lists. -/
theorem shape_of_lists (k : KernelLists) (hk : k.Ok) (e : Env) (hd : k.Describes e) :
    ∃ mp mq n, Processors.maxProcessorsCount e.kernelMax.1 e.kernelMax.2 = some (k.kernelMax + 1) ∧
      Processors.maxProcessor e.possibleMax.1 e.possibleMax.2 (k.kernelMax + 1) = some mp ∧
      Processors.maxProcessor e.presentMax.1 e.presentMax.2 (k.kernelMax + 1) = some mq ∧
      tableShape (k.kernelMax + 1) mp mq =
        (n, listMask k, k.possible.isSome, k.present.isSome) ∧
      n ≤ k.kernelMax + 1 ∧
      ∀ i, i ≤ k.kernelMax → (∀ rs, k.possible = some rs → InRanges rs i) →
        (∀ rs, k.present = some rs → InRanges rs i) → i < n := by
  obtain ⟨r1, r2, r3, -, -⟩ := hd.reads
  have hm := (C09_kernel_max k.kernelMax hk.kernelMax [10] (.inr rfl) e.kernelMax.2 r1).1
  rw [← hd.kernelMax] at hm
  have hp := X86Init.maxProcessor_printed k.possible hk.possible e.possibleMax.2 r2 k.kernelMax
    hk.kernelMax
  have hq := X86Init.maxProcessor_printed k.present hk.present e.presentMax.2 r3 k.kernelMax
    hk.kernelMax
  rw [← hd.possibleMax] at hp
  rw [← hd.presentMax] at hq
  have hkm := hk.kernelMax
  have md : ∀ x, x < U32MAX → (1 + x) % U32 = 1 + x := fun x hx => Nat.mod_eq_of_lt (by omega)
  have mm : (1 + U32MAX) % U32 = 0 := by decide
  unfold listMask tableShape
  rcases hp with ⟨p1, p2⟩ | ⟨rp, lp, p1, p2, p3⟩ <;> rcases hq with ⟨q1, q2⟩ | ⟨rq, lq, q1, q2, q3⟩
  · refine ⟨_, _, k.kernelMax + 1, hm, p2, q2, ?_, by omega, ?_⟩
    · simp [mm, p1, q1]
    · intro i hi _ _; omega
  · refine ⟨_, _, min (k.kernelMax + 1) (1 + min lq k.kernelMax), hm, p2, q3, ?_, ?_, ?_⟩
    · simp [mm, p1, q1, md (min lq k.kernelMax) (by omega)]
    · omega
    · intro i hi _ h; have := q2 i (h rq q1); omega
  · refine ⟨_, _, min (k.kernelMax + 1) (1 + min lp k.kernelMax), hm, p3, q2, ?_, ?_, ?_⟩
    · simp [mm, p1, q1, md (min lp k.kernelMax) (by omega)]
    · omega
    · intro i hi h _; have := p2 i (h rp p1); omega
  · refine ⟨_, _, min (min (k.kernelMax + 1) (1 + min lq k.kernelMax)) (1 + min lp k.kernelMax), hm,
      p3, q3, ?_, ?_, ?_⟩
    · simp [p1, q1, md (min lq k.kernelMax) (by omega), md (min lp k.kernelMax) (by omega)]
    · omega
    · intro i hi h h'; have := p2 i (h rp p1); have := q2 i (h' rq q1); omega

/-- The usable entries of the gathered table are those of the kernel lists. -/
theorem gather_lists (k : KernelLists) (hk : k.Ok) (e : Env) (hd : k.Describes e) (t : List Proc)
    (hw rev : Bytes) (h : gather e = some (some (t, hw, rev))) (i : Nat) :
    (∃ p, t[i]? = some p ∧ Usable p) ↔ k.Usable i := by
  obtain ⟨mp, mq, n, s1, s2, s3, s4, s5, s6⟩ := shape_of_lists k hk e hd
  obtain ⟨-, -, -, r4, r5⟩ := hd.reads
  obtain ⟨t1, a1, a2, a3⟩ := detect_printed k.possible hk.possible e.possible.2 r4 n flagPossible
    (List.replicate n Proc.zero) (by simp)
  obtain ⟨t2, b1, b2, b3⟩ := detect_printed k.present hk.present e.present.2 r5 n flagPresent t1 a2
  rw [← hd.possible] at a1
  rw [← hd.present] at b1
  unfold gather at h
  simp only [s1, s2, s3, s4, Option.bind_eq_bind, Option.bind_some, Option.pure_def] at h
  split at h
  · cases h
  split at h
  · cases h
  rw [a1, Option.bind_some, b1, Option.bind_some] at h
  obtain ⟨⟨st, ok⟩, h4, h⟩ := Option.bind_eq_some_iff.mp h
  dsimp only at h
  cases st with
  | none => cases h
  | some st =>
    rw [Option.bind_some] at h
    cases ok with
    | false => cases h
    | true =>
      rw [if_neg (by simp)] at h
      cases h
      obtain ⟨l1, l2⟩ := low_parse _ _ _ _ _ n t2 st true h4
      have get : (assignIds 0 (markValid (listMask k) st.table))[i]? = (st.table[i]?).map fun q =>
          { (if bitmaskAll q.flags (listMask k) then mark flagValid q else q) with
            systemProcessorId := i } := by
        rw [assignIds_get, markValid, List.getElem?_map, Option.map_map, Nat.zero_add]
        rfl
      have raw : ∀ q, st.table[i]? = some q → i < n ∧ q.flags.testBit 12 = false ∧
          (q.flags.testBit 1 = true ↔ InList k.possible i) ∧
          (q.flags.testBit 0 = true ↔ InList k.present i) := by
        intro q hq
        obtain ⟨p, hp, hl⟩ := l2 i q hq
        have hin : i < n := by rw [← b2]; exact lt_of_get hp
        rw [b3 i, a3 i, List.getElem?_replicate, if_pos hin] at hp
        cases hp
        refine ⟨hin, ?_, ?_, ?_⟩
        · rw [hl.2 12 (by omega)]
          by_cases h1 : InList k.possible i <;> by_cases h2 : InList k.present i <;>
            simp only [h1, h2, if_true, if_false] <;> decide
        · rw [hl.2 1 (by omega)]
          by_cases h1 : InList k.possible i <;> by_cases h2 : InList k.present i <;>
            simp only [h1, h2, if_true, if_false] <;> decide
        · rw [hl.2 0 (by omega)]
          by_cases h1 : InList k.possible i <;> by_cases h2 : InList k.present i <;>
            simp only [h1, h2, if_true, if_false] <;> decide
      rw [get]
      constructor
      · rintro ⟨p, hp, hu⟩
        obtain ⟨q, hq, rfl⟩ := Option.map_eq_some_iff.mp hp
        obtain ⟨c1, c2, c3, c4⟩ := raw q hq
        have : bitmaskAll q.flags (listMask k) = true := by
          cases hb : bitmaskAll q.flags (listMask k) with
          | true => rfl
          | false =>
            have hu : (if bitmaskAll q.flags (listMask k) then mark flagValid q else q).flags.testBit 12
              = true := hu
            rw [hb, if_neg (by simp), c2] at hu
            cases hu
        obtain ⟨d1, d2⟩ := (usable_bits k i q.flags c3 c4).mp this
        exact ⟨by omega, d1, d2⟩
      · rintro ⟨c1, c2, c3⟩
        have hin := s6 i c1 c2 c3
        have hlt : i < st.table.length := by rw [l1, b2]; exact hin
        have hq := List.getElem?_eq_getElem hlt
        generalize st.table[i] = q at hq
        obtain ⟨d1, d2, d3, d4⟩ := raw q hq
        refine ⟨_, by rw [hq]; rfl, ?_⟩
        have := (usable_bits k i q.flags d3 d4).mpr ⟨c2, c3⟩
        unfold Usable
        dsimp only
        rw [if_pos this]
        show (q.flags ||| flagValid).testBit 12 = true
        rw [Nat.testBit_or, show flagValid.testBit 12 = true from by decide, Bool.or_true]

end Verif.ArmInit
