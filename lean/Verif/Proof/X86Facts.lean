import Verif.Proof.X86Gather
import Verif.Spec.X86Init

/-!
# From the loop invariants to the published tables
-/

set_option autoImplicit false

namespace Verif.X86Init
open Runs Spec
open X86Cpuinfo (LinuxProc)

theorem lastLevel_eq {x : X86Processor} {b : Nat} (h : LastLevelBits x b) : llcApicBits x = b := by
  unfold llcApicBits
  cases h <;> simp_all

theorem lastLevel_llc (x : X86Processor) : LastLevelBits x (llcApicBits x) := by
  unfold llcApicBits
  split
  · exact .l4 ‹_›
  · split
    · exact .l3 (by simp_all) ‹_›
    · split
      · exact .l2 (by simp_all) (by simp_all) ‹_›
      · split
        · exact .l1 (by simp_all) (by simp_all) (by simp_all) ‹_›
        · exact .none (by simp_all) (by simp_all) (by simp_all) (by simp_all)

/-- From a finished detection to the facts about its tables. -/
theorem linuxInit_good (e : Env) (hs : Spec.QSorts e.sort) (hlow : LowFields e.cpu.topology)
    (pub : Published) (h : linuxInit e = some (some pub)) :
    ∃ t mask I c, gather e = some (some (t, mask)) ∧ Collected t mask ∧ I.v ++ I.w = e.sort t ∧
      I.v = (e.sort t).filter usable ∧ Good I e.cpu c pub := by
  unfold linuxInit at h
  simp only [Option.bind_eq_bind] at h
  obtain ⟨r, hg, h⟩ := Option.bind_eq_some_iff.mp h
  cases r with
  | none => simp at h
  | some tm =>
    obtain ⟨t, mask⟩ := tm
    simp only [] at h
    obtain ⟨r', hg', hc⟩ := gather_total e
    rw [hg] at hg'
    have hc := hc t mask (Option.some.inj hg').symm
    obtain ⟨I, h1, h2, h3, h4⟩ := input_of_collected e.sort hs t mask hc
    rw [← h1, ← h2, ← h4] at h
    obtain ⟨c, hgood⟩ := build_sound I e.cpu e.alloc pub hlow.1 hlow.2 h
    exact ⟨t, mask, I, c, hg, hc, h1, h3, hgood⟩

theorem Tab.lt {α : Type} {nw : Nat → Bool} {len n : Nat} {e : Nat → α} {zero : α} {t : List α}
    (h : Tab nw len n e zero t) {g : Nat} {x : α} (hg : t[g]? = some x) : g < len := by
  rcases Nat.lt_or_ge g t.length with h' | h'
  · rw [← h.length]; exact h'
  · rw [List.getElem?_eq_none h'] at hg; cases hg

/-- Every entry of a full run table is that of some position. -/
theorem Tab.full {α : Type} {nw : Nat → Bool} {N : Nat} {e : Nat → α} {zero : α} {t : List α}
    (h : Tab nw (gi nw (N - 1) + 1) N e zero t) (hN : 0 < N) {g : Nat} {x : α}
    (hg : t[g]? = some x) : ∃ k < N, gi nw k = g ∧ x = e k := by
  obtain ⟨n, rfl⟩ : ∃ n, N = n + 1 := ⟨N - 1, by omega⟩
  obtain ⟨k, h1, h2, h3⟩ := Tab.get h g x hg
  exact ⟨k, by omega, h2, h3⟩

/-- Every entry of the full processor table. -/
theorem Tab.fullId {α : Type} {N : Nat} {e : Nat → α} {zero : α} {t : List α}
    (h : Tab (fun _ => true) N N e zero t) {g : Nat} {x : α} (hg : t[g]? = some x) :
    g < N ∧ x = e g := by
  have hlt := h.lt hg
  refine ⟨hlt, ?_⟩
  have := h.done g hlt
  rw [gi_true, hg] at this
  exact Option.some.inj this

theorem Tab.consecutive {α : Type} {nw : Nat → Bool} {N : Nat} {e : Nat → α} {zero : α}
    {t : List α} (h : Tab nw (gi nw (N - 1) + 1) N e zero t) (hN : 0 < N) (f : α → Nat × Nat)
    (hf : ∀ k, f (e k) = (st nw k, cnt nw (gi nw k) N)) : Consecutive 0 (t.map f) N := by
  obtain ⟨n, rfl⟩ : ∃ n, N = n + 1 := ⟨N - 1, by omega⟩
  apply consecutive_of_runs nw n
  · rw [List.length_map, h.length]; rfl
  · intro k hk
    rw [List.getElem?_map, h.done k hk, Option.map_some, hf]

namespace Good
variable {I : Input} {x : X86Processor} {c : Ctx} {pub : Published}

theorem processors_length (h : Good I x c pub) : pub.processors.length = c.N := h.processors.length

theorem processor_get (h : Good I x c pub) {i : Nat} (hi : i < c.N) :
    pub.processors[i]? = some (c.processorE i) := by
  have := h.processors.done i hi
  rwa [gi_true] at this

theorem processor_of (h : Good I x c pub) {i : Nat} {p : Processor}
    (hp : pub.processors[i]? = some p) : i < c.N ∧ p = c.processorE i := h.processors.fullId hp

/-- The processors whose link `f` is the run of `k` are those of the run's range. -/
theorem range_iff (h : Good I x c pub) (nw : Nat → Bool) (f : Processor → Nat)
    (hf : ∀ i, f (c.processorE i) = gi nw i) (k : Nat) (hk : k < c.N) (i : Nat) :
    InRange (st nw k) (cnt nw (gi nw k) c.N) i ↔
      ∃ p, pub.processors[i]? = some p ∧ f p = gi nw k := by
  unfold InRange
  rw [← mem_run nw c.N k hk i]
  constructor
  · rintro ⟨h1, h2⟩
    exact ⟨_, h.processor_get h1, by rw [hf, h2]⟩
  · rintro ⟨p, h1, h2⟩
    obtain ⟨h3, rfl⟩ := h.processor_of h1
    exact ⟨h3, by rw [← hf, h2]⟩

end Good

/-- Positions are in the same run of a masked id exactly when the ids agree on the masked bits. -/
theorem same_run (N : Nat) (a : Nat → Nat) (ha : ∀ k, a k < U32)
    (mono : ∀ i j, i ≤ j → j < N → a i ≤ a j) (k m : Nat) (hm : IsHighMask k m) (i j : Nat)
    (hi : i < N) (hj : j < N) :
    gi (byKey fun k => a k &&& m) i = gi (byKey fun k => a k &&& m) j ↔
      AgreeFrom k (a i) (a j) := by
  rw [gi_eq_iff _ N _ i j hi hj, key_agree hm (ha i) (ha j)]
  intro i j hij hj
  exact key_mono hm (ha i) (ha j) (mono i j hij hj)

/-- A run of the coarser partition holds an interval of runs of the finer one. -/
theorem sub_range {fine coarse : Nat → Bool}
    (hc : ∀ k, coarse (k + 1) = true → fine (k + 1) = true) (N k : Nat) (hk : k < N) (g : Nat)
    (hg : ∃ i < N, gi fine i = g) :
    InRange (gi fine (st coarse k)) (sub fine coarse (gi coarse k) N) g ↔
      ∃ i < N, gi fine i = g ∧ gi coarse i = gi coarse k := by
  constructor
  · intro h
    obtain ⟨i, hi, rfl⟩ := hg
    exact ⟨i, hi, rfl, (mem_sub hc N k hk i hi).mpr h⟩
  · rintro ⟨i, hi, rfl, h⟩
    exact (mem_sub hc N k hk i hi).mp h

/-- Run indices in the interval of a coarser run are taken. -/
theorem sub_range_taken {fine coarse : Nat → Bool}
    (hc : ∀ k, coarse (k + 1) = true → fine (k + 1) = true) (N k : Nat) (hk : k < N) (g : Nat)
    (h : InRange (gi fine (st coarse k)) (sub fine coarse (gi coarse k) N) g) :
    ∃ i < N, gi fine i = g := by
  have hle : gi fine (st coarse k) + sub fine coarse (gi coarse k) N ≤ gi fine (N - 1) + 1 := by
    have hp := cnt_pos coarse N k hk
    have he := run_end_le coarse N k hk
    have h1 := (mem_run coarse N k hk (st coarse k + cnt coarse (gi coarse k) N - 1)).mpr (by omega)
    generalize hE : st coarse k + cnt coarse (gi coarse k) N - 1 = E at h1
    have h2 : sub fine coarse (gi coarse k) N = sub fine coarse (gi coarse k) (E + 1) := by
      have : ∀ d, E + 1 + d ≤ N →
          sub fine coarse (gi coarse k) (E + 1 + d) = sub fine coarse (gi coarse k) (E + 1) := by
        intro d
        induction d with
        | zero => intro _; rfl
        | succ d ih =>
          intro hd
          have hne : gi coarse (E + 1 + d) ≠ gi coarse k := by
            intro heq
            have := (mem_run coarse N k hk (E + 1 + d)).mp ⟨by omega, heq⟩
            omega
          rw [← Nat.add_assoc, sub, if_neg (fun h => hne h.2), ih (by omega)]
          rfl
      have := this (N - (E + 1)) (by omega)
      rwa [show E + 1 + (N - (E + 1)) = N by omega] at this
    have h3 := sub_self hc E
    rw [h1.2, st_eq_of_gi coarse E k h1.2] at h3
    have h4 := gi_mono fine (show E ≤ N - 1 by omega)
    have h5 := gi_mono fine (show st coarse k ≤ E by omega)
    omega
  unfold InRange at h
  obtain ⟨i, h1, h2⟩ := gi_surj fine (N - 1) g (by omega)
  exact ⟨i, by omega, h2⟩


/-- Sorting by insertion meets the contract of `qsort`. -/
theorem insertSorted_perm (p : LinuxProc) (l : List LinuxProc) :
    (insertSorted p l).Perm (p :: l) := by
  induction l with
  | nil => exact .refl _
  | cons q qs ih =>
    unfold insertSorted
    split
    · exact .refl _
    · exact (ih.cons q).trans (.swap p q qs)

theorem cmpProcessor_le (a b : LinuxProc) :
    cmpProcessor a b ≤ 0 ↔
      (usable a = true ∧ usable b = false) ∨ (usable a = usable b ∧ a.apicId ≤ b.apicId) := by
  unfold cmpProcessor usable
  cases ha : bitmaskAll a.flags flagValid <;> cases hb : bitmaskAll b.flags flagValid <;>
    simp [cmp32_le]

theorem cmpProcessor_total (a b : LinuxProc) : cmpProcessor a b ≤ 0 ∨ cmpProcessor b a ≤ 0 := by
  rw [cmpProcessor_le, cmpProcessor_le]
  cases usable a <;> cases usable b <;> simp <;> omega

theorem cmpProcessor_trans (a b c : LinuxProc) (h1 : cmpProcessor a b ≤ 0)
    (h2 : cmpProcessor b c ≤ 0) : cmpProcessor a c ≤ 0 := by
  rw [cmpProcessor_le] at *
  cases ha : usable a <;> cases hb : usable b <;> cases hc : usable c <;> simp_all <;> omega

theorem insertSorted_pairwise (p : LinuxProc) (l : List LinuxProc)
    (h : l.Pairwise fun a b => cmpProcessor a b ≤ 0) :
    (insertSorted p l).Pairwise fun a b => cmpProcessor a b ≤ 0 := by
  induction l with
  | nil => simp [insertSorted]
  | cons q qs ih =>
    have h' := List.pairwise_cons.mp h
    unfold insertSorted
    split
    · next hpq =>
      refine List.pairwise_cons.mpr ⟨?_, h⟩
      intro r hr
      rcases List.mem_cons.mp hr with rfl | hr
      · exact hpq
      · exact cmpProcessor_trans _ _ _ hpq (h'.1 r hr)
    · next hpq =>
      refine List.pairwise_cons.mpr ⟨?_, ih h'.2⟩
      intro r hr
      rcases List.mem_cons.mp ((insertSorted_perm p qs).mem_iff.mp hr) with rfl | hr
      · rcases cmpProcessor_total q r with h1 | h1
        · exact h1
        · exact absurd h1 hpq
      · exact h'.1 r hr

theorem insertionSort_sorts : Spec.QSorts insertionSort := by
  intro t
  induction t with
  | nil => exact ⟨.refl _, .nil⟩
  | cons p t ih =>
    exact ⟨(insertSorted_perm p _).trans (ih.1.cons p), insertSorted_pairwise p _ ih.2⟩

end Verif.X86Init
