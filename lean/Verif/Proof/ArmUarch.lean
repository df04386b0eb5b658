import Verif.Proof.ArmMidrDetect
import Verif.Model.ArmInit

/-!
# Microarchitectures are assigned by cluster
-/

set_option autoImplicit false

namespace Verif.ArmInit
open Spec ArmMidr ArmCpuinfo ArmClusters ArmClusterMidr ArmChipset
open X86Init (modify? bitmaskAll)

/-- What the decoder is told about VFPv4. -/
def vfpv4Of (e : Env) (p : Proc) : Bool :=
  match e.config.arch with
  | .arm => has { p with flags := p.features } featureVfpv4
  | .arm64 => false

/-- A cluster leader with the microarchitecture its MIDR decodes to. -/
def decoded (e : Env) (p : Proc) : Proc :=
  { p with
    vendor := (e.dec.vendorUarch p.midr (vfpv4Of e p)).1
    uarch := (e.dec.vendorUarch p.midr (vfpv4Of e p)).2 }

/-- `q` has identity and maximum frequency of `l`. -/
structure SameCore (l q : Proc) : Prop where
  midr : q.midr = l.midr
  vendor : q.vendor = l.vendor
  uarch : q.uarch = l.uarch
  freq : q.maxFrequency = l.maxFrequency

theorem skel_followLeader (l p : Proc) : skel (followLeader l p) = skel p :=
  skel_or p _ _ _ _ _ (midrBits_and _ _ midrBits_both)

/-- The table after positions below `j`. -/
structure UarchInv (e : Env) (t : List Proc) (j : Nat) (t' : List Proc) : Prop where
  kept : Kept t t'
  fresh : ∀ i, j ≤ i → t'[i]? = t[i]?
  leader : ∀ (i : Nat) (p : Proc), i < j → t[i]? = some p → leadAt t i = true →
    t'[i]? = some (decoded e p)
  member : ∀ (i : Nat) (q l : Proc), i < j → t'[i]? = some q → Usable q →
    t'[q.packageLeaderId]? = some l → SameCore l q
  unusable : ∀ (i : Nat) (p : Proc), t[i]? = some p → ¬ Usable p → t'[i]? = some p

theorem uarch_step (e : Env) (t : List Proc) (hl : Led t) (j : Nat) (t' : List Proc)
    (hj : j < t.length) (h : UarchInv e t j t') :
    ∃ t'', uarchStep e j t' = some t'' ∧ UarchInv e t (j + 1) t'' := by
  have hp := List.getElem?_eq_getElem hj
  generalize t[j] = p at hp
  have hpt := h.fresh j (Nat.le_refl j)
  rw [hp] at hpt
  have hled' := h.kept.led hl
  unfold uarchStep
  simp only [hpt, Option.bind_eq_bind, Option.bind_some]
  by_cases hv : valid p = true
  · have hu := (valid_iff p).mp hv
    rw [if_neg (by simp [hv])]
    by_cases hlj : p.packageLeaderId = j
    · rw [if_pos hlj]
      have hla : leadAt t j = true := (leadAt_iff t j).mpr ⟨p, hp, hu, hlj⟩
      have hdec : (modify? t' j fun q => { q with
          vendor := (e.dec.vendorUarch p.midr (vfpv4Of e p)).1
          uarch := (e.dec.vendorUarch p.midr (vfpv4Of e p)).2 }) = some (t'.set j (decoded e p)) :=
        modify?_eq _ hpt
      refine ⟨_, hdec, ?_, ?_, ?_, ?_, ?_⟩
      · exact h.kept.set hpt rfl
      · intro i hi
        rw [List.getElem?_set_ne (by omega)]; exact h.fresh i (by omega)
      · intro i p' hi hp' hla'
        by_cases hij : j = i
        · subst hij; rw [hp] at hp'; cases hp'
          rw [set_get hpt, if_pos rfl]
        · rw [List.getElem?_set_ne hij]; exact h.leader i p' (by omega) hp' hla'
      · intro i q l hi hq hqu hql
        rw [set_get hpt] at hq
        by_cases hij : j = i
        · subst hij
          rw [if_pos rfl] at hq; cases hq
          have : (decoded e p).packageLeaderId = j := hlj
          rw [this, set_get hpt, if_pos rfl] at hql
          cases hql
          exact ⟨rfl, rfl, rfl, rfl⟩
        · rw [if_neg hij] at hq
          have hle := (hled' i q hq hqu).1
          rw [List.getElem?_set_ne (by omega)] at hql
          exact h.member i q l (by omega) hq hqu hql
      · intro i p' hp' hnu
        have : j ≠ i := by rintro rfl; rw [hp] at hp'; cases hp'; exact hnu hu
        rw [List.getElem?_set_ne this]; exact h.unusable i p' hp' hnu
    · rw [if_neg hlj]
      obtain ⟨hle, ⟨l, hgl, hlu⟩, ⟨l', hgl', hll⟩⟩ := hled' j p hpt hu
      rw [hgl] at hgl'; cases hgl'
      simp only [hgl, Option.bind_some]
      have hnla : leadAt t j = false := by
        cases hc : leadAt t j with
        | false => rfl
        | true =>
          obtain ⟨p', hp', -, hl'⟩ := (leadAt_iff t j).mp hc
          rw [hp] at hp'; cases hp'; exact absurd hl' hlj
      refine ⟨_, modify?_eq _ hpt, ?_, ?_, ?_, ?_, ?_⟩
      · exact h.kept.set hpt (skel_followLeader l p)
      · intro i hi
        rw [List.getElem?_set_ne (by omega)]; exact h.fresh i (by omega)
      · intro i p' hi hp' hla'
        have hij : j ≠ i := by rintro rfl; rw [hnla] at hla'; cases hla'
        rw [List.getElem?_set_ne hij]; exact h.leader i p' (by omega) hp' hla'
      · intro i q k hi hq hqu hqk
        rw [set_get hpt] at hq
        by_cases hij : j = i
        · subst hij
          rw [if_pos rfl] at hq; cases hq
          have : (followLeader l p).packageLeaderId = p.packageLeaderId := rfl
          rw [this, List.getElem?_set_ne (by omega), hgl] at hqk
          cases hqk
          exact ⟨rfl, rfl, rfl, rfl⟩
        · rw [if_neg hij] at hq
          have hle' := (hled' i q hq hqu).1
          rw [List.getElem?_set_ne (by omega)] at hqk
          exact h.member i q k (by omega) hq hqu hqk
      · intro i p' hp' hnu
        have : j ≠ i := by rintro rfl; rw [hp] at hp'; cases hp'; exact hnu hu
        rw [List.getElem?_set_ne this]; exact h.unusable i p' hp' hnu
  · rw [if_pos (by simpa using hv)]
    have hu := mt (valid_iff p).mpr hv
    refine ⟨t', rfl, h.kept, fun i hi => h.fresh i (by omega), ?_, ?_, h.unusable⟩
    · intro i p' hi hp' hla'
      have hij : i ≠ j := by
        rintro rfl
        obtain ⟨p1, hp1, hu1, -⟩ := (leadAt_iff t i).mp hla'
        rw [hp] at hp1; cases hp1; exact hu hu1
      exact h.leader i p' (by omega) hp' hla'
    · intro i q l hi hq hqu hql
      have hij : i ≠ j := by
        rintro rfl
        rw [hpt] at hq; cases hq; exact hu hqu
      exact h.member i q l (by omega) hq hqu hql

theorem uarch_spec (e : Env) (t : List Proc) (hl : Led t) :
    ∃ t', forRange (uarchStep e) t.length 0 t = some t' ∧ UarchInv e t t.length t' :=
  forRange_total _ (UarchInv e t) t.length (fun j s hj h => uarch_step e t hl j s hj h) t.length 0 t
    (by omega) ⟨Kept.refl t, fun _ _ => rfl, fun i p h => by omega, fun i q l h => by omega,
      fun i p hp _ => hp⟩

end Verif.ArmInit
