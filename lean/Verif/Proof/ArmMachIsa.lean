import Verif.Model.ArmMach

/-!
# The fields of `cpuinfo_isa` after ARM detection on Mach
-/

set_option autoImplicit false

namespace Verif.ArmMach

theorem feature_keep {α : Type} (g : ArmIsa.Isa → α) {a : Answer} {b : Bool}
    {set : ArmIsa.Isa → ArmIsa.Isa} {i : ArmIsa.Isa} (h : ∀ i, g (set i) = g i) :
    g (feature a b set i) = g i := by
  unfold feature
  split
  · exact h i
  · split
    · exact h i
    · rfl

theorem feature_set (g : ArmIsa.Isa → Bool) {a : Answer} {b : Bool}
    {set : ArmIsa.Isa → ArmIsa.Isa} {i : ArmIsa.Isa} (h : ∀ i, g (set i) = true) (h0 : g i = false) :
    g (feature a b set i) = (decide (a.get ≠ 0) || b) := by
  unfold feature
  by_cases ha : a.get ≠ 0
  · rw [if_pos ha, h, decide_eq_true ha]; rfl
  · rw [if_neg ha, decide_eq_false ha]
    cases b
    · exact h0
    · exact h i

theorem isa_atomics (family : Nat) (f : Features) :
    (isaOf family f).atomics = (decide (f.lse.get ≠ 0) || since2017 family) := by
  unfold isaOf
  refine Eq.trans (feature_keep ArmIsa.Isa.atomics ?h) ?_; case h => intro _; rfl
  refine Eq.trans (feature_keep ArmIsa.Isa.atomics ?h) ?_; case h => intro _; rfl
  refine Eq.trans (feature_keep ArmIsa.Isa.atomics ?h) ?_; case h => intro _; rfl
  refine Eq.trans (feature_keep ArmIsa.Isa.atomics ?h) ?_; case h => intro _; rfl
  refine Eq.trans (feature_keep ArmIsa.Isa.atomics ?h) ?_; case h => intro _; rfl
  refine Eq.trans (feature_keep ArmIsa.Isa.atomics ?h) ?_; case h => intro _; rfl
  refine Eq.trans (feature_keep ArmIsa.Isa.atomics ?h) ?_; case h => intro _; rfl
  refine Eq.trans (feature_keep ArmIsa.Isa.atomics ?h) ?_; case h => intro _; rfl
  refine Eq.trans (feature_keep ArmIsa.Isa.atomics ?h) ?_; case h => intro _; rfl
  refine Eq.trans (feature_keep ArmIsa.Isa.atomics ?h) ?_; case h => intro _; rfl
  refine feature_set ArmIsa.Isa.atomics (fun _ => rfl) ?_
  rfl

theorem isa_rdm (family : Nat) (f : Features) :
    (isaOf family f).rdm = (decide (f.rdm.get ≠ 0) || since2017 family) := by
  unfold isaOf
  refine Eq.trans (feature_keep ArmIsa.Isa.rdm ?h) ?_; case h => intro _; rfl
  refine Eq.trans (feature_keep ArmIsa.Isa.rdm ?h) ?_; case h => intro _; rfl
  refine Eq.trans (feature_keep ArmIsa.Isa.rdm ?h) ?_; case h => intro _; rfl
  refine Eq.trans (feature_keep ArmIsa.Isa.rdm ?h) ?_; case h => intro _; rfl
  refine Eq.trans (feature_keep ArmIsa.Isa.rdm ?h) ?_; case h => intro _; rfl
  refine Eq.trans (feature_keep ArmIsa.Isa.rdm ?h) ?_; case h => intro _; rfl
  refine Eq.trans (feature_keep ArmIsa.Isa.rdm ?h) ?_; case h => intro _; rfl
  refine Eq.trans (feature_keep ArmIsa.Isa.rdm ?h) ?_; case h => intro _; rfl
  refine Eq.trans (feature_keep ArmIsa.Isa.rdm ?h) ?_; case h => intro _; rfl
  refine feature_set ArmIsa.Isa.rdm (fun _ => rfl) ?_
  refine Eq.trans (feature_keep ArmIsa.Isa.rdm ?h) ?_; case h => intro _; rfl
  rfl

theorem isa_fp16arith (family : Nat) (f : Features) :
    (isaOf family f).fp16arith = (decide (f.fp16.get ≠ 0) || since2017 family) := by
  unfold isaOf
  refine Eq.trans (feature_keep ArmIsa.Isa.fp16arith ?h) ?_; case h => intro _; rfl
  refine Eq.trans (feature_keep ArmIsa.Isa.fp16arith ?h) ?_; case h => intro _; rfl
  refine Eq.trans (feature_keep ArmIsa.Isa.fp16arith ?h) ?_; case h => intro _; rfl
  refine Eq.trans (feature_keep ArmIsa.Isa.fp16arith ?h) ?_; case h => intro _; rfl
  refine Eq.trans (feature_keep ArmIsa.Isa.fp16arith ?h) ?_; case h => intro _; rfl
  refine Eq.trans (feature_keep ArmIsa.Isa.fp16arith ?h) ?_; case h => intro _; rfl
  refine Eq.trans (feature_keep ArmIsa.Isa.fp16arith ?h) ?_; case h => intro _; rfl
  refine Eq.trans (feature_keep ArmIsa.Isa.fp16arith ?h) ?_; case h => intro _; rfl
  refine feature_set ArmIsa.Isa.fp16arith (fun _ => rfl) ?_
  refine Eq.trans (feature_keep ArmIsa.Isa.fp16arith ?h) ?_; case h => intro _; rfl
  refine Eq.trans (feature_keep ArmIsa.Isa.fp16arith ?h) ?_; case h => intro _; rfl
  rfl

theorem isa_fhm (family : Nat) (f : Features) :
    (isaOf family f).fhm = (decide (f.fhm.get ≠ 0) || (f.fhmLegacy.get ≠ 0 || since2019 family)) := by
  unfold isaOf
  refine Eq.trans (feature_keep ArmIsa.Isa.fhm ?h) ?_; case h => intro _; rfl
  refine Eq.trans (feature_keep ArmIsa.Isa.fhm ?h) ?_; case h => intro _; rfl
  refine Eq.trans (feature_keep ArmIsa.Isa.fhm ?h) ?_; case h => intro _; rfl
  refine Eq.trans (feature_keep ArmIsa.Isa.fhm ?h) ?_; case h => intro _; rfl
  refine Eq.trans (feature_keep ArmIsa.Isa.fhm ?h) ?_; case h => intro _; rfl
  refine Eq.trans (feature_keep ArmIsa.Isa.fhm ?h) ?_; case h => intro _; rfl
  refine Eq.trans (feature_keep ArmIsa.Isa.fhm ?h) ?_; case h => intro _; rfl
  refine feature_set ArmIsa.Isa.fhm (fun _ => rfl) ?_
  refine Eq.trans (feature_keep ArmIsa.Isa.fhm ?h) ?_; case h => intro _; rfl
  refine Eq.trans (feature_keep ArmIsa.Isa.fhm ?h) ?_; case h => intro _; rfl
  refine Eq.trans (feature_keep ArmIsa.Isa.fhm ?h) ?_; case h => intro _; rfl
  rfl

theorem isa_bf16 (family : Nat) (f : Features) :
    (isaOf family f).bf16 = (decide (f.bf16.get ≠ 0) || false) := by
  unfold isaOf
  refine Eq.trans (feature_keep ArmIsa.Isa.bf16 ?h) ?_; case h => intro _; rfl
  refine Eq.trans (feature_keep ArmIsa.Isa.bf16 ?h) ?_; case h => intro _; rfl
  refine Eq.trans (feature_keep ArmIsa.Isa.bf16 ?h) ?_; case h => intro _; rfl
  refine Eq.trans (feature_keep ArmIsa.Isa.bf16 ?h) ?_; case h => intro _; rfl
  refine Eq.trans (feature_keep ArmIsa.Isa.bf16 ?h) ?_; case h => intro _; rfl
  refine Eq.trans (feature_keep ArmIsa.Isa.bf16 ?h) ?_; case h => intro _; rfl
  refine feature_set ArmIsa.Isa.bf16 (fun _ => rfl) ?_
  refine Eq.trans (feature_keep ArmIsa.Isa.bf16 ?h) ?_; case h => intro _; rfl
  refine Eq.trans (feature_keep ArmIsa.Isa.bf16 ?h) ?_; case h => intro _; rfl
  refine Eq.trans (feature_keep ArmIsa.Isa.bf16 ?h) ?_; case h => intro _; rfl
  refine Eq.trans (feature_keep ArmIsa.Isa.bf16 ?h) ?_; case h => intro _; rfl
  rfl

theorem isa_fcma (family : Nat) (f : Features) :
    (isaOf family f).fcma = (decide (f.fcma.get ≠ 0) || since2019 family) := by
  unfold isaOf
  refine Eq.trans (feature_keep ArmIsa.Isa.fcma ?h) ?_; case h => intro _; rfl
  refine Eq.trans (feature_keep ArmIsa.Isa.fcma ?h) ?_; case h => intro _; rfl
  refine Eq.trans (feature_keep ArmIsa.Isa.fcma ?h) ?_; case h => intro _; rfl
  refine Eq.trans (feature_keep ArmIsa.Isa.fcma ?h) ?_; case h => intro _; rfl
  refine Eq.trans (feature_keep ArmIsa.Isa.fcma ?h) ?_; case h => intro _; rfl
  refine feature_set ArmIsa.Isa.fcma (fun _ => rfl) ?_
  refine Eq.trans (feature_keep ArmIsa.Isa.fcma ?h) ?_; case h => intro _; rfl
  refine Eq.trans (feature_keep ArmIsa.Isa.fcma ?h) ?_; case h => intro _; rfl
  refine Eq.trans (feature_keep ArmIsa.Isa.fcma ?h) ?_; case h => intro _; rfl
  refine Eq.trans (feature_keep ArmIsa.Isa.fcma ?h) ?_; case h => intro _; rfl
  refine Eq.trans (feature_keep ArmIsa.Isa.fcma ?h) ?_; case h => intro _; rfl
  rfl

theorem isa_jscvt (family : Nat) (f : Features) :
    (isaOf family f).jscvt = (decide (f.jscvt.get ≠ 0) || since2019 family) := by
  unfold isaOf
  refine Eq.trans (feature_keep ArmIsa.Isa.jscvt ?h) ?_; case h => intro _; rfl
  refine Eq.trans (feature_keep ArmIsa.Isa.jscvt ?h) ?_; case h => intro _; rfl
  refine Eq.trans (feature_keep ArmIsa.Isa.jscvt ?h) ?_; case h => intro _; rfl
  refine Eq.trans (feature_keep ArmIsa.Isa.jscvt ?h) ?_; case h => intro _; rfl
  refine feature_set ArmIsa.Isa.jscvt (fun _ => rfl) ?_
  refine Eq.trans (feature_keep ArmIsa.Isa.jscvt ?h) ?_; case h => intro _; rfl
  refine Eq.trans (feature_keep ArmIsa.Isa.jscvt ?h) ?_; case h => intro _; rfl
  refine Eq.trans (feature_keep ArmIsa.Isa.jscvt ?h) ?_; case h => intro _; rfl
  refine Eq.trans (feature_keep ArmIsa.Isa.jscvt ?h) ?_; case h => intro _; rfl
  refine Eq.trans (feature_keep ArmIsa.Isa.jscvt ?h) ?_; case h => intro _; rfl
  refine Eq.trans (feature_keep ArmIsa.Isa.jscvt ?h) ?_; case h => intro _; rfl
  rfl

theorem isa_dot (family : Nat) (f : Features) :
    (isaOf family f).dot = (decide (f.dotProd.get ≠ 0) || since2019 family) := by
  unfold isaOf
  refine Eq.trans (feature_keep ArmIsa.Isa.dot ?h) ?_; case h => intro _; rfl
  refine Eq.trans (feature_keep ArmIsa.Isa.dot ?h) ?_; case h => intro _; rfl
  refine Eq.trans (feature_keep ArmIsa.Isa.dot ?h) ?_; case h => intro _; rfl
  refine feature_set ArmIsa.Isa.dot (fun _ => rfl) ?_
  refine Eq.trans (feature_keep ArmIsa.Isa.dot ?h) ?_; case h => intro _; rfl
  refine Eq.trans (feature_keep ArmIsa.Isa.dot ?h) ?_; case h => intro _; rfl
  refine Eq.trans (feature_keep ArmIsa.Isa.dot ?h) ?_; case h => intro _; rfl
  refine Eq.trans (feature_keep ArmIsa.Isa.dot ?h) ?_; case h => intro _; rfl
  refine Eq.trans (feature_keep ArmIsa.Isa.dot ?h) ?_; case h => intro _; rfl
  refine Eq.trans (feature_keep ArmIsa.Isa.dot ?h) ?_; case h => intro _; rfl
  refine Eq.trans (feature_keep ArmIsa.Isa.dot ?h) ?_; case h => intro _; rfl
  rfl

theorem isa_i8mm (family : Nat) (f : Features) :
    (isaOf family f).i8mm = (decide (f.i8mm.get ≠ 0) || false) := by
  unfold isaOf
  refine Eq.trans (feature_keep ArmIsa.Isa.i8mm ?h) ?_; case h => intro _; rfl
  refine Eq.trans (feature_keep ArmIsa.Isa.i8mm ?h) ?_; case h => intro _; rfl
  refine feature_set ArmIsa.Isa.i8mm (fun _ => rfl) ?_
  refine Eq.trans (feature_keep ArmIsa.Isa.i8mm ?h) ?_; case h => intro _; rfl
  refine Eq.trans (feature_keep ArmIsa.Isa.i8mm ?h) ?_; case h => intro _; rfl
  refine Eq.trans (feature_keep ArmIsa.Isa.i8mm ?h) ?_; case h => intro _; rfl
  refine Eq.trans (feature_keep ArmIsa.Isa.i8mm ?h) ?_; case h => intro _; rfl
  refine Eq.trans (feature_keep ArmIsa.Isa.i8mm ?h) ?_; case h => intro _; rfl
  refine Eq.trans (feature_keep ArmIsa.Isa.i8mm ?h) ?_; case h => intro _; rfl
  refine Eq.trans (feature_keep ArmIsa.Isa.i8mm ?h) ?_; case h => intro _; rfl
  refine Eq.trans (feature_keep ArmIsa.Isa.i8mm ?h) ?_; case h => intro _; rfl
  rfl

theorem isa_sme (family : Nat) (f : Features) :
    (isaOf family f).sme = (decide (f.sme.get ≠ 0) || false) := by
  unfold isaOf
  refine Eq.trans (feature_keep ArmIsa.Isa.sme ?h) ?_; case h => intro _; rfl
  refine feature_set ArmIsa.Isa.sme (fun _ => rfl) ?_
  refine Eq.trans (feature_keep ArmIsa.Isa.sme ?h) ?_; case h => intro _; rfl
  refine Eq.trans (feature_keep ArmIsa.Isa.sme ?h) ?_; case h => intro _; rfl
  refine Eq.trans (feature_keep ArmIsa.Isa.sme ?h) ?_; case h => intro _; rfl
  refine Eq.trans (feature_keep ArmIsa.Isa.sme ?h) ?_; case h => intro _; rfl
  refine Eq.trans (feature_keep ArmIsa.Isa.sme ?h) ?_; case h => intro _; rfl
  refine Eq.trans (feature_keep ArmIsa.Isa.sme ?h) ?_; case h => intro _; rfl
  refine Eq.trans (feature_keep ArmIsa.Isa.sme ?h) ?_; case h => intro _; rfl
  refine Eq.trans (feature_keep ArmIsa.Isa.sme ?h) ?_; case h => intro _; rfl
  refine Eq.trans (feature_keep ArmIsa.Isa.sme ?h) ?_; case h => intro _; rfl
  rfl

theorem isa_sme2 (family : Nat) (f : Features) :
    (isaOf family f).sme2 = (decide (f.sme2.get ≠ 0) || false) := by
  unfold isaOf
  refine feature_set ArmIsa.Isa.sme2 (fun _ => rfl) ?_
  refine Eq.trans (feature_keep ArmIsa.Isa.sme2 ?h) ?_; case h => intro _; rfl
  refine Eq.trans (feature_keep ArmIsa.Isa.sme2 ?h) ?_; case h => intro _; rfl
  refine Eq.trans (feature_keep ArmIsa.Isa.sme2 ?h) ?_; case h => intro _; rfl
  refine Eq.trans (feature_keep ArmIsa.Isa.sme2 ?h) ?_; case h => intro _; rfl
  refine Eq.trans (feature_keep ArmIsa.Isa.sme2 ?h) ?_; case h => intro _; rfl
  refine Eq.trans (feature_keep ArmIsa.Isa.sme2 ?h) ?_; case h => intro _; rfl
  refine Eq.trans (feature_keep ArmIsa.Isa.sme2 ?h) ?_; case h => intro _; rfl
  refine Eq.trans (feature_keep ArmIsa.Isa.sme2 ?h) ?_; case h => intro _; rfl
  refine Eq.trans (feature_keep ArmIsa.Isa.sme2 ?h) ?_; case h => intro _; rfl
  refine Eq.trans (feature_keep ArmIsa.Isa.sme2 ?h) ?_; case h => intro _; rfl
  rfl

theorem isa_aes (family : Nat) (f : Features) : (isaOf family f).aes = true := by
  unfold isaOf
  refine Eq.trans (feature_keep ArmIsa.Isa.aes ?h) ?_; case h => intro _; rfl
  refine Eq.trans (feature_keep ArmIsa.Isa.aes ?h) ?_; case h => intro _; rfl
  refine Eq.trans (feature_keep ArmIsa.Isa.aes ?h) ?_; case h => intro _; rfl
  refine Eq.trans (feature_keep ArmIsa.Isa.aes ?h) ?_; case h => intro _; rfl
  refine Eq.trans (feature_keep ArmIsa.Isa.aes ?h) ?_; case h => intro _; rfl
  refine Eq.trans (feature_keep ArmIsa.Isa.aes ?h) ?_; case h => intro _; rfl
  refine Eq.trans (feature_keep ArmIsa.Isa.aes ?h) ?_; case h => intro _; rfl
  refine Eq.trans (feature_keep ArmIsa.Isa.aes ?h) ?_; case h => intro _; rfl
  refine Eq.trans (feature_keep ArmIsa.Isa.aes ?h) ?_; case h => intro _; rfl
  refine Eq.trans (feature_keep ArmIsa.Isa.aes ?h) ?_; case h => intro _; rfl
  refine Eq.trans (feature_keep ArmIsa.Isa.aes ?h) ?_; case h => intro _; rfl
  rfl

theorem isa_sha1 (family : Nat) (f : Features) : (isaOf family f).sha1 = true := by
  unfold isaOf
  refine Eq.trans (feature_keep ArmIsa.Isa.sha1 ?h) ?_; case h => intro _; rfl
  refine Eq.trans (feature_keep ArmIsa.Isa.sha1 ?h) ?_; case h => intro _; rfl
  refine Eq.trans (feature_keep ArmIsa.Isa.sha1 ?h) ?_; case h => intro _; rfl
  refine Eq.trans (feature_keep ArmIsa.Isa.sha1 ?h) ?_; case h => intro _; rfl
  refine Eq.trans (feature_keep ArmIsa.Isa.sha1 ?h) ?_; case h => intro _; rfl
  refine Eq.trans (feature_keep ArmIsa.Isa.sha1 ?h) ?_; case h => intro _; rfl
  refine Eq.trans (feature_keep ArmIsa.Isa.sha1 ?h) ?_; case h => intro _; rfl
  refine Eq.trans (feature_keep ArmIsa.Isa.sha1 ?h) ?_; case h => intro _; rfl
  refine Eq.trans (feature_keep ArmIsa.Isa.sha1 ?h) ?_; case h => intro _; rfl
  refine Eq.trans (feature_keep ArmIsa.Isa.sha1 ?h) ?_; case h => intro _; rfl
  refine Eq.trans (feature_keep ArmIsa.Isa.sha1 ?h) ?_; case h => intro _; rfl
  rfl

theorem isa_sha2 (family : Nat) (f : Features) : (isaOf family f).sha2 = true := by
  unfold isaOf
  refine Eq.trans (feature_keep ArmIsa.Isa.sha2 ?h) ?_; case h => intro _; rfl
  refine Eq.trans (feature_keep ArmIsa.Isa.sha2 ?h) ?_; case h => intro _; rfl
  refine Eq.trans (feature_keep ArmIsa.Isa.sha2 ?h) ?_; case h => intro _; rfl
  refine Eq.trans (feature_keep ArmIsa.Isa.sha2 ?h) ?_; case h => intro _; rfl
  refine Eq.trans (feature_keep ArmIsa.Isa.sha2 ?h) ?_; case h => intro _; rfl
  refine Eq.trans (feature_keep ArmIsa.Isa.sha2 ?h) ?_; case h => intro _; rfl
  refine Eq.trans (feature_keep ArmIsa.Isa.sha2 ?h) ?_; case h => intro _; rfl
  refine Eq.trans (feature_keep ArmIsa.Isa.sha2 ?h) ?_; case h => intro _; rfl
  refine Eq.trans (feature_keep ArmIsa.Isa.sha2 ?h) ?_; case h => intro _; rfl
  refine Eq.trans (feature_keep ArmIsa.Isa.sha2 ?h) ?_; case h => intro _; rfl
  refine Eq.trans (feature_keep ArmIsa.Isa.sha2 ?h) ?_; case h => intro _; rfl
  rfl

theorem isa_pmull (family : Nat) (f : Features) : (isaOf family f).pmull = true := by
  unfold isaOf
  refine Eq.trans (feature_keep ArmIsa.Isa.pmull ?h) ?_; case h => intro _; rfl
  refine Eq.trans (feature_keep ArmIsa.Isa.pmull ?h) ?_; case h => intro _; rfl
  refine Eq.trans (feature_keep ArmIsa.Isa.pmull ?h) ?_; case h => intro _; rfl
  refine Eq.trans (feature_keep ArmIsa.Isa.pmull ?h) ?_; case h => intro _; rfl
  refine Eq.trans (feature_keep ArmIsa.Isa.pmull ?h) ?_; case h => intro _; rfl
  refine Eq.trans (feature_keep ArmIsa.Isa.pmull ?h) ?_; case h => intro _; rfl
  refine Eq.trans (feature_keep ArmIsa.Isa.pmull ?h) ?_; case h => intro _; rfl
  refine Eq.trans (feature_keep ArmIsa.Isa.pmull ?h) ?_; case h => intro _; rfl
  refine Eq.trans (feature_keep ArmIsa.Isa.pmull ?h) ?_; case h => intro _; rfl
  refine Eq.trans (feature_keep ArmIsa.Isa.pmull ?h) ?_; case h => intro _; rfl
  refine Eq.trans (feature_keep ArmIsa.Isa.pmull ?h) ?_; case h => intro _; rfl
  rfl

theorem isa_crc32 (family : Nat) (f : Features) : (isaOf family f).crc32 = true := by
  unfold isaOf
  refine Eq.trans (feature_keep ArmIsa.Isa.crc32 ?h) ?_; case h => intro _; rfl
  refine Eq.trans (feature_keep ArmIsa.Isa.crc32 ?h) ?_; case h => intro _; rfl
  refine Eq.trans (feature_keep ArmIsa.Isa.crc32 ?h) ?_; case h => intro _; rfl
  refine Eq.trans (feature_keep ArmIsa.Isa.crc32 ?h) ?_; case h => intro _; rfl
  refine Eq.trans (feature_keep ArmIsa.Isa.crc32 ?h) ?_; case h => intro _; rfl
  refine Eq.trans (feature_keep ArmIsa.Isa.crc32 ?h) ?_; case h => intro _; rfl
  refine Eq.trans (feature_keep ArmIsa.Isa.crc32 ?h) ?_; case h => intro _; rfl
  refine Eq.trans (feature_keep ArmIsa.Isa.crc32 ?h) ?_; case h => intro _; rfl
  refine Eq.trans (feature_keep ArmIsa.Isa.crc32 ?h) ?_; case h => intro _; rfl
  refine Eq.trans (feature_keep ArmIsa.Isa.crc32 ?h) ?_; case h => intro _; rfl
  refine Eq.trans (feature_keep ArmIsa.Isa.crc32 ?h) ?_; case h => intro _; rfl
  rfl

theorem isa_sve (family : Nat) (f : Features) : (isaOf family f).sve = false := by
  unfold isaOf
  refine Eq.trans (feature_keep ArmIsa.Isa.sve ?h) ?_; case h => intro _; rfl
  refine Eq.trans (feature_keep ArmIsa.Isa.sve ?h) ?_; case h => intro _; rfl
  refine Eq.trans (feature_keep ArmIsa.Isa.sve ?h) ?_; case h => intro _; rfl
  refine Eq.trans (feature_keep ArmIsa.Isa.sve ?h) ?_; case h => intro _; rfl
  refine Eq.trans (feature_keep ArmIsa.Isa.sve ?h) ?_; case h => intro _; rfl
  refine Eq.trans (feature_keep ArmIsa.Isa.sve ?h) ?_; case h => intro _; rfl
  refine Eq.trans (feature_keep ArmIsa.Isa.sve ?h) ?_; case h => intro _; rfl
  refine Eq.trans (feature_keep ArmIsa.Isa.sve ?h) ?_; case h => intro _; rfl
  refine Eq.trans (feature_keep ArmIsa.Isa.sve ?h) ?_; case h => intro _; rfl
  refine Eq.trans (feature_keep ArmIsa.Isa.sve ?h) ?_; case h => intro _; rfl
  refine Eq.trans (feature_keep ArmIsa.Isa.sve ?h) ?_; case h => intro _; rfl
  rfl

theorem isa_sve2 (family : Nat) (f : Features) : (isaOf family f).sve2 = false := by
  unfold isaOf
  refine Eq.trans (feature_keep ArmIsa.Isa.sve2 ?h) ?_; case h => intro _; rfl
  refine Eq.trans (feature_keep ArmIsa.Isa.sve2 ?h) ?_; case h => intro _; rfl
  refine Eq.trans (feature_keep ArmIsa.Isa.sve2 ?h) ?_; case h => intro _; rfl
  refine Eq.trans (feature_keep ArmIsa.Isa.sve2 ?h) ?_; case h => intro _; rfl
  refine Eq.trans (feature_keep ArmIsa.Isa.sve2 ?h) ?_; case h => intro _; rfl
  refine Eq.trans (feature_keep ArmIsa.Isa.sve2 ?h) ?_; case h => intro _; rfl
  refine Eq.trans (feature_keep ArmIsa.Isa.sve2 ?h) ?_; case h => intro _; rfl
  refine Eq.trans (feature_keep ArmIsa.Isa.sve2 ?h) ?_; case h => intro _; rfl
  refine Eq.trans (feature_keep ArmIsa.Isa.sve2 ?h) ?_; case h => intro _; rfl
  refine Eq.trans (feature_keep ArmIsa.Isa.sve2 ?h) ?_; case h => intro _; rfl
  refine Eq.trans (feature_keep ArmIsa.Isa.sve2 ?h) ?_; case h => intro _; rfl
  rfl

theorem isa_sme2p1 (family : Nat) (f : Features) : (isaOf family f).sme2p1 = false := by
  unfold isaOf
  refine Eq.trans (feature_keep ArmIsa.Isa.sme2p1 ?h) ?_; case h => intro _; rfl
  refine Eq.trans (feature_keep ArmIsa.Isa.sme2p1 ?h) ?_; case h => intro _; rfl
  refine Eq.trans (feature_keep ArmIsa.Isa.sme2p1 ?h) ?_; case h => intro _; rfl
  refine Eq.trans (feature_keep ArmIsa.Isa.sme2p1 ?h) ?_; case h => intro _; rfl
  refine Eq.trans (feature_keep ArmIsa.Isa.sme2p1 ?h) ?_; case h => intro _; rfl
  refine Eq.trans (feature_keep ArmIsa.Isa.sme2p1 ?h) ?_; case h => intro _; rfl
  refine Eq.trans (feature_keep ArmIsa.Isa.sme2p1 ?h) ?_; case h => intro _; rfl
  refine Eq.trans (feature_keep ArmIsa.Isa.sme2p1 ?h) ?_; case h => intro _; rfl
  refine Eq.trans (feature_keep ArmIsa.Isa.sme2p1 ?h) ?_; case h => intro _; rfl
  refine Eq.trans (feature_keep ArmIsa.Isa.sme2p1 ?h) ?_; case h => intro _; rfl
  refine Eq.trans (feature_keep ArmIsa.Isa.sme2p1 ?h) ?_; case h => intro _; rfl
  rfl

theorem isa_smeI16I32 (family : Nat) (f : Features) : (isaOf family f).smeI16I32 = false := by
  unfold isaOf
  refine Eq.trans (feature_keep ArmIsa.Isa.smeI16I32 ?h) ?_; case h => intro _; rfl
  refine Eq.trans (feature_keep ArmIsa.Isa.smeI16I32 ?h) ?_; case h => intro _; rfl
  refine Eq.trans (feature_keep ArmIsa.Isa.smeI16I32 ?h) ?_; case h => intro _; rfl
  refine Eq.trans (feature_keep ArmIsa.Isa.smeI16I32 ?h) ?_; case h => intro _; rfl
  refine Eq.trans (feature_keep ArmIsa.Isa.smeI16I32 ?h) ?_; case h => intro _; rfl
  refine Eq.trans (feature_keep ArmIsa.Isa.smeI16I32 ?h) ?_; case h => intro _; rfl
  refine Eq.trans (feature_keep ArmIsa.Isa.smeI16I32 ?h) ?_; case h => intro _; rfl
  refine Eq.trans (feature_keep ArmIsa.Isa.smeI16I32 ?h) ?_; case h => intro _; rfl
  refine Eq.trans (feature_keep ArmIsa.Isa.smeI16I32 ?h) ?_; case h => intro _; rfl
  refine Eq.trans (feature_keep ArmIsa.Isa.smeI16I32 ?h) ?_; case h => intro _; rfl
  refine Eq.trans (feature_keep ArmIsa.Isa.smeI16I32 ?h) ?_; case h => intro _; rfl
  rfl

theorem isa_smeBi32I32 (family : Nat) (f : Features) : (isaOf family f).smeBi32I32 = false := by
  unfold isaOf
  refine Eq.trans (feature_keep ArmIsa.Isa.smeBi32I32 ?h) ?_; case h => intro _; rfl
  refine Eq.trans (feature_keep ArmIsa.Isa.smeBi32I32 ?h) ?_; case h => intro _; rfl
  refine Eq.trans (feature_keep ArmIsa.Isa.smeBi32I32 ?h) ?_; case h => intro _; rfl
  refine Eq.trans (feature_keep ArmIsa.Isa.smeBi32I32 ?h) ?_; case h => intro _; rfl
  refine Eq.trans (feature_keep ArmIsa.Isa.smeBi32I32 ?h) ?_; case h => intro _; rfl
  refine Eq.trans (feature_keep ArmIsa.Isa.smeBi32I32 ?h) ?_; case h => intro _; rfl
  refine Eq.trans (feature_keep ArmIsa.Isa.smeBi32I32 ?h) ?_; case h => intro _; rfl
  refine Eq.trans (feature_keep ArmIsa.Isa.smeBi32I32 ?h) ?_; case h => intro _; rfl
  refine Eq.trans (feature_keep ArmIsa.Isa.smeBi32I32 ?h) ?_; case h => intro _; rfl
  refine Eq.trans (feature_keep ArmIsa.Isa.smeBi32I32 ?h) ?_; case h => intro _; rfl
  refine Eq.trans (feature_keep ArmIsa.Isa.smeBi32I32 ?h) ?_; case h => intro _; rfl
  rfl

theorem isa_smeB16B16 (family : Nat) (f : Features) : (isaOf family f).smeB16B16 = false := by
  unfold isaOf
  refine Eq.trans (feature_keep ArmIsa.Isa.smeB16B16 ?h) ?_; case h => intro _; rfl
  refine Eq.trans (feature_keep ArmIsa.Isa.smeB16B16 ?h) ?_; case h => intro _; rfl
  refine Eq.trans (feature_keep ArmIsa.Isa.smeB16B16 ?h) ?_; case h => intro _; rfl
  refine Eq.trans (feature_keep ArmIsa.Isa.smeB16B16 ?h) ?_; case h => intro _; rfl
  refine Eq.trans (feature_keep ArmIsa.Isa.smeB16B16 ?h) ?_; case h => intro _; rfl
  refine Eq.trans (feature_keep ArmIsa.Isa.smeB16B16 ?h) ?_; case h => intro _; rfl
  refine Eq.trans (feature_keep ArmIsa.Isa.smeB16B16 ?h) ?_; case h => intro _; rfl
  refine Eq.trans (feature_keep ArmIsa.Isa.smeB16B16 ?h) ?_; case h => intro _; rfl
  refine Eq.trans (feature_keep ArmIsa.Isa.smeB16B16 ?h) ?_; case h => intro _; rfl
  refine Eq.trans (feature_keep ArmIsa.Isa.smeB16B16 ?h) ?_; case h => intro _; rfl
  refine Eq.trans (feature_keep ArmIsa.Isa.smeB16B16 ?h) ?_; case h => intro _; rfl
  rfl

theorem isa_smeF16F16 (family : Nat) (f : Features) : (isaOf family f).smeF16F16 = false := by
  unfold isaOf
  refine Eq.trans (feature_keep ArmIsa.Isa.smeF16F16 ?h) ?_; case h => intro _; rfl
  refine Eq.trans (feature_keep ArmIsa.Isa.smeF16F16 ?h) ?_; case h => intro _; rfl
  refine Eq.trans (feature_keep ArmIsa.Isa.smeF16F16 ?h) ?_; case h => intro _; rfl
  refine Eq.trans (feature_keep ArmIsa.Isa.smeF16F16 ?h) ?_; case h => intro _; rfl
  refine Eq.trans (feature_keep ArmIsa.Isa.smeF16F16 ?h) ?_; case h => intro _; rfl
  refine Eq.trans (feature_keep ArmIsa.Isa.smeF16F16 ?h) ?_; case h => intro _; rfl
  refine Eq.trans (feature_keep ArmIsa.Isa.smeF16F16 ?h) ?_; case h => intro _; rfl
  refine Eq.trans (feature_keep ArmIsa.Isa.smeF16F16 ?h) ?_; case h => intro _; rfl
  refine Eq.trans (feature_keep ArmIsa.Isa.smeF16F16 ?h) ?_; case h => intro _; rfl
  refine Eq.trans (feature_keep ArmIsa.Isa.smeF16F16 ?h) ?_; case h => intro _; rfl
  refine Eq.trans (feature_keep ArmIsa.Isa.smeF16F16 ?h) ?_; case h => intro _; rfl
  rfl

theorem isa_svelen (family : Nat) (f : Features) : (isaOf family f).svelen = 0 := by
  unfold isaOf
  refine Eq.trans (feature_keep ArmIsa.Isa.svelen ?h) ?_; case h => intro _; rfl
  refine Eq.trans (feature_keep ArmIsa.Isa.svelen ?h) ?_; case h => intro _; rfl
  refine Eq.trans (feature_keep ArmIsa.Isa.svelen ?h) ?_; case h => intro _; rfl
  refine Eq.trans (feature_keep ArmIsa.Isa.svelen ?h) ?_; case h => intro _; rfl
  refine Eq.trans (feature_keep ArmIsa.Isa.svelen ?h) ?_; case h => intro _; rfl
  refine Eq.trans (feature_keep ArmIsa.Isa.svelen ?h) ?_; case h => intro _; rfl
  refine Eq.trans (feature_keep ArmIsa.Isa.svelen ?h) ?_; case h => intro _; rfl
  refine Eq.trans (feature_keep ArmIsa.Isa.svelen ?h) ?_; case h => intro _; rfl
  refine Eq.trans (feature_keep ArmIsa.Isa.svelen ?h) ?_; case h => intro _; rfl
  refine Eq.trans (feature_keep ArmIsa.Isa.svelen ?h) ?_; case h => intro _; rfl
  refine Eq.trans (feature_keep ArmIsa.Isa.svelen ?h) ?_; case h => intro _; rfl
  rfl

end Verif.ArmMach
