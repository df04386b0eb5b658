import Verif.Proof.ArmSets
import Verif.Props.ArmCache

/-!
# C159: the numbers of sets of ARM caches
-/

set_option autoImplicit false

namespace Verif.Props
open Spec ArmMidr ArmCpuinfo ArmClusters ArmInit ArmChipset Runs
open X86Init (Cache)
open ArmCache (Target decoders)

/-- **C159 (decoding, partial).** The number of sets of a decoded L1 cache is a power of two, and that of
a decoded L2 or L3 cache is a power of two or a power of two for every core of the cluster.  Missing:
ThunderX in 64-bit builds other than Android, see `C159_violated_thunderx`, and clusters of 4096 cores and
more. -/
theorem C159_sets_partial (t : Target) (uarch cores midr : Nat) (chipset : Chipset)
    (clusterId version : Nat) (hc : cores < 4096)
    (hth : ¬ (uarch = ArmUarch.Uarch.thunderx ∧ t = .arm64)) (c : Caches)
    (h : ArmCache.decode t uarch cores midr chipset clusterId version = some c) :
    (∃ n, c.l1i.sets = 2 ^ n) ∧ (∃ n, c.l1d.sets = 2 ^ n) ∧
    (c.l2.size ≠ 0 → ∃ n, c.l2.sets = 2 ^ n ∨ c.l2.sets = cores * 2 ^ n) ∧
    (c.l3.size ≠ 0 → ∃ n, c.l3.sets = 2 ^ n ∨ c.l3.sets = cores * 2 ^ n) := by
  have hx : t = .armOld → uarch = ArmUarch.Uarch.xscale → ArmCache.XscaleParts midr := by
    rintro rfl rfl
    exact ArmCache.xscale_of_decode h
  have hs : ArmCache.Sets cores (ArmCache.assigned t uarch cores midr chipset clusterId version) := by
    unfold ArmCache.assigned
    cases hk : ArmCache.known t uarch cores midr chipset clusterId with
    | none => exact ArmCache.sets_generic hc version
    | some d => exact ArmCache.sets_known hc hx hth hk
  obtain ⟨h1, h2, h3, h4⟩ := ArmCache.finish_sets hs
    (show ArmCache.finish (ArmCache.assigned t uarch cores midr chipset clusterId version) = some c from h)
  refine ⟨h1, h2, h3, fun hh => h4 hh ?_⟩
  obtain ⟨d, hd, -, -, -, h5, -⟩ := C44_consistent t uarch cores midr chipset clusterId version
    (fun ht hu => by
      have := hx ht hu
      unfold ArmCache.XscaleParts at this
      rw [Nat.shiftRight_eq_div_pow] at this
      exact this)
  rw [h] at hd
  cases hd
  exact (h5 hh).2

/-- **C159 (clusters of 1, 2, 4, 8, … cores).** There the number of sets of every decoded cache is a power
of two. -/
theorem C159_power_cluster_partial (t : Target) (uarch m midr : Nat) (chipset : Chipset)
    (clusterId version : Nat) (hc : m < 12)
    (hth : ¬ (uarch = ArmUarch.Uarch.thunderx ∧ t = .arm64)) (c : Caches)
    (h : ArmCache.decode t uarch (2 ^ m) midr chipset clusterId version = some c) (x : Cache)
    (hx : x ∈ [c.l1i, c.l1d, c.l2, c.l3]) (h0 : x.size ≠ 0) : ∃ n, x.sets = 2 ^ n := by
  obtain ⟨h1, h2, h3, h4⟩ := C159_sets_partial t uarch (2 ^ m) midr chipset clusterId version
    (Nat.lt_of_lt_of_le (Nat.pow_lt_pow_right (by decide) hc) (by decide)) hth c h
  have fin : (∃ n, x.sets = 2 ^ n ∨ x.sets = 2 ^ m * 2 ^ n) → ∃ n, x.sets = 2 ^ n := by
    rintro ⟨n, h | h⟩
    · exact ⟨n, h⟩
    · exact ⟨m + n, by rw [h, Nat.pow_add]⟩
  simp only [List.mem_cons, List.not_mem_nil, or_false] at hx
  rcases hx with rfl | rfl | rfl | rfl
  · exact h1
  · exact h2
  · exact fin (h3 h0)
  · exact fin (h4 h0)

/-- Four Cortex-A75 cores of a Snapdragon 845. -/
example : (ArmCache.decode .arm64Android ArmUarch.Uarch.cortexA75 (2 ^ 2) 0x518F802D
    ⟨.qualcomm, .qualcommSnapdragon, 845, []⟩ 1 8).map
      (fun c => (c.l1i.sets, c.l1d.sets, c.l2.sets, c.l3.sets)) = some (2 ^ 8, 2 ^ 6, 2 ^ 9, 2 ^ 11) := by
  decide +kernel

/-- **C159 is violated by every ThunderX** in 64-bit builds other than Android: the L1 instruction cache is
given 312 sets, which no cache indexed by address bits has. -/
theorem C159_violated_thunderx (cores midr : Nat) (chipset : Chipset) (clusterId version : Nat) :
    ∃ c, ArmCache.decode .arm64 ArmUarch.Uarch.thunderx cores midr chipset clusterId version =
      some c ∧ c.l1i.sets = 312 ∧ ¬ ∃ n, c.l1i.sets = 2 ^ n := by
  have h : ArmCache.decode .arm64 ArmUarch.Uarch.thunderx cores midr chipset clusterId version =
      ArmCache.finish ArmCache.thunderx := by
    unfold ArmCache.decode ArmCache.known ArmCache.cases64
    simp only [if_true, Option.or_some, Option.some_or, Option.getD_some]
  obtain ⟨c, hc, h312⟩ : ∃ c, ArmCache.finish ArmCache.thunderx = some c ∧ c.l1i.sets = 312 :=
    ⟨_, rfl, by decide +kernel⟩
  refine ⟨c, h.trans hc, h312, ?_⟩
  rintro ⟨n, hn⟩
  have hs : (312 : Nat) = 2 ^ n := h312.symm.trans hn
  rcases Nat.lt_or_ge n 9 with h | h
  · have : ∀ n, n < 9 → (312 : Nat) ≠ 2 ^ n := by decide
    exact this n h hs
  · have := Nat.pow_le_pow_right (show 0 < 2 by decide) h
    have e : (2 : Nat) ^ 9 = 512 := by decide
    omega

section Published
variable (e : Env) (hs : SortsProcessors e.config.arch e.sort) (hl : AllListed e)
  (pub : Published) (h : linuxInit e = some (some pub))
variable (t : Target) (ch : Bytes → Bytes → Nat → Chipset) (hd : e.dec = decoders t ch)
include hs hl h hd

/-- **C159 (published, partial).** The number of sets of every published L2 and L3 cache is a power of two,
or a power of two for every core of some cluster.  Missing: as for `C159_sets_partial`. -/
theorem C159_published_partial (hv : OneVersion e) (hc : ∀ l ∈ pub.clusters, l.coreCount < 4096)
    (hth : ∀ o ∈ pub.cores, ¬ (o.uarch = ArmUarch.Uarch.thunderx ∧ t = .arm64)) (x : Cache)
    (hx : x ∈ pub.l2 ∨ x ∈ pub.l3) :
    ∃ n, x.sets = 2 ^ n ∨ ∃ l ∈ pub.clusters, x.sets = l.coreCount * 2 ^ n := by
  obtain ⟨tb', hw', rev', hg', ⟨W⟩⟩ := whole e hs hl pub h
  have hu := W.uniform hg' hv
  have h0 : 0 < W.x.N := W.h0
  have good : ∀ k, k < W.N → ∃ l ∈ pub.clusters,
      ((W.x.c k).l2.size ≠ 0 → ∃ n, (W.x.c k).l2.sets = 2 ^ n ∨ (W.x.c k).l2.sets = l.coreCount * 2 ^ n) ∧
      ((W.x.c k).l3.size ≠ 0 → (W.x.c k).l2.size ≠ 0 ∧
        ∃ n, (W.x.c k).l3.sets = 2 ^ n ∨ (W.x.c k).l3.sets = l.coreCount * 2 ^ n) := by
    intro k hk
    have hcd := W.decoded_at hg' hl (i := k) hk
    have hcd' := hcd
    obtain ⟨tb, hw, rev, p, o, l, q, hg, hp, ho, hlk, hq, -⟩ := hcd'
    obtain ⟨chipset, version, f, hu, hdec⟩ := decoded_is e hs hl pub h t ch hd k _ hcd p hp o ho l hlk
    have hml := List.mem_of_getElem? hlk
    obtain ⟨-, -, s2, s3⟩ := C159_sets_partial t o.uarch l.coreCount o.midr chipset p.cluster version
      (hc l hml) (hth o (List.mem_of_getElem? ho)) _ hdec
    obtain ⟨d, h1, -, -, -, h2⟩ := C44_decoded_core t o.midr f l.coreCount chipset p.cluster version
    rw [← hu, hdec] at h1
    cases h1
    exact ⟨l, hml, s2, fun hh => ⟨(h2 hh).2, s3 hh⟩⟩
  have fin : ∀ (c : Cache) (l : Cluster), l ∈ pub.clusters →
      (∃ n, c.sets = 2 ^ n ∨ c.sets = l.coreCount * 2 ^ n) →
      ∃ n, c.sets = 2 ^ n ∨ ∃ l ∈ pub.clusters, c.sets = l.coreCount * 2 ^ n := by
    rintro c l hml ⟨n, hh | hh⟩
    · exact ⟨n, .inl hh⟩
    · exact ⟨n, .inr ⟨l, hml, hh⟩⟩
  rcases hx with hx | hx
  · obtain ⟨g, hgx⟩ := List.getElem?_of_mem hx
    obtain ⟨k, hk, ho, -, rfl⟩ := (W.gc hu).l2.full rfl hgx
    obtain ⟨l, hml, g2, g3⟩ := good k hk
    have ho : ((W.x.c k).l3.size != 0 || (W.x.nw k && (W.x.c k).l2.size != 0)) = true := ho
    rw [Bool.or_eq_true, Bool.and_eq_true, bne_iff_ne, bne_iff_ne] at ho
    refine fin (W.x.c k).l2 l hml (g2 ?_)
    rcases ho with ho | ho
    · exact (g3 ho).1
    · exact ho.2
  · obtain ⟨g, hgx⟩ := List.getElem?_of_mem hx
    have hlt : g < opened W.x.op3' W.x.N := by
      rw [← W.x.l3_count h0, ← (W.gc hu).l3Length]
      exact lt_of_get hgx
    have hle : ∀ n, opened W.x.op3' n ≤ opened W.x.op3 n := by
      intro n
      induction n with
      | zero => exact Nat.le_refl _
      | succ n ih =>
        cases hb : W.x.op3' n with
        | false => rw [opened_neg hb]; exact Nat.le_trans ih (opened_mono _ (Nat.le_succ n))
        | true =>
          have : W.x.op3 n = true := by
            unfold Ctx.op3' at hb
            exact (Bool.and_eq_true _ _ ▸ hb).1
          rw [opened_pos hb, opened_pos this]
          omega
    obtain ⟨k, hk, ho, hkg⟩ := opened_surj W.x.op3 W.x.N g (Nat.lt_of_lt_of_le hlt (hle _))
    have he := (W.gc hu).l3 k hk ho (by rw [hkg, W.x.l3_count h0]; exact hlt)
    rw [hkg, hgx] at he
    cases he
    obtain ⟨l, hml, g2, g3⟩ := good k hk
    have ho : (W.x.nw k && (W.x.c k).l3.size != 0) = true := ho
    rw [Bool.and_eq_true, bne_iff_ne] at ho
    exact fin (W.x.c k).l3 l hml (g3 ho.2).2

end Published

/-- Two Exynos M3 cores with L3 cache meet the hypotheses. -/
example : ∃ pub, linuxInit acM3 = some (some pub) ∧ AllListed acM3 ∧ OneVersion acM3 ∧
    (∀ l ∈ pub.clusters, l.coreCount < 4096) ∧
    (∀ o ∈ pub.cores, ¬ (o.uarch = ArmUarch.Uarch.thunderx ∧ Target.arm64 = .arm64)) ∧
    pub.l2.map (·.sets) = [512, 512] ∧ pub.l3.map (·.sets) = [4096] := by
  have h : acShown acM3 (fun pub => (pub.clusters.all fun l => decide (l.coreCount < 4096),
      pub.cores.all fun o => decide (¬ (o.uarch = ArmUarch.Uarch.thunderx ∧ Target.arm64 = .arm64)),
      pub.l2.map (·.sets), pub.l3.map (·.sets))) = some (true, true, [512, 512], [4096]) := by
    decide +kernel
  obtain ⟨pub, hp, hu⟩ := ac_shown h
  refine ⟨pub, hp, ac_listed (by decide +kernel), ac_version 8 (by decide +kernel), ?_, ?_,
    congrArg (·.2.2.1) hu, congrArg (·.2.2.2) hu⟩
  · exact fun l hl => of_decide_eq_true (List.all_eq_true.mp (congrArg (·.1) hu) l hl)
  · exact fun o ho => of_decide_eq_true (List.all_eq_true.mp (congrArg (·.2.1) hu) o ho)

end Verif.Props
