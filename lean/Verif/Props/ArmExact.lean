import Verif.Props.ArmCache
import Verif.Props.ArmDefined

/-!
# C76, C88 and C89: exactly when ARM/Linux detection is right
-/

set_option autoImplicit false

namespace Verif.Props
open Spec ArmMidr ArmCpuinfo ArmClusters ArmInit ArmChipset Runs
open X86Init (bitmaskAll Cache)

/-- Counting the runs with a property is counting their numbers. -/
private theorem opened_filter {nw : Nat → Bool} (h0 : nw 0 = true) (f : Nat → Bool) :
    ∀ n, opened (fun k => nw k && f (gi nw k)) n =
      ((List.range (opened nw n)).filter f).length
  | 0 => rfl
  | n + 1 => by
    have ih := opened_filter h0 f n
    cases hn : nw n with
    | false => rw [opened_neg (by simp [hn]), opened_neg hn, ih]
    | true =>
      rw [opened_pos hn, List.range_succ, List.filter_append, List.length_append, ← ih,
        opened_of_new h0 hn]
      cases hf : f (gi nw n) with
      | false => rw [opened_neg (by simp [hf])]; simp [hf]
      | true => rw [opened_pos (by simp [hn, hf])]; simp [hf]

/-- Every number below the count is that of some position. -/
private theorem opened_surj {op : Nat → Bool} : ∀ (n g : Nat), g < opened op n →
    ∃ k, k < n ∧ op k = true ∧ opened op k = g
  | 0, g, h => by simp [opened] at h
  | n + 1, g, h => by
    by_cases hg : g < opened op n
    · obtain ⟨k, h1, h2⟩ := opened_surj n g hg
      exact ⟨k, by omega, h2⟩
    · cases ho : op n with
      | false => rw [opened_neg ho] at h; omega
      | true => rw [opened_pos ho] at h; exact ⟨n, by omega, ho, by omega⟩

private theorem opened_le {p q : Nat → Bool} (h : ∀ k, p k = true → q k = true) :
    ∀ n, opened p n ≤ opened q n
  | 0 => Nat.le_refl _
  | n + 1 => by
    have := opened_le h n
    cases hp : p n with
    | false => rw [opened_neg hp]; exact Nat.le_trans this (opened_mono q (Nat.le_succ n))
    | true => rw [opened_pos hp, opened_pos (h n hp)]; omega

private theorem opened_less {p q : Nat → Bool} (h : ∀ k, p k = true → q k = true) {j : Nat}
    (hp : p j = false) (hq : q j = true) : ∀ n, j < n → opened p n < opened q n
  | n + 1, hj => by
    by_cases hn : j = n
    · subst hn
      rw [opened_neg hp, opened_pos hq]
      exact Nat.lt_succ_of_le (opened_le h j)
    · have ih := opened_less h hp hq n (by omega)
      cases hpn : p n with
      | false => rw [opened_neg hpn]; exact Nat.lt_of_lt_of_le ih (opened_mono q (Nat.le_succ n))
      | true => rw [opened_pos hpn, opened_pos (h n hpn)]; omega

/-- `size g` is the size of the L3 cache the decoder gives for the processors of cluster `g`. -/
def L3Sizes (e : Env) (pub : Published) (size : Nat → Nat) : Prop :=
  ∀ (i : Nat) (c : Caches) (p : Processor), DecodedCaches e pub i c → pub.processors[i]? = some p →
    size p.cluster = c.l3.size

/-- The number of clusters before `g` that have an L3 cache. -/
def l3Before (size : Nat → Nat) (g : Nat) : Nat :=
  ((List.range g).filter fun k => decide (size k ≠ 0)).length

/-- The number of clusters that have an L3 cache and are the first cluster or have an L3 cache of
another size than the first. -/
def l3Counted (size : Nat → Nat) (clusters : Nat) : Nat :=
  ((List.range clusters).filter fun k =>
    decide (size k ≠ 0) && (decide (k = 0) || decide (size k ≠ size 0))).length

section Tables
variable (e : Env) (hs : SortsProcessors e.config.arch e.sort) (hl : AllListed e) (pub : Published)
  (h : linuxInit e = some (some pub))
include hs hl h

/-- **C76 (listed once, exact).** No microarchitecture is listed twice exactly if the cores with a
microarchitecture are next to each other. -/
theorem C76_listed_once_exact :
    (∀ (g g' : Nat) (u v : Uarch), pub.uarchs[g]? = some u → pub.uarchs[g']? = some v →
      u.uarch = v.uarch → g = g') ↔
    ∀ (i j k : Nat) (x y z : Core), i < j → j < k → pub.cores[i]? = some x →
      pub.cores[j]? = some y → pub.cores[k]? = some z → x.uarch = z.uarch → y.uarch = x.uarch := by
  refine ⟨fun ho i j k x y z hij hjk hx hy hz he => ?_, C76_listed_once_partial e hs hl pub h⟩
  obtain ⟨t, hw, rev, -, ⟨W⟩⟩ := whole e hs hl pub h
  obtain ⟨hi, rfl⟩ := W.core_of hx
  obtain ⟨hj, rfl⟩ := W.core_of hy
  obtain ⟨hk, rfl⟩ := W.core_of hz
  have key : ∀ {m : Nat}, uarchAt W.S (st W.nu m) = uarchAt W.S m := fun {m} => byKey_st (uarchAt W.S) m
  have he' : uarchAt W.S i = uarchAt W.S k := he
  have hg := ho _ _ _ _ (W.uarch_at hi) (W.uarch_at hk)
    (show uarchAt W.S (st W.nu i) = uarchAt W.S (st W.nu k) by rw [key, key, he'])
  have h1 := gi_mono W.nu (Nat.le_of_lt hij)
  have h2 := gi_mono W.nu (Nat.le_of_lt hjk)
  have hst := st_eq_of_gi W.nu i j (by omega)
  show uarchAt W.S j = uarchAt W.S i
  rw [← key (m := j), ← hst, key]

/-- The clusters of a detected system have L3 caches of definite sizes. -/
theorem C88_l3_sizes (hv : OneVersion e) : ∃ size, L3Sizes e pub size := by
  obtain ⟨t, hw, rev, hg, ⟨W⟩⟩ := whole e hs hl pub h
  classical
  refine ⟨fun g => if hk : ∃ k, k < W.N ∧ gi W.nw k = g then (W.x.c (Classical.choose hk)).l3.size else 0,
    fun i c p hc hp => ?_⟩
  obtain ⟨hi, rfl⟩ := W.decoded_caches hg hl i c hc
  have hx : ∃ k, k < W.N ∧ gi W.nw k = p.cluster := ⟨i, hi, (W.processor_of hp).2.2.2.1.symm⟩
  dsimp only
  rw [dif_pos hx]
  obtain ⟨h1, h2⟩ := Classical.choose_spec hx
  rw [W.same_caches hg hv h1 hi (h2.trans (W.processor_of hp).2.2.2.1)]

/-- **C88 (L3 caches, exact).** As many L3 caches are published as there are clusters with an L3
cache that are the first or have another size than the first.  If not all processors have an L3 cache
of the same size, the caches are given to the clusters with an L3 cache in order until there are no
more: a processor has a link exactly if its cluster has an L3 cache and fewer clusters with one come
before it than caches are published, and the link leads to an entry with the geometry of its cache
and the range of its cluster. -/
theorem C88_l3_exact (hv : OneVersion e) (size : Nat → Nat) (hz : L3Sizes e pub size) :
    pub.l3Count = pub.l3.length ∧ pub.l3.length = l3Counted size pub.clusters.length ∧
    (¬ OneL3Size e pub → ∀ (i : Nat) (c : Caches) (p : Processor) (l : Cluster),
      DecodedCaches e pub i c → pub.processors[i]? = some p → pub.clusters[p.cluster]? = some l →
      (p.l3 ≠ none ↔ c.l3.size ≠ 0 ∧ l3Before size p.cluster < pub.l3.length) ∧
      ∀ g, p.l3 = some g → g = l3Before size p.cluster ∧ ∃ x, pub.l3[g]? = some x ∧
        HasGeometry x c.l3 l.processorStart l.processorCount) := by
  obtain ⟨t, hw, rev, hg, ⟨W⟩⟩ := whole e hs hl pub h
  have h0 : 0 < W.x.N := W.h0
  have hu := W.uniform hg hv
  have hlen := (W.gc hu).l3Length
  have hsize : ∀ k, k < W.x.N → size (gi W.nw k) = (W.x.c k).l3.size := by
    intro k hk
    obtain ⟨p, hp⟩ := W.processor_at hk
    rw [← hz k _ p (W.decoded_at hg hl hk) hp, (W.processor_of hp).2.2.2.1]
  have hn0 : W.x.nw 0 = true := W.nw0
  have hop3 : ∀ k, k < W.x.N → W.x.op3 k = (W.nw k && decide (size (gi W.nw k) ≠ 0)) := by
    intro k hk
    rw [hsize k hk]
    unfold Ctx.op3
    show (W.nw k && _) = _
    congr 1
    rw [Bool.eq_iff_iff]; simp
  have hbefore : ∀ k, k < W.x.N → W.nw k = true → opened W.x.op3 k = l3Before size (gi W.nw k) := by
    intro k hk hn
    rw [Ctx.opened_congr k fun j hj => hop3 j (by omega),
      opened_filter W.nw0 (fun g => decide (size g ≠ 0)), opened_of_new W.nw0 hn]
    rfl
  have hcount : pub.l3.length = l3Counted size pub.clusters.length := by
    rw [hlen, W.x.l3_count h0, W.clusters_length]
    have e1 : ∀ k, k < W.x.N → W.x.op3' k = (W.nw k &&
        (decide (size (gi W.nw k) ≠ 0) &&
          (decide (gi W.nw k = 0) || decide (size (gi W.nw k) ≠ size 0)))) := by
      intro k hk
      unfold Ctx.op3'
      rw [hop3 k hk, Bool.and_assoc]
      cases hn : W.nw k with
      | false => rfl
      | true =>
        have hz0 : size 0 = (W.x.c 0).l3.size := hsize 0 h0
        have e2 : (k == 0) = decide (gi W.nw k = 0) := by
          by_cases hk0 : k = 0
          · subst hk0; rfl
          · have := W.x.cl_pos h0 (by omega) hn
            rw [W.cl_eq] at this
            simp [hk0, this]
        rw [e2, hz0, hsize k hk]
        congr 3
        rw [Bool.eq_iff_iff]; simp
    rw [Ctx.opened_congr _ e1, opened_filter W.nw0 (fun g =>
      decide (size g ≠ 0) && (decide (g = 0) || decide (size g ≠ size 0)))]
    have : opened W.nw W.x.N = gi W.nw (W.N - 1) + 1 := by
      obtain ⟨n, hn⟩ : ∃ n, W.x.N = n + 1 := ⟨W.x.N - 1, by omega⟩
      have hn' : W.N = n + 1 := hn
      rw [hn, hn', opened_gi _ W.nw0]
      rfl
    rw [this]
    rfl
  refine ⟨by rw [W.g.l3Count, hlen], hcount, fun h1 i c p l hc hp hlk => ?_⟩
  obtain ⟨hi, rfl⟩ := W.decoded_caches hg hl i c hc
  obtain ⟨-, -, f3⟩ := W.final_of hu hp
  have hcl : p.cluster = gi W.nw i := (W.processor_of hp).2.2.2.1
  rw [hcl, W.cluster_at hi, W.cluster_entry hi] at hlk
  cases hlk
  have hsh : (W.x.counts W.x.N).shared = false := by
    cases hb : (W.x.counts W.x.N).shared with
    | false => rfl
    | true =>
      refine absurd ?_ h1
      intro k c c0 hck hc0
      obtain ⟨hk, rfl⟩ := W.decoded_caches hg hl k c hck
      obtain ⟨-, rfl⟩ := W.decoded_caches hg hl 0 c0 hc0
      exact (W.x.shared_iff h0 hu).mp hb k hk
  rw [hsh] at f3
  unfold Ctx.link3 at f3
  by_cases h3 : (W.x.c i).l3.size ≠ 0
  · have hst := W.start_caches hg hv hi
    have hn : W.nw (st W.nw i) = true := W.start_new i hi
    have hop : W.x.op3 (st W.nw i) = true := by
      unfold Ctx.op3
      rw [show W.x.nw (st W.nw i) = true from hn, hst]
      simp [h3]
    have hidx : idx W.x.op3 (i + 1) = l3Before size p.cluster := by
      rw [W.idx3_start hi hop, hbefore _ (W.st_lt hi) hn, gi_st, hcl]
    rw [if_pos h3, hidx, ← hlen, if_neg (by decide)] at f3
    by_cases hlt : l3Before size p.cluster < pub.l3.length
    · rw [if_pos hlt] at f3
      refine ⟨by rw [f3]; simp [h3, hlt], fun g hgl => ?_⟩
      rw [f3] at hgl
      cases hgl
      have hlt' : opened W.x.op3 (st W.nw i) < (W.x.counts W.x.N).l3 := by
        rw [hbefore _ (W.st_lt hi) hn, gi_st, ← hcl, ← hlen]; exact hlt
      have e3 := (W.gc hu).l3 (st W.nw i) (W.st_lt hi) hop hlt'
      rw [hsh, hbefore _ (W.st_lt hi) hn, gi_st, ← hcl] at e3
      refine ⟨rfl, _, e3, ?_⟩
      have e1 : (procAt W.S (st W.nw i)).packageProcessorCount = cnt W.nw (gi W.nw i) W.N := by
        rw [← gi_st W.nw i]; exact (W.sorted.run_size (W.st_lt hi)).symm
      rw [← hst]
      exact ⟨rfl, rfl, rfl, rfl, rfl, rfl, rfl, e1⟩
    · rw [if_neg hlt] at f3
      refine ⟨by rw [f3]; simp [hlt], fun g hgl => ?_⟩
      rw [f3] at hgl
      cases hgl
  · rw [if_neg h3] at f3
    refine ⟨by rw [f3]; simp [h3], fun g hgl => ?_⟩
    rw [f3] at hgl
    cases hgl

/-- **C88 (L3 links, exact).** Every processor with an L3 cache is linked to one exactly if all
processors have an L3 cache of the same size or no later cluster has one of the size of the first
cluster's. -/
theorem C88_l3_right_iff (hv : OneVersion e) :
    (∀ (i : Nat) (c : Caches) (p : Processor), DecodedCaches e pub i c →
      pub.processors[i]? = some p → c.l3.size ≠ 0 → p.l3 ≠ none) ↔
    OneL3Size e pub ∨ OtherL3Sizes e pub := by
  constructor
  · intro hall
    by_cases h1 : OneL3Size e pub
    · exact Or.inl h1
    · refine Or.inr fun i c c0 p hc hc0 hp hp0 h3 heq => ?_
      obtain ⟨t, hw, rev, hg, ⟨W⟩⟩ := whole e hs hl pub h
      have h0 : 0 < W.x.N := W.h0
      have hu := W.uniform hg hv
      obtain ⟨hi, rfl⟩ := W.decoded_caches hg hl i c hc
      obtain ⟨-, rfl⟩ := W.decoded_caches hg hl 0 c0 hc0
      have hst := W.start_caches hg hv hi
      have hn : W.nw (st W.nw i) = true := W.start_new i hi
      have hcl : p.cluster = gi W.nw i := (W.processor_of hp).2.2.2.1
      have hop : W.x.op3 (st W.nw i) = true := by
        unfold Ctx.op3
        rw [show W.x.nw (st W.nw i) = true from hn, hst]
        simp [h3]
      have hop' : W.x.op3' (st W.nw i) = false := by
        unfold Ctx.op3'
        rw [hst, heq]
        have : st W.nw i ≠ 0 := by
          intro hz
          have := gi_st W.nw i
          rw [hz] at this
          exact hp0 (by rw [hcl, ← this]; rfl)
        simp [this]
      have hlt : opened W.x.op3' W.x.N < opened W.x.op3 W.x.N :=
        opened_less (fun k hk => by unfold Ctx.op3' at hk; simp only [Bool.and_eq_true] at hk; exact hk.1)
          hop' hop _ (W.st_lt hi)
      obtain ⟨k, hk, hok, hko⟩ := opened_surj (op := W.x.op3) W.x.N (opened W.x.op3 W.x.N - 1) (by omega)
      obtain ⟨q, hq⟩ := W.processor_at hk
      have hk3 : (W.x.c k).l3.size ≠ 0 := by
        unfold Ctx.op3 at hok
        simp only [Bool.and_eq_true, bne_iff_ne] at hok
        exact hok.2
      refine hall k _ q (W.decoded_at hg hl hk) hq hk3 ?_
      obtain ⟨-, -, f3⟩ := W.final_of hu hq
      have hsh : (W.x.counts W.x.N).shared = false := by
        cases hb : (W.x.counts W.x.N).shared with
        | false => rfl
        | true =>
          refine absurd ?_ h1
          intro k c c0 hck hc0
          obtain ⟨hk, rfl⟩ := W.decoded_caches hg hl k c hck
          obtain ⟨-, rfl⟩ := W.decoded_caches hg hl 0 c0 hc0
          exact (W.x.shared_iff h0 hu).mp hb k hk
      rw [hsh] at f3
      unfold Ctx.link3 at f3
      rw [if_pos hk3, if_neg (by decide), idx_pos hok, hko, W.x.l3_count h0, if_neg (by omega)] at f3
      exact f3
  · rintro h12 i c p hc hp h3
    obtain ⟨l, hlk⟩ : ∃ l, pub.clusters[p.cluster]? = some l := by
      obtain ⟨t, hw, rev, -, ⟨W⟩⟩ := whole e hs hl pub h
      obtain ⟨hi, -, -, hcl, -⟩ := W.processor_of hp
      exact ⟨_, by rw [hcl]; exact W.cluster_at hi⟩
    by_cases h1 : OneL3Size e pub
    · obtain ⟨t, hw, rev, hg, ⟨W⟩⟩ := whole e hs hl pub h
      rw [(C88_shared_l3 e hs hl pub h hv h1 _ (W.decoded_at hg hl W.h0)).2.2 i p hp]
      simp
    · rcases h12 with h12 | h2
      · exact absurd h12 h1
      · obtain ⟨g, x, hx, -⟩ := (C88_cluster_l3_partial e hs hl pub h hv h1 h2 i c hc p hp l hlk).2.1 h3
        rw [hx]; simp

end Tables

/-- **C89 (no processor).** Whenever the kernel files are readable but /proc/cpuinfo lists no usable
processor, detection publishes nothing, and does not fail cleanly either if memory suffices: it always
uses the first element of an empty table. -/
theorem C89_violated_no_processor_always (e : Env) (t : List Proc) (hw rev : Bytes)
    (hr : Reads e t hw rev) (h0 : listedCount t = 0) :
    (∀ pub, linuxInit e ≠ some (some pub)) ∧ ((∀ i, e.alloc i = true) → linuxInit e = none) := by
  have hg : gather e = some (some (t, hw, rev)) := hr
  have hc : countListed t = 0 := by rw [countListed_listed]; exact h0
  unfold linuxInit
  simp only [Option.bind_eq_bind, hg, Option.bind_some, hc]
  cases ha : analyse e (e.dec.chipset hw rev 0) t with
  | none => exact ⟨fun _ => by simp, fun _ => rfl⟩
  | some r =>
    simp only [Option.bind_some]
    refine ⟨fun pub => publish_zero _ _ _ _ _ _ pub, fun hall => ?_⟩
    cases hp : publish e.config.arch e.dec e.alloc (e.dec.chipset hw rev 0) 0 r.1 (e.sort r.2) with
    | none => rfl
    | some o =>
      cases o with
      | some pub => exact absurd hp (publish_zero _ _ _ _ _ _ pub)
      | none =>
        exfalso
        unfold publish at hp
        simp only [hall, Option.bind_eq_bind, Option.pure_def] at hp
        simp [Option.bind_eq_some_iff] at hp

/-- A system meeting the hypotheses of `C88_l3_exact` and `C88_l3_right_iff` whose clusters have L3
caches of sizes neither theorem calls harmless. -/
example : ∃ (e : Env) (pub : Published), SortsProcessors e.config.arch e.sort ∧ AllListed e ∧
    OneVersion e ∧ linuxInit e = some (some pub) ∧ (∃ size, L3Sizes e pub size) ∧
    ¬ (OneL3Size e pub ∨ OtherL3Sizes e pub) := by
  obtain ⟨e, pub, hs, hl, hv, -, h, p, o, hp, ho, h3, hn, -⟩ := C88_violated
  refine ⟨e, pub, hs, hl, hv, h, C88_l3_sizes e hs hl pub h hv, fun hx => ?_⟩
  obtain ⟨t, hw, rev, hg, ⟨W⟩⟩ := whole e hs hl pub h
  obtain ⟨hi, -⟩ := W.processor_of hp
  have hd := W.decoded_at hg hl hi
  have hd' := hd
  obtain ⟨t', hw', rev', p', o', l, q, -, hp', ho', hlk, -, hc⟩ := hd'
  rw [hp] at hp'
  cases hp'
  rw [ho] at ho'
  cases ho'
  refine (C88_l3_right_iff e hs hl pub h hv).mpr hx 2 _ p hd hp ?_ hn
  rw [hc, h3]
  decide

/-- With sizes of 4 KB, 4 KB and 8 KB two caches are counted for three clusters, and two clusters come
before the last. -/
example : l3Counted (fun g => if g < 2 then 4096 else 8192) 3 = 2 ∧
    l3Before (fun g => if g < 2 then 4096 else 8192) 2 = 2 := by decide

/-- An environment where /proc/cpuinfo lists no usable processor. -/
example : ∃ (e : Env) (t : List Proc) (hw rev : Bytes), Reads e t hw rev ∧ listedCount t = 0 ∧
    ∀ i, e.alloc i = true := by
  obtain ⟨e, t, hw, rev, -, -, -, ha, hr, hn, -⟩ := C89_violated_no_processor
  refine ⟨e, t, hw, rev, hr, ?_, ha⟩
  unfold listedCount
  rw [List.length_eq_zero_iff, List.filter_eq_nil_iff]
  intro p hp hq
  simp only [Bool.and_eq_true] at hq
  exact hn p hp hq.1

end Verif.Props
