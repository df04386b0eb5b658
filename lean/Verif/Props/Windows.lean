import Verif.Proof.WinFacts
import Verif.Proof.X86Facts

/-!
C53, C121–C127: detection on x86 Windows.

The hypotheses: `WinReports` (Windows answers with records whose masks have only bits of existing
processors), `WinNarrow` and `WinRoom` (the fields of the APIC id fit 32 bits), `WinDisjoint` (no processor
in two packages or two cores, every core in one package), `WinComplete` (every processor is in a core),
`WinGrouped` (the cores of a package follow one another).
-/

set_option autoImplicit false

namespace Verif.Props

open Verif.Windows Verif.Spec Verif.Runs
open Verif.X86Init (Core Cluster Package Cache CacheDesc CacheLevel CacheCtx IsHighMask)

/-! ## C53 -/

/-- **C53.** The loop over an affinity mask visits exactly the bits that are set, in increasing order,
without undefined behaviour. -/
theorem C53_bits (mask : Nat) (h : mask < 2 ^ 64) :
    ∃ l, bitsLoop 64 mask = some l ∧ l.Pairwise (· < ·) ∧ ∀ b, b ∈ l ↔ mask.testBit b = true :=
  ⟨setBits mask, bitsLoop_eq 64 mask h (setBits_length mask), setBits_pairwise mask,
    fun _ => mem_setBits h⟩

example : bitsLoop 64 0xA0000000000000C1 = some [0, 6, 7, 61, 63] := by decide +kernel

/-- **C53.** The processors of a record get the index "processors of earlier groups plus number in the
group", which is within the table. -/
theorem C53_index (per : List Nat) (hs : per.sum < U32) (info : Info) (h : WinFits per info) :
    ∃ vs, visits (beforeLoop 0 per) info.groups = some vs ∧
      vs.map (fun v => (v.group, v.number)) = winMembers info ∧
      ∀ v ∈ vs, v.index = (per.take v.group).sum + v.number ∧ v.index < per.sum := by
  refine ⟨visitsOf per info, visits_eq per hs info h, ?_, ?_⟩
  · unfold visitsOf
    rw [List.map_map]
    exact List.map_id _
  · intro v hv
    obtain ⟨h1, h2, _⟩ := visitsOf_lt per info h v hv
    exact ⟨h2, h1⟩

/-- **C53.** The numbering is a bijection between the processors of the groups and the entries of the
table. -/
theorem C53_numbering (per : List Nat) (i : Nat) (h : i < per.sum) :
    ∃ g b n, per[g]? = some n ∧ b < n ∧ (per.take g).sum + b = i ∧
      ∀ g' b' n', per[g']? = some n' → b' < n' → (per.take g').sum + b' = i → g' = g ∧ b' = b := by
  obtain ⟨g, b, n, h1, h2, h3⟩ := winIndex_surj per i h
  refine ⟨g, b, n, h1, h2, h3, ?_⟩
  intro g' b' n' h4 h5 h6
  exact winIndex_inj h4 h5 h1 h2 (h6.trans h3.symm)

/-! ## C121 -/

section Whole
variable (e : Env) (ps cs : List Info) (h : WinReports e ps cs) (hn : WinNarrow e) (hr : WinRoom e ps)
include h hn hr

/-- **C121, what holds.** Detection has no undefined behaviour, even if the records overlap or miss
processors; it succeeds if the allocations and the queries for sizes do.  Missing for the full claim: an
answer without packages or cores, see `C121_violated`. -/
theorem C121_no_fault_partial :
    ∃ r, windowsInit e = some r ∧ ((∀ i, e.alloc i = true) → e.sizesKnown = true → r ≠ none) := by
  obtain ⟨r, h1, h2, _⟩ := windowsInit_ok e ps cs h hn hr
  exact ⟨r, h1, h2⟩

variable (pub : Published) (hi : windowsInit e = some (some pub))
include hi

/-- **C121.** As many processors are published as the groups have, as many cores as core records, as many
packages and clusters as package records; the tables have these lengths. -/
theorem C121_counts :
    (pub.processorsCount = (groupSizes e).sum ∧ pub.processors.length = (groupSizes e).sum) ∧
    (pub.coresCount = cs.length ∧ pub.cores.length = cs.length) ∧
    (pub.clustersCount = ps.length ∧ pub.clusters.length = ps.length) ∧
    (pub.packagesCount = ps.length ∧ pub.packages.length = ps.length) := by
  have g := windowsInit_good h hn hr hi
  exact ⟨⟨g.finished.processorsCount.trans g.detected.length, g.detected.length⟩,
    ⟨g.finished.coresCount, g.tables.cores.1⟩, ⟨g.finished.clustersCount, g.tables.clusters.1⟩,
    ⟨g.finished.packagesCount, g.tables.packages.1⟩⟩

/-- **C121.** Every link of a published processor or core leads into its table. -/
theorem C121_links_resolve :
    (∀ p ∈ pub.processors, p.core < pub.cores.length ∧ p.cluster < pub.clusters.length ∧
      p.package < pub.packages.length) ∧
    (∀ c ∈ pub.cores, c.cluster < pub.clusters.length ∧ c.package < pub.packages.length ∧
      c.processorStart < pub.processors.length) := by
  have g := windowsInit_good h hn hr hi
  obtain ⟨⟨_, hp⟩, ⟨_, hc⟩, ⟨_, hl⟩, ⟨_, hk⟩⟩ := C121_counts e ps cs h hn hr pub hi
  have key : ∀ p ∈ pub.processors, p.core < pub.cores.length ∧ p.cluster < pub.clusters.length ∧
      p.package < pub.packages.length := by
    intro p hp
    have := g.detected.entries p hp
    rw [hc, hl, hk]
    exact ⟨this.core, by rw [this.cluster]; exact List.length_pos_iff.mpr h.somePackage, this.package⟩
  refine ⟨key, ?_⟩
  intro c hcm
  obtain ⟨j, hj⟩ := List.mem_iff_getElem?.mp hcm
  have hjl : j < cs.length := by rw [← hc]; exact (List.getElem?_eq_some_iff.mp hj).1
  have := g.tables.cores.2 j hjl
  dsimp only at this
  rw [hj] at this
  cases this
  have hf := firstOf_lt (groupSizes e).sum (fun i => (procOf pub.processors i).core) j h.someProcessor
  have hm : procOf pub.processors (firstOf (groupSizes e).sum
      (fun i => (procOf pub.processors i).core) j) ∈ pub.processors := by
    unfold procOf
    rw [List.getElem?_eq_getElem (by rw [hp]; exact hf)]
    exact List.getElem_mem _
  have := key _ hm
  exact ⟨this.2.1, this.2.2, by rw [hp]; exact hf⟩

/-! ## C122, C123 -/

variable (hd : WinDisjoint e ps cs)

omit hn hr hi in
private theorem win_member {j k : Nat} {c : Info} {m : Nat × Nat} (hj : cs[j]? = some c)
    (hk : (winMembers c)[k]? = some m) : m.2 < 64 ∧ ∃ n, (groupSizes e)[m.1]? = some n := by
  obtain ⟨_, _, h1, n, h2, _⟩ := visitsOf_lt _ c (h.fitsCores c (List.mem_of_getElem? hj))
    ⟨m.1, m.2, winIndex (groupSizes e) m.1 m.2⟩ (by
      unfold visitsOf
      exact List.mem_map.mpr ⟨m, List.mem_of_getElem? hk, rfl⟩)
  exact ⟨h1, n, h2⟩

include hd

/-- **C122.** The `k`-th processor of core record `j` (in the order of groups and bits) is published at
its index with SMT id `k`, linked to core `j` and to the package whose record has it, with its Windows
group and number. -/
theorem C122_processors (hgroups : e.wine = true ∨ e.groupCount < 65536) (j k q g b : Nat) (c p : Info)
    (hj : cs[j]? = some c) (hk : (winMembers c)[k]? = some (g, b)) (hq : ps[q]? = some p)
    (hp : (g, b) ∈ winMembers p) :
    ∃ x, pub.processors[((groupSizes e).take g).sum + b]? = some x ∧ x.smtId = k ∧ x.core = j ∧
      x.package = q ∧ x.groupId = g ∧ x.processorId = b := by
  have G := windowsInit_good h hn hr hi
  obtain ⟨h64, n, hg⟩ := win_member e ps cs h hj hk
  dsimp only at h64 hg
  have := (G.exact hd).reported j k q c p (g, b) hj hk hq (List.mem_map.mpr ⟨(g, b), hp, rfl⟩)
  refine ⟨_, this, rfl, rfl, rfl, ?_, ?_⟩
  · have hlt := (List.getElem?_eq_some_iff.mp hg).1
    have hle : (groupSizes e).length ≤ 65536 := by
      unfold groupSizes
      rw [List.length_map, List.length_range]
      rcases hgroups with hw | hw
      · rw [hw]; simp
      · split <;> omega
    exact Nat.mod_eq_of_lt (by omega)
  · exact Nat.mod_eq_of_lt (by omega)

variable (hlow : LowFields e.cpu.topology) (hg : WinGrouped (groupSizes e) ps cs)
include hlow hg

/-- **C123.** With the fields of thread, core and package in this order from bit 0 on, the APIC id of the
`k`-th processor of core `j` in package `q`, whose first core is `f`, has `k` in the field of the thread,
`j - f` in the field of the core and `q` above. -/
theorem C123_apic (j k q f i : Nat) (c p : Info) (hj : cs[j]? = some c) (hq : ps[q]? = some p)
    (hk : (winIndices (groupSizes e) c)[k]? = some i) (hp : i ∈ winIndices (groupSizes e) p)
    (hf : WinFirst (groupSizes e) ps cs q f) :
    ∃ x, pub.processors[i]? = some x ∧ x.apicId =
      (q * 2 ^ e.cpu.topology.coreLength + (j - f) % 2 ^ e.cpu.topology.coreLength) *
        2 ^ e.cpu.topology.threadLength + k % 2 ^ e.cpu.topology.threadLength := by
  have G := windowsInit_good h hn hr hi
  unfold winIndices at hk
  rw [List.getElem?_map] at hk
  cases hm : (winMembers c)[k]? with
  | none => rw [hm] at hk; cases hk
  | some m =>
    rw [hm] at hk
    cases hk
    have := (G.exact hd).reported j k q c p m hj hm hq hp
    refine ⟨_, this, ?_⟩
    have hcm := List.mem_of_getElem? hj
    have hin : WinIn (groupSizes e) ps cs j q := by
      obtain ⟨p', hp', hs⟩ := hd.inPackage c hcm
      obtain ⟨q', hq'⟩ := List.mem_iff_getElem?.mp hp'
      have hmem : winIndex (groupSizes e) m.1 m.2 ∈ winIndices (groupSizes e) c :=
        List.mem_map.mpr ⟨m, List.mem_of_getElem? hm, rfl⟩
      have := flatMap_unique hd.packages hq' hq (hs _ hmem) hp
      subst this
      exact ⟨c, p', hj, hq', hd.nonempty c hcm, hs⟩
    dsimp only
    rw [runStart_first hd hg _ hin hf]
    exact apic_fields _ hlow hn.2.1 _ _ _

/-- **C123.** If cores and threads fit their fields, no two processors that are in cores get the same APIC
id. -/
theorem C123_apic_unique (hfit : WinFieldsFit e ps cs) (i i' : Nat) (c c' : Info) (hc : c ∈ cs)
    (hc' : c' ∈ cs) (hm : i ∈ winIndices (groupSizes e) c) (hm' : i' ∈ winIndices (groupSizes e) c')
    (x x' : Processor) (hx : pub.processors[i]? = some x) (hx' : pub.processors[i']? = some x')
    (ha : x.apicId = x'.apicId) : i = i' := by
  obtain ⟨j, hj⟩ := List.mem_iff_getElem?.mp hc
  obtain ⟨j', hj'⟩ := List.mem_iff_getElem?.mp hc'
  obtain ⟨p, hp, hs⟩ := hd.inPackage c hc
  obtain ⟨p', hp', hs'⟩ := hd.inPackage c' hc'
  obtain ⟨q, hq⟩ := List.mem_iff_getElem?.mp hp
  obtain ⟨q', hq'⟩ := List.mem_iff_getElem?.mp hp'
  obtain ⟨k, _, _, _, hk⟩ := mem_winIndices hm
  obtain ⟨k', _, _, _, hk'⟩ := mem_winIndices hm'
  have hin : WinIn (groupSizes e) ps cs j q := ⟨c, p, hj, hq, hd.nonempty c hc, hs⟩
  have hin' : WinIn (groupSizes e) ps cs j' q' := ⟨c', p', hj', hq', hd.nonempty c' hc', hs'⟩
  obtain ⟨f, hf, hfj⟩ := exists_first hin
  obtain ⟨f', hf', hfj'⟩ := exists_first hin'
  obtain ⟨y, hy, ea⟩ := C123_apic e ps cs h hn hr pub hi hd hlow hg j k q f i c p hj hq hk (hs i hm) hf
  obtain ⟨y', hy', ea'⟩ := C123_apic e ps cs h hn hr pub hi hd hlow hg j' k' q' f' i' c' p' hj' hq' hk'
    (hs' i' hm') hf'
  rw [hx] at hy
  rw [hx'] at hy'
  cases hy
  cases hy'
  rw [ea, ea'] at ha
  have b1 : k < 2 ^ e.cpu.topology.threadLength :=
    Nat.lt_of_lt_of_le (List.getElem?_eq_some_iff.mp hk).1 (hfit.1 c hc)
  have b1' : k' < 2 ^ e.cpu.topology.threadLength :=
    Nat.lt_of_lt_of_le (List.getElem?_eq_some_iff.mp hk').1 (hfit.1 c' hc')
  have b2 := hfit.2 j f q hin hf
  have b2' := hfit.2 j' f' q' hin' hf'
  rw [Nat.mod_eq_of_lt b1, Nat.mod_eq_of_lt b1', Nat.mod_eq_of_lt b2, Nat.mod_eq_of_lt b2'] at ha
  have e1 := congrArg (· % 2 ^ e.cpu.topology.threadLength) ha
  have e2 := congrArg (· / 2 ^ e.cpu.topology.threadLength) ha
  have hT : 0 < 2 ^ e.cpu.topology.threadLength := Nat.pow_pos (by omega)
  have hC : 0 < 2 ^ e.cpu.topology.coreLength := Nat.pow_pos (by omega)
  simp only [Nat.mul_add_mod_self_right, Nat.mod_eq_of_lt b1, Nat.mod_eq_of_lt b1'] at e1
  simp only [Nat.mul_comm _ (2 ^ e.cpu.topology.threadLength), Nat.mul_add_div hT,
    Nat.div_eq_of_lt b1, Nat.div_eq_of_lt b1', Nat.add_zero] at e2
  have e3 := congrArg (· % 2 ^ e.cpu.topology.coreLength) e2
  have e4 := congrArg (· / 2 ^ e.cpu.topology.coreLength) e2
  simp only [Nat.mul_add_mod_self_right, Nat.mod_eq_of_lt b2, Nat.mod_eq_of_lt b2'] at e3
  simp only [Nat.mul_comm _ (2 ^ e.cpu.topology.coreLength), Nat.mul_add_div hC,
    Nat.div_eq_of_lt b2, Nat.div_eq_of_lt b2', Nat.add_zero] at e4
  subst e4
  have hff : f = f' := by
    rcases Nat.lt_trichotomy f f' with hlt | rfl | hlt
    · exact absurd hf.1 (hf'.2 f hlt)
    · rfl
    · exact absurd hf'.1 (hf.2 f' hlt)
  subst hff
  have hjj : j = j' := by omega
  subst hjj
  rw [hj] at hj'
  cases hj'
  subst e1
  rw [hk] at hk'
  exact Option.some.inj hk'

end Whole

section InOrder
variable (e : Env) (ps cs : List Info) (h : WinReports e ps cs) (hn : WinNarrow e) (hr : WinRoom e ps)
  (pub : Published) (hi : windowsInit e = some (some pub)) (hd : WinDisjoint e ps cs)
  (hord : WinInOrder e ps cs)

private theorem inorder_le {n : Nat} {per : List Nat} {l : List Info}
    (h : l.flatMap (winIndices per) = List.range n) {j j' i i' : Nat} {c c' : Info}
    (hj : l[j]? = some c) (hj' : l[j']? = some c') (hm : i ∈ winIndices per c)
    (hm' : i' ∈ winIndices per c') (hlt : i < i') : j ≤ j' := by
  have hp := List.pairwise_lt_range (n := n)
  rw [← h, List.pairwise_flatMap] at hp
  rcases Nat.lt_or_ge j' j with hlt' | hge
  · obtain ⟨b, rfl⟩ := List.getElem?_eq_some_iff.mp hj
    obtain ⟨b', rfl⟩ := List.getElem?_eq_some_iff.mp hj'
    have := List.pairwise_iff_getElem.mp hp.2 j' j b' b hlt' i' hm' i hm
    omega
  · exact hge

private theorem inorder_rank {n : Nat} {per : List Nat} {l : List Info}
    (h : l.flatMap (winIndices per) = List.range n) {k k' i i' : Nat} {c : Info} (hc : c ∈ l)
    (hk : (winIndices per c)[k]? = some i) (hk' : (winIndices per c)[k']? = some i') (hlt : i < i') :
    k < k' := by
  have hp := List.pairwise_lt_range (n := n)
  rw [← h, List.pairwise_flatMap] at hp
  obtain ⟨b, rfl⟩ := List.getElem?_eq_some_iff.mp hk
  obtain ⟨b', rfl⟩ := List.getElem?_eq_some_iff.mp hk'
  rcases Nat.lt_trichotomy k k' with hlt' | rfl | hgt
  · exact hlt'
  · omega
  · have := List.pairwise_iff_getElem.mp (hp.1 c hc) k' k b' b hgt
    omega

include hd hord

private theorem inorder_grouped : WinGrouped (groupSizes e) ps cs := by
  intro a b c q hab hbc ha hc
  obtain ⟨ca, pa, hca, hpa, hna, hsa⟩ := ha
  obtain ⟨cc, pc, hcc, hpc, hnc, hsc⟩ := hc
  have hbl : b < cs.length := by
    have := (List.getElem?_eq_some_iff.mp hcc).1
    omega
  have hcb : cs[b]? = some cs[b] := List.getElem?_eq_getElem hbl
  have hmb : cs[b] ∈ cs := List.getElem_mem hbl
  obtain ⟨pb, hpb, hsb⟩ := hd.inPackage _ hmb
  obtain ⟨q', hq'⟩ := List.mem_iff_getElem?.mp hpb
  obtain ⟨ia, hia⟩ := List.exists_mem_of_ne_nil _ hna
  obtain ⟨ib, hib⟩ := List.exists_mem_of_ne_nil _ (hd.nonempty _ hmb)
  obtain ⟨ic, hic⟩ := List.exists_mem_of_ne_nil _ hnc
  have hp := List.pairwise_lt_range (n := (groupSizes e).sum)
  rw [← hord.2, List.pairwise_flatMap] at hp
  obtain ⟨ba, ea⟩ := List.getElem?_eq_some_iff.mp hca
  obtain ⟨bc, ec⟩ := List.getElem?_eq_some_iff.mp hcc
  have h1 := List.pairwise_iff_getElem.mp hp.2 a b ba hbl hab ia (ea ▸ hia) ib hib
  have h2 := List.pairwise_iff_getElem.mp hp.2 b c hbl bc hbc ib hib ic (ec ▸ hic)
  have h3 := inorder_le hord.1 hpa hq' (hsa _ hia) (hsb _ hib) h1
  have h4 := inorder_le hord.1 hq' hpc (hsb _ hib) (hsc _ hic) h2
  have : q' = q := by omega
  subst this
  exact ⟨_, pb, hcb, hq', hd.nonempty _ hmb, hsb⟩

include h hn hr hi

/-- **C123.** If Windows lists packages, cores and threads in the order of their indices, and cores and
threads fit their fields, the APIC ids of the table increase. -/
theorem C123_increasing (hlow : LowFields e.cpu.topology) (hfit : WinFieldsFit e ps cs) (i i' : Nat)
    (x x' : Processor) (hlt : i < i') (hx : pub.processors[i]? = some x)
    (hx' : pub.processors[i']? = some x') : x.apicId < x'.apicId := by
  have hg := inorder_grouped e ps cs hd hord
  have hlen := (C121_counts e ps cs h hn hr pub hi).1.2
  have mem : ∀ i x, pub.processors[i]? = some x → ∃ c ∈ cs, i ∈ winIndices (groupSizes e) c := by
    intro i x hx
    have : i ∈ List.range (groupSizes e).sum := by
      rw [List.mem_range, ← hlen]
      exact (List.getElem?_eq_some_iff.mp hx).1
    rw [← hord.2] at this
    exact List.mem_flatMap.mp this
  obtain ⟨c, hc, hm⟩ := mem i x hx
  obtain ⟨c', hc', hm'⟩ := mem i' x' hx'
  obtain ⟨j, hj⟩ := List.mem_iff_getElem?.mp hc
  obtain ⟨j', hj'⟩ := List.mem_iff_getElem?.mp hc'
  obtain ⟨p, hp, hs⟩ := hd.inPackage c hc
  obtain ⟨p', hp', hs'⟩ := hd.inPackage c' hc'
  obtain ⟨q, hq⟩ := List.mem_iff_getElem?.mp hp
  obtain ⟨q', hq'⟩ := List.mem_iff_getElem?.mp hp'
  obtain ⟨k, _, _, _, hk⟩ := mem_winIndices hm
  obtain ⟨k', _, _, _, hk'⟩ := mem_winIndices hm'
  have hin : WinIn (groupSizes e) ps cs j q := ⟨c, p, hj, hq, hd.nonempty c hc, hs⟩
  have hin' : WinIn (groupSizes e) ps cs j' q' := ⟨c', p', hj', hq', hd.nonempty c' hc', hs'⟩
  obtain ⟨f, hf, hfj⟩ := exists_first hin
  obtain ⟨f', hf', hfj'⟩ := exists_first hin'
  obtain ⟨y, hy, ea⟩ := C123_apic e ps cs h hn hr pub hi hd hlow hg j k q f i c p hj hq hk (hs i hm) hf
  obtain ⟨y', hy', ea'⟩ := C123_apic e ps cs h hn hr pub hi hd hlow hg j' k' q' f' i' c' p' hj' hq' hk'
    (hs' i' hm') hf'
  rw [hx] at hy
  rw [hx'] at hy'
  cases hy
  cases hy'
  rw [ea, ea']
  have b1 : k < 2 ^ e.cpu.topology.threadLength :=
    Nat.lt_of_lt_of_le (List.getElem?_eq_some_iff.mp hk).1 (hfit.1 c hc)
  have b1' : k' < 2 ^ e.cpu.topology.threadLength :=
    Nat.lt_of_lt_of_le (List.getElem?_eq_some_iff.mp hk').1 (hfit.1 c' hc')
  have b2 := hfit.2 j f q hin hf
  have b2' := hfit.2 j' f' q' hin' hf'
  rw [Nat.mod_eq_of_lt b1, Nat.mod_eq_of_lt b1', Nat.mod_eq_of_lt b2, Nat.mod_eq_of_lt b2']
  have hjj := inorder_le hord.2 hj hj' hm hm' hlt
  have hqq := inorder_le hord.1 hq hq' (hs i hm) (hs' i' hm') hlt
  have digits : ∀ a a' b b' T : Nat, b < T → a < a' → a * T + b < a' * T + b' := by
    intro a a' b b' T hb ha
    have := Nat.mul_le_mul_right T (Nat.succ_le_of_lt ha)
    rw [Nat.succ_mul] at this
    omega
  rcases Nat.lt_or_eq_of_le hqq with hq1 | rfl
  · exact digits _ _ _ _ _ b1 (digits _ _ _ _ _ b2 hq1)
  · have hff : f = f' := by
      rcases Nat.lt_trichotomy f f' with hlt | rfl | hlt
      · exact absurd hf.1 (hf'.2 f hlt)
      · rfl
      · exact absurd hf'.1 (hf.2 f' hlt)
    subst hff
    rcases Nat.lt_or_eq_of_le hjj with hj1 | rfl
    · exact digits _ _ _ _ _ b1 (by omega)
    · rw [hj] at hj'
      cases hj'
      have := inorder_rank hord.2 hc hk hk' hlt
      omega

end InOrder

/-! ## C124 -/

section Ranges
variable (e : Env) (ps cs : List Info) (h : WinReports e ps cs) (hn : WinNarrow e) (hr : WinRoom e ps)
  (pub : Published) (hi : windowsInit e = some (some pub)) (hd : WinDisjoint e ps cs)
  (hcm : WinComplete e cs)
include h hn hr hi hd hcm

/-- **C124.** Core `j` starts at the lowest of its processors, counts its processors and links to its
package; if its processors have consecutive indices, its range holds exactly them. -/
theorem C124_core (j : Nat) (c : Info) (hj : cs[j]? = some c) :
    ∃ k, pub.cores[j]? = some k ∧ k.processorCount = (winIndices (groupSizes e) c).length ∧
      k.processorStart ∈ winIndices (groupSizes e) c ∧
      (∀ i ∈ winIndices (groupSizes e) c, k.processorStart ≤ i) ∧
      WinIn (groupSizes e) ps cs j k.package ∧
      ((∀ a b d, a < b → b < d → a ∈ winIndices (groupSizes e) c → d ∈ winIndices (groupSizes e) c →
        b ∈ winIndices (groupSizes e) c) →
        ∀ i, InRange k.processorStart k.processorCount i ↔ i ∈ winIndices (groupSizes e) c) := by
  have G := windowsInit_good h hn hr hi
  have x := G.exact hd
  have hjl : j < cs.length := (List.getElem?_eq_some_iff.mp hj).1
  have iff := core_iff h x hd hcm hj
  have hcin := List.mem_of_getElem? hj
  have hex : ∃ i < (groupSizes e).sum, (procOf pub.processors i).core = j := by
    obtain ⟨i, hi⟩ := List.exists_mem_of_ne_nil _ (hd.nonempty c hcin)
    exact ⟨i, (iff i).mp hi⟩
  obtain ⟨h1, h2⟩ := firstOf_least (groupSizes e).sum (fun i => (procOf pub.processors i).core) j hex
  have h3 := firstOf_lt (groupSizes e).sum (fun i => (procOf pub.processors i).core) j h.someProcessor
  refine ⟨_, G.tables.cores.2 j hjl, ?_, ?_, ?_, ?_, ?_⟩
  · exact countOf_eq _ _ _ _ (winIndices_nodup hd.cores hcin) iff
  · exact (iff _).mpr ⟨h3, h1⟩
  · intro i hi
    obtain ⟨a, b⟩ := (iff i).mp hi
    exact h2 i a b
  · exact (corePackage h x hd hcm hjl _).mp rfl
  · intro hcv i
    rw [iff]
    refine range_exact _ _ _ hex ?_ i
    intro a b d hab hbd hdn ha hdd
    exact ((iff b).mp (hcv a b d hab hbd ((iff a).mpr ⟨by omega, ha⟩) ((iff d).mpr ⟨hdn, hdd⟩))).2

/-- **C124.** Package `q` starts at the lowest of its processors and at the first of its cores, and counts
both; if its processors have consecutive indices, its range holds exactly them; if its cores follow one
another, its range of cores holds exactly them. -/
theorem C124_package (q : Nat) (p : Info) (hq : ps[q]? = some p)
    (hne : winIndices (groupSizes e) p ≠ []) :
    ∃ k, pub.packages[q]? = some k ∧ k.processorCount = (winIndices (groupSizes e) p).length ∧
      k.processorStart ∈ winIndices (groupSizes e) p ∧
      (∀ i ∈ winIndices (groupSizes e) p, k.processorStart ≤ i) ∧
      WinFirst (groupSizes e) ps cs q k.coreStart ∧
      (∀ l : List Nat, l.Nodup → (∀ j, j ∈ l ↔ WinIn (groupSizes e) ps cs j q) →
        k.coreCount = l.length) ∧
      ((∀ a b d, a < b → b < d → a ∈ winIndices (groupSizes e) p → d ∈ winIndices (groupSizes e) p →
        b ∈ winIndices (groupSizes e) p) →
        ∀ i, InRange k.processorStart k.processorCount i ↔ i ∈ winIndices (groupSizes e) p) ∧
      (WinGrouped (groupSizes e) ps cs →
        ∀ j, InRange k.coreStart k.coreCount j ↔ WinIn (groupSizes e) ps cs j q) := by
  have G := windowsInit_good h hn hr hi
  have x := G.exact hd
  have hql : q < ps.length := (List.getElem?_eq_some_iff.mp hq).1
  have iff := package_iff h x hd hcm hq
  have hcp : ∀ j < cs.length, (procOf pub.processors (firstOf (groupSizes e).sum
      (fun i => (procOf pub.processors i).core) j)).package = q ↔ WinIn (groupSizes e) ps cs j q :=
    fun j hj => corePackage h x hd hcm hj q
  have hwl : ∀ j, WinIn (groupSizes e) ps cs j q → j < cs.length := by
    rintro j ⟨c, _, hc, _⟩
    exact (List.getElem?_eq_some_iff.mp hc).1
  obtain ⟨i0, hi0⟩ := List.exists_mem_of_ne_nil _ hne
  have hex : ∃ i < (groupSizes e).sum, (procOf pub.processors i).package = q := ⟨i0, (iff i0).mp hi0⟩
  have hexc : ∃ j < cs.length, (procOf pub.processors (firstOf (groupSizes e).sum
      (fun i => (procOf pub.processors i).core) j)).package = q := by
    obtain ⟨c, hc, hic⟩ := hcm i0 ((iff i0).mp hi0).1
    obtain ⟨j, hj⟩ := List.mem_iff_getElem?.mp hc
    obtain ⟨p', hp', hs⟩ := hd.inPackage c hc
    obtain ⟨q', hq'⟩ := List.mem_iff_getElem?.mp hp'
    have hjl := (List.getElem?_eq_some_iff.mp hj).1
    refine ⟨j, hjl, (hcp j hjl).mpr ?_⟩
    have := flatMap_unique hd.packages hq' hq (hs i0 hic) hi0
    subst this
    exact ⟨c, p', hj, hq', hd.nonempty c hc, hs⟩
  obtain ⟨h1, h2⟩ := firstOf_least (groupSizes e).sum (fun i => (procOf pub.processors i).package) q hex
  have h3 := firstOf_lt (groupSizes e).sum (fun i => (procOf pub.processors i).package) q
    h.someProcessor
  obtain ⟨k1, k2⟩ := firstOf_least cs.length (fun j => (procOf pub.processors (firstOf
    (groupSizes e).sum (fun i => (procOf pub.processors i).core) j)).package) q hexc
  have k3 := firstOf_lt cs.length (fun j => (procOf pub.processors (firstOf
    (groupSizes e).sum (fun i => (procOf pub.processors i).core) j)).package) q
    (List.length_pos_iff.mpr h.someCore)
  refine ⟨_, G.tables.packages.2 q hql, ?_, ?_, ?_, ?_, ?_, ?_, ?_⟩
  · exact countOf_eq _ _ _ _ (winIndices_nodup hd.packages (List.mem_of_getElem? hq)) iff
  · exact (iff _).mpr ⟨h3, h1⟩
  · intro i hi
    obtain ⟨a, b⟩ := (iff i).mp hi
    exact h2 i a b
  · refine ⟨(hcp _ k3).mp k1, ?_⟩
    intro j hj hw
    have := k2 j (hwl j hw) ((hcp j (hwl j hw)).mpr hw)
    exact absurd hj (Nat.not_lt.mpr this)
  · intro l hl hmem
    refine countOf_eq _ _ _ _ hl ?_
    intro j
    rw [hmem]
    exact ⟨fun hw => ⟨hwl j hw, (hcp j (hwl j hw)).mpr hw⟩, fun ⟨a, b⟩ => (hcp j a).mp b⟩
  · intro hcv i
    rw [iff]
    refine range_exact _ _ _ hex ?_ i
    intro a b d hab hbd hdn ha hdd
    exact ((iff b).mp (hcv a b d hab hbd ((iff a).mpr ⟨by omega, ha⟩) ((iff d).mpr ⟨hdn, hdd⟩))).2
  · intro hgr j
    rw [range_exact _ _ _ hexc (by
      intro a b d hab hbd hdn ha hdd
      have ha' := (hcp a (by omega)).mp ha
      have hd' := (hcp d hdn).mp hdd
      exact (hcp b (by omega)).mpr (hgr a b d q hab hbd ha' hd')) j]
    exact ⟨fun ⟨a, b⟩ => (hcp j a).mp b, fun hw => ⟨hwl j hw, (hcp j (hwl j hw)).mpr hw⟩⟩

/-- **C124.** The id of a core in its package is its distance from the first core, as far as the field of
the core in the APIC id goes. -/
theorem C124_core_id (hlow : LowFields e.cpu.topology) (hg : WinGrouped (groupSizes e) ps cs)
    (j q f : Nat) (hj : WinIn (groupSizes e) ps cs j q) (hf : WinFirst (groupSizes e) ps cs q f) :
    ∃ k, pub.cores[j]? = some k ∧ k.coreId = (j - f) % 2 ^ e.cpu.topology.coreLength := by
  have G := windowsInit_good h hn hr hi
  obtain ⟨c, p, hcj, hpq, _, hin⟩ := hj
  have hj : WinIn (groupSizes e) ps cs j q := ⟨c, p, hcj, hpq, ‹_›, hin⟩
  have hjl : j < cs.length := (List.getElem?_eq_some_iff.mp hcj).1
  obtain ⟨y, hy, hyc, hst, _⟩ := C124_core e ps cs h hn hr pub hi hd hcm j c hcj
  have hy' := G.tables.cores.2 j hjl
  dsimp only at hy'
  rw [hy] at hy'
  cases hy'
  obtain ⟨k, _, _, _, hk⟩ := mem_winIndices hst
  obtain ⟨z, hz, hza⟩ := C123_apic e ps cs h hn hr pub hi hd hlow hg j k q f _ c p hcj hpq hk
    (hin _ hst) hf
  refine ⟨_, hy, ?_⟩
  dsimp only at hz ⊢
  rw [procOf_get hz, hza, hlow.2, Nat.and_comm, mask_mod, Nat.shiftRight_eq_div_pow]
  have hT : 0 < 2 ^ e.cpu.topology.threadLength := Nat.pow_pos (by omega)
  have hk' : k % 2 ^ e.cpu.topology.threadLength < 2 ^ e.cpu.topology.threadLength := Nat.mod_lt _ hT
  rw [Nat.mul_comm _ (2 ^ e.cpu.topology.threadLength), Nat.mul_add_div hT, Nat.div_eq_of_lt hk',
    Nat.add_zero, Nat.mul_add_mod_self_right, Nat.mod_mod]

end Ranges

/-! ## C125 -/

section Clusters
variable (e : Env) (ps cs : List Info) (h : WinReports e ps cs) (hn : WinNarrow e) (hr : WinRoom e ps)
  (pub : Published) (hi : windowsInit e = some (some pub))
include h hn hr hi

private theorem win_cluster (i : Nat) : (procOf pub.processors i).cluster = 0 := by
  have g := windowsInit_good h hn hr hi
  unfold procOf
  cases hx : pub.processors[i]? with
  | none => rfl
  | some x => exact (g.detected.entries x (List.mem_of_getElem? hx)).cluster

/-- **C125, what holds.** With one package, the single cluster holds all processors and all cores, belongs
to package 0, and everything links to it.  Missing for the full claim: several packages, where it is false,
see `C125_violated`. -/
theorem C125_one_package_partial (h1 : ps.length = 1) :
    pub.clusters = [⟨0, pub.processors.length, 0, pub.cores.length, 0, 0⟩] ∧
    (∀ p ∈ pub.processors, p.cluster = 0 ∧ p.package = 0) ∧
    (∀ c ∈ pub.cores, c.cluster = 0 ∧ c.package = 0) := by
  have g := windowsInit_good h hn hr hi
  obtain ⟨⟨_, hp⟩, ⟨_, hc⟩, ⟨_, hl⟩, ⟨_, hk⟩⟩ := C121_counts e ps cs h hn hr pub hi
  have hz := win_cluster e ps cs h hn hr pub hi
  have first : ∀ n, firstOf n (fun _ => 0) 0 = 0 := by
    intro n
    have := firstOf_least (n + 1) (fun _ => 0) 0 ⟨0, by omega, rfl⟩
    rcases Nat.eq_zero_or_pos n with rfl | h
    · rfl
    · have := (firstOf_least n (fun _ => 0) 0 ⟨0, h, rfl⟩).2 0 h rfl
      omega
  have count : ∀ n, countOf n (fun _ => 0) 0 = n := by
    intro n
    unfold countOf
    rw [List.countP_eq_length.mpr (by simp), List.length_range]
  refine ⟨?_, ?_, ?_⟩
  · have := g.tables.clusters.2 0 (by omega)
    dsimp only at this
    simp only [hz, first, count] at this
    rw [hp, hc]
    match hcl : pub.clusters with
    | [] => rw [hcl] at hl; simp at hl; omega
    | [a] =>
      rw [hcl, List.getElem?_cons_zero] at this
      rw [Option.some.inj this]
    | a :: b :: l => rw [hcl] at hl; simp at hl; omega
  · intro p hpm
    have := g.detected.entries p hpm
    have h2 := this.package
    exact ⟨this.cluster, by omega⟩
  · intro c hcm
    obtain ⟨j, hj⟩ := List.mem_iff_getElem?.mp hcm
    have hjl : j < cs.length := by rw [← hc]; exact (List.getElem?_eq_some_iff.mp hj).1
    have h2 := (C121_links_resolve e ps cs h hn hr pub hi).2 c hcm
    have := g.tables.cores.2 j hjl
    dsimp only at this
    rw [hj] at this
    cases this
    exact ⟨hz _, by have := h2.2.1; omega⟩

/-- **C125 is violated on every machine with several packages.**  No processor has a link to the cluster of
its package: all link to cluster 0, which belongs to package 0; the other clusters, which the packages list
as theirs, hold no processors and no cores. -/
theorem C125_violated (q : Nat) (h0 : 0 < q) (hq : q < ps.length) :
    (∀ p ∈ pub.processors, p.package = q → ∃ l, pub.clusters[p.cluster]? = some l ∧ l.package ≠ q) ∧
    ∃ k l, pub.packages[q]? = some k ∧ k.clusterStart = q ∧ k.clusterCount = 1 ∧
      pub.clusters[q]? = some l ∧ l.package = q ∧ l.processorCount = 0 ∧ l.coreCount = 0 := by
  have g := windowsInit_good h hn hr hi
  have hz := win_cluster e ps cs h hn hr pub hi
  have count : ∀ n, countOf n (fun _ => 0) q = 0 := by
    intro n
    unfold countOf
    rw [List.countP_eq_zero]
    intro a _
    simp
    omega
  constructor
  · intro p hp _
    have := (g.detected.entries p hp).cluster
    rw [this]
    refine ⟨_, g.tables.clusters.2 0 (by omega), ?_⟩
    dsimp only
    omega
  · refine ⟨_, _, g.tables.packages.2 q hq, rfl, rfl, g.tables.clusters.2 q hq, rfl, ?_, ?_⟩
    · simp only [hz, count]
    · simp only [hz, count]

/-! ## C126 -/

/-- **C126 is violated whenever Windows allows for more processors than it reports** (the groups' maximal
sizes include processors that can be added later).  Such an entry is published as a processor of package 0
and core 0 with group 0 and number 0: if processor 0 of group 0 is reported, it appears twice. -/
theorem C126_violated (hd : WinDisjoint e ps cs) (i : Nat) (hil : i < (groupSizes e).sum)
    (hp : ∀ p ∈ ps, i ∉ winIndices (groupSizes e) p)
    (hc : ∀ c ∈ cs, i ∉ winIndices (groupSizes e) c) :
    ∃ x, pub.processors[i]? = some x ∧ x.groupId = 0 ∧ x.processorId = 0 ∧ x.core = 0 ∧
      x.package = 0 ∧
      ∀ c ∈ cs, (0, 0) ∈ winMembers c →
        i ≠ 0 ∧ ∃ y, pub.processors[0]? = some y ∧ y.groupId = 0 ∧ y.processorId = 0 := by
  have g := windowsInit_good h hn hr hi
  refine ⟨_, (g.exact hd).unreported i hil hp hc, rfl, rfl, rfl, rfl, ?_⟩
  intro c hcs h0
  have hm0 : (0 : Nat) ∈ winIndices (groupSizes e) c :=
    List.mem_map.mpr ⟨(0, 0), h0, by simp [winIndex]⟩
  refine ⟨?_, ?_⟩
  · rintro rfl
    exact hc c hcs hm0
  · obtain ⟨j, hj⟩ := List.mem_iff_getElem?.mp hcs
    obtain ⟨k, hk⟩ := List.mem_iff_getElem?.mp h0
    obtain ⟨p, hpm, hs⟩ := hd.inPackage c hcs
    obtain ⟨q, hq⟩ := List.mem_iff_getElem?.mp hpm
    have := (g.exact hd).reported j k q c p (0, 0) hj hk hq
      (hs _ (List.mem_map.mpr ⟨(0, 0), h0, rfl⟩))
    rw [show winIndex (groupSizes e) 0 0 = 0 by simp [winIndex]] at this
    exact ⟨_, this, rfl, rfl⟩

/-- **C126, what holds.** If every processor is in a core, different entries have different pairs of group
and number.  Missing for the full claim: processors that are not reported, see `C126_violated`. -/
theorem C126_distinct_partial (hd : WinDisjoint e ps cs) (hcm : WinComplete e cs)
    (hgroups : e.wine = true ∨ e.groupCount < 65536) (i i' : Nat) (x x' : Processor)
    (hx : pub.processors[i]? = some x) (hx' : pub.processors[i']? = some x')
    (hg : x.groupId = x'.groupId) (hb : x.processorId = x'.processorId) : i = i' := by
  have hlen := (C121_counts e ps cs h hn hr pub hi).1.2
  have key : ∀ (i : Nat) (x : Processor), pub.processors[i]? = some x →
      i = ((groupSizes e).take x.groupId).sum + x.processorId := by
    intro i x hx
    have hlt : i < (groupSizes e).sum := by rw [← hlen]; exact (List.getElem?_eq_some_iff.mp hx).1
    obtain ⟨c, hc, hic⟩ := hcm i hlt
    obtain ⟨j, hj⟩ := List.mem_iff_getElem?.mp hc
    obtain ⟨p, hp, hs⟩ := hd.inPackage c hc
    obtain ⟨q, hq⟩ := List.mem_iff_getElem?.mp hp
    obtain ⟨k, m, hk, hm, _⟩ := mem_winIndices hic
    have hip := hs i hic
    obtain ⟨_, m', hk', hm', _⟩ := mem_winIndices hip
    have hmm : m = m' := by
      obtain ⟨_, _, _, n1, a1, a2⟩ := visitsOf_lt _ c (h.fitsCores c hc)
        ⟨m.1, m.2, winIndex (groupSizes e) m.1 m.2⟩ (List.mem_map.mpr ⟨m, List.mem_of_getElem? hk, rfl⟩)
      obtain ⟨_, _, _, n2, b1, b2⟩ := visitsOf_lt _ p (h.fitsPackages p hp)
        ⟨m'.1, m'.2, winIndex (groupSizes e) m'.1 m'.2⟩
        (List.mem_map.mpr ⟨m', List.mem_of_getElem? hk', rfl⟩)
      have := winIndex_inj a1 a2 b1 b2 (hm.trans hm'.symm)
      exact Prod.ext this.1 this.2
    subst hmm
    obtain ⟨y, hy, _, _, _, e1, e2⟩ := C122_processors e ps cs h hn hr pub hi hd hgroups j k q m.1 m.2 c p
      hj hk hq (List.mem_of_getElem? hk')
    rw [show ((groupSizes e).take m.1).sum + m.2 = i from hm, hx] at hy
    cases hy
    rw [e1, e2]
    exact hm.symm
  rw [key i x hx, key i' x' hx', hg, hb]

/-! ## C127 -/

private theorem win_level (d : CacheDesc) (lv : CacheLevel) (hlv : WinLevel e.cpu pub d lv) :
    LevelFor (fun i => (procOf pub.processors i).apicId) pub.processors.length d lv := by
  have f := (windowsInit_good h hn hr hi).finished
  cases hlv
  · exact f.l1i
  · exact f.l1d
  · exact f.l2
  · exact f.l3
  · exact f.l4

/-- **C127.** For each cache level with a non-zero size: the ranges of its caches partition the processors,
the count is the number of caches, every cache has the geometry CPUID gave, and a cache's range holds
exactly the processors linked to it; neighbours in the table share a cache exactly when their APIC ids
agree from the level's sharing bits upwards. -/
theorem C127_caches (d : CacheDesc) (lv : CacheLevel) (hlv : WinLevel e.cpu pub d lv)
    (hsize : d.size ≠ 0) :
    Consecutive 0 (lv.table.map fun c => (c.processorStart, c.processorCount))
      pub.processors.length ∧
    lv.count = lv.table.length ∧ lv.links.length = pub.processors.length ∧
    (∀ c ∈ lv.table, c.size = d.size ∧ c.associativity = d.associativity ∧ c.sets = d.sets ∧
      c.partitions = d.partitions ∧ c.lineSize = d.lineSize ∧ c.flags = d.flags) ∧
    (∀ i < pub.processors.length, ∃ g : Nat, lv.links[i]? = some (some g)) ∧
    (∀ (g : Nat) (c : Cache), lv.table[g]? = some c →
      ∀ i, InRange c.processorStart c.processorCount i ↔ lv.links[i]? = some (some g)) ∧
    (∀ (i : Nat) (p q : Processor), pub.processors[i]? = some p → pub.processors[i + 1]? = some q →
      (lv.links[i]? = lv.links[i + 1]? ↔ AgreeFrom d.apicBits p.apicId q.apicId)) ∧
    ((∀ (i j : Nat) (p q : Processor), i ≤ j → pub.processors[i]? = some p →
        pub.processors[j]? = some q → p.apicId ≤ q.apicId) →
      ∀ (i j : Nat) (p q : Processor), pub.processors[i]? = some p → pub.processors[j]? = some q →
        (lv.links[i]? = lv.links[j]? ↔ AgreeFrom d.apicBits p.apicId q.apicId)) := by
  have G := windowsInit_good h hn hr hi
  have hpos : 0 < pub.processors.length := by rw [G.detected.length]; exact h.someProcessor
  have hapic : ∀ k, (procOf pub.processors k).apicId < U32 := by
    intro k
    unfold procOf
    cases hx : pub.processors[k]? with
    | none => exact Nat.zero_lt_succ _
    | some x =>
      have := (G.detected.entries x (List.mem_of_getElem? hx)).apic_lt hr
      have e1 : U32 = U32MAX + 1 := rfl
      show x.apicId < U32
      omega
  cases win_level e ps cs h hn hr pub hi d lv hlv with
  | absent h0 => exact absurd h0 hsize
  | present x hN ha hxd hc ht hl =>
    have hpos : 0 < x.N := by rw [hN]; exact hpos
    have link : ∀ i < x.N, lv.links[i]? = some (some (gi x.c i)) := by
      intro i hi
      have := hl.done i hi
      rwa [X86Init.gi_true] at this
    have hb : IsHighMask d.apicBits x.km := by
      rw [x.hkm, ← hxd]; exact X86Init.not32_bitMask x.hb
    rw [← hN]
    refine ⟨ht.consecutive hpos _ fun _ => rfl, by rw [hc, ht.length], hl.length, ?_, ?_, ?_, ?_, ?_⟩
    · intro y hy
      obtain ⟨k, hk⟩ := List.mem_iff_getElem?.mp hy
      obtain ⟨j, hj, rfl, rfl⟩ := ht.full hpos hk
      simp [CacheCtx.cacheE, hxd]
    · intro i hi
      exact ⟨_, link i hi⟩
    · intro k y hk i
      obtain ⟨j, hj, rfl, rfl⟩ := ht.full hpos hk
      have hm := mem_run x.c x.N j hj i
      constructor
      · intro hr
        obtain ⟨h1, h2⟩ := hm.mpr hr
        rw [link i h1, h2]
      · intro hr
        have hi : i < x.N := hl.lt hr
        rw [link i hi] at hr
        exact hm.mp ⟨hi, by simpa using hr⟩
    · intro i p q hp hq
      have hi1 : i + 1 < x.N := by rw [hN]; exact (List.getElem?_eq_some_iff.mp hq).1
      rw [link i (by omega), link (i + 1) hi1, Option.some.injEq, Option.some.injEq]
      have e1 : x.a i = p.apicId := by rw [ha]; dsimp only; rw [procOf_get hp]
      have e2 : x.a (i + 1) = q.apicId := by rw [ha]; dsimp only; rw [procOf_get hq]
      have hag := X86Init.key_agree hb (a := x.a i) (b := x.a (i + 1)) (by rw [ha]; exact hapic _)
        (by rw [ha]; exact hapic _)
      rw [← e1, ← e2, ← hag]
      by_cases hk : x.a i &&& x.km = x.a (i + 1) &&& x.km
      · have : x.c (i + 1) = false := by simp [CacheCtx.c, byKey, hk]
        rw [gi_succ_old this]
        exact ⟨fun _ => hk, fun _ => rfl⟩
      · have : x.c (i + 1) = true := by simp [CacheCtx.c, byKey, Ne.symm hk]
        rw [gi_succ_new this]
        exact ⟨(fun hh => by omega), fun hh => absurd hh hk⟩
    · intro hmono i j p q hp hq
      have hi1 : i < x.N := by rw [hN]; exact (List.getElem?_eq_some_iff.mp hp).1
      have hj1 : j < x.N := by rw [hN]; exact (List.getElem?_eq_some_iff.mp hq).1
      have e1 : x.a i = p.apicId := by rw [ha]; dsimp only; rw [procOf_get hp]
      have e2 : x.a j = q.apicId := by rw [ha]; dsimp only; rw [procOf_get hq]
      rw [link i hi1, link j hj1, Option.some.injEq, Option.some.injEq, ← e1, ← e2]
      refine X86Init.same_run x.N x.a (by rw [ha]; exact hapic) ?_ _ _ hb i j hi1 hj1
      intro a b hab hbN
      have h1 : pub.processors[a]? = some (procOf pub.processors a) := by
        unfold procOf
        rw [List.getElem?_eq_getElem (by omega)]
        rfl
      have h2 : pub.processors[b]? = some (procOf pub.processors b) := by
        unfold procOf
        rw [List.getElem?_eq_getElem (by omega)]
        rfl
      rw [ha]
      exact hmono a b _ _ hab h1 h2

/-- **C127.** A level of size zero has no caches and no processor links to it. -/
theorem C127_absent_level (d : CacheDesc) (lv : CacheLevel) (hlv : WinLevel e.cpu pub d lv)
    (hsize : d.size = 0) :
    lv.count = 0 ∧ lv.table = [] ∧ ∀ i < pub.processors.length, lv.links[i]? = some none := by
  cases win_level e ps cs h hn hr pub hi d lv hlv with
  | absent h0 hc ht hl =>
    refine ⟨hc, ht, ?_⟩
    intro i hi
    rw [hl]
    simp [hi]
  | present x hN ha hd => exact absurd (by rw [hd]; exact hsize) x.hsize

/-- **C127.** The published maximum cache size is the size of the last-level data or unified cache: L4 if
there is one, else L3, else L2, else L1 data, else 0. -/
theorem C127_max_cache_size :
    (e.cpu.l4.size ≠ 0 → pub.maxCacheSize = e.cpu.l4.size) ∧
    (e.cpu.l4.size = 0 → e.cpu.l3.size ≠ 0 → pub.maxCacheSize = e.cpu.l3.size) ∧
    (e.cpu.l4.size = 0 → e.cpu.l3.size = 0 → e.cpu.l2.size ≠ 0 →
      pub.maxCacheSize = e.cpu.l2.size) ∧
    (e.cpu.l4.size = 0 → e.cpu.l3.size = 0 → e.cpu.l2.size = 0 →
      pub.maxCacheSize = e.cpu.l1d.size) := by
  rw [(windowsInit_good h hn hr hi).finished.maxCacheSize]
  refine ⟨?_, ?_, ?_, ?_⟩
  · intro h4; simp [h4, X86Init.computeMaxCacheSize]
  · intro h4 h3; simp [h4, h3, X86Init.computeMaxCacheSize]
  · intro h4 h3 h2; simp [h4, h3, h2, X86Init.computeMaxCacheSize]
  · intro h4 h3 h2
    by_cases h1 : e.cpu.l1d.size = 0 <;> simp [h4, h3, h2, h1, X86Init.computeMaxCacheSize]

end Clusters

/-! ## Examples -/

/-- A cache of the example. -/
def winCache (size bits : Nat) : CacheDesc := ⟨size, 8, 64, 1, 64, 0, bits⟩

/-- A machine with two groups of four processors, one package of two cores with two threads in each. -/
def winEnv : Env :=
  { wine := false, groupCount := 2, maxCount := fun _ => 4, sizesKnown := true
    packages := some [⟨3, [⟨0, 15⟩]⟩, ⟨3, [⟨1, 15⟩]⟩]
    cores := some [⟨0, [⟨0, 3⟩]⟩, ⟨0, [⟨0, 12⟩]⟩, ⟨0, [⟨1, 3⟩]⟩, ⟨0, [⟨1, 12⟩]⟩]
    cpu := ⟨⟨0, 1, 1, 1⟩, winCache 32768 1, winCache 32768 1, winCache 262144 1, winCache 8388608 2,
      winCache 0 0⟩
    alloc := fun _ => true }

/-- The package records of `winEnv`. -/
def winPackages : List Info := [⟨3, [⟨0, 15⟩]⟩, ⟨3, [⟨1, 15⟩]⟩]
/-- The core records of `winEnv`. -/
def winCores : List Info :=
  [⟨0, [⟨0, 3⟩]⟩, ⟨0, [⟨0, 12⟩]⟩, ⟨0, [⟨1, 3⟩]⟩, ⟨0, [⟨1, 12⟩]⟩]

/-- A part of the published tables. -/
def winPublished {β : Type} (e : Env) (f : Published → β) : Option β :=
  ((windowsInit e).bind id).map f

/-- Non-vacuity of C121–C127: detection of `winEnv` publishes these tables. -/
example :
    winPublished winEnv (·.processors) = some
      [⟨0, 0, 0, 0, 0, 0, 0⟩, ⟨1, 0, 0, 0, 0, 1, 1⟩, ⟨0, 1, 0, 0, 0, 2, 2⟩, ⟨1, 1, 0, 0, 0, 3, 3⟩,
       ⟨0, 2, 0, 1, 1, 0, 4⟩, ⟨1, 2, 0, 1, 1, 1, 5⟩, ⟨0, 3, 0, 1, 1, 2, 6⟩, ⟨1, 3, 0, 1, 1, 3, 7⟩] ∧
    winPublished winEnv (·.cores) = some
      [⟨0, 2, 0, 0, 0⟩, ⟨2, 2, 1, 0, 0⟩, ⟨4, 2, 0, 0, 1⟩, ⟨6, 2, 1, 0, 1⟩] ∧
    winPublished winEnv (·.clusters) = some [⟨0, 8, 0, 4, 0, 0⟩, ⟨0, 0, 0, 0, 0, 1⟩] ∧
    winPublished winEnv (·.packages) = some [⟨0, 4, 0, 2, 0, 1⟩, ⟨4, 4, 2, 2, 1, 1⟩] ∧
    winPublished winEnv (·.l3.links) = some
      [some 0, some 0, some 0, some 0, some 1, some 1, some 1, some 1] ∧
    winPublished winEnv (·.maxCacheSize) = some 8388608 :=
  ⟨by decide +kernel, by decide +kernel, by decide +kernel, by decide +kernel, by decide +kernel,
    by decide +kernel⟩

private theorem win_fits : ∀ i ∈ winPackages ++ winCores, WinFits (groupSizes winEnv) i := by
  have key : ∀ i ∈ winPackages ++ winCores, ∀ g ∈ i.groups, g.mask < 16 ∧ g.group < 2 := by decide
  intro i hi g hg
  obtain ⟨h1, h2⟩ := key i hi g hg
  refine ⟨by omega, 4, ?_, ?_⟩
  · have : g.group = 0 ∨ g.group = 1 := by omega
    rcases this with h | h <;> rw [h] <;> decide
  · intro b hb
    have : ∀ m < 16, ∀ b, 4 ≤ b → m.testBit b = false := by
      intro m hm b hb
      exact Nat.testBit_lt_two_pow (Nat.lt_of_lt_of_le hm
        (show 2 ^ 4 ≤ 2 ^ b from Nat.pow_le_pow_right (by omega) hb))
    rcases Nat.lt_or_ge b 4 with h | h
    · exact h
    · rw [this _ h1 b h] at hb; cases hb

/-- `winEnv` answers with these records. -/
theorem win_reports : WinReports winEnv winPackages winCores where
  packages := ⟨_, rfl, rfl⟩
  cores := ⟨_, rfl, rfl⟩
  total := by decide
  fitsPackages := fun i hi => win_fits i (List.mem_append_left _ hi)
  fitsCores := fun i hi => win_fits i (List.mem_append_right _ hi)
  somePackage := by decide
  someCore := by decide
  fewPackages := by decide
  fewCores := by decide
  someProcessor := by decide

/-- The hypotheses hold for `winEnv`. -/
example : WinReports winEnv winPackages winCores ∧ WinNarrow winEnv ∧ WinRoom winEnv winPackages ∧
    LowFields winEnv.cpu.topology ∧ WinInOrder winEnv winPackages winCores :=
  ⟨win_reports, by unfold WinNarrow; decide, by unfold WinRoom; decide, ⟨rfl, rfl⟩,
    by decide +kernel, by decide +kernel⟩

/-- No processor of `winEnv` is in two records. -/
theorem win_disjoint : WinDisjoint winEnv winPackages winCores where
  packages := by decide +kernel
  cores := by decide +kernel
  nonempty := by decide +kernel
  inPackage := by decide +kernel

example : WinComplete winEnv winCores := by unfold WinComplete; decide +kernel

private def winInside (j q : Nat) : Bool :=
  match winCores[j]?, winPackages[q]? with
  | some c, some p => (winIndices (groupSizes winEnv) c).all fun i =>
      (winIndices (groupSizes winEnv) p).contains i
  | _, _ => false

private theorem winIn_iff (j q : Nat) :
    WinIn (groupSizes winEnv) winPackages winCores j q ↔ j < 4 ∧ q = j / 2 := by
  constructor
  · rintro ⟨c, p, hc, hp, hn, hs⟩
    have hj : j < 4 := (List.getElem?_eq_some_iff.mp hc).1
    have hq : q < 2 := (List.getElem?_eq_some_iff.mp hp).1
    refine ⟨hj, ?_⟩
    have key : ∀ j < 4, ∀ q < 2, winInside j q = true → q = j / 2 := by decide +kernel
    refine key j hj q hq ?_
    unfold winInside
    rw [hc, hp]
    simpa using hs
  · rintro ⟨hj, rfl⟩
    have key : ∀ j < 4, ∃ c ∈ winCores, ∃ p ∈ winPackages, winCores[j]? = some c ∧
        winPackages[j / 2]? = some p ∧ winIndices (groupSizes winEnv) c ≠ [] ∧
        ∀ i ∈ winIndices (groupSizes winEnv) c, i ∈ winIndices (groupSizes winEnv) p := by
      decide +kernel
    obtain ⟨c, _, p, _, h⟩ := key j hj
    exact ⟨c, p, h⟩

example : WinGrouped (groupSizes winEnv) winPackages winCores ∧
    WinFieldsFit winEnv winPackages winCores := by
  refine ⟨?_, by decide +kernel, ?_⟩
  · intro a b c q hab hbc ha hc
    rw [winIn_iff] at *
    omega
  · intro j f q hj hf
    have hf := hf.1
    rw [winIn_iff] at hj hf
    show j - f < 2
    omega

/-- Windows answers without package records. -/
def winNoPackages : Env := { winEnv with packages := some [] }

/-- **C121 is violated.** If the answer to the query for packages has no records (or only of other kinds),
detection does not fail: it writes to the first element of an empty table. -/
theorem C121_violated :
    ∃ e : Env, (∀ i, e.alloc i = true) ∧ e.sizesKnown = true ∧ (∃ l, e.cores = some l ∧ l ≠ []) ∧
      e.packages = some [] ∧ windowsInit e = none :=
  ⟨winNoPackages, fun _ => rfl, rfl, ⟨_, rfl, by decide⟩, rfl, by decide +kernel⟩

/-- One group that allows for four processors, of which two exist. -/
def winHotAdd : Env :=
  { winEnv with
    groupCount := 1, packages := some [⟨3, [⟨0, 3⟩]⟩], cores := some [⟨0, [⟨0, 1⟩]⟩, ⟨0, [⟨0, 2⟩]⟩] }

/-- Non-vacuity of `C126_violated`: processor 0 of group 0 is listed three times. -/
example : winPublished winHotAdd (·.processors.map fun p => (p.groupId, p.processorId)) =
    some [(0, 0), (0, 1), (0, 0), (0, 0)] := by decide +kernel

end Verif.Props
