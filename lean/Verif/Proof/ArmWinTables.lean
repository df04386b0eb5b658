import Verif.Proof.ArmWinCaches

/-!
# The tables of cores, clusters, packages and kinds of cores on ARM Windows
-/

set_option autoImplicit false

namespace Verif.ArmWin
open Spec
open Windows (group_step firstOf countOf firstOf_lt foldlM_snoc modify_ok)
open X86Init (modify?)

theorem loop_snoc {α σ : Type} (f : σ → α → Option (Option σ)) (a : α) (l : List α) (s s1 : σ)
    (h : loop f l s = some (some s1)) : loop f (l ++ [a]) s = f s1 a := by
  induction l generalizing s with
  | nil =>
    cases h
    show ifOk (f s1 a) _ = f s1 a
    cases f s1 a with
    | none => rfl
    | some x => cases x <;> rfl
  | cons b l ih =>
    rw [List.cons_append, loop]
    rw [loop] at h
    cases hb : f s b with
    | none => rw [hb] at h; cases h
    | some x =>
      cases x with
      | none => rw [hb] at h; cases h
      | some s' =>
        rw [hb] at h
        exact ih s' h

/-! ## Processors -/

/-- The first element and the number of elements, as the loop records them. -/
def coreRange (o : Option Nat) (n : Nat) (c : Core) : Core :=
  { c with processorStart := o.getD c.processorStart, processorCount := c.processorCount + n }
@[inherit_doc coreRange] def clusterRange (o : Option Nat) (n : Nat) (c : Cluster) : Cluster :=
  { c with processorStart := o.getD c.processorStart, processorCount := c.processorCount + n }
@[inherit_doc coreRange] def packageRange (name : Bytes) (o : Option Nat) (n : Nat) (c : Package) :
    Package :=
  { c with name := (o.map fun _ => name).getD c.name
           processorStart := o.getD c.processorStart, processorCount := c.processorCount + n }

theorem processorLoop_ok (ps : List Processor) (kc kp : Nat → Nat) (name : Bytes) (nc np : Nat)
    (t : Tables) (hcl : t.cores.length = nc) (hll : t.clusters.length = nc) (hpl : t.packages.length = np)
    (l : List Nat)
    (hl : ∀ i ∈ l, ∃ p, ps[i]? = some p ∧ p.core = some (kc i) ∧ p.cluster = kc i ∧ p.package = kp i ∧
      kc i < nc ∧ kp i < np) :
    ∃ t', loop (connectProcessor ps np nc (some name)) l.reverse t = some (some t') ∧
      t'.cores.length = nc ∧ t'.clusters.length = nc ∧ t'.packages.length = np ∧
      (∀ g c, t.cores[g]? = some c → t'.cores[g]? =
        some (coreRange (l.find? fun i => kc i == g) (l.countP fun i => kc i == g) c)) ∧
      (∀ g c, t.clusters[g]? = some c → t'.clusters[g]? =
        some (clusterRange (l.find? fun i => kc i == g) (l.countP fun i => kc i == g) c)) ∧
      (∀ g c, t.packages[g]? = some c → t'.packages[g]? =
        some (packageRange name (l.find? fun i => kp i == g) (l.countP fun i => kp i == g) c)) := by
  induction l with
  | nil => exact ⟨t, rfl, hcl, hll, hpl, fun _ _ h => h, fun _ _ h => h, fun _ _ h => h⟩
  | cons a l ih =>
    obtain ⟨t1, h1, h2, h3, h4, h5, h6, h7⟩ := ih fun i hi => hl i (.tail _ hi)
    obtain ⟨p, hp, e1, e2, e3, b1, b2⟩ := hl a (.head _)
    obtain ⟨c2, m1, m2, m3⟩ := group_step coreRange
      (fun i (q : Core) => { q with processorStart := i, processorCount := q.processorCount + 1 })
      (fun _ _ _ _ => rfl) kc l a t.cores t1.cores (by omega) (by omega) h5
    obtain ⟨l2, n1, n2, n3⟩ := group_step clusterRange
      (fun i (q : Cluster) => { q with processorStart := i, processorCount := q.processorCount + 1 })
      (fun _ _ _ _ => rfl) kc l a t.clusters t1.clusters (by omega) (by omega) h6
    obtain ⟨p2, o1, o2, o3⟩ := group_step (packageRange name)
      (fun i (q : Package) => { q with
        name, processorStart := i, processorCount := q.processorCount + 1 })
      (fun _ _ _ _ => rfl) kp l a t.packages t1.packages (by omega) (by omega) h7
    refine ⟨⟨c2, l2, p2⟩, ?_, by rw [m2, hcl], by rw [n2, hll], by rw [o2, hpl], m3, n3, o3⟩
    rw [List.reverse_cons, loop_snoc _ a _ t t1 h1]
    unfold connectProcessor
    rw [hp]
    dsimp only
    rw [e3, e2, if_neg (by omega), if_neg (by omega)]
    simp only [Option.bind_eq_bind, Option.bind_some, e1, o1, n1, m1, Option.pure_def]

/-! ## Cores -/

/-- What the loop over cores leaves in a cluster whose first core is `o`. -/
def clusterCores (chip : Chip) (pk : Nat → Nat) (o : Option Nat) (n : Nat) (c : Cluster) : Cluster :=
  match o with
  | none => { c with coreCount := c.coreCount + n }
  | some i => { c with coreStart := i, coreCount := c.coreCount + n, package := some (pk i)
                       vendor := chip.vendor, uarch := chip.uarch, frequency := chip.frequency }
@[inherit_doc clusterCores] def packageCores (o : Option Nat) (n : Nat) (c : Package) : Package :=
  match o with
  | none => { c with coreCount := c.coreCount + n }
  | some i => { c with coreStart := i, coreCount := c.coreCount + n, clusterStart := i
                       clusterCount := c.coreCount + n }

theorem coreLoop_ok (ps : List Processor) (chip : Chip) (kl pk : Nat → Nat) (t : Tables) (l : List Nat)
    (hl : ∀ i ∈ l, ∃ c p, t.cores[i]? = some c ∧ c.uarch = chip.uarch ∧ c.frequency = chip.frequency ∧
      ps[c.processorStart]? = some p ∧ p.cluster = kl i ∧ p.package = pk i ∧
      kl i < t.clusters.length ∧ pk i < t.packages.length) :
    ∃ t', l.reverse.foldlM (connectCore ps chip.vendor) t = some t' ∧
      t'.cores.length = t.cores.length ∧ t'.clusters.length = t.clusters.length ∧
      t'.packages.length = t.packages.length ∧
      (∀ g c, t.cores[g]? = some c → t'.cores[g]? = some (if g ∈ l then
        { c with package := pk g, cluster := kl g, vendor := chip.vendor } else c)) ∧
      (∀ g c, t.clusters[g]? = some c → t'.clusters[g]? =
        some (clusterCores chip pk (l.find? fun i => kl i == g) (l.countP fun i => kl i == g) c)) ∧
      (∀ g c, t.packages[g]? = some c → t'.packages[g]? =
        some (packageCores (l.find? fun i => pk i == g) (l.countP fun i => pk i == g) c)) := by
  induction l with
  | nil =>
    exact ⟨t, rfl, rfl, rfl, rfl, fun _ _ h => by rw [if_neg (by simp)]; exact h, fun _ _ h => h,
      fun _ _ h => h⟩
  | cons a l ih =>
    obtain ⟨t1, h1, h2, h3, h4, h5, h6, h7⟩ := ih fun i hi => hl i (.tail _ hi)
    obtain ⟨c, p, hc, hu, hfr, hp, e1, e2, b1, b2⟩ := hl a (.head _)
    obtain ⟨l2, n1, n2, n3⟩ := group_step (clusterCores chip pk)
      (fun i (q : Cluster) => { q with coreStart := i, coreCount := q.coreCount + 1, package := some (pk i)
                                       vendor := chip.vendor, uarch := chip.uarch
                                       frequency := chip.frequency })
      (fun o _ _ _ => by cases o <;> rfl) kl l a t.clusters t1.clusters b1 h3 h6
    obtain ⟨p2, o1, o2, o3⟩ := group_step packageCores
      (fun i (q : Package) => { q with coreStart := i, coreCount := q.coreCount + 1, clusterStart := i
                                       clusterCount := q.coreCount + 1 })
      (fun o _ _ _ => by cases o <;> rfl) pk l a t.packages t1.packages b2 h4 h7
    have hca := h5 a c hc
    obtain ⟨halt, hupd⟩ := List.getElem?_eq_some_iff.mp hca
    have hstart : (if a ∈ l then { c with package := pk a, cluster := kl a, vendor := chip.vendor }
        else c).processorStart = c.processorStart := by split <;> rfl
    have hm : modify? t1.cores a (fun c => { c with
        package := pk a, cluster := kl a, vendor := chip.vendor }) =
        some (t1.cores.set a { c with package := pk a, cluster := kl a, vendor := chip.vendor }) := by
      rw [modify_ok _ _ _ halt, hupd]
      congr 2
      split <;> rfl
    refine ⟨⟨t1.cores.set a { c with package := pk a, cluster := kl a, vendor := chip.vendor }, l2, p2⟩,
      ?_, ?_, n2, o2, ?_, n3, o3⟩
    · rw [List.reverse_cons, foldlM_snoc _ a _ t t1 h1]
      have n1' : modify? t1.clusters (kl a) (fun q => { q with
          coreStart := a, coreCount := q.coreCount + 1, package := some (pk a)
          vendor := chip.vendor, uarch := c.uarch, frequency := c.frequency }) = some l2 := by
        rw [hu, hfr]
        exact n1
      unfold connectCore
      simp only [hca, Option.bind_eq_bind, Option.bind_some, hstart, hp, e1, e2, hm,
        List.getElem?_set_self halt, n1', o1, Option.pure_def]
    · rw [List.length_set, h2]
    · intro g c' hg
      by_cases hag : a = g
      · subst hag
        rw [hc] at hg
        cases hg
        rw [List.getElem?_set_self halt, if_pos (.head _)]
      · rw [List.getElem?_set_ne hag, h5 g c' hg]
        have : (g ∈ a :: l) ↔ g ∈ l := by simp [Ne.symm hag]
        simp only [this]

/-! ## Both loops -/

/-- The tables in terms of the core `kc i` and the package `kp i` of processor `i`. -/
structure TablesOk (kc kp : Nat → Nat) (n nc np : Nat) (chip : Chip) (name : Bytes) (tb : Tables) :
    Prop where
  coresLength : tb.cores.length = nc
  clustersLength : tb.clusters.length = nc
  packagesLength : tb.packages.length = np
  core : ∀ g < nc, tb.cores[g]? = some
    { processorStart := firstOf n kc g
      processorCount := countOf n kc g
      coreId := g
      cluster := kc (firstOf n kc g)
      package := kp (firstOf n kc g)
      vendor := chip.vendor
      uarch := chip.uarch
      frequency := chip.frequency }
  cluster : ∀ g < nc, tb.clusters[g]? = some (clusterCores chip (fun j => kp (firstOf n kc j))
    ((List.range nc).find? fun j => kc (firstOf n kc j) == g)
    (countOf nc (fun j => kc (firstOf n kc j)) g)
    { zeroCluster with processorStart := firstOf n kc g, processorCount := countOf n kc g })
  package : ∀ g < np, tb.packages[g]? = some (packageCores
    ((List.range nc).find? fun j => kp (firstOf n kc j) == g)
    (countOf nc (fun j => kp (firstOf n kc j)) g)
    { zeroPackage with
      name := (((List.range n).find? fun i => kp i == g).map fun _ => name).getD []
      processorStart := firstOf n kp g, processorCount := countOf n kp g })

theorem connect_ok (ps : List Processor) (kc kp : Nat → Nat) (n nc np : Nat) (chip : Chip) (name : Bytes)
    (cs : List Core) (h0 : 0 < n) (hcs : cs.length = nc)
    (hco : ∀ g < nc, cs[g]? = some (coreOf chip g))
    (hps : ∀ i < n, ∃ p, ps[i]? = some p ∧ p.core = some (kc i) ∧ p.cluster = kc i ∧ p.package = kp i ∧
      kc i < nc ∧ kp i < np) :
    ∃ tb, connect ps n np nc (some name) chip.vendor
      ⟨cs, List.replicate nc zeroCluster, List.replicate np zeroPackage⟩ = some (some tb) ∧
      TablesOk kc kp n nc np chip name tb := by
  obtain ⟨t1, a1, a2, a3, a4, a5, a6, a7⟩ := processorLoop_ok ps kc kp name nc np
    ⟨cs, List.replicate nc zeroCluster, List.replicate np zeroPackage⟩ hcs
    List.length_replicate List.length_replicate (List.range n)
    (fun i hi => hps i (List.mem_range.mp hi))
  have b5 : ∀ g < nc, t1.cores[g]? = some { coreOf chip g with
      processorStart := firstOf n kc g, processorCount := countOf n kc g } := by
    intro g hg
    rw [a5 g _ (hco g hg)]
    simp [coreRange, coreOf, zeroCore, firstOf, countOf]
  have b6 : ∀ g < nc, t1.clusters[g]? = some { zeroCluster with
      processorStart := firstOf n kc g, processorCount := countOf n kc g } := by
    intro g hg
    rw [a6 g zeroCluster (by simp [hg])]
    simp [clusterRange, zeroCluster, firstOf, countOf]
  have b7 : ∀ g < np, t1.packages[g]? = some { zeroPackage with
      name := (((List.range n).find? fun i => kp i == g).map fun _ => name).getD []
      processorStart := firstOf n kp g, processorCount := countOf n kp g } := by
    intro g hg
    rw [a7 g zeroPackage (by simp [hg])]
    simp [packageRange, zeroPackage, firstOf, countOf]
  obtain ⟨t2, c1, c2, c3, c4, c5, c6, c7⟩ := coreLoop_ok ps chip (fun j => kc (firstOf n kc j))
    (fun j => kp (firstOf n kc j)) t1 (List.range nc) (by
      intro j hj
      have hj := List.mem_range.mp hj
      obtain ⟨p, hp, -, e2, e3, e4, e5⟩ := hps _ (firstOf_lt n kc j h0)
      exact ⟨_, p, b5 j hj, rfl, rfl, hp, e2, e3, by rw [a3]; exact e4, by rw [a4]; exact e5⟩)
  refine ⟨t2, ?_, by rw [c2, a2], by rw [c3, a3], by rw [c4, a4], ?_, ?_, ?_⟩
  · unfold connect
    rw [a1]
    show Option.map some ((List.range nc).reverse.foldlM (connectCore ps chip.vendor) t1) = _
    rw [c1]
    rfl
  · intro g hg
    rw [c5 g _ (b5 g hg), if_pos (List.mem_range.mpr hg)]
    rfl
  · intro g hg
    rw [c6 g _ (b6 g hg)]
    rfl
  · intro g hg
    rw [c7 g _ (b7 g hg)]
    rfl

/-! ## Kinds of cores -/

theorem countUarchs_same (u : Nat) (cs : List Core) (h : ∀ c ∈ cs, c.uarch = u) : countUarchs u cs = 0 := by
  induction cs with
  | nil => rfl
  | cons c cs ih =>
    rw [countUarchs, if_neg (by rw [h c (.head _)]; simp)]
    exact ih fun c hc => h c (.tail _ hc)

theorem uarchLoop_same (u : Nat) (hu : u ≠ 0) (cs : List Core) (h : ∀ c ∈ cs, c.uarch = u) :
    ∀ (i x : Nat) (us : List UarchInfo) (w : UarchInfo), us[x]? = some w →
    uarchLoop i cs ⟨u, x, us⟩ = some ⟨u, x, us.set x { w with
      coreCount := w.coreCount + cs.length
      processorCount := w.processorCount + (cs.map (·.processorCount)).sum }⟩ := by
  induction cs with
  | nil =>
    intro i x us w hw
    obtain ⟨hx, he⟩ := List.getElem?_eq_some_iff.mp hw
    subst he
    show some _ = some (⟨u, x, us.set x us[x]⟩ : UarchState)
    rw [List.set_getElem_self]
  | cons c cs ih =>
    intro i x us w hw
    obtain ⟨hx, he⟩ := List.getElem?_eq_some_iff.mp hw
    have hstep : uarchStep ⟨u, x, us⟩ i c = some ⟨u, x, us.set x { w with
        coreCount := w.coreCount + 1, processorCount := w.processorCount + c.processorCount }⟩ := by
      unfold uarchStep
      dsimp only
      rw [if_neg (by rw [h c (.head _)]; simp), if_pos hu, modify_ok _ _ _ hx, he]
      rfl
    rw [uarchLoop, hstep]
    show uarchLoop (i + 1) cs _ = _
    rw [ih (fun c hc => h c (.tail _ hc)) _ _ _ _ (List.getElem?_set_self hx), List.set_set]
    simp only [List.length_cons, List.map_cons, List.sum_cons, Nat.add_assoc, Nat.add_comm 1]

theorem uarchLoop_unknown (cs : List Core) (h : ∀ c ∈ cs, c.uarch = 0) :
    ∀ (i x : Nat) (us : List UarchInfo), uarchLoop i cs ⟨0, x, us⟩ = some ⟨0, x, us⟩ := by
  induction cs with
  | nil => intro i x us; rfl
  | cons c cs ih =>
    intro i x us
    have hstep : uarchStep ⟨0, x, us⟩ i c = some ⟨0, x, us⟩ := by
      unfold uarchStep
      dsimp only
      rw [if_neg (by rw [h c (.head _)]; simp), if_neg (by simp)]
    rw [uarchLoop, hstep]
    exact ih (fun c hc => h c (.tail _ hc)) _ _ _

/-- The table of kinds of cores: one kind, or none if it is not known. -/
def uarchsOf (u cores processors : Nat) : List UarchInfo :=
  if u = 0 then [] else [⟨u, 0, processors, cores⟩]

theorem uarchs_ok (u : Nat) (cs : List Core) (h0 : cs ≠ []) (h : ∀ c ∈ cs, c.uarch = u) :
    countUarchs 0 cs = (uarchsOf u cs.length (cs.map (·.processorCount)).sum).length ∧
    ∃ s, uarchLoop 0 cs ⟨0, 0, List.replicate (countUarchs 0 cs) zeroUarch⟩ = some s ∧
      s.uarchs = uarchsOf u cs.length (cs.map (·.processorCount)).sum := by
  by_cases hu : u = 0
  · subst hu
    rw [countUarchs_same 0 cs h, uarchLoop_unknown cs h]
    exact ⟨rfl, _, rfl, rfl⟩
  · cases cs with
    | nil => exact absurd rfl h0
    | cons c cs =>
      have hc := h c (.head _)
      have hcs : ∀ c ∈ cs, c.uarch = u := fun c h' => h c (.tail _ h')
      have hcount : countUarchs 0 (c :: cs) = 1 := by
        rw [countUarchs, if_pos (by rw [hc]; exact Ne.symm hu), hc, countUarchs_same u cs hcs]
      rw [hcount]
      unfold uarchsOf
      rw [if_neg hu]
      refine ⟨rfl, ?_⟩
      have hstep : uarchStep ⟨0, 0, List.replicate 1 zeroUarch⟩ 0 c =
          some ⟨u, 0, [⟨u, 0, c.processorCount, 1⟩]⟩ := by
        unfold uarchStep
        dsimp only
        rw [if_pos (by rw [hc]; exact Ne.symm hu), hc]
        rfl
      rw [uarchLoop, hstep]
      show ∃ s, uarchLoop (0 + 1) cs ⟨u, 0, [⟨u, 0, c.processorCount, 1⟩]⟩ = some s ∧ _
      rw [uarchLoop_same u hu cs hcs _ _ _ _ rfl]
      refine ⟨_, rfl, ?_⟩
      show [_] = [_]
      simp only [List.length_cons, List.map_cons, List.sum_cons, Nat.add_comm 1]

/-- Every index is counted once. -/
theorem sum_countOf (n nc : Nat) (key : Nat → Nat) (h : ∀ i < n, key i < nc) :
    ((List.range nc).map (countOf n key)).sum = n := by
  induction n with
  | zero =>
    have : ∀ g, countOf 0 key g = 0 := fun g => rfl
    have hm : (List.range nc).map (countOf 0 key) = List.replicate nc 0 := by
      apply List.ext_getElem?
      intro i
      by_cases hi : i < nc
      · simp [List.getElem?_range hi, hi, this]
      · simp [hi]
    rw [hm, List.sum_replicate_nat, Nat.mul_zero]
  | succ n ih =>
    have ih := ih fun i hi => h i (by omega)
    have hstep : ∀ g, countOf (n + 1) key g = countOf n key g + if key n = g then 1 else 0 := by
      intro g
      unfold countOf
      rw [List.range_succ, List.countP_append]
      by_cases hg : key n = g
      · rw [if_pos hg, List.countP_cons_of_pos (by simpa using hg)]; rfl
      · rw [if_neg hg, List.countP_cons_of_neg (by simpa using hg)]; rfl
    have hone : ∀ nc, key n < nc → ((List.range nc).map fun g => if key n = g then 1 else 0).sum = 1 := by
      intro nc
      induction nc with
      | zero => intro h; omega
      | succ nc ih' =>
        intro hlt
        rw [List.range_succ, List.map_append, List.sum_append_nat]
        by_cases he : key n = nc
        · have hz : ∀ m ≤ nc, ((List.range m).map fun g => if key n = g then 1 else 0).sum = 0 := by
            intro m
            induction m with
            | zero => intro _; rfl
            | succ m ihm =>
              intro hm
              rw [List.range_succ, List.map_append, List.sum_append_nat, ihm (by omega)]
              simp [he, show ¬ nc = m by omega]
          rw [hz nc (Nat.le_refl _)]
          simp [he]
        · rw [ih' (by omega)]
          simp [he]
    have hadd : ∀ l : List Nat, (l.map (countOf (n + 1) key)).sum = (l.map (countOf n key)).sum +
        (l.map fun g => if key n = g then 1 else 0).sum := by
      intro l
      induction l with
      | nil => rfl
      | cons g l ihl =>
        simp only [List.map_cons, List.sum_cons, ihl, hstep]
        omega
    rw [hadd, ih, hone nc (h n (by omega))]

end Verif.ArmWin
