import Verif.Model.ToolsMain
import Verif.Props.Tools

/-!
# C160: what cpu-info and cache-info print determines the tables they were printed from
-/

set_option autoImplicit false

namespace Verif.Props

open Verif.Spec
open Verif.Tools
open Verif.Proof.Tools
open Verif.Spec.Chipsets (Digit)

/-! ## Lines -/

private theorem cutLine {a b : Bytes} {r s : Bytes} (ha : 10 ∉ a) (hb : 10 ∉ b)
    (h : a ++ 10 :: r = b ++ 10 :: s) : a = b ∧ r = s := by
  induction a generalizing b with
  | nil =>
    cases b with
    | nil => exact ⟨rfl, by simpa using h⟩
    | cons y b =>
      simp only [List.nil_append, List.cons_append, List.cons.injEq] at h
      exact absurd (by rw [h.1]; simp) hb
  | cons x a ih =>
    cases b with
    | nil =>
      simp only [List.nil_append, List.cons_append, List.cons.injEq] at h
      exact absurd (by rw [h.1]; simp) ha
    | cons y b =>
      simp only [List.cons_append, List.cons.injEq] at h
      obtain ⟨h1, h2⟩ := ih (fun hm => ha (by simp [hm])) (fun hm => hb (by simp [hm])) h.2
      exact ⟨by rw [h.1, h1], h2⟩

/-- A line of a list: it begins with a tab, and its only newline is its last byte. -/
def ListLine (s : Bytes) : Prop := ∃ body, s = 9 :: (body ++ [10]) ∧ 10 ∉ body

private theorem numbered_cut {α : Type} {line : Nat → α → Bytes} {ok : α → Prop} {same : α → α → Prop}
    (hl : ∀ i x, ok x → ListLine (line i x))
    (hi : ∀ i x y, ok x → ok y → line i x = line i y → same x y) :
    ∀ (xs ys : List α) (i : Nat) (r s : Bytes), (∀ x ∈ xs, ok x) → (∀ y ∈ ys, ok y) →
      r.head? ≠ some 9 → s.head? ≠ some 9 → numbered line i xs ++ r = numbered line i ys ++ s →
      xs.length = ys.length ∧
        (∀ (k : Nat) (x y : α), xs[k]? = some x → ys[k]? = some y → same x y) ∧ r = s
  | [], [], _, r, s, _, _, _, _, h => ⟨rfl, fun k x y hx => by simp at hx, by simpa [numbered] using h⟩
  | [], y :: ys, i, r, s, _, hy, hr, _, h => by
    obtain ⟨b, e, -⟩ := hl i y (hy y (by simp))
    simp only [numbered, e, List.nil_append, List.cons_append] at h
    exact absurd (by rw [h]; rfl) hr
  | x :: xs, [], i, r, s, hx, _, _, hs, h => by
    obtain ⟨b, e, -⟩ := hl i x (hx x (by simp))
    simp only [numbered, e, List.nil_append, List.cons_append] at h
    exact absurd (by rw [← h]; rfl) hs
  | x :: xs, y :: ys, i, r, s, hx, hy, hr, hs, h => by
    obtain ⟨b, e, nb⟩ := hl i x (hx x (by simp))
    obtain ⟨c, f, nc⟩ := hl i y (hy y (by simp))
    simp only [numbered, e, f, List.cons_append, List.append_assoc, List.nil_append, List.cons.injEq,
      true_and] at h
    obtain ⟨h1, h2⟩ := cutLine nb nc h
    obtain ⟨g1, g2, g3⟩ := numbered_cut hl hi xs ys (i + 1) r s (fun x h => hx x (by simp [h]))
      (fun y h => hy y (by simp [h])) hr hs h2
    refine ⟨by simp [g1], ?_, g3⟩
    intro k u v hu hv
    cases k with
    | zero =>
      simp only [List.getElem?_cons_zero, Option.some.injEq] at hu hv
      subst hu hv
      exact hi i x y (hx x (by simp)) (hy y (by simp)) (by rw [e, f, h1])
    | succ k =>
      simp only [List.getElem?_cons_succ] at hu hv
      exact g2 k u v hu hv

private theorem numbered_tells {α : Type} {line : Nat → α → Bytes} {ok : α → Prop}
    (hl : ∀ i x, ok x → ListLine (line i x))
    (hi : ∀ i x y, ok x → ok y → line i x = line i y → x = y) (xs ys : List α) (r s : Bytes)
    (hx : ∀ x ∈ xs, ok x) (hy : ∀ y ∈ ys, ok y) (hr : r.head? ≠ some 9) (hs : s.head? ≠ some 9)
    (h : numbered line 0 xs ++ r = numbered line 0 ys ++ s) : xs = ys ∧ r = s := by
  obtain ⟨h1, h2, h3⟩ := numbered_cut hl hi xs ys 0 r s hx hy hr hs h
  refine ⟨List.ext_getElem h1 fun k hk hk' => ?_, h3⟩
  exact h2 k _ _ (List.getElem?_eq_getElem hk) (List.getElem?_eq_getElem hk')

/-! ## No newlines inside -/

private theorem nl_decimal (n : Nat) : 10 ∉ ArmChipset.decimal n := fun h => by
  have := ArmChipset.decimal_digits n 10 h
  unfold Digit at this
  omega

private theorem nl_hex (n : Nat) : 10 ∉ hex8 n := by
  have key : ∀ d, d % 16 < 16 → Tools.hexDigit (d % 16) ≠ 10 := by
    intro d _
    unfold Tools.hexDigit
    split <;> omega
  intro h
  obtain ⟨d, hd, e⟩ := List.mem_map.mp h
  have : ∃ x, d = x % 16 := by
    simp only [List.mem_cons, List.not_mem_nil, or_false] at hd
    rcases hd with rfl | rfl | rfl | rfl | rfl | rfl | rfl | rfl <;> exact ⟨_, rfl⟩
  obtain ⟨x, rfl⟩ := this
  exact key x (Nat.mod_lt _ (by omega)) e

private theorem nl_uarch {u : Nat} {s : Bytes} (h : uarchToString u = some s) : 10 ∉ s := by
  have : ∀ s ∈ uarchNames.map (·.2), 10 ∉ s := by decide +kernel
  exact this s (lookup_mem h)

private theorem nl_vendor {v : Nat} {s : Bytes} (h : vendorToString v = some s) : 10 ∉ s := by
  have : ∀ s ∈ vendorNames.map (·.2), 10 ∉ s := by decide +kernel
  exact this s (lookup_mem h)

private theorem members_shape (what : Bytes) (start count : Nat) : ∃ z, members what start count =
    if count = 1 then b!"1 " ++ what ++ b!" (" ++ ArmChipset.decimal start ++ b!")"
    else ArmChipset.decimal count ++ b!" " ++ what ++ b!"s (" ++ ArmChipset.decimal start ++ b!"-" ++
      ArmChipset.decimal z ++ b!")" := ⟨_, members.eq_1 what start count⟩

private theorem nl_members {what : Bytes} (hw : 10 ∉ what) (start count : Nat) :
    10 ∉ members what start count := by
  obtain ⟨z, e⟩ := members_shape what start count
  rw [e]
  split <;> simp [hw, nl_decimal]

private theorem maker_line (v u : Nat) : ∃ body, makerText v u = body ++ [10] ∧ 10 ∉ body := by
  unfold makerText
  cases hv : vendorToString v with
  | none => exact ⟨_, rfl, by simp [nl_hex]⟩
  | some s =>
    cases hu : uarchToString u with
    | none => exact ⟨_, rfl, by simp [nl_hex, nl_vendor hv]⟩
    | some t => exact ⟨_, rfl, by simp [nl_vendor hv, nl_uarch hu]⟩

/-! ## Each line tells its element -/

private theorem members_tells {what : Bytes} {a b c d : Nat} {r s : Bytes}
    (h : members what a b ++ r = members what c d ++ s) : a = c ∧ b = d ∧ r = s := by
  have n40 : ¬ Digit 40 := by unfold Digit; omega
  have n41 : ¬ Digit 41 := by unfold Digit; omega
  have n45 : ¬ Digit 45 := by unfold Digit; omega
  have n32 : ¬ Digit 32 := by unfold Digit; omega
  have one : ArmChipset.decimal 1 = [49] := by decide
  have mixed : ∀ {a c d : Nat} {r s t : Bytes}, d ≠ 1 →
      b!"1 " ++ (what ++ r) = ArmChipset.decimal d ++ (b!" " ++ s) → False := by
    intro a c d r s t hd h
    have h : ArmChipset.decimal 1 ++ 32 :: (what ++ r) = ArmChipset.decimal d ++ 32 :: s := by
      rw [one]; exact h
    exact hd (cutNumber n32 n32 h).1.symm
  obtain ⟨z, e⟩ := members_shape what a b
  obtain ⟨z', e'⟩ := members_shape what c d
  rw [e, e'] at h
  clear e e'
  by_cases hb : b = 1 <;> by_cases hd : d = 1
  · rw [if_pos hb, if_pos hd] at h
    simp only [List.append_assoc] at h
    have h := List.append_cancel_left (List.append_cancel_left (List.append_cancel_left h))
    obtain ⟨h1, -, h2⟩ := cutNumber (x := 41) (y := 41) n41 n41 h
    exact ⟨h1, by rw [hb, hd], h2⟩
  · rw [if_pos hb, if_neg hd] at h
    simp only [List.append_assoc] at h
    exact (mixed (a := 0) (c := 0) (t := []) hd h).elim
  · rw [if_neg hb, if_pos hd] at h
    simp only [List.append_assoc] at h
    exact (mixed (a := 0) (c := 0) (t := []) hb h.symm).elim
  · rw [if_neg hb, if_neg hd] at h
    simp only [List.append_assoc] at h
    obtain ⟨h1, -, h⟩ := cutNumber (x := 32) (y := 32) n32 n32 h
    have h := List.append_cancel_left (as := b!"s (") (List.append_cancel_left h)
    obtain ⟨h2, -, h⟩ := cutNumber (x := 45) (y := 45) n45 n45 h
    obtain ⟨-, -, h⟩ := cutNumber (x := 41) (y := 41) n41 n41 h
    exact ⟨h2, h1, h⟩

/-- **C160 (microarchitectures).** A line of the list of microarchitectures tells the number of cores and
the microarchitecture. -/
theorem C160_uarch_line (n m u v : Nat) (hu : u < U32) (hv : v < U32)
    (h : uarchLine n u = uarchLine m v) : n = m ∧ u = v := by
  have n120 : ¬ Digit 120 := by unfold Digit; omega
  have unk : ∀ {u : Nat} {s r : Bytes}, uarchToString u = some s → s ++ [10] = b!"Unknown (0x" ++ r → False := by
    intro u s r hs h
    have key : ∀ s ∈ uarchNames.map (·.2), 0 < s.length ∧ s.head? ≠ some 85 := by decide +kernel
    have hk := key s (lookup_mem hs)
    cases s with
    | nil => simp at hk
    | cons x s =>
      simp only [List.cons_append, List.cons.injEq] at h
      exact hk.2 (by rw [h.1]; rfl)
  unfold uarchLine at h
  cases hs : uarchToString u with
  | none =>
    cases ht : uarchToString v with
    | none =>
      rw [hs, ht] at h
      simp only [List.append_assoc] at h
      obtain ⟨h1, -, h⟩ := cutNumber (x := 120) (y := 120) n120 n120 (List.append_cancel_left h)
      have h := List.append_cancel_left (as := b!" Unknown (0x") h
      exact ⟨h1, hex8_inj hu hv (List.append_inj h rfl).1⟩
    | some t =>
      rw [hs, ht] at h
      simp only [List.append_assoc] at h
      obtain ⟨-, -, h⟩ := cutNumber (x := 120) (y := 120) n120 n120 (List.append_cancel_left h)
      exact (unk ht (List.append_cancel_left (as := [32]) h).symm).elim
  | some s =>
    cases ht : uarchToString v with
    | none =>
      rw [hs, ht] at h
      simp only [List.append_assoc] at h
      obtain ⟨-, -, h⟩ := cutNumber (x := 120) (y := 120) n120 n120 (List.append_cancel_left h)
      exact (unk hs (List.append_cancel_left (as := [32]) h)).elim
    | some t =>
      rw [hs, ht] at h
      simp only [List.append_assoc] at h
      obtain ⟨h1, -, h⟩ := cutNumber (x := 120) (y := 120) n120 n120 (List.append_cancel_left h)
      have h := List.append_cancel_right (List.append_cancel_left (as := [32]) h)
      exact ⟨h1, C148_distinct.1 u v s hs (h ▸ ht)⟩

/-- **C160 (lines).** Every line of the lists is one line. -/
theorem C160_lines :
    (∀ n u, ListLine (uarchLine n u)) ∧ (∀ i s c v u, ListLine (coreLine i s c v u)) ∧
    (∀ i s c f n v u, ListLine (clusterLine i s c f n v u)) ∧ (∀ h i p, ListLine (Tools.processorLine h i p)) ∧
    (∀ i name, 10 ∉ name → ListLine (packageLine i name)) := by
  refine ⟨fun n u => ?_, fun i s c v u => ?_, fun i s c f n v u => ?_, fun h i p => ?_, fun i name hn => ?_⟩
  · unfold uarchLine
    cases hs : uarchToString u with
    | none => exact ⟨ArmChipset.decimal n ++ b!"x Unknown (0x" ++ hex8 u, rfl, by simp [nl_decimal, nl_hex]⟩
    | some s => exact ⟨ArmChipset.decimal n ++ b!"x " ++ s, rfl, by simp [nl_decimal, nl_uarch hs]⟩
  · obtain ⟨b, e, hb⟩ := maker_line v u
    refine ⟨ArmChipset.decimal i ++ b!": " ++ members b!"processor" s c ++ b, ?_, ?_⟩
    · simp [coreLine, e]
    · have := nl_members (what := b!"processor") (by decide) s c
      simp [nl_decimal, this, hb]
  · obtain ⟨b, e, hb⟩ := maker_line v u
    refine ⟨ArmChipset.decimal i ++ b!": " ++ members b!"processor" s c ++ b!",\t" ++
      ArmChipset.decimal i ++ b!": " ++ members b!"core" f n ++ b, ?_, ?_⟩
    · simp [clusterLine, e]
    · have h1 := nl_members (what := b!"processor") (by decide) s c
      have h2 := nl_members (what := b!"core") (by decide) f n
      simp [nl_decimal, h1, h2, hb]
  · refine ⟨ArmChipset.decimal i ++ (if h.linux then b!" (" ++ ArmChipset.decimal p.linuxId ++ b!")" else []) ++
      (if h.x86 then b!": APIC ID 0x" ++ hex8 p.apicId else []), ?_, ?_⟩
    · unfold Tools.processorLine
      cases h.linux <;> cases h.x86 <;> simp
    · cases h.linux <;> cases h.x86 <;> simp [nl_decimal, nl_hex]
  · exact ⟨ArmChipset.decimal i ++ b!": " ++ name, by simp [packageLine], by simp [nl_decimal, hn]⟩

theorem numbered_mapIdx {α : Type} (line : Nat → α → Bytes) (i : Nat) (l : List α) :
    numbered line i l = (l.mapIdx fun k x => line (i + k) x).flatten := by
  induction l generalizing i with
  | nil => rfl
  | cons x l ih =>
    rw [numbered, ih, List.mapIdx_cons, List.flatten_cons]
    have : (fun k x => line (i + 1 + k) x) = fun k x => line (i + (k + 1)) x := by
      funext k x; congr 1; omega
    rw [this]
    rfl

/-- **C160 (numbering).** Under every heading there is one line for each element of the table, in the
order of the table, and the number in the `k`-th line is `k`. -/
theorem C160_numbering (h : Host) (m : Tools.Machine) (hand : h.android = false) :
    cpuInfo h m = some (
      b!"Packages:\n" ++ (m.packages.mapIdx packageLine).flatten ++
      b!"Microarchitectures:\n" ++ (m.uarchs.map fun u => uarchLine u.coreCount u.uarch).flatten ++
      b!"Cores:\n" ++ (m.cores.mapIdx fun k c =>
        coreLine k c.processorStart c.processorCount c.vendor c.uarch).flatten ++
      b!"Clusters:\n" ++ (m.clusters.mapIdx fun k c => clusterLine k c.processorStart
        c.processorCount c.coreStart c.coreCount c.vendor c.uarch).flatten ++
      (if h.linux then b!"Logical processors (System ID):\n" else b!"Logical processors:\n") ++
        (m.processors.mapIdx (Tools.processorLine h)).flatten) ∧
    (∀ k name, ∃ r, packageLine k name = [9] ++ ArmChipset.decimal k ++ b!": " ++ r) ∧
    (∀ k s c v u, ∃ r, coreLine k s c v u = [9] ++ ArmChipset.decimal k ++ b!": " ++ r) ∧
    (∀ k s c f n v u, ∃ r, clusterLine k s c f n v u = [9] ++ ArmChipset.decimal k ++ b!": " ++ r) ∧
    (∀ k p, ∃ r, Tools.processorLine h k p = [9] ++ ArmChipset.decimal k ++ r) := by
  refine ⟨?_, fun k name => ⟨name ++ [10], ?_⟩, fun k s c v u =>
      ⟨members b!"processor" s c ++ makerText v u, ?_⟩,
    fun k s c f n v u => ⟨members b!"processor" s c ++ (b!",\t" ++ (ArmChipset.decimal k ++ (b!": " ++
      (members b!"core" f n ++ makerText v u)))), ?_⟩,
    fun k p => ⟨(if h.linux then b!" (" ++ ArmChipset.decimal p.linuxId ++ b!")" else []) ++
      (if h.x86 then b!": APIC ID 0x" ++ hex8 p.apicId ++ [10] else [10]), ?_⟩⟩
  · have e : (m.uarchs.mapIdx fun _ u => uarchLine u.coreCount u.uarch) =
        m.uarchs.map fun u => uarchLine u.coreCount u.uarch := by
      rw [List.mapIdx_eq_zipIdx_map]
      conv => rhs; rw [← List.zipIdx_map_fst 0 m.uarchs, List.map_map]
      rfl
    simp only [cpuInfo, packagesText, hand, Bool.false_eq_true, if_false, Option.map_some,
      numbered_mapIdx, Nat.zero_add, e]
    cases h.linux <;> simp
  · simp [packageLine]
  · unfold coreLine; simp only [List.append_assoc]
  · unfold clusterLine; simp only [List.append_assoc]
  · unfold Tools.processorLine; simp only [List.append_assoc]

/-- **C160 (cores).** A line of a core tells its processors, vendor and microarchitecture. -/
theorem C160_core_line (i : Nat) (c d : CoreRow) (hc : c.vendor < U32 ∧ c.uarch < U32)
    (hd : d.vendor < U32 ∧ d.uarch < U32)
    (h : coreLine i c.processorStart c.processorCount c.vendor c.uarch =
      coreLine i d.processorStart d.processorCount d.vendor d.uarch) : c = d := by
  unfold coreLine at h
  simp only [List.append_assoc] at h
  obtain ⟨h1, h2, h⟩ := members_tells (List.append_cancel_left (List.append_cancel_left
    (List.append_cancel_left h)))
  obtain ⟨h3, h4⟩ := C148_line_tells _ _ _ _ hc.1 hd.1 hc.2 hd.2 h
  cases c
  cases d
  simp_all

/-- **C160 (clusters).** A line of a cluster tells its processors, cores, vendor and
microarchitecture. -/
theorem C160_cluster_line (i : Nat) (c d : ClusterRow) (hc : c.vendor < U32 ∧ c.uarch < U32)
    (hd : d.vendor < U32 ∧ d.uarch < U32)
    (h : clusterLine i c.processorStart c.processorCount c.coreStart c.coreCount c.vendor c.uarch =
      clusterLine i d.processorStart d.processorCount d.coreStart d.coreCount d.vendor d.uarch) : c = d := by
  unfold clusterLine at h
  simp only [List.append_assoc] at h
  obtain ⟨h1, h2, h⟩ := members_tells (List.append_cancel_left (List.append_cancel_left
    (List.append_cancel_left h)))
  obtain ⟨h3, h4, h⟩ := members_tells (List.append_cancel_left (List.append_cancel_left
    (List.append_cancel_left h)))
  obtain ⟨h5, h6⟩ := C148_line_tells _ _ _ _ hc.1 hd.1 hc.2 hd.2 h
  cases c
  cases d
  simp_all

/-- **C160 (processors).** A line of a processor tells its Linux number on Linux and its APIC ID on x86. -/
theorem C160_processor_line (h : Host) (i : Nat) (p q : ProcessorRow) (hp : p.apicId < U32)
    (hq : q.apicId < U32) (e : Tools.processorLine h i p = Tools.processorLine h i q) :
    (h.linux = true → p.linuxId = q.linuxId) ∧ (h.x86 = true → p.apicId = q.apicId) := by
  have n41 : ¬ Digit 41 := by unfold Digit; omega
  unfold Tools.processorLine at e
  simp only [List.append_assoc] at e
  have e := List.append_cancel_left (List.append_cancel_left e)
  have x86 : ∀ (e : (if h.x86 then b!": APIC ID 0x" ++ (hex8 p.apicId ++ [10]) else [10]) =
      (if h.x86 then b!": APIC ID 0x" ++ (hex8 q.apicId ++ [10]) else [10])), h.x86 = true →
      p.apicId = q.apicId := by
    intro e hx
    rw [if_pos hx, if_pos hx] at e
    exact hex8_inj hp hq (List.append_inj (List.append_cancel_left e) rfl).1
  by_cases hl : h.linux = true
  · rw [if_pos hl, if_pos hl] at e
    simp only [List.append_assoc] at e
    obtain ⟨e1, -, e⟩ := cutNumber (x := 41) (y := 41) n41 n41 (List.append_cancel_left e)
    exact ⟨fun _ => e1, x86 e⟩
  · rw [if_neg hl, if_neg hl] at e
    exact ⟨fun hl' => absurd hl' hl, x86 e⟩

/-! ## cpu-info -/

/-- What is printed of the fields is 32 bits wide, and names have no newlines. -/
structure Printable (m : Tools.Machine) : Prop where
  packages : ∀ name ∈ m.packages, 10 ∉ name
  uarchs : ∀ u ∈ m.uarchs, u.uarch < U32
  cores : ∀ c ∈ m.cores, c.vendor < U32 ∧ c.uarch < U32
  clusters : ∀ c ∈ m.clusters, c.vendor < U32 ∧ c.uarch < U32
  processors : ∀ p ∈ m.processors, p.apicId < U32

/-- Two machines agree in everything that is printed on the host. -/
structure SameMachine (h : Host) (m n : Tools.Machine) : Prop where
  packages : h.android = false → m.packages = n.packages
  soc : h.android = true → m.packages.head? = n.packages.head?
  uarchs : m.uarchs = n.uarchs
  cores : m.cores = n.cores
  clusters : m.clusters = n.clusters
  processors : m.processors.length = n.processors.length
  linuxIds : h.linux = true → m.processors.map (·.linuxId) = n.processors.map (·.linuxId)
  apicIds : h.x86 = true → m.processors.map (·.apicId) = n.processors.map (·.apicId)

private theorem map_of {α β : Type} {f : α → β} {xs ys : List α} (hl : xs.length = ys.length)
    (h : ∀ (k : Nat) (x y : α), xs[k]? = some x → ys[k]? = some y → f x = f y) : xs.map f = ys.map f := by
  refine List.ext_getElem (by simp [hl]) fun k h1 h2 => ?_
  simp only [List.getElem_map]
  simp only [List.length_map] at h1 h2
  exact h k _ _ (List.getElem?_eq_getElem h1) (List.getElem?_eq_getElem h2)

private theorem rest_tells (h : Host) (m n : Tools.Machine) (hm : Printable m) (hn : Printable n)
    (e : numbered (fun _ u => uarchLine u.coreCount u.uarch) 0 m.uarchs ++
      (b!"Cores:\n" ++ (numbered (fun i c => coreLine i c.processorStart c.processorCount c.vendor c.uarch)
        0 m.cores ++
      (b!"Clusters:\n" ++ (numbered (fun i c => clusterLine i c.processorStart c.processorCount c.coreStart
        c.coreCount c.vendor c.uarch) 0 m.clusters ++
      (b!"Logical processors" ++ ((if h.linux then b!" (System ID)" else []) ++ (b!":\n" ++
        numbered (Tools.processorLine h) 0 m.processors))))))) =
      numbered (fun _ u => uarchLine u.coreCount u.uarch) 0 n.uarchs ++
      (b!"Cores:\n" ++ (numbered (fun i c => coreLine i c.processorStart c.processorCount c.vendor c.uarch)
        0 n.cores ++
      (b!"Clusters:\n" ++ (numbered (fun i c => clusterLine i c.processorStart c.processorCount c.coreStart
        c.coreCount c.vendor c.uarch) 0 n.clusters ++
      (b!"Logical processors" ++ ((if h.linux then b!" (System ID)" else []) ++ (b!":\n" ++
        numbered (Tools.processorLine h) 0 n.processors)))))))) :
    m.uarchs = n.uarchs ∧ m.cores = n.cores ∧ m.clusters = n.clusters ∧
      m.processors.length = n.processors.length ∧
      (h.linux = true → m.processors.map (·.linuxId) = n.processors.map (·.linuxId)) ∧
      (h.x86 = true → m.processors.map (·.apicId) = n.processors.map (·.apicId)) := by
  obtain ⟨l1, l2, l3, l4, -⟩ := C160_lines
  obtain ⟨a1, e⟩ := numbered_tells (ok := fun (u : UarchRow) => u.uarch < U32) (fun _ _ _ => l1 _ _)
    (fun i x y hx hy he => by
      obtain ⟨h1, h2⟩ := C160_uarch_line _ _ _ _ hx hy he
      cases x; cases y; simp_all) _ _ _ _ hm.uarchs hn.uarchs (by simp) (by simp) e
  obtain ⟨a2, e⟩ := numbered_tells (ok := fun (c : CoreRow) => c.vendor < U32 ∧ c.uarch < U32)
    (fun _ _ _ => l2 _ _ _ _ _) (fun i x y hx hy he => C160_core_line i x y hx hy he) _ _ _ _
    hm.cores hn.cores (by simp) (by simp) (List.append_cancel_left e)
  obtain ⟨a3, e⟩ := numbered_tells (ok := fun (c : ClusterRow) => c.vendor < U32 ∧ c.uarch < U32)
    (fun _ _ _ => l3 _ _ _ _ _ _ _) (fun i x y hx hy he => C160_cluster_line i x y hx hy he) _ _ _ _
    hm.clusters hn.clusters (by simp) (by simp) (List.append_cancel_left e)
  have e := List.append_cancel_left (List.append_cancel_left (List.append_cancel_left e))
  have e : numbered (Tools.processorLine h) 0 m.processors ++ [] = numbered (Tools.processorLine h) 0 n.processors ++ [] := by
    rw [e]
  obtain ⟨b1, b2, -⟩ := numbered_cut (ok := fun (p : ProcessorRow) => p.apicId < U32)
    (fun _ _ _ => l4 _ _ _) (fun i x y hx hy he => C160_processor_line h i x y hx hy he) _ _ _ _ _
    hm.processors hn.processors (by simp) (by simp) e
  exact ⟨a1, a2, a3, b1, fun hl => map_of b1 fun k x y hx hy => (b2 k x y hx hy).1 hl,
    fun hl => map_of b1 fun k x y hx hy => (b2 k x y hx hy).2 hl⟩

/-- **C160 (cpu-info).** What cpu-info prints determines all that it prints of packages,
microarchitectures, cores, clusters and processors: two machines with the same output are the same. -/
theorem C160_cpu_info (h : Host) (m n : Tools.Machine) (hm : Printable m) (hn : Printable n) (text : Bytes)
    (e1 : cpuInfo h m = some text) (e2 : cpuInfo h n = some text) : SameMachine h m n := by
  unfold cpuInfo at e1 e2
  obtain ⟨p, hp, e1⟩ := Option.map_eq_some_iff.mp e1
  obtain ⟨q, hq, e2⟩ := Option.map_eq_some_iff.mp e2
  have e := e1.trans e2.symm
  unfold packagesText at hp hq
  by_cases ha : h.android = true
  · rw [if_pos ha] at hp hq
    obtain ⟨a, hpa, rfl⟩ := Option.map_eq_some_iff.mp hp
    obtain ⟨b, hqb, rfl⟩ := Option.map_eq_some_iff.mp hq
    simp only [List.append_assoc] at e
    have e := List.append_cancel_left e
    obtain ⟨e', e⟩ := cutLine (hm.packages a (List.mem_of_mem_head? (by simp [hpa])))
      (hn.packages b (List.mem_of_mem_head? (by simp [hqb]))) e
    obtain ⟨h1, h2, h3, h4, h5, h6⟩ := rest_tells h m n hm hn (List.append_cancel_left e)
    exact ⟨fun h => by simp [ha] at h, fun _ => by rw [hpa, hqb, e'], h1, h2, h3, h4, h5, h6⟩
  · rw [if_neg ha] at hp hq
    cases hp
    cases hq
    simp only [List.append_assoc] at e
    obtain ⟨e', e⟩ := numbered_tells (ok := fun (name : Bytes) => 10 ∉ name)
      (fun i name hn => C160_lines.2.2.2.2 i name hn) (fun i x y hx hy he => by
        unfold packageLine at he
        simp only [List.append_assoc] at he
        exact List.append_cancel_right (List.append_cancel_left (List.append_cancel_left
          (List.append_cancel_left he)))) _ _ _ _ hm.packages hn.packages (by simp) (by simp)
      (List.append_cancel_left e)
    obtain ⟨h1, h2, h3, h4, h5, h6⟩ := rest_tells h m n hm hn (List.append_cancel_left e)
    exact ⟨fun _ => e', fun h => absurd h ha, h1, h2, h3, h4, h5, h6⟩

/-! ## cache-info -/

private theorem opt_cut {K : Bytes → Prop} {p q : Prop} [Decidable p] [Decidable q] {A B r s : Bytes}
    (hA : ∃ a, A = a ++ [10] ∧ 10 ∉ a) (hB : ∃ b, B = b ++ [10] ∧ 10 ∉ b)
    (kA : p → ∀ t, K (A ++ t)) (kB : q → ∀ t, K (B ++ t)) (hr : ¬ K r) (hs : ¬ K s)
    (h : (if p then A else []) ++ r = (if q then B else []) ++ s) : (p ↔ q) ∧ (p → A = B) ∧ r = s := by
  obtain ⟨a, rfl, na⟩ := hA
  obtain ⟨b, rfl, nb⟩ := hB
  by_cases hp : p <;> by_cases hq : q
  · rw [if_pos hp, if_pos hq] at h
    simp only [List.append_assoc] at h
    obtain ⟨h1, h2⟩ := cutLine na nb h
    exact ⟨by simp [hp, hq], fun _ => by rw [h1], h2⟩
  · rw [if_pos hp, if_neg hq] at h
    exact absurd (by rw [← List.nil_append s, ← h]; exact kA hp r) hs
  · rw [if_neg hp, if_pos hq] at h
    exact absurd (by rw [← List.nil_append r, h]; exact kB hq s) hr
  · rw [if_neg hp, if_neg hq] at h
    exact ⟨by simp [hp, hq], fun h => absurd h hp, by simpa using h⟩

/-- **C160 (reports).** What is printed for a cache is one line. -/
theorem C160_report_line (n : Nat) (c : X86Init.Cache) (level : Nat) (type : Bytes) (ht : 10 ∉ type) :
    ∃ a, reportCache n c level type = a ++ [10] ∧ 10 ∉ a := by
  have hs : ∃ a, sharedText c = a ++ [10] ∧ 10 ∉ a := by
    unfold sharedText
    split
    · exact ⟨b!", shared by " ++ ArmChipset.decimal c.processorCount ++ b!" processors", by simp,
        by simp [nl_decimal]⟩
    · exact ⟨[], rfl, by simp⟩
  obtain ⟨a, e, ha⟩ := hs
  have h1 : 10 ∉ sizeText c.size := by
    unfold sizeText
    split
    · simp [nl_decimal]
    · split <;> simp [nl_decimal]
  have h2 : 10 ∉ waysText c := by
    unfold waysText
    split <;> simp [nl_decimal]
  have h3 : 10 ∉ setsText c := by
    unfold setsText
    split
    · simp only [List.mem_append, not_or]
      refine ⟨⟨⟨⟨by simp, nl_decimal _⟩, by simp⟩, ?_⟩, ?_⟩
      · split <;> simp [nl_decimal]
      · split <;> simp
    · simp
  refine ⟨_, by rw [reportCache, e, ← List.append_assoc], ?_⟩
  simp only [List.mem_append, not_or]
  refine ⟨⟨⟨⟨⟨⟨⟨⟨⟨⟨⟨?_, ?_⟩, ?_⟩, ?_⟩, ?_⟩, ?_⟩, ?_⟩, ?_⟩, ?_⟩, ?_⟩, ?_⟩, ?_⟩
  all_goals first | exact nl_decimal _ | exact h1 | exact h2 | exact h3 | exact ha | skip
  · simp [nl_decimal]
  · simp
  · split
    · simp
    · exact ht
  · simp
  · split <;> simp [nl_decimal]
  · split
    · simp
    · split <;> simp
  · simp

/-- Two tables are printed alike: both are empty, or the same is told of the first element. -/
def SameLevel (level : Nat) (l k : Level) : Prop :=
  (l.count = 0 ↔ k.count = 0) ∧ (l.count ≠ 0 → SameReport level l.count k.count l.first k.first)

/-- The L1 instruction caches are printed. -/
def Instructions (l : Level) : Prop := l.count ≠ 0 ∧ l.first.flags &&& 1 = 0

/-- Two machines agree in everything cache-info prints. -/
structure SameTables (t u : CacheTables) : Prop where
  maxCacheSize : t.maxCacheSize = u.maxCacheSize
  l1i : Instructions t.l1i ↔ Instructions u.l1i
  l1i_first : Instructions t.l1i →
    SameReport 1 t.l1i.count u.l1i.count t.l1i.first u.l1i.first
  l1d : SameLevel 1 t.l1d u.l1d
  l2 : SameLevel 2 t.l2 u.l2
  l3 : SameLevel 3 t.l3 u.l3
  l4 : SameLevel 4 t.l4 u.l4

private theorem level_cut {l k : Level} {level : Nat} {r s : Bytes} {K : Bytes → Prop}
    (hK : ∀ (n : Nat) (c : X86Init.Cache) (t : Bytes), K (reportCache n c level b!"data" ++ t))
    (hr : ¬ K r) (hs : ¬ K s) (h : levelText l level ++ r = levelText k level ++ s) :
    SameLevel level l k ∧ r = s := by
  obtain ⟨h1, h2, h3⟩ := opt_cut (K := K) (C160_report_line _ _ _ _ (by decide))
    (C160_report_line _ _ _ _ (by decide)) (fun _ t => hK _ _ t) (fun _ t => hK _ _ t) hr hs h
  exact ⟨⟨by omega, fun hn => C150_report_tells _ _ _ _ _ _ (Or.inr rfl) (h2 hn)⟩, h3⟩

private theorem head_report (n : Nat) (c : X86Init.Cache) (level d : Nat)
    (hd : ArmChipset.decimal level = [d]) (t : Bytes) :
    (reportCache n c level b!"data" ++ t).take 2 = [76, d] := by
  simp [reportCache, hd]

private theorem head_level (l : Level) (level d : Nat) (hd : ArmChipset.decimal level = [d]) (t : Bytes) :
    (levelText l level ++ t).take 2 = [76, d] ∨ levelText l level ++ t = t := by
  unfold levelText
  split
  · exact Or.inl (head_report _ _ _ _ hd t)
  · exact Or.inr rfl

/-- **C160 (cache-info).** What cache-info prints determines the maximum size and, of every level, how many
caches there are and all that is told of the first. -/
theorem C160_cache_info (t u : CacheTables) (h : cacheInfo t = cacheInfo u) : SameTables t u := by
  have d1 : ArmChipset.decimal 1 = [49] := by decide
  have d2 : ArmChipset.decimal 2 = [50] := by decide
  have d3 : ArmChipset.decimal 3 = [51] := by decide
  have d4 : ArmChipset.decimal 4 = [52] := by decide
  have n32 : ¬ Digit 32 := by unfold Digit; omega
  -- what may follow
  have k4 : ∀ t : CacheTables, (levelText t.l4 4 ++ []).take 2 ∈ [[], [76, 52]] := fun t => by
    rcases head_level t.l4 4 52 d4 [] with e | e <;> rw [e] <;> simp
  have k3 : ∀ t : CacheTables, (levelText t.l3 3 ++ (levelText t.l4 4 ++ [])).take 2 ∈
      [[], [76, 52], [76, 51]] := fun t => by
    rcases head_level t.l3 3 51 d3 (levelText t.l4 4 ++ []) with e | e <;> rw [e]
    · simp
    · exact List.mem_append_left [[76, 51]] (k4 t)
  have k2 : ∀ t : CacheTables, (levelText t.l2 2 ++ (levelText t.l3 3 ++ (levelText t.l4 4 ++ []))).take 2 ∈
      [[], [76, 52], [76, 51], [76, 50]] := fun t => by
    rcases head_level t.l2 2 50 d2 (levelText t.l3 3 ++ (levelText t.l4 4 ++ [])) with e | e <;> rw [e]
    · simp
    · exact List.mem_append_left [[76, 50]] (k3 t)
  have k1 : ∀ t : CacheTables, (levelText t.l1d 1 ++
      (levelText t.l2 2 ++ (levelText t.l3 3 ++ (levelText t.l4 4 ++ [])))).take 4 ≠ b!"L1 i" := by
    intro t e
    unfold levelText at e
    by_cases hc : t.l1d.count ≠ 0
    · rw [if_pos hc] at e
      unfold reportCache at e
      rw [d1] at e
      by_cases hf : t.l1d.first.flags &&& 1 ≠ 0
      · rw [if_pos hf] at e; simp at e
      · rw [if_neg hf] at e; simp at e
    · rw [if_neg hc] at e
      have := k2 t
      unfold levelText at this
      have e2 := congrArg (List.take 2) e
      rw [List.nil_append, List.take_take] at e2
      rw [show min 2 4 = 2 from rfl] at e2
      rw [e2] at this
      simp at this
  unfold cacheInfo at h
  obtain ⟨hm, -, h⟩ := cutNumber (x := 32) (y := 32) n32 n32 (List.append_cancel_left h)
  have h := List.append_cancel_left (as := b!"bytes\n") h
  rw [← List.append_nil (levelText t.l4 4), ← List.append_nil (levelText u.l4 4)] at h
  obtain ⟨i1, i2, h⟩ := opt_cut (K := fun s => s.take 4 = b!"L1 i")
    (C160_report_line _ _ _ _ (by decide)) (C160_report_line _ _ _ _ (by decide))
    (fun hp s => by simp [reportCache, d1, hp.2]) (fun hp s => by simp [reportCache, d1, hp.2])
    (k1 t) (k1 u) h
  obtain ⟨j1, h⟩ := level_cut (K := fun s => s.take 2 = [76, 49])
    (fun n c s => head_report n c 1 49 d1 s) (fun e => by have := k2 t; rw [e] at this; simp at this)
    (fun e => by have := k2 u; rw [e] at this; simp at this) h
  obtain ⟨j2, h⟩ := level_cut (K := fun s => s.take 2 = [76, 50])
    (fun n c s => head_report n c 2 50 d2 s) (fun e => by have := k3 t; rw [e] at this; simp at this)
    (fun e => by have := k3 u; rw [e] at this; simp at this) h
  obtain ⟨j3, h⟩ := level_cut (K := fun s => s.take 2 = [76, 51])
    (fun n c s => head_report n c 3 51 d3 s) (fun e => by have := k4 t; rw [e] at this; simp at this)
    (fun e => by have := k4 u; rw [e] at this; simp at this) h
  obtain ⟨j4, -⟩ := level_cut (K := fun s => s.take 2 = [76, 52])
    (fun n c s => head_report n c 4 52 d4 s) (by simp) (by simp) h
  exact ⟨hm, i1, fun hi => C150_report_tells _ _ _ _ _ _ (Or.inl rfl) (i2 hi), j1, j2, j3, j4⟩

/-! ## Examples -/

/-- A machine with a known and an unknown core. -/
private def small : Tools.Machine :=
  { packages := [b!"Rockchip RK3399"]
    uarchs := [⟨1, 0x00300372⟩, ⟨2, 0x00AB0001⟩]
    cores := [⟨0, 1, 3, 0x00300372⟩, ⟨1, 1, 3, 0x00AB0001⟩, ⟨2, 1, 99, 0x00AB0001⟩]
    clusters := [⟨0, 1, 0, 1, 3, 0x00300372⟩, ⟨1, 2, 1, 2, 3, 0x00AB0001⟩]
    processors := [⟨4, 0⟩, ⟨0, 0⟩, ⟨1, 0⟩] }

example : Printable small :=
  ⟨by decide +kernel, by decide, by decide, by decide, by decide⟩

example : cpuInfo ⟨false, true, false⟩ small = some (b!"Packages:\n\t0: Rockchip RK3399\n" ++
    b!"Microarchitectures:\n\t1x Cortex-A72\n\t2x Unknown (0x00ab0001\n" ++
    b!"Cores:\n\t0: 1 processor (0), ARM Cortex-A72\n" ++
    b!"\t1: 1 processor (1), ARM uarch 0x00ab0001\n" ++
    b!"\t2: 1 processor (2), vendor 0x00000063 uarch 0x00ab0001\n" ++
    b!"Clusters:\n\t0: 1 processor (0),\t0: 1 core (0), ARM Cortex-A72\n" ++
    b!"\t1: 2 processors (1-2),\t1: 2 cores (1-2), ARM uarch 0x00ab0001\n" ++
    b!"Logical processors (System ID):\n\t0 (4)\n\t1 (0)\n\t2 (1)\n") := by decide +kernel

example : cacheInfo ⟨1048576, ⟨3, ⟨32768, 2, 256, 1, 64, 0, 0, 1⟩⟩, ⟨3, ⟨32768, 2, 256, 1, 64, 0, 0, 1⟩⟩,
    ⟨2, ⟨1048576, 16, 1024, 1, 64, 3, 0, 2⟩⟩, ⟨0, ⟨0, 0, 0, 0, 0, 0, 0, 0⟩⟩, ⟨0, ⟨0, 0, 0, 0, 0, 0, 0, 0⟩⟩⟩ =
    b!"Max cache size (upper bound): 1048576 bytes\n" ++
    b!"L1 instruction cache: 3 x 32 KB, 2-way set associative (256 sets), 64 byte lines, shared by 1 processors\n" ++
    b!"L1 data cache: 3 x 32 KB, 2-way set associative (256 sets), 64 byte lines, shared by 1 processors\n" ++
    b!"L2 unified cache: 2 x 1 MB (inclusive), 16-way set associative (1024 sets), 64 byte lines, shared by 2 processors\n" := by
  decide +kernel

/-- A name with a newline would make the output ambiguous: one package and two look alike. -/
example : packagesText ⟨false, true, true⟩ [b!"A\n\t1: B"] = packagesText ⟨false, true, true⟩ [b!"A", b!"B"] := by
  decide +kernel

end Verif.Props
