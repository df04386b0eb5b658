import Verif.Proof.WinCaches
import Verif.Spec.X86Init

/-!
# Detection on Windows as a whole
-/

set_option autoImplicit false

namespace Verif.Windows
open Spec
open X86Init (Topology bitMask bitMask_isSome shl32)

/-! ## First cores of packages -/

/-- Equal elements follow one another. -/
def Contig (l : List Nat) : Prop :=
  ∀ (a b c x : Nat), a < b → b < c → l[a]? = some x → l[c]? = some x → l[b]? = some x

theorem coreStarts_eq (as : List Nat) : ∀ (pre : List Nat) (cur st : Nat),
    (pre = [] ∧ st = 0 ∨ pre.getLast? = some cur ∧ st = pre.idxOf cur) → Contig (pre ++ as) →
    ∀ (j a : Nat), as[j]? = some a →
      (coreStarts cur st pre.length as)[j]? = some ((pre ++ as).idxOf a) := by
  induction as with
  | nil => intro _ _ _ _ _ j a h; cases h
  | cons b as ih =>
    intro pre cur st hpre hcon j a hj
    have hst : (if b ≠ cur then pre.length else st) = (pre ++ [b]).idxOf b := by
      rcases hpre with ⟨rfl, rfl⟩ | ⟨hl, hs⟩
      · by_cases h : b = cur <;> simp [h]
      · by_cases h : b = cur
        · subst h
          have hm : b ∈ pre := List.mem_of_getLast? hl
          rw [if_neg (by simp), hs, List.idxOf_append, if_pos hm]
        · have hm : b ∉ pre := by
            intro hm
            obtain ⟨i, hi⟩ := List.mem_iff_getElem?.mp hm
            have hil : i < pre.length := (List.getElem?_eq_some_iff.mp hi).1
            rw [List.getLast?_eq_getElem?] at hl
            have hne : i ≠ pre.length - 1 := by
              intro he
              rw [he, hl] at hi
              exact h (Option.some.inj hi).symm
            have := hcon i (pre.length - 1) pre.length b (by omega) (by omega)
              (by rw [List.getElem?_append_left hil]; exact hi)
              (by rw [List.getElem?_append_right (by omega)]; simp)
            rw [List.getElem?_append_left (by omega), hl] at this
            exact h (Option.some.inj this).symm
          rw [if_pos h, List.idxOf_append, if_neg hm]
          simp
    rw [coreStarts, hst]
    have happ : pre ++ b :: as = (pre ++ [b]) ++ as := by simp
    cases j with
    | zero =>
      rw [List.getElem?_cons_zero] at hj ⊢
      cases hj
      rw [happ, List.idxOf_append (l₁ := pre ++ [b]), if_pos (by simp)]
    | succ j =>
      rw [List.getElem?_cons_succ] at hj ⊢
      have := ih (pre ++ [b]) b ((pre ++ [b]).idxOf b) (.inr ⟨by simp, rfl⟩)
        (by rw [← happ]; exact hcon) j a hj
      rw [List.length_append] at this
      rw [happ]
      exact this

/-! ## The fields of the APIC id -/

theorem or_div_pow (a b k : Nat) (hb : b < 2 ^ k) : (a ||| b) / 2 ^ k = a / 2 ^ k := by
  apply Nat.eq_of_testBit_eq
  intro i
  rw [Nat.testBit_div_two_pow, Nat.testBit_div_two_pow, Nat.testBit_or,
    Nat.testBit_lt_two_pow (x := b) (Nat.lt_of_lt_of_le hb (Nat.pow_le_pow_right (by omega) (by omega)))]
  simp

theorem field_lt (x m off len k : Nat) (hm : m = 2 ^ len - 1) (hk : off + len ≤ k) :
    (x &&& m) * 2 ^ off % U32 < 2 ^ k := by
  have h1 : (x &&& m) < 2 ^ len := by
    have := Nat.and_le_right (n := x) (m := m)
    have := Nat.pow_pos (n := len) (show 0 < 2 by omega)
    omega
  have h2 : (x &&& m) * 2 ^ off < 2 ^ len * 2 ^ off :=
    Nat.mul_lt_mul_of_pos_right h1 (Nat.pow_pos (by omega))
  rw [← Nat.pow_add] at h2
  have h3 : 2 ^ (len + off) ≤ 2 ^ k := Nat.pow_le_pow_right (by omega) (by omega)
  exact Nat.lt_of_le_of_lt (Nat.mod_le _ _) (by omega)

/-- What every entry of the table satisfies throughout. -/
structure Entry (off nc np : Nat) (p : Processor) : Prop where
  core : p.core < nc
  cluster : p.cluster = 0
  package : p.package < np
  apic : p.apicId / 2 ^ off < np

theorem Entry.apic_lt {off nc np : Nat} {p : Processor} (h : Entry off nc np p)
    (hr : np * 2 ^ off < U32) : p.apicId < U32MAX := by
  have h1 := h.apic
  have hp : 0 < 2 ^ off := Nat.pow_pos (by omega)
  rw [Nat.div_lt_iff_lt_mul hp] at h1
  have : U32 = U32MAX + 1 := rfl
  omega

/-! ## The two loops over records -/

/-- The table of processors after both loops. -/
structure Detected (e : Env) (ps cs : List Info) (procs : List Processor) : Prop where
  length : procs.length = (groupSizes e).sum
  entries : ∀ p ∈ procs, Entry (packageOffset e.cpu.topology) cs.length ps.length p

theorem groupSizes_eq (e : Env) :
    perGroup (if e.wine then 1 else e.groupCount) e.maxCount = groupSizes e := rfl

theorem recordsOf_rel (rel : Nat) (l : List Info) : ∀ r ∈ recordsOf rel l, r.relationship = rel := by
  intro r hr
  unfold recordsOf at hr
  simpa using (List.mem_filter.mp hr).2

theorem packageRun (e : Env) (ps cs : List Info) (h : WinReports e ps cs) (hn : WinNarrow e)
    (l : List Info) (hl : ps = recordsOf relationPackage l) :
    ∃ procs, l.foldlM (packageStep (packageOffset e.cpu.topology) (beforeLoop 0 (groupSizes e)))
        ⟨0, List.replicate (groupSizes e).sum zeroProcessor⟩ = some ⟨ps.length, procs⟩ ∧
      Detected e ps cs procs ∧
      (∀ i, i ∉ ps.flatMap (winIndices (groupSizes e)) → i < (groupSizes e).sum →
        procs[i]? = some zeroProcessor) ∧
      ((ps.flatMap (winIndices (groupSizes e))).Nodup → ∀ (k : Nat) (r : Info), ps[k]? = some r →
        ∀ v ∈ visitsOf (groupSizes e) r, procs[v.index]? =
          some (packageEntry (packageOffset e.cpu.topology) k v zeroProcessor)) := by
  have hoff : packageOffset e.cpu.topology < 32 := by
    unfold packageOffset
    have h1 := hn.1
    have h2 := hn.2.1
    omega
  rw [foldlM_records _ relationPackage (fun s i hi => by unfold packageStep; rw [if_pos hi]), ← hl]
  have hpos : 0 < ps.length := List.length_pos_iff.mpr h.somePackage
  have hcpos : 0 < cs.length := List.length_pos_iff.mpr h.someCore
  obtain ⟨procs, h1, h2, h3, h4, h5⟩ := packageLoop_ok (groupSizes e) h.total _ hoff ps 0
    (List.replicate (groupSizes e).sum zeroProcessor) (by rw [hl]; exact recordsOf_rel _ _)
    h.fitsPackages (by have := h.fewPackages; omega) (by simp)
  rw [Nat.zero_add] at h1
  refine ⟨procs, h1, ⟨h2, ?_⟩, ?_, ?_⟩
  · refine h5 _ ?_ ?_
    · intro p hp
      rw [List.mem_replicate] at hp
      rw [hp.2]
      exact ⟨hcpos, rfl, hpos, by simp [zeroProcessor, hpos]⟩
    · intro k r hk v _ p hp
      have hk' : k < ps.length := (List.getElem?_eq_some_iff.mp hk).1
      refine ⟨hp.core, hp.cluster, ?_, ?_⟩
      · show 0 + k < ps.length
        omega
      · show (0 + k) * 2 ^ packageOffset e.cpu.topology % U32 / 2 ^ packageOffset e.cpu.topology < _
        have hp2 : 0 < 2 ^ packageOffset e.cpu.topology := Nat.pow_pos (by omega)
        rw [Nat.div_lt_iff_lt_mul hp2, Nat.zero_add]
        exact Nat.lt_of_le_of_lt (Nat.mod_le _ _) (Nat.mul_lt_mul_of_pos_right hk' hp2)
  · intro i hi hin
    rw [h3 i hi]
    simp [hin]
  · intro hnd k r hk v hv
    rw [h4 hnd k r hk v hv, Nat.zero_add]
    have hi : v.index < (groupSizes e).sum :=
      (visitsOf_lt _ r (h.fitsPackages r (List.mem_of_getElem? hk)) v hv).1
    simp [hi]

/-- The index of the package of a core. -/
def packageIndex (per : List Nat) (ps : List Info) (c : Info) : Nat :=
  ps.findIdx fun p => decide (∀ i ∈ winIndices per c, i ∈ winIndices per p)

theorem packageIndex_spec (per : List Nat) (ps : List Info) (c : Info)
    (h : ∃ p ∈ ps, ∀ i ∈ winIndices per c, i ∈ winIndices per p) :
    ∃ p, ps[packageIndex per ps c]? = some p ∧ ∀ i ∈ winIndices per c, i ∈ winIndices per p := by
  unfold packageIndex
  obtain ⟨p, hp, hc⟩ := h
  have hlt : ps.findIdx (fun p => decide (∀ i ∈ winIndices per c, i ∈ winIndices per p)) < ps.length :=
    List.findIdx_lt_length_of_exists ⟨p, hp, by simpa using hc⟩
  refine ⟨_, List.getElem?_eq_getElem hlt, ?_⟩
  have := List.findIdx_getElem (w := hlt)
  simpa using this

theorem flatMap_unique {per : List Nat} {ps : List Info} (hn : (ps.flatMap (winIndices per)).Nodup)
    {i a b : Nat} {p q : Info} (ha : ps[a]? = some p) (hb : ps[b]? = some q) (hp : i ∈ winIndices per p)
    (hq : i ∈ winIndices per q) : a = b := by
  induction ps generalizing a b with
  | nil => cases ha
  | cons r ps ih =>
    rw [List.flatMap_cons, List.nodup_append] at hn
    cases a with
    | zero =>
      cases b with
      | zero => rfl
      | succ b =>
        rw [List.getElem?_cons_zero] at ha
        cases ha
        rw [List.getElem?_cons_succ] at hb
        exact absurd rfl (hn.2.2 i hp i (List.mem_flatMap.mpr ⟨q, List.mem_of_getElem? hb, hq⟩))
    | succ a =>
      rw [List.getElem?_cons_succ] at ha
      cases b with
      | zero =>
        rw [List.getElem?_cons_zero] at hb
        cases hb
        exact absurd rfl (hn.2.2 i hq i (List.mem_flatMap.mpr ⟨p, List.mem_of_getElem? ha, hp⟩))
      | succ b =>
        rw [List.getElem?_cons_succ] at hb
        rw [ih hn.2.1 ha hb]

theorem WinIn_iff {e : Env} {ps cs : List Info} (hd : WinDisjoint e ps cs) {j : Nat} {c : Info}
    (hc : cs[j]? = some c) (q : Nat) :
    WinIn (groupSizes e) ps cs j q ↔ packageIndex (groupSizes e) ps c = q := by
  have hcm := List.mem_of_getElem? hc
  obtain ⟨p, hp, hs⟩ := packageIndex_spec _ ps c (hd.inPackage c hcm)
  constructor
  · rintro ⟨c', p', h1, h2, h3, h4⟩
    rw [hc] at h1
    cases h1
    obtain ⟨i, hi⟩ := List.exists_mem_of_ne_nil _ h3
    exact flatMap_unique hd.packages hp h2 (hs i hi) (h4 i hi)
  · rintro rfl
    exact ⟨c, p, hc, hp, hd.nonempty c hcm, hs⟩

theorem coreRun (e : Env) (ps cs : List Info) (h : WinReports e ps cs) (hn : WinNarrow e)
    (procs : List Processor) (hdet : Detected e ps cs procs)
    (l : List Info) (hl : cs = recordsOf relationCore l) (tm cm : Nat)
    (htm : tm = 2 ^ e.cpu.topology.threadLength - 1) (hcm : cm = 2 ^ e.cpu.topology.coreLength - 1) :
    ∃ s, l.foldlM (coreStep e.cpu.topology tm cm (beforeLoop 0 (groupSizes e))) ⟨0, 0, 0, 0, procs⟩ =
        some s ∧ s.count = cs.length ∧ Detected e ps cs s.processors := by
  rw [foldlM_records _ relationCore (fun s i hi => by unfold coreStep; rw [if_pos hi]), ← hl]
  obtain ⟨s, h1, h2, h3, h4⟩ := coreLoop_safe (groupSizes e) h.total e.cpu.topology tm cm
    (by have := hn.1; omega) (by have := hn.2.1; omega) cs.length
    (Entry (packageOffset e.cpu.topology) cs.length ps.length) (by
      intro id hid smt rank p hp
      refine ⟨hid, hp.cluster, hp.package, ?_⟩
      show (p.apicId ||| (_ ||| _)) / _ < _
      unfold packageOffset
      rw [or_div_pow _ _ _ (Nat.or_lt_two_pow
        (field_lt smt tm _ _ _ htm (Nat.le_max_left _ _))
        (field_lt rank cm _ _ _ hcm (Nat.le_max_right _ _)))]
      have := hp.apic
      unfold packageOffset at this
      exact this) h.fewCores cs ⟨0, 0, 0, 0, procs⟩
    (by rw [hl]; exact recordsOf_rel _ _) h.fitsCores (by simp) hdet.length hdet.entries
  exact ⟨s, h1, by rw [h2]; simp, h3, h4⟩

/-- The first core of the run of cores that core `j` is in. -/
def runStart (per : List Nat) (ps cs : List Info) (off j : Nat) : Nat :=
  ((coreStarts 0 0 0 (cs.map fun c => packageIndex per ps c * 2 ^ off))[j]?).getD 0

/-- The table of processors after both loops, for disjoint records. -/
structure Exact (e : Env) (ps cs : List Info) (procs : List Processor) : Prop where
  reported : ∀ (j k q : Nat) (c p : Info) (m : Nat × Nat), cs[j]? = some c → (winMembers c)[k]? = some m →
    ps[q]? = some p → winIndex (groupSizes e) m.1 m.2 ∈ winIndices (groupSizes e) p →
    procs[winIndex (groupSizes e) m.1 m.2]? = some
      { smtId := k, core := j, cluster := 0, package := q
        groupId := m.1 % 65536, processorId := m.2 % 65536
        apicId := (q * 2 ^ packageOffset e.cpu.topology) |||
          ((k &&& (2 ^ e.cpu.topology.threadLength - 1)) * 2 ^ e.cpu.topology.threadOffset % U32 |||
           ((j - runStart (groupSizes e) ps cs (packageOffset e.cpu.topology) j) &&&
             (2 ^ e.cpu.topology.coreLength - 1)) * 2 ^ e.cpu.topology.coreOffset % U32) }
  unreported : ∀ i < (groupSizes e).sum, (∀ p ∈ ps, i ∉ winIndices (groupSizes e) p) →
    (∀ c ∈ cs, i ∉ winIndices (groupSizes e) c) → procs[i]? = some zeroProcessor

theorem exactRun (e : Env) (ps cs : List Info) (h : WinReports e ps cs) (hn : WinNarrow e)
    (hr : WinRoom e ps) (hd : WinDisjoint e ps cs) (lp lc : List Info)
    (hlp : ps = recordsOf relationPackage lp) (hlc : cs = recordsOf relationCore lc) (tm cm : Nat)
    (htm : tm = 2 ^ e.cpu.topology.threadLength - 1) (hcm : cm = 2 ^ e.cpu.topology.coreLength - 1)
    (procs : List Processor) (s : CoreState)
    (h1 : lp.foldlM (packageStep (packageOffset e.cpu.topology) (beforeLoop 0 (groupSizes e)))
        ⟨0, List.replicate (groupSizes e).sum zeroProcessor⟩ = some ⟨ps.length, procs⟩)
    (h2 : lc.foldlM (coreStep e.cpu.topology tm cm (beforeLoop 0 (groupSizes e))) ⟨0, 0, 0, 0, procs⟩ =
        some s) : Exact e ps cs s.processors := by
  obtain ⟨procs', g1, g2, g3, g4⟩ := packageRun e ps cs h hn lp hlp
  rw [h1] at g1
  cases g1
  have g4 := g4 hd.packages
  have hpk : ∀ (q : Nat) (p : Info) (i : Nat), ps[q]? = some p → i ∈ winIndices (groupSizes e) p →
      ∃ v ∈ visitsOf (groupSizes e) p, v.index = i ∧ procs[i]? = some
        (packageEntry (packageOffset e.cpu.topology) q v zeroProcessor) := by
    intro q p i hq hi
    rw [← visitsOf_index] at hi
    obtain ⟨v, hv, rfl⟩ := List.mem_map.mp hi
    exact ⟨v, hv, rfl, g4 q p hq v hv⟩
  have hfit : ∀ q < ps.length, q * 2 ^ packageOffset e.cpu.topology % U32 =
      q * 2 ^ packageOffset e.cpu.topology := by
    intro q hq
    have hr' : ps.length * 2 ^ packageOffset e.cpu.topology < U32 := hr
    have : q * 2 ^ packageOffset e.cpu.topology ≤ ps.length * 2 ^ packageOffset e.cpu.topology :=
      Nat.mul_le_mul_right _ (Nat.le_of_lt hq)
    exact Nat.mod_eq_of_lt (by omega)
  rw [foldlM_records _ relationCore (fun s i hi => by unfold coreStep; rw [if_pos hi]), ← hlc] at h2
  obtain ⟨s', a1, a2, a3, a4, a5⟩ := coreLoop_exact (groupSizes e) h.total e.cpu.topology tm cm
    (by have := hn.1; omega) (by have := hn.2.1; omega) cs
    (cs.map fun c => packageIndex (groupSizes e) ps c * 2 ^ packageOffset e.cpu.topology)
    ⟨0, 0, 0, 0, procs⟩ (by rw [hlc]; exact recordsOf_rel _ _) h.fitsCores
    (by have := h.fewCores; simpa using this) g2.length hd.cores hd.nonempty (by simp) (by
      intro j c a hj ha i hi
      rw [List.getElem?_map, hj] at ha
      cases ha
      obtain ⟨p, hp, hs⟩ := packageIndex_spec _ ps c (hd.inPackage c (List.mem_of_getElem? hj))
      obtain ⟨v, _, _, hv⟩ := hpk _ p i hp (hs i hi)
      refine ⟨_, hv, ?_⟩
      exact hfit _ (List.getElem?_eq_some_iff.mp hp).1)
  rw [h2] at a1
  cases a1
  simp only [Nat.zero_add] at a5
  constructor
  · intro j k q c p m hj hk hq hi
    have hcl : j < cs.length := (List.getElem?_eq_some_iff.mp hj).1
    obtain ⟨st, hst⟩ : ∃ st, (coreStarts 0 0 0 (cs.map fun c =>
        packageIndex (groupSizes e) ps c * 2 ^ packageOffset e.cpu.topology))[j]? = some st :=
      ⟨_, List.getElem?_eq_getElem (by rw [coreStarts_length]; simpa using hcl)⟩
    have hrs : runStart (groupSizes e) ps cs (packageOffset e.cpu.topology) j = st := by
      unfold runStart
      rw [hst]
      rfl
    have hwi : (winIndices (groupSizes e) c)[k]? = some (winIndex (groupSizes e) m.1 m.2) := by
      unfold winIndices
      rw [List.getElem?_map, hk]
      rfl
    obtain ⟨v, hv, hvi, hvp⟩ := hpk q p _ hq hi
    rw [a5 j c st hj hst k _ hwi, hvp, Option.map_some, hrs]
    have hmem : m ∈ winMembers c := List.mem_of_getElem? hk
    obtain ⟨_, b1, _, n, b2, b3⟩ := visitsOf_lt _ p (h.fitsPackages p (List.mem_of_getElem? hq)) v hv
    obtain ⟨_, _, _, n', b4, b5⟩ := visitsOf_lt _ c (h.fitsCores c (List.mem_of_getElem? hj))
      ⟨m.1, m.2, winIndex (groupSizes e) m.1 m.2⟩ (by
        unfold visitsOf
        exact List.mem_map.mpr ⟨m, hmem, rfl⟩)
    rw [b1] at hvi
    obtain ⟨e1, e2⟩ := winIndex_inj b2 b3 b4 b5 hvi
    unfold coreEntry packageEntry
    simp only [e1, e2, zeroProcessor, hfit q (List.getElem?_eq_some_iff.mp hq).1, htm, hcm]
  · intro i hi hp hc
    rw [a4 i (by
      intro hm
      obtain ⟨c, h1, h2⟩ := List.mem_flatMap.mp hm
      exact hc c h1 h2)]
    exact g3 i (by
      intro hm
      obtain ⟨p, h1, h2⟩ := List.mem_flatMap.mp hm
      exact hp p h1 h2) hi

/-! ## The whole function -/

/-- What is published. -/
structure Good (e : Env) (ps cs : List Info) (pub : Published) : Prop where
  detected : Detected e ps cs pub.processors
  exact : WinDisjoint e ps cs → Exact e ps cs pub.processors
  tables : TablesOk e.cpu.topology (2 ^ e.cpu.topology.coreLength - 1) (groupSizes e).sum cs.length
    ps.length pub.processors ⟨pub.cores, pub.clusters, pub.packages⟩
  finished : Finished e.cpu cs.length ps.length pub.processors ⟨pub.cores, pub.clusters, pub.packages⟩ pub

theorem windowsInit_ok (e : Env) (ps cs : List Info) (h : WinReports e ps cs) (hn : WinNarrow e)
    (hr : WinRoom e ps) :
    ∃ r, windowsInit e = some r ∧ ((∀ i, e.alloc i = true) → e.sizesKnown = true → r ≠ none) ∧
      ∀ pub, r = some pub → Good e ps cs pub := by
  obtain ⟨lp, hlp, hps⟩ := h.packages
  obtain ⟨lc, hlc, hcs⟩ := h.cores
  obtain ⟨procs, a1, a2, _, _⟩ := packageRun e ps cs h hn lp hps
  obtain ⟨s, b1, b2, b3⟩ := coreRun e ps cs h hn procs a2 lc hcs _ _ rfl rfl
  have hex := fun hd => exactRun e ps cs h hn hr hd lp lc hps hcs _ _ rfl rfl procs s a1 b1
  have hpos : 0 < ps.length := List.length_pos_iff.mpr h.somePackage
  have hcpos : 0 < cs.length := List.length_pos_iff.mpr h.someCore
  obtain ⟨tb, c1, c2⟩ := tables_ok e.cpu.topology (2 ^ e.cpu.topology.coreLength - 1)
    (groupSizes e).sum cs.length ps.length s.processors (by have := hn.2.1; omega) b3.length
    h.someProcessor hcpos (by
      intro p hp
      have := b3.entries p hp
      exact ⟨this.core, by rw [this.cluster]; exact hpos, this.package⟩)
  obtain ⟨r, d1, d2, d3⟩ := finish_ok e.cpu e.alloc (groupSizes e).sum cs.length ps.length s.processors tb
    b3.length h.someProcessor h.total hn.2.2 (fun p hp => (b3.entries p hp).apic_lt hr)
  unfold windowsInit
  have hcnt : countLoop 0 (groupSizes e) = (groupSizes e).sum := by
    rw [countLoop_eq _ 0 (by have := h.total; omega)]
    omega
  simp only [groupSizes_eq, bitMask_isSome (show e.cpu.topology.threadLength < 32 by have := hn.1; omega),
    bitMask_isSome (show e.cpu.topology.coreLength < 32 by have := hn.2.1; omega), Option.bind_eq_bind,
    Option.bind_some, hcnt, hlp, hlc, a1, b1, b2, c1, d1]
  by_cases g1 : e.alloc 0 = true ∧ e.sizesKnown = true ∧ e.alloc 1 = true
  · rw [if_neg (by simpa using g1)]
    by_cases g2 : e.alloc 2 = true ∧ e.alloc 3 = true ∧ e.alloc 4 = true
    · rw [if_neg (by simpa using g2)]
      refine ⟨r, rfl, fun ha _ => d2 ha, ?_⟩
      intro pub hp
      have hf := d3 pub hp
      have e1 := hf.processors
      have e2 : (⟨pub.cores, pub.clusters, pub.packages⟩ : Tables) = tb := by
        rw [hf.cores, hf.clusters, hf.packages]
      refine ⟨?_, ?_, ?_, ?_⟩
      · rw [e1]; exact b3
      · rw [e1]; exact hex
      · rw [e1, e2]; exact c2
      · rw [e1, e2]; exact hf
    · rw [if_pos (by simpa using g2)]
      exact ⟨none, rfl, fun ha _ => absurd ⟨ha 2, ha 3, ha 4⟩ g2, by intro _ h; cases h⟩
  · rw [if_pos (by simpa using g1)]
    exact ⟨none, rfl, fun ha hk => absurd ⟨ha 0, hk, ha 1⟩ g1, by intro _ h; cases h⟩

theorem windowsInit_good {e : Env} {ps cs : List Info} (h : WinReports e ps cs) (hn : WinNarrow e)
    (hr : WinRoom e ps) {pub : Published} (hi : windowsInit e = some (some pub)) : Good e ps cs pub := by
  obtain ⟨r, h1, _, h3⟩ := windowsInit_ok e ps cs h hn hr
  rw [hi] at h1
  cases h1
  exact h3 pub rfl

end Verif.Windows
