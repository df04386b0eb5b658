import Verif.Model.Windows

/-!
The sizes of the tables that Windows detection publishes, whatever Windows answers.
-/

set_option autoImplicit false

namespace Verif.Windows
open X86Init (modify? cacheLoop cacheStep buildCache CacheState CacheLevel CacheDesc)
open X86Cpuinfo (LinuxProc)

theorem modify_length {α : Type} {t t' : List α} {i : Nat} {f : α → α} (h : modify? t i f = some t') :
    t'.length = t.length := by
  unfold modify? at h
  split at h
  · cases h
  · cases h; exact List.length_set

theorem foldlM_keeps {σ α : Type} {f : σ → α → Option σ} (P : σ → Prop)
    (hf : ∀ s a s', P s → f s a = some s' → P s') :
    ∀ (l : List α) (s s' : σ), P s → l.foldlM f s = some s' → P s'
  | [], s, s', hs, h => by cases h; exact hs
  | a :: l, s, s', hs, h => by
    rw [List.foldlM_cons] at h
    obtain ⟨s1, h1, h2⟩ := Option.bind_eq_some_iff.mp h
    exact foldlM_keeps P hf l s1 s' (hf s a s1 hs h1) h2

theorem packageStep_length {off : Nat} {before : List Nat} {s s' : PackageState} {info : Info}
    (h : packageStep off before s info = some s') : s'.processors.length = s.processors.length := by
  unfold packageStep at h
  split at h
  · cases h; rfl
  · simp only [bind, pure, Option.bind_eq_some_iff] at h
    obtain ⟨_, _, _, _, ps, h3, h4⟩ := h
    cases h4
    exact foldlM_keeps (fun t : List Processor => t.length = s.processors.length)
      (fun a v b ha hb => (modify_length hb).trans ha) _ _ _ rfl h3

theorem coreVisit_length {t : X86Init.Topology} {tm cm id : Nat} {s s' : CoreState} {v : Visit}
    (h : coreVisit t tm cm id s v = some s') : s'.processors.length = s.processors.length := by
  unfold coreVisit at h
  simp only [bind, pure, Option.bind_eq_some_iff] at h
  obtain ⟨_, _, _, _, _, _, ps, h4, h5⟩ := h
  cases h5
  exact modify_length h4

theorem coreStep_length {t : X86Init.Topology} {tm cm : Nat} {before : List Nat} {s s' : CoreState}
    {info : Info} (h : coreStep t tm cm before s info = some s') :
    s'.processors.length = s.processors.length := by
  unfold coreStep at h
  split at h
  · cases h; rfl
  · simp only [bind, pure, Option.bind_eq_some_iff] at h
    obtain ⟨_, _, _, _, s1, h3, h4⟩ := h
    cases h4
    have := foldlM_keeps (fun t : CoreState => t.processors.length = s.processors.length)
      (fun a v b ha hb => (coreVisit_length hb).trans ha) _ { s with smtId := 0 } s1 rfl h3
    exact this

/-- The three tables have the given lengths. -/
def Tables.Sized (nc np : Nat) (s : Tables) : Prop :=
  s.cores.length = nc ∧ s.clusters.length = np ∧ s.packages.length = np

theorem tables_sized {t : X86Init.Topology} {cm n nc np : Nat} {ps : List Processor} {tb : Tables}
    (h : tables t cm n nc np ps = some tb) : tb.Sized nc np := by
  unfold tables at h
  simp only [bind, Option.bind_eq_some_iff] at h
  obtain ⟨s1, h1, s2, h2, h3⟩ := h
  have k1 : s1.Sized nc np := by
    refine foldlM_keeps (Tables.Sized nc np) ?_ _ _ _ ⟨?_, ?_, ?_⟩ h1
    · intro s a s' hs h
      unfold linkStep at h
      simp only [bind, pure, Option.bind_eq_some_iff] at h
      obtain ⟨_, _, _, a1, _, a2, _, a3, h4⟩ := h
      cases h4
      exact ⟨(modify_length a3).trans hs.1, (modify_length a2).trans hs.2.1,
        (modify_length a1).trans hs.2.2⟩
    · exact List.length_replicate
    · exact List.length_replicate
    · exact List.length_replicate
  have k2 : s2.Sized nc np := by
    refine foldlM_keeps (Tables.Sized nc np) ?_ _ _ _ k1 h2
    intro s a s' hs h
    unfold coreInfoStep at h
    simp only [bind, pure, Option.bind_eq_some_iff] at h
    obtain ⟨_, _, _, _, h⟩ := h
    split at h
    · cases h
    · simp only [Option.bind_eq_some_iff] at h
      obtain ⟨_, a1, _, a2, _, a3, h4⟩ := h
      cases h4
      exact ⟨(modify_length a1).trans hs.1, (modify_length a2).trans hs.2.1,
        (modify_length a3).trans hs.2.2⟩
  refine foldlM_keeps (Tables.Sized nc np) ?_ _ _ _ k2 h3
  intro s a s' hs h
  unfold packageInfoStep at h
  simp only [bind, pure, Option.bind_eq_some_iff] at h
  obtain ⟨_, a1, _, _, _, _, _, a3, h4⟩ := h
  cases h4
  exact ⟨hs.1, (modify_length a1).trans hs.2.1, (modify_length a3).trans hs.2.2⟩

theorem cacheLoop_length {d : CacheDesc} : ∀ (v : List LinuxProc) (i : Nat) (s s' : CacheState),
    cacheLoop d i v s = some s' → s'.table.length = s.table.length
  | [], _, _, _, h => by cases h; rfl
  | p :: v, i, s, s', h => by
    rw [cacheLoop] at h
    split at h
    · obtain ⟨s1, h1, h2⟩ := Option.bind_eq_some_iff.mp h
      refine (cacheLoop_length v (i + 1) s1 s' h2).trans ?_
      unfold cacheStep at h1
      simp only [bind, pure] at h1
      split at h1
      · simp only [Option.bind_eq_some_iff] at h1
        obtain ⟨_, _, _, a1, _, _, a3⟩ := h1
        cases a3
        exact modify_length a1
      · cases h1; rfl
    · exact cacheLoop_length v (i + 1) s s' h

theorem buildCache_length {al : Bool} {d : CacheDesc} {vm n : Nat} {v : List LinuxProc} {l : CacheLevel}
    (h : buildCache al d vm n v = some (some l)) : l.count = l.table.length := by
  unfold buildCache at h
  simp only [bind, pure, Option.bind_eq_some_iff] at h
  obtain ⟨c, _, h⟩ := h
  split at h
  · cases h
  · simp only [Option.bind_eq_some_iff] at h
    obtain ⟨s, h1, h2⟩ := h
    cases h2
    exact ((cacheLoop_length _ _ _ _ h1).trans List.length_replicate).symm

/-- Counters and tables agree. -/
structure Sized (pub : Published) : Prop where
  processors : pub.processorsCount = pub.processors.length
  cores : pub.coresCount = pub.cores.length
  clusters : pub.clustersCount = pub.clusters.length
  packages : pub.packagesCount = pub.packages.length
  l1i : pub.l1i.count = pub.l1i.table.length
  l1d : pub.l1d.count = pub.l1d.table.length
  l2 : pub.l2.count = pub.l2.table.length
  l3 : pub.l3.count = pub.l3.table.length
  l4 : pub.l4.count = pub.l4.table.length

theorem windowsInit_sized {e : Env} {pub : Published} (h : windowsInit e = some (some pub)) :
    Sized pub := by
  unfold windowsInit at h
  simp only [bind, pure, Option.bind_eq_some_iff] at h
  obtain ⟨_, _, cm, _, h⟩ := h
  split at h
  · cases h
  split at h
  · cases h
  simp only [Option.bind_eq_some_iff] at h
  obtain ⟨s, hs, h⟩ := h
  split at h
  · cases h
  simp only [Option.bind_eq_some_iff] at h
  obtain ⟨c, hc, h⟩ := h
  split at h
  · cases h
  simp only [Option.bind_eq_some_iff] at h
  obtain ⟨tb, ht, h⟩ := h
  have k1 := foldlM_keeps (fun t : PackageState => t.processors.length = countLoop 0 (perGroup
    (if e.wine = true then 1 else e.groupCount) e.maxCount))
    (fun a v b ha hb => (packageStep_length hb).trans ha) _ _ _ List.length_replicate hs
  have k2 := foldlM_keeps (fun t : CoreState => t.processors.length = countLoop 0 (perGroup
    (if e.wine = true then 1 else e.groupCount) e.maxCount))
    (fun a v b ha hb => (coreStep_length hb).trans ha) _ _ _ k1 hc
  obtain ⟨z1, z2, z3⟩ := tables_sized ht
  unfold finish at h
  simp only [bind, pure, Option.bind_eq_some_iff] at h
  obtain ⟨r1, b1, r2, b2, r3, b3, r4, b4, r5, b5, h⟩ := h
  split at h
  · simp only [Option.bind_eq_some_iff] at h
    obtain ⟨_, _, _, _, _, _, _, _, h⟩ := h
    cases h
    exact ⟨k2.symm, z1.symm, z2.symm, z3.symm, buildCache_length b1, buildCache_length b2,
      buildCache_length b3, buildCache_length b4, buildCache_length b5⟩
  · cases h

end Verif.Windows
