import Verif.Proof.WinTables
import Verif.Proof.X86Publish

/-!
# The caches on Windows
-/

set_option autoImplicit false

namespace Verif.Windows
open Spec Runs
open X86Init (CacheDesc CacheLevel CacheCtx Cache Tab buildCache cacheCount cacheLoop zeroCache countObjects
  not32 apicAt apicAt_get bitMask_isSome linkedSize computeMaxCacheSize X86Processor flagValid)
open X86Cpuinfo (LinuxProc)

/-- What a cache level looks like for `N` processors with the APIC ids `a`. -/
inductive LevelFor (a : Nat → Nat) (N : Nat) (d : CacheDesc) (l : CacheLevel) : Prop
  | absent (h : d.size = 0) (hc : l.count = 0) (ht : l.table = [])
      (hl : l.links = List.replicate N none)
  | present (x : CacheCtx) (hN : x.N = N) (ha : x.a = a) (hd : x.d = d)
      (hc : l.count = gi x.c (x.N - 1) + 1)
      (ht : Tab x.c (gi x.c (x.N - 1) + 1) x.N (x.cacheE x.N) zeroCache l.table)
      (hl : Tab (fun _ => true) x.N x.N (fun k => some (gi x.c k)) none l.links)

theorem buildCache_for (al : Bool) (d : CacheDesc) (v : List LinuxProc) (hN : 0 < v.length)
    (hU : v.length < U32) (hv : ∀ p ∈ v, X86Init.bitmaskAll p.flags flagValid = true)
    (hbits : d.size ≠ 0 → d.apicBits < 32)
    (hfirst : d.size ≠ 0 → apicAt v 0 &&& not32 (2 ^ d.apicBits - 1) ≠ U32MAX) :
    ∃ r, buildCache al d flagValid v.length v = some r ∧ (al = true → r ≠ none) ∧
      ∀ l, r = some l → LevelFor (apicAt v) v.length d l := by
  unfold buildCache cacheCount
  by_cases hs : d.size = 0
  · obtain ⟨s', h1, h2, h3⟩ := X86Init.cacheLoop_absent d hs v 0
      { processorIndex := U32MAX, index := U32MAX, last := U32MAX,
        table := List.replicate 0 zeroCache, links := List.replicate v.length none }
    simp only [hs, ne_eq, not_true_eq_false, if_false, Option.bind_eq_bind, Option.bind_some,
      false_and, h1, Option.pure_def]
    refine ⟨_, rfl, by simp, ?_⟩
    intro l hl
    cases hl
    exact .absent hs rfl h2 h3
  · let x : CacheCtx :=
      { N := v.length, a := apicAt v, d := d, km := not32 (2 ^ d.apicBits - 1),
        b := 2 ^ d.apicBits - 1, hN := hU, hsize := hs, hb := bitMask_isSome (hbits hs),
        hkm := rfl, first := hfirst hs }
    have hcount : countObjects flagValid (not32 (2 ^ d.apicBits - 1)) v =
        gi x.c (x.N - 1) + 1 := by
      have := X86Init.countObjects_runs flagValid (not32 (2 ^ d.apicBits - 1)) v [] (apicAt v) hv
        (by intro p hp; cases hp) hU (fun k p h => apicAt_get h) (hfirst hs)
      rw [List.append_nil] at this
      rw [this]
      exact X86Init.Input.runs_pos _ hN
    obtain ⟨s', h1, h2⟩ := x.loop v rfl hv (fun k p h => apicAt_get h) _ 0 _ rfl (by omega)
      x.init_inv
    rw [List.drop_zero] at h1
    have h3 : cacheLoop d 0 v
        { processorIndex := U32MAX, index := U32MAX, last := U32MAX,
          table := List.replicate (gi x.c (x.N - 1) + 1) zeroCache,
          links := List.replicate v.length none } = some s' := h1
    simp only [hs, ne_eq, not_false_eq_true, if_true, bitMask_isSome (hbits hs), Option.map_some,
      hcount, Option.bind_eq_bind, Option.bind_some, h3, Option.pure_def]
    cases al with
    | false => exact ⟨none, by simp, by simp, by simp⟩
    | true =>
      refine ⟨some ⟨_, s'.table, s'.links⟩, by simp; rfl, by simp, ?_⟩
      intro l hl
      cases hl
      exact .present x rfl rfl rfl rfl h2.table h2.links

theorem LevelFor.linked {a : Nat → Nat} {N : Nat} {d : CacheDesc} {l : CacheLevel}
    (h : LevelFor a N d l) (i : Nat) (hi : i < N) :
    linkedSize l i = some (if d.size = 0 then none else some d.size) := by
  cases h with
  | absent h hc ht hl => simp [linkedSize, hl, hi, h]
  | present x hN' ha hd hc ht hl =>
    have h1 := hl.done i (by omega)
    rw [X86Init.gi_true] at h1
    have h2 := ht.done i (by omega)
    have : d.size ≠ 0 := by rw [← hd]; exact x.hsize
    simp [linkedSize, h1, h2, this, CacheCtx.cacheE, hd]

/-- What `finish` publishes. -/
structure Finished (x : X86Processor) (nc np : Nat) (ps : List Processor) (t : Tables)
    (pub : Published) : Prop where
  processors : pub.processors = ps
  cores : pub.cores = t.cores
  clusters : pub.clusters = t.clusters
  packages : pub.packages = t.packages
  processorsCount : pub.processorsCount = ps.length
  coresCount : pub.coresCount = nc
  clustersCount : pub.clustersCount = np
  packagesCount : pub.packagesCount = np
  l1i : LevelFor (fun i => (procOf ps i).apicId) ps.length x.l1i pub.l1i
  l1d : LevelFor (fun i => (procOf ps i).apicId) ps.length x.l1d pub.l1d
  l2 : LevelFor (fun i => (procOf ps i).apicId) ps.length x.l2 pub.l2
  l3 : LevelFor (fun i => (procOf ps i).apicId) ps.length x.l3 pub.l3
  l4 : LevelFor (fun i => (procOf ps i).apicId) ps.length x.l4 pub.l4
  maxCacheSize : pub.maxCacheSize = computeMaxCacheSize
    (if x.l4.size = 0 then none else some x.l4.size)
    (if x.l3.size = 0 then none else some x.l3.size)
    (if x.l2.size = 0 then none else some x.l2.size)
    (if x.l1d.size = 0 then none else some x.l1d.size)

theorem apicAt_view (ps : List Processor) : apicAt (cacheView ps) = fun i => (procOf ps i).apicId := by
  funext i
  unfold apicAt cacheView procOf
  rw [List.getElem?_map]
  cases ps[i]? <;> rfl

theorem finish_ok (x : X86Processor) (alloc : Nat → Bool) (n nc np : Nat) (ps : List Processor)
    (t : Tables) (hn : ps.length = n) (h0 : 0 < n) (hU : n < U32)
    (hb : x.l1i.apicBits < 32 ∧ x.l1d.apicBits < 32 ∧ x.l2.apicBits < 32 ∧ x.l3.apicBits < 32 ∧
      x.l4.apicBits < 32)
    (ha : ∀ p ∈ ps, p.apicId < U32MAX) :
    ∃ r, finish x alloc n nc np ps t = some r ∧ ((∀ i, alloc i = true) → r ≠ none) ∧
      ∀ pub, r = some pub → Finished x nc np ps t pub := by
  have hlen : (cacheView ps).length = n := by unfold cacheView; rw [List.length_map, hn]
  have hval : ∀ p ∈ cacheView ps, X86Init.bitmaskAll p.flags flagValid = true := by
    intro p hp
    unfold cacheView at hp
    obtain ⟨q, _, rfl⟩ := List.mem_map.mp hp
    simp [X86Init.bitmaskAll]
  have h0' : apicAt (cacheView ps) 0 < U32MAX := by
    rw [apicAt_view]
    have : ps[0]? = some (procOf ps 0) := by
      unfold procOf
      rw [List.getElem?_eq_getElem (by omega)]
      rfl
    exact ha _ (List.mem_of_getElem? this)
  have level : ∀ (al : Bool) (d : CacheDesc), d.apicBits < 32 → ∃ r,
      buildCache al d flagValid n (cacheView ps) = some r ∧ (al = true → r ≠ none) ∧
      ∀ l, r = some l → LevelFor (fun i => (procOf ps i).apicId) n d l := by
    intro al d hd
    have := buildCache_for al d (cacheView ps) (by omega) (by omega) hval (fun _ => hd)
      (fun _ h => Nat.lt_irrefl _ (Nat.lt_of_le_of_lt (h ▸ Nat.and_le_left) h0'))
    rw [hlen, apicAt_view] at this
    exact this
  obtain ⟨r1, e1, n1, g1⟩ := level (alloc 5) x.l1i hb.1
  obtain ⟨r2, e2, n2, g2⟩ := level (alloc 6) x.l1d hb.2.1
  obtain ⟨r3, e3, n3, g3⟩ := level (alloc 7) x.l2 hb.2.2.1
  obtain ⟨r4, e4, n4, g4⟩ := level (alloc 8) x.l3 hb.2.2.2.1
  obtain ⟨r5, e5, n5, g5⟩ := level (alloc 9) x.l4 hb.2.2.2.2
  unfold finish
  simp only [e1, e2, e3, e4, e5, Option.bind_eq_bind, Option.bind_some]
  cases r1 with
  | none => exact ⟨none, rfl, fun h => absurd rfl (n1 (h 5)), by intro _ h; cases h⟩
  | some l1 =>
  cases r2 with
  | none => exact ⟨none, rfl, fun h => absurd rfl (n2 (h 6)), by intro _ h; cases h⟩
  | some l2 =>
  cases r3 with
  | none => exact ⟨none, rfl, fun h => absurd rfl (n3 (h 7)), by intro _ h; cases h⟩
  | some l3 =>
  cases r4 with
  | none => exact ⟨none, rfl, fun h => absurd rfl (n4 (h 8)), by intro _ h; cases h⟩
  | some l4 =>
  cases r5 with
  | none => exact ⟨none, rfl, fun h => absurd rfl (n5 (h 9)), by intro _ h; cases h⟩
  | some l5 =>
    dsimp only
    rw [(g5 _ rfl).linked 0 h0, (g4 _ rfl).linked 0 h0, (g3 _ rfl).linked 0 h0,
      (g2 _ rfl).linked 0 h0]
    refine ⟨_, rfl, (fun _ h => by cases h), ?_⟩
    intro pub hp
    cases hp
    subst hn
    exact ⟨rfl, rfl, rfl, rfl, rfl, rfl, rfl, rfl, g1 _ rfl, g2 _ rfl, g3 _ rfl, g4 _ rfl, g5 _ rfl, rfl⟩

end Verif.Windows
