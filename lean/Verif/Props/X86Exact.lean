import Verif.Props.X86Cpuid

/-!
# C22, C24, C57, C58: exactly when x86 detection on Linux is undefined

`Props/X86Init.lean` and `Props/X86Cpuid.lean` prove detection defined under hypotheses and show machines
outside of them on which it is not.  Here it is stated exactly for which machines it is undefined.
-/

set_option autoImplicit false

namespace Verif.Props
open Spec X86Init X86Cpuinfo

/-- A cache that CPUID describes. -/
def HasCache (x : X86Processor) (d : CacheDesc) : Prop :=
  (d = x.l1i ∨ d = x.l1d ∨ d = x.l2 ∨ d = x.l3 ∨ d = x.l4) ∧ d.size ≠ 0

/-- All shifts are by less than 32 bits. -/
def ShiftsDefined (x : X86Processor) : Prop :=
  x.topology.threadLength < 32 ∧ x.topology.coreLength < 32 ∧ ∀ d, HasCache x d → d.apicBits < 32

/-- Several threads fit into each core and share each cache, and there is a data cache.  Then no key
of the APIC ID 0xFFFFFFFF is mistaken for the value that stands for "none yet". -/
def AllShared (x : X86Processor) : Prop :=
  0 < x.topology.threadLength ∧ (∃ d, HasCache x d ∧ (d = x.l1d ∨ d = x.l2 ∨ d = x.l3 ∨ d = x.l4)) ∧
  ∀ d, HasCache x d → 0 < d.apicBits

theorem buildCache_alloc {d : CacheDesc} {mask n : Nat} {ps : List LinuxProc} :
    buildCache true d mask n ps ≠ some none := by
  unfold buildCache
  intro h
  simp only [Option.bind_eq_bind, Option.bind_eq_some_iff] at h
  obtain ⟨count, _, h⟩ := h
  rw [if_neg (fun h => h.2 trivial)] at h
  obtain ⟨s, _, h⟩ := Option.bind_eq_some_iff.mp h
  cases h

/-- With memory, the tables are filled or something is undefined. -/
theorem build_alloc {alloc : Nat → Bool} (ha : ∀ i, alloc i = true) {x : X86Processor} {mask n : Nat}
    {ps : List LinuxProc} : build alloc x mask n ps ≠ some none := by
  unfold build
  intro h
  simp only [Option.bind_eq_bind, Option.pure_def, ha] at h
  rw [if_neg (by simp)] at h
  obtain ⟨m, _, h⟩ := Option.bind_eq_some_iff.mp h
  rw [if_neg (by simp)] at h
  obtain ⟨l1i, e1, h⟩ := Option.bind_eq_some_iff.mp h
  obtain ⟨l1d, e2, h⟩ := Option.bind_eq_some_iff.mp h
  obtain ⟨l2, e3, h⟩ := Option.bind_eq_some_iff.mp h
  obtain ⟨l3, e4, h⟩ := Option.bind_eq_some_iff.mp h
  obtain ⟨l4, e5, h⟩ := Option.bind_eq_some_iff.mp h
  cases l1i with
  | none => exact buildCache_alloc e1
  | some l1i =>
  cases l1d with
  | none => exact buildCache_alloc e2
  | some l1d =>
  cases l2 with
  | none => exact buildCache_alloc e3
  | some l2 =>
  cases l3 with
  | none => exact buildCache_alloc e4
  | some l3 =>
  cases l4 with
  | none => exact buildCache_alloc e5
  | some l4 =>
  simp only [] at h
  obtain ⟨s, _, h⟩ := Option.bind_eq_some_iff.mp h
  obtain ⟨_, _, h⟩ := Option.bind_eq_some_iff.mp h
  obtain ⟨_, _, h⟩ := Option.bind_eq_some_iff.mp h
  obtain ⟨_, _, h⟩ := Option.bind_eq_some_iff.mp h
  obtain ⟨_, _, h⟩ := Option.bind_eq_some_iff.mp h
  cases h

theorem bitsOk_iff {x : X86Processor} (hlow : LowFields x.topology) : BitsOk x ↔ ShiftsDefined x := by
  constructor
  · intro h
    refine ⟨h.threadLength, h.coreLength, ?_⟩
    rintro d ⟨rfl | rfl | rfl | rfl | rfl, hd⟩
    · exact h.l1i hd
    · exact h.l1d hd
    · exact h.l2 hd
    · exact h.l3 hd
    · exact h.l4 hd
  · rintro ⟨h1, h2, h3⟩
    have c1 : x.l1d.size ≠ 0 → x.l1d.apicBits < 32 := fun h => h3 _ ⟨.inr (.inl rfl), h⟩
    have c2 : x.l2.size ≠ 0 → x.l2.apicBits < 32 := fun h => h3 _ ⟨.inr (.inr (.inl rfl)), h⟩
    have c3 : x.l3.size ≠ 0 → x.l3.apicBits < 32 := fun h => h3 _ ⟨.inr (.inr (.inr (.inl rfl))), h⟩
    have c4 : x.l4.size ≠ 0 → x.l4.apicBits < 32 := fun h => h3 _ ⟨.inr (.inr (.inr (.inr rfl))), h⟩
    refine ⟨hlow.1, hlow.2, h1, h2, ?_, fun h => h3 _ ⟨.inl rfl, h⟩, c1, c2, c3, c4⟩
    have := lastLevel_llc x
    generalize llcApicBits x = b at this
    cases this with
    | l4 h => exact c4 h
    | l3 _ h => exact c3 h
    | l2 _ _ h => exact c2 h
    | l1 _ _ _ h => exact c1 h
    | none => decide

theorem noCollision_iff {x : X86Processor} {a : Nat} :
    NoCollision x a ↔ a ≠ U32MAX ∨ AllShared x := by
  constructor
  · intro h
    by_cases ha : a = U32MAX
    · refine .inr ?_
      have no : ∀ {P : Prop}, a ≠ U32MAX ∨ P → P := fun h => h.resolve_left (fun h => h ha)
      have h1 := no h.cluster
      have hb : 0 < llcApicBits x := by omega
      refine ⟨no h.core, ?_, ?_⟩
      · have := lastLevel_llc x
        generalize llcApicBits x = b at this hb
        cases this with
        | l4 h => exact ⟨_, ⟨.inr (.inr (.inr (.inr rfl))), h⟩, .inr (.inr (.inr rfl))⟩
        | l3 _ h => exact ⟨_, ⟨.inr (.inr (.inr (.inl rfl))), h⟩, .inr (.inr (.inl rfl))⟩
        | l2 _ _ h => exact ⟨_, ⟨.inr (.inr (.inl rfl)), h⟩, .inr (.inl rfl)⟩
        | l1 _ _ _ h => exact ⟨_, ⟨.inr (.inl rfl), h⟩, .inl rfl⟩
        | none => omega
      · rintro d ⟨rfl | rfl | rfl | rfl | rfl, hd⟩
        · exact no (h.l1i hd)
        · exact no (h.l1d hd)
        · exact no (h.l2 hd)
        · exact no (h.l3 hd)
        · exact no (h.l4 hd)
    · exact .inl ha
  · rintro (h | ⟨h1, ⟨d, hd, hd'⟩, h3⟩)
    · exact ⟨.inl h, .inl h, .inl h, fun _ => .inl h, fun _ => .inl h, fun _ => .inl h,
        fun _ => .inl h, fun _ => .inl h⟩
    · have c1 : x.l1d.size ≠ 0 → 0 < x.l1d.apicBits := fun h => h3 _ ⟨.inr (.inl rfl), h⟩
      have c2 : x.l2.size ≠ 0 → 0 < x.l2.apicBits := fun h => h3 _ ⟨.inr (.inr (.inl rfl)), h⟩
      have c3 : x.l3.size ≠ 0 → 0 < x.l3.apicBits := fun h => h3 _ ⟨.inr (.inr (.inr (.inl rfl))), h⟩
      have c4 : x.l4.size ≠ 0 → 0 < x.l4.apicBits := fun h => h3 _ ⟨.inr (.inr (.inr (.inr rfl))), h⟩
      have hb : 0 < llcApicBits x := by
        have := lastLevel_llc x
        generalize llcApicBits x = b at this
        cases this with
        | l4 h => exact c4 h
        | l3 _ h => exact c3 h
        | l2 _ _ h => exact c2 h
        | l1 _ _ _ h => exact c1 h
        | none z4 z3 z2 z1 =>
          rcases hd' with rfl | rfl | rfl | rfl
          · exact absurd z1 hd.2
          · exact absurd z2 hd.2
          · exact absurd z3 hd.2
          · exact absurd z4 hd.2
      exact ⟨.inr h1, .inr (by omega), .inr (by omega), fun h => .inr (h3 _ ⟨.inl rfl, h⟩),
        fun h => .inr (c1 h), fun h => .inr (c2 h), fun h => .inr (c3 h), fun h => .inr (c4 h)⟩

/-- **C22, exactly.** Once the files are read and if there is memory, detection is undefined exactly if
a bit field has 32 bits or more, or no processor is usable, or all usable ones have the APIC ID
0xFFFFFFFF and not everything is shared.  Otherwise it publishes. -/
theorem C22_exact (e : Env) (hs : QSorts e.sort) (hlow : LowFields e.cpu.topology)
    (halloc : ∀ i, e.alloc i = true) (t : List LinuxProc) (mask : Nat)
    (hg : gather e = some (some (t, mask))) :
    (linuxInit e = none ↔
      ¬ (ShiftsDefined e.cpu ∧ (∃ p ∈ t, bitmaskAll p.flags mask = true) ∧
        ((∃ p ∈ t, bitmaskAll p.flags mask = true ∧ p.apicId ≠ U32MAX) ∨ AllShared e.cpu))) ∧
    (linuxInit e ≠ none ↔ ∃ pub, linuxInit e = some (some pub)) := by
  obtain ⟨r', hg', hc⟩ := gather_total e
  rw [hg] at hg'
  have hc := hc t mask (Option.some.inj hg').symm
  obtain ⟨I, h1, h2, h3, h4⟩ := input_of_collected e.sort hs t mask hc
  have hl : linuxInit e = build e.alloc e.cpu I.vm I.v.length (I.v ++ I.w) := by
    unfold linuxInit
    rw [hg, h1, h2, h4]
    rfl
  have hmem : ∀ p, p ∈ I.v ↔ p ∈ t ∧ bitmaskAll p.flags mask = true := by
    intro p
    rw [h3, List.mem_filter, (hs t).1.mem_iff]
    exact and_congr_right fun hp => by rw [hc.valid p hp]; exact Iff.rfl
  have hpos : 0 < I.v.length ↔ ∃ p ∈ t, bitmaskAll p.flags mask = true := by
    constructor
    · intro h
      have := (hmem _).mp (List.getElem_mem h)
      exact ⟨_, this.1, this.2⟩
    · rintro ⟨p, hp, hp'⟩
      exact List.length_pos_of_mem ((hmem p).mpr ⟨hp, hp'⟩)
  have hfirst : 0 < I.v.length → (apicAt I.v 0 ≠ U32MAX ↔
      ∃ p ∈ t, bitmaskAll p.flags mask = true ∧ p.apicId ≠ U32MAX) := by
    intro h
    constructor
    · intro hne
      have hm := (hmem _).mp (List.getElem_mem h)
      refine ⟨_, hm.1, hm.2, ?_⟩
      rwa [apicAt_get (List.getElem?_eq_getElem h)]
    · rintro ⟨p, hp, hp', hne⟩
      obtain ⟨k, hk⟩ := List.mem_iff_getElem?.mp ((hmem p).mpr ⟨hp, hp'⟩)
      have hkl := (List.getElem?_eq_some_iff.mp hk).1
      have hmono := I.apic_mono 0 k (by omega) hkl
      rw [← apicAt_get hk] at hmono
      have := hc.apic p hp
      omega
  have hpub : linuxInit e ≠ none ↔ ∃ pub, linuxInit e = some (some pub) := by
    rw [hl]
    constructor
    · intro h
      cases hb : build e.alloc e.cpu I.vm I.v.length (I.v ++ I.w) with
      | none => exact absurd hb h
      | some r =>
        cases r with
        | none => exact absurd hb (build_alloc halloc)
        | some pub => exact ⟨pub, rfl⟩
    · rintro ⟨pub, h⟩ h'
      rw [h] at h'
      cases h'
  refine ⟨?_, hpub⟩
  have key : linuxInit e ≠ none ↔ BitsOk e.cpu ∧ 0 < I.v.length ∧ NoCollision e.cpu (apicAt I.v 0) := by
    constructor
    · intro h
      obtain ⟨pub, h⟩ := hpub.mp h
      rw [hl] at h
      exact build_back I e.cpu e.alloc pub hlow.1 hlow.2 h
    · rintro ⟨b, p, n⟩
      obtain ⟨r, hr, -⟩ := build_good I e.cpu e.alloc b p n
      rw [hl, hr]
      exact fun h => nomatch h
  rw [bitsOk_iff hlow, noCollision_iff] at key
  constructor
  · rintro h ⟨k1, k2, k3⟩
    refine key.mpr ⟨k1, hpos.mpr k2, ?_⟩ h
    rwa [hfirst (hpos.mpr k2)]
  · intro h
    refine Classical.byContradiction fun hne => h ?_
    obtain ⟨k1, k2, k3⟩ := key.mp hne
    rw [hfirst k2] at k3
    exact ⟨k1, hpos.mp k2, k3⟩

/-- **C57 (broken), in general.** Without a usable processor detection is never a failure that is
reported: whenever the files are read and memory is there, it is undefined. -/
theorem C57_violated_always (e : Env) (hs : QSorts e.sort) (hlow : LowFields e.cpu.topology)
    (halloc : ∀ i, e.alloc i = true) (t : List LinuxProc) (mask : Nat)
    (hg : gather e = some (some (t, mask))) (hno : ∀ p ∈ t, bitmaskAll p.flags mask = false) :
    linuxInit e = none :=
  (C22_exact e hs hlow halloc t mask hg).1.mpr fun ⟨_, ⟨p, hp, hu⟩, _⟩ => by
    rw [hno p hp] at hu; cases hu

/-- **C22 and C57, for machines.** On a machine with usable processors whose bit fields are narrower than
32 bits, detection is undefined exactly if all usable processors are online, have the APIC ID 0xFFFFFFFF
each, and not everything is shared; on a machine without usable processors it always is. -/
theorem C22_machine_exact (e : Env) (hs : QSorts e.sort) (hlow : LowFields e.cpu.topology)
    (hbits : ShiftsDefined e.cpu) (halloc : ∀ i, e.alloc i = true) (m : Machine) (hm : m.Ok 2048)
    (hd : m.Describes e) :
    linuxInit e = none ↔ (∀ n, m.Usable n → m.ApicId n U32MAX) ∧ ((∃ n, m.Usable n) → ¬ AllShared e.cpu) := by
  obtain ⟨t, hg, h1, h2⟩ := gather_machine m hm e hd (halloc 0)
  rw [(C22_exact e hs hlow halloc t _ hg).1]
  have huse : (∃ p ∈ t, bitmaskAll p.flags (machineMask m) = true) ↔ ∃ n, m.Usable n := by
    constructor
    · rintro ⟨p, hp, hu⟩
      obtain ⟨i, hi⟩ := List.getElem?_of_mem hp
      exact ⟨i, (h1 i p hi).1.mp hu⟩
    · rintro ⟨n, hn⟩
      obtain ⟨p, hp⟩ := h2 n hn
      exact ⟨p, List.mem_of_getElem? hp, (h1 n p hp).1.mpr hn⟩
  have hmax : (∃ p ∈ t, bitmaskAll p.flags (machineMask m) = true ∧ p.apicId ≠ U32MAX) ↔
      ¬ ∀ n, m.Usable n → m.ApicId n U32MAX := by
    constructor
    · rintro ⟨p, hp, hu, hne⟩ hall
      obtain ⟨i, hi⟩ := List.getElem?_of_mem hp
      obtain ⟨x, hx, hxn, hxa⟩ := hall i ((h1 i p hi).1.mp hu)
      rcases (h1 i p hi).2 with ⟨y, hy, hyn, hya⟩ | ⟨hoff, _⟩
      · have : x = y := inj_of_nodup_map hm.distinct hx hy (by rw [hxn, hyn])
        exact hne (by rw [← hya, ← this, hxa])
      · exact hoff ⟨x, hx, hxn⟩
    · intro h
      refine Classical.byContradiction fun hno => h fun n hn => ?_
      obtain ⟨p, hp⟩ := h2 n hn
      obtain ⟨w1, w2⟩ := h1 n p hp
      have hpm : p.apicId = U32MAX := Classical.byContradiction fun hne =>
        hno ⟨p, List.mem_of_getElem? hp, w1.mpr hn, hne⟩
      rcases w2 with h | ⟨_, h0⟩
      · rwa [hpm] at h
      · rw [h0] at hpm; cases hpm
  rw [huse, hmax]
  constructor
  · intro h
    refine ⟨Classical.byContradiction fun hno => ?_, fun hex hsh => h ⟨hbits, hex, .inr hsh⟩⟩
    refine h ⟨hbits, ?_, .inl hno⟩
    refine Classical.byContradiction fun hnex => hno fun n hn => absurd ⟨n, hn⟩ hnex
  · rintro ⟨k1, k2⟩ ⟨_, hex, h | h⟩
    · exact h k1
    · exact k2 hex h

/-! ## C58 -/

/-- **C58 (broken), in general.** Every usable processor that is offline is published with APIC ID 0,
and so as a thread of the core that has the thread with APIC ID 0. -/
theorem C58_violated_always (e : Env) (hs : QSorts e.sort) (hlow : LowFields e.cpu.topology)
    (pub : Published) (h : linuxInit e = some (some pub)) (m : Machine) (hm : m.Ok 2048)
    (hd : m.Describes e) (n : Nat) (hu : m.Usable n) (hoff : ¬ m.Online n) :
    ∃ (j : Nat) (q : Processor), pub.processors[j]? = some q ∧ q.linuxId = n ∧ q.apicId = 0 ∧
      ∀ (i : Nat) (p : Processor), pub.processors[i]? = some p →
        (p.core = q.core ↔ AgreeFrom e.cpu.topology.threadLength p.apicId 0) ∧
        (p.package = q.package ↔
          AgreeFrom (e.cpu.topology.threadLength + e.cpu.topology.coreLength) p.apicId 0) := by
  obtain ⟨j, q, hq, h1, h2⟩ := (C20_published_are_the_usable e hs hlow pub h m hm hd n 0).mpr
    ⟨hu, .inr ⟨hoff, rfl⟩⟩
  refine ⟨j, q, hq, h1, h2, fun i p hp => ?_⟩
  obtain ⟨h3, h4, _⟩ := C18_sharing_iff_apic_agrees e hs hlow pub h _ (lastLevel_llc e.cpu) i j p q hp hq
  rw [h2] at h3 h4
  exact ⟨h3, h4⟩

/-- **C58, exactly.** Every published processor has the APIC ID that /proc/cpuinfo gives for it if and
only if every usable processor is online. -/
theorem C58_exact (e : Env) (hs : QSorts e.sort) (hlow : LowFields e.cpu.topology)
    (pub : Published) (h : linuxInit e = some (some pub)) (m : Machine) (hm : m.Ok 2048)
    (hd : m.Describes e) :
    (∀ (i : Nat) (p : Processor), pub.processors[i]? = some p → m.ApicId p.linuxId p.apicId) ↔
      ∀ n, m.Usable n → m.Online n := by
  constructor
  · intro hall n hn
    refine Classical.byContradiction fun hoff => ?_
    obtain ⟨j, q, hq, rfl, _, _⟩ := C58_violated_always e hs hlow pub h m hm hd n hn hoff
    obtain ⟨x, hx, hxn, _⟩ := hall j q hq
    exact hoff ⟨x, hx, hxn⟩
  · intro hon i p hp
    exact C58_apic_ids_from_files_partial e hs hlow pub h m hm hd hon i p hp

/-! ## C24 -/

section
open X86Cpuid

/-- The processor is not asked for its topology by leaf 0xB, has the HTT flag, but not that of AMD's
legacy mode, and its leaf 4 (of which the last sub-leaf counts) claims more cores than fit into the
bits needed for the logical processors of leaf 1. -/
def TooManyCores (t : Target) (c : Cpuid) (n4 : Nat) : Prop :=
  1 ≤ (c.leaf 0).eax ∧ ((c.leaf 1).ecx.testBit 21 = false ∨ (c.leaf 0).eax < 11) ∧
  (c.leaf 1).edx.testBit 28 = true ∧
  (maxExtendedIndex c < 0x80000001 ∨ (c.leaf 0x80000001).ecx.testBit 1 = false) ∧
  UsesLeaf4 (decodeVendor t (c.leaf 0).ebx (c.leaf 0).ecx (c.leaf 0).edx) (c.leaf 0).eax ∧ n4 ≠ 0 ∧
  (c.leaf 1).ebx / 65536 % 256 ≠ 0 ∧
  ∃ k, (c.leaf 1).ebx / 65536 % 256 ≤ 2 ^ k ∧ 2 ^ k < (c.sub 4 (n4 - 1)).eax / 67108864 + 1

/-- **C24, exactly.** For all answers of CPUID with the usual order of levels, the fields that are
handed on are low, and they are narrower than 32 bits exactly unless leaf 4 claims too many cores; then the
SMT field is at least 2^32 - 6 bits wide. -/
theorem C24_fields_exact (t : Target) (c : Cpuid) (fuel n4 n8 : Nat) (ls : List (Nat × Nat))
    (ha : Answers c fuel n4 n8 ls) (hu : UsualLevels ls) :
    ∃ d, initProcessor t c fuel = some d ∧
      (¬ TooManyCores t c n4 → LowFields d.cpu.topology ∧ NarrowFields d.cpu) ∧
      (TooManyCores t c n4 → LowFields d.cpu.topology ∧ U32 - 6 ≤ d.cpu.topology.threadLength) := by
  unfold initProcessor
  dsimp only
  by_cases hb : ¬(c.leaf 0).eax ≥ 1
  · rw [if_neg hb]
    refine ⟨_, rfl, fun _ => ⟨⟨rfl, rfl⟩, ?_⟩, fun h => absurd h.1 hb⟩
    repeat' apply And.intro
    all_goals exact Nat.zero_lt_succ _
  rw [if_pos (Decidable.of_not_not hb)]
  generalize hext : ((extendedInfo c).ecx &&& 0x00400000 != 0) = ext
  generalize hv : decodeVendor t (c.leaf 0).ebx (c.leaf 0).ecx (c.leaf 0).edx = v
  generalize hm : decodeModelInfo (c.leaf 1).eax = m
  obtain ⟨c4, c8, l, e, h1, h1', h3, h3'⟩ := detectCache_spec t c fuel (c.leaf 0).eax
    (maxExtendedIndex c) ext v m zeroCaches 0 n4 n8 ha.ok4 ha.ok8 (fun _ => ha.leaf4)
    (fun _ => ha.leaf8) ha.small4 ha.small8 ha.fuel4 ha.fuel8
  rw [e]
  dsimp only
  have hz : ∀ s, (zeroCaches.get s).apicBits ≤ 12 := by intro s; cases s <;> decide
  have hb2 := afterLeaf2_bits t c (c.leaf 0).eax v m zeroCaches hz
  have hb4 : ∀ s, (c4.get s).apicBits ≤ 12 := by
    by_cases h : UsesLeaf4 v (c.leaf 0).eax
    · exact after_bits (h1 h).1 hb2
    · rw [(h1' h).1]; exact hb2
  have hb8 : ∀ s, (c8.get s).apicBits ≤ 12 := by
    by_cases h : ext = true ∧ 0x8000001D ≤ maxExtendedIndex c
    · exact after_bits (h3 h) hb4
    · rw [h3' h]; exact hb4
  have hl : l ≤ 6 ∧ ((c.leaf 1).ebx / 65536 % 256 ≠ 0 →
      (bitLength ((c.leaf 1).ebx / 65536 % 256) < l ↔ UsesLeaf4 v (c.leaf 0).eax ∧ n4 ≠ 0 ∧
        ∃ k, (c.leaf 1).ebx / 65536 % 256 ≤ 2 ^ k ∧ 2 ^ k < (c.sub 4 (n4 - 1)).eax / 67108864 + 1)) := by
    by_cases h : UsesLeaf4 v (c.leaf 0).eax
    · have hl := (h1 h).2
      by_cases hn : n4 = 0
      · rw [if_pos hn] at hl
        exact ⟨by omega, fun _ => ⟨fun h => by omega, fun h => absurd hn h.2.1⟩⟩
      · rw [if_neg hn] at hl
        have hr := (ha.ok4 (n4 - 1)).1
        rw [hl]
        refine ⟨bitLength_le _ 6 (by omega) (by decide) (by omega), fun h0 => ?_⟩
        have b1 := isBits_bitLength ((c.sub 4 (n4 - 1)).eax / 67108864 + 1) (by omega) (by omega)
        have b2 := isBits_bitLength ((c.leaf 1).ebx / 65536 % 256) (by omega) (by omega)
        constructor
        · intro hlt
          refine ⟨h, hn, _, b2.1, Nat.lt_of_not_le fun hle => ?_⟩
          have := b1.2 _ hle
          omega
        · rintro ⟨_, _, k, k1, k2⟩
          have := b2.2 k k1
          refine Nat.lt_of_not_le fun hle => ?_
          have h2 : 2 ^ bitLength ((c.sub 4 (n4 - 1)).eax / 67108864 + 1) ≤ 2 ^ k :=
            Nat.pow_le_pow_right (by decide) (by omega)
          have := b1.1
          omega
    · have := (h1' h).2
      exact ⟨by omega, fun _ => ⟨fun h => by omega, fun h' => absurd h'.1 h⟩⟩
  have hb8' : ∀ s, (c8.get s).apicBits < 32 := fun s => Nat.lt_of_le_of_lt (hb8 s) (by decide)
  have key : ∃ top, detectTopology c fuel (c.leaf 0).eax (maxExtendedIndex c) (c.leaf 1)
      ⟨0, 0, 0, l⟩ = some top ∧ LowFields top ∧ top.coreLength < 32 ∧
      (¬ TooManyCores t c n4 → top.threadLength < 32) ∧
      (TooManyCores t c n4 → U32 - 6 ≤ top.threadLength) := by
    by_cases hx : (c.leaf 1).ecx.testBit 21 = true ∧ 11 ≤ (c.leaf 0).eax
    · have hf := foldLevels_usual _ ls ha.levels hu
      refine ⟨_, levels_fold c fuel _ _ _ _ hx.1 hx.2 ls ha.smallB ha.fuelB ha.levels, hf.1, hf.2.2,
        fun _ => hf.2.1, fun h => ?_⟩
      rcases h.2.1 with h | h
      · rw [hx.1] at h; cases h
      · omega
    · have hx' : (c.leaf 1).ecx.testBit 21 = false ∨ (c.leaf 0).eax < 11 := by
        cases hb : (c.leaf 1).ecx.testBit 21
        · exact Or.inl rfl
        · exact Or.inr (Nat.lt_of_not_le fun h => hx ⟨hb, h⟩)
      refine ⟨_, detectTopology_legacy c fuel _ _ _ _ hx',
        legacyTopology_low c _ _ _ ⟨rfl, rfl⟩,
        legacyTopology_core_lt c _ _ _ (show l < 32 by omega), ?_⟩
      cases hh : (c.leaf 1).edx.testBit 28
      · rw [legacyTopology_no_htt c _ _ _ hh]
        exact ⟨fun _ => Nat.zero_lt_succ _, fun h => by rw [h.2.2.1] at hh; cases hh⟩
      by_cases hamd : 0x80000001 ≤ maxExtendedIndex c ∧ (c.leaf 0x80000001).ecx.testBit 1 = true
      · have hno : ¬ TooManyCores t c n4 := fun h => by
          rcases h.2.2.2.1 with h | h
          · omega
          · rw [hamd.2] at h; cases h
        refine ⟨fun _ => ?_, fun h => absurd h hno⟩
        by_cases h8 : 0x80000008 ≤ maxExtendedIndex c
        · rw [legacyTopology_amd c _ _ _ hh h8 hamd.2]; exact Nat.zero_lt_succ _
        · rw [legacyTopology_amd_old c _ _ _ hh hamd.1 (by omega) hamd.2]
          split <;> exact Nat.zero_lt_succ _
      · have hamd' : maxExtendedIndex c < 0x80000001 ∨ (c.leaf 0x80000001).ecx.testBit 1 = false := by
          cases hb : (c.leaf 0x80000001).ecx.testBit 1
          · exact Or.inr rfl
          · exact Or.inl (Nat.lt_of_not_le fun h => hamd ⟨h, hb⟩)
        rw [legacyTopology_intel c _ _ _ hh hamd']
        by_cases h0 : (c.leaf 1).ebx / 65536 % 256 = 0
        · rw [if_pos h0]
          exact ⟨fun _ => Nat.zero_lt_succ _, fun h => absurd h0 h.2.2.2.2.2.2.1⟩
        · rw [if_neg h0]
          have h8 := bitLength_le ((c.leaf 1).ebx / 65536 % 256) 8 (by omega) (by decide) (by omega)
          have hiff := hl.2 h0
          have hbasic : 1 ≤ (c.leaf 0).eax := Decidable.of_not_not hb
          have htoo : TooManyCores t c n4 ↔ bitLength ((c.leaf 1).ebx / 65536 % 256) < l := by
            rw [hiff]
            unfold TooManyCores
            rw [hv]
            exact ⟨fun h => ⟨h.2.2.2.2.1, h.2.2.2.2.2.1, h.2.2.2.2.2.2.2⟩,
              fun h => ⟨hbasic, hx', hh, hamd', h.1, h.2.1, h0, h.2.2⟩⟩
          rw [htoo]
          have := hl.1
          dsimp only [sub32]
          constructor
          · intro h; omega
          · intro h; omega
  obtain ⟨top, e', hlow, hc, k1, k2⟩ := key
  rw [e']
  exact ⟨_, rfl, fun h => ⟨hlow, k1 h, hc, hb8' .l1i, hb8' .l1d, hb8' .l2, hb8' .l3, hb8' .l4⟩,
    fun h => ⟨hlow, k2 h⟩⟩

/-- **C24 (broken), in general.** On every processor whose leaf 4 claims too many cores, detection is
undefined, whatever the files say (once they are read and memory is there). -/
theorem C24_violated_always (t : Target) (c : Cpuid) (fuel n4 n8 : Nat) (ls : List (Nat × Nat))
    (ha : Answers c fuel n4 n8 ls) (hu : UsualLevels ls) (htoo : TooManyCores t c n4) (e : Env)
    (hs : QSorts e.sort) (halloc : ∀ i, e.alloc i = true) (tab : List LinuxProc) (mask : Nat)
    (hg : gather e = some (some (tab, mask)))
    (he : (initProcessor t c fuel).map (·.cpu) = some e.cpu) : linuxInit e = none := by
  obtain ⟨d, hd, _, h⟩ := C24_fields_exact t c fuel n4 n8 ls ha hu
  obtain ⟨hlow, hw⟩ := h htoo
  rw [hd] at he
  have he : d.cpu = e.cpu := by simpa using he
  rw [he] at hlow hw
  refine (C22_exact e hs hlow halloc tab mask hg).1.mpr fun ⟨h, _⟩ => ?_
  have := h.1
  have h6 : U32 - 6 = 4294967290 := rfl
  omega

end

/-! ## Examples -/

open X86Cpuid

/-- The machine of `C22_violated` is one of those that `C22_exact` names. -/
example : (∃ p ∈ [(⟨4294967295, 0, 0x1883⟩ : LinuxProc)], bitmaskAll p.flags 3 = true) ∧
    gather sentinelEnv = some (some ([⟨4294967295, 0, 0x1883⟩], 3)) ∧ ¬ AllShared sentinelEnv.cpu :=
  ⟨⟨_, .head _, by decide⟩, by decide +kernel, fun h => absurd h.1 (by decide)⟩

/-- The machine with a processor that is offline meets the hypotheses of `C58_exact`, whose
condition it does not meet. -/
example : offlineMachine.Usable 3 ∧ ¬ offlineMachine.Online 3 := by
  refine ⟨⟨by decide, ?_, ?_, fun h => by cases h⟩, by simp [Machine.Online, offlineMachine, exampleMachine]⟩
  · intro rs h; cases h; exact ⟨(0, 7), .head _, by decide⟩
  · intro rs h; cases h; exact ⟨(0, 7), .head _, by decide⟩

/-- The processor of `C24_violated` claims too many cores: 2 for 1 logical processor. -/
example : TooManyCores ⟨false, false⟩ underflowCpuid 1 := by
  refine ⟨by decide, .inl rfl, by decide, .inl (by decide), ⟨by decide, by decide, by decide⟩,
    by decide, by decide, 0, by decide, by decide⟩

end Verif.Props
