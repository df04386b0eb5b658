import Verif.Spec.X86Labels
import Verif.Proof.X86Labels
import Verif.Props.X86Init
import Verif.Props.X86Cpuid
import Verif.Props.X86Name
import Verif.Props.Windows

/-!
C147: on x86 every published core and cluster carries the vendor, microarchitecture and CPUID value
of the processor, and every published package its name.
-/

set_option autoImplicit false

namespace Verif.Props

open Verif.Spec
open Verif.X86Cpuid (Vendor Uarch Target Cpuid)
open Verif.X86Labels (Label Labels identity uniformLabels)

/-- **C147.** What detection finds out about the processor is what the processor tells.  (Registers have 32
bits.) -/
theorem C147_identity (t : Target) (c : Cpuid) (fuel : Nat) (cpu : X86Init.X86Processor) (l : Label)
    (name : Bytes) (hb : (c.leaf 0).ebx < U32) (hc : (c.leaf 0).ecx < U32) (hd : (c.leaf 0).edx < U32)
    (h : identity t c fuel = some (cpu, l, name)) : Tells t c l name := by
  unfold identity at h
  simp only [Option.bind_eq_bind] at h
  obtain ⟨d, h1, h⟩ := Option.bind_eq_some_iff.1 h
  obtain ⟨s, h2, h⟩ := Option.bind_eq_some_iff.1 h
  cases h
  obtain ⟨w1, w2, w3⟩ := C29_whole_processor t c fuel d h1
  obtain ⟨s', e, f1, f2, f3, f4⟩ := C33_from_cpuid t c
  rw [h2] at e
  cases e
  refine ⟨fun v hv => ?_, fun hm => ⟨(w2 hm).1, (w2 hm).2.1⟩, fun hm => ⟨(w3 hm).2, (w3 hm).1⟩,
    ⟨f1, f2⟩, f3, fun hm => ?_⟩
  · rw [← C29_vendor_exact t _ _ _ hb hc hd v hv, ← w1]
  · obtain ⟨brand, n, b1, b2⟩ := f4 hm
    exact ⟨brand, n, b1, by dsimp only; rw [w1]; exact b2⟩

/-- **C147.** Detection always finds out, unless it cannot describe the caches (C48, C54): with what
`initProcessor` finds comes a label and a name. -/
theorem C147_identity_exists (t : Target) (c : Cpuid) (fuel : Nat) (d : X86Cpuid.Detected)
    (h : X86Cpuid.initProcessor t c fuel = some d) :
    ∃ l name, identity t c fuel = some (d.cpu, l, name) := by
  obtain ⟨s, e, -⟩ := C33_from_cpuid t c
  exact ⟨_, _, by unfold identity; rw [h, e]; rfl⟩

private theorem positive {a b : Nat} {rs : List (Nat × Nat)} (h : Consecutive a rs b) :
    ∀ r ∈ rs, r.2 ≠ 0 := by
  induction h with
  | nil => intro r hr; cases hr
  | cons hn _ ih =>
    intro r hr
    rcases List.mem_cons.1 hr with rfl | hr
    · exact Nat.pos_iff_ne_zero.1 hn
    · exact ih r hr

private theorem all_filled {α β : Type} {count start : α → Nat} {t : List α} {ls : List (Option β)} {x : β}
    {n : Nat} (hl : ls.length = t.length)
    (h : ∀ (j : Nat) a, t[j]? = some a → count a ≠ 0 → ls[j]? = some (some x))
    (hc : Consecutive 0 (t.map fun a => (start a, count a)) n) :
    ls = List.replicate t.length (some x) := by
  apply List.ext_getElem?
  intro j
  by_cases hj : j < t.length
  · rw [h j t[j] (List.getElem?_eq_getElem hj) ?_, List.getElem?_replicate, if_pos hj]
    exact positive hc (start t[j], count t[j]) (List.mem_map.2 ⟨t[j], List.getElem_mem hj, rfl⟩)
  · rw [List.getElem?_eq_none (by omega), List.getElem?_replicate, if_neg hj]

/-- **C147, Linux.** Whatever is published: every core and every cluster carries the vendor,
microarchitecture and CPUID value that CPUID tells, and every package the name. -/
theorem C147_linux (t : Target) (c : Cpuid) (fuel : Nat) (l : Label) (name : Bytes)
    (hb : (c.leaf 0).ebx < U32) (hc : (c.leaf 0).ecx < U32) (hd : (c.leaf 0).edx < U32)
    (e : X86Init.Env) (hi : identity t c fuel = some (e.cpu, l, name))
    (hs : QSorts e.sort) (hlow : LowFields e.cpu.topology)
    (pub : X86Init.Published) (h : X86Init.linuxInit e = some (some pub)) :
    Tells t c l name ∧ ∃ ls, X86Labels.linuxInit e l name = some (some (pub, ls)) ∧
      ls.cores = List.replicate pub.coresCount (some l) ∧
      ls.clusters = List.replicate pub.clustersCount (some l) ∧
      ls.names = List.replicate pub.packagesCount (some name) := by
  refine ⟨C147_identity t c fuel _ l name hb hc hd hi, ?_⟩
  obtain ⟨ls, h1, ⟨l1, l2, l3⟩, a1, a2, a3⟩ := Proof.X86Labels.linux_ok l name h
  obtain ⟨-, p1, p2, p3, -, q1, q2, q3⟩ := C17_ranges_partition e hs hlow pub h
  refine ⟨ls, h1, ?_, ?_, ?_⟩
  · rw [q1]; exact all_filled l1 a1 p1
  · rw [q2]; exact all_filled l2 a2 p2
  · rw [q3]; exact all_filled l3 a3 p3

/-- **C147, Mach and FreeBSD.** -/
theorem C147_uniform (t : Target) (c : Cpuid) (fuel : Nat) (cpu : X86Init.X86Processor) (l : Label)
    (name : Bytes) (hb : (c.leaf 0).ebx < U32) (hc : (c.leaf 0).ecx < U32) (hd : (c.leaf 0).edx < U32)
    (hi : identity t c fuel = some (cpu, l, name)) (topo : Uniform.Topo) :
    Tells t c l name ∧ ∃ ls, uniformLabels topo l name = some ls ∧
      ls.cores = List.replicate topo.cores (some l) ∧
      ls.clusters = List.replicate topo.packages (some l) ∧
      ls.names = List.replicate topo.packages (some name) :=
  ⟨C147_identity t c fuel _ l name hb hc hd hi, _, Proof.X86Labels.uniform_ok topo l name, rfl, rfl, rfl⟩

/-- **C147, Windows.** -/
theorem C147_windows (t : Target) (c : Cpuid) (fuel : Nat) (l : Label) (name : Bytes)
    (hb : (c.leaf 0).ebx < U32) (hc : (c.leaf 0).ecx < U32) (hd : (c.leaf 0).edx < U32)
    (e : Windows.Env) (hi : identity t c fuel = some (e.cpu, l, name))
    (pub : Windows.Published) (h : Windows.windowsInit e = some (some pub)) :
    Tells t c l name ∧ ∃ ls, X86Labels.windowsInit e l name = some (some (pub, ls)) ∧
      ls.cores = List.replicate pub.coresCount (some l) ∧
      ls.clusters = List.replicate pub.clustersCount (some l) ∧
      ls.names = List.replicate pub.packagesCount (some name) :=
  ⟨C147_identity t c fuel _ l name hb hc hd hi, _, Proof.X86Labels.windows_ok l name h, rfl, rfl, rfl⟩

/-! Non-vacuity -/

/-- `smtCpuid` with a brand. -/
def brandCpuid : Cpuid :=
  { smtCpuid with
    leaf := fun n =>
      if n = 0x80000000 then ⟨0x80000008, 0, 0, 0⟩
      else if n = 0x80000002 then ⟨0x6e6f6558, 0x20295228, 0x20555043, 0x35363558⟩
      else if n = 0x80000003 then ⟨0x20402030, 0x37362e32, 0x7a4847, 0⟩
      else smtCpuid.leaf n }

theorem C147_example :
    identity ⟨false, false⟩ brandCpuid 3 =
      some (smtEnv.cpu, ⟨.intel, .nehalem, 0x000206C2⟩, b!"Intel Xeon X5650") ∧
    (((X86Labels.linuxInit smtEnv ⟨.intel, .nehalem, 0x000206C2⟩ b!"Intel Xeon X5650").bind id).map
      fun p => p.2) =
      some ⟨List.replicate 2 (some ⟨.intel, .nehalem, 0x000206C2⟩),
        List.replicate 4 (some ⟨.intel, .nehalem, 0x000206C2⟩), [some b!"Intel Xeon X5650"]⟩ := by
  decide +kernel

example : (((X86Labels.windowsInit winEnv ⟨.intel, .nehalem, 0x000206C2⟩ b!"Intel Xeon X5650").bind id).map
      fun p => (p.2.cores.length, p.2.clusters.length, p.2.names.length)) = some (4, 2, 2) := by
  decide +kernel

end Verif.Props
