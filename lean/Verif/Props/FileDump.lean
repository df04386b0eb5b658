import Verif.Proof.FileDump
import Verif.Props.Mock

/-!
# C164: a dumped device is read back in the mock build

scripts/arm-linux-filesystem-dump.py writes the files of a device as a C header; tests compile the header
and give its array to `cpuinfo_mock_filesystem`.
-/

set_option autoImplicit false

namespace Verif.Props
open Verif.FileDump Verif.Mock
open ArmChipset (decimal)

/-- **C164 (the same files, partial).** If the files have only tabs, line ends, printable ASCII characters,
and zero bytes without an octal digit behind them, then the header defines a mock file system that has each
of the files of the script with the content of the device, lacks those that the device lacks, and has no
others.  Partial: other bytes are not kept, see `C164_exact` and `C164_violated_zero_digit`. -/
theorem C164_roundtrip_partial (device : Bytes → Option Bytes)
    (h : ∀ p ∈ paths, ∀ c, device p = some c → (∀ b ∈ c, Plain b) ∧ NoDigitAfterZero c) :
    ∃ fs, mockFiles (header device) = some fs ∧
      ∀ path, contentOf fs path = if path ∈ paths then device path else none := by
  refine ⟨_, mockFiles_header device (fun p hp c hc => ⟨fun b hb => ?_, (h p hp c hc).2⟩), ?_⟩
  · have := (h p hp c hc).1 b hb
    unfold Plain at this
    omega
  · intro path
    rw [contentOf_files]
    by_cases hm : path ∈ paths
    · rw [if_pos hm, if_pos hm]
      cases hd : device path with
      | none => rfl
      | some c => rw [Option.map_some, (readBack_iff c).2 (h path hm c hd).1]
    · rw [if_neg hm, if_neg hm]

/-- A device with two files: one with two lines, a tab, quotation marks and a backslash; one with a zero. -/
example :
    let device : Bytes → Option Bytes := fun p =>
      if p = b!"/proc/cpuinfo" then some b!"a\t: \"x\\y\"\nb\n"
      else if p = b!"/sys/devices/system/cpu/cpu15/topology/core_id" then some [49, 0, 57, 10] else none
    mockFiles (header device) = some
      [⟨b!"/proc/cpuinfo", b!"a\t: \"x\\y\"\nb\n", 0⟩,
        ⟨b!"/sys/devices/system/cpu/cpu15/topology/core_id", [49, 0, 57, 10], 0⟩] := by
  decide +kernel

/-- **C164 (the same detection).** Under the same hypothesis the three readers of the library find, for each
of the files of the script, in the mock build what they find on the device. -/
theorem C164_readers (sizeMax : Nat) (device : Bytes → Option Bytes)
    (h : ∀ p ∈ paths, ∀ c, device p = some c →
      (∀ b ∈ c, Plain b) ∧ NoDigitAfterZero c ∧ c.length < sizeMax) :
    ∃ fs, mockFiles (header device) = some fs ∧
      ∀ path ∈ paths, ∀ {σ : Type} (s : σ) (handler : Multiline.Handler σ)
        (cb : σ → Nat → Nat → σ × Bool) (size : Nat),
        smallParse sizeMax (mount sizeMax fs) path size (((device path).getD []).length + 1) =
          (SmallFile.parse (device path) size (fullSched sizeMax)).map
            (fun r => (r, mount sizeMax fs)) ∧
        multiParse sizeMax (mount sizeMax fs) path size (((device path).getD []).length + 1) handler s =
          (Multiline.parse (device path) size (fullSched sizeMax) handler s).map
            (fun r => (r, mount sizeMax fs)) ∧
        listParse sizeMax (mount sizeMax fs) path (((device path).getD []).length + 1) cb s =
          (CpuList.parse (device path) (fullSched sizeMax) cb s).map
            (fun r => (r, mount sizeMax fs)) := by
  have hr : Readable device paths := fun p hp c hc => ⟨fun b hb => by
    have := (h p hp c hc).1 b hb
    unfold Plain at this
    omega, (h p hp c hc).2.1⟩
  refine ⟨_, mockFiles_header device hr, ?_⟩
  intro path hm σ s handler cb size
  have hs : ∀ f ∈ paths.filterMap (fun p => (device p).map fun c => (⟨p, readBack c, 0⟩ : Mock.File)),
      f.content.length < sizeMax := by
    intro f hf
    obtain ⟨p, hp, he⟩ := List.mem_filterMap.1 hf
    obtain ⟨c, hc, rfl⟩ := Option.map_eq_some_iff.1 he
    dsimp only
    rw [(readBack_iff c).2 (h p hp c hc).1]
    exact (h p hp c hc).2.2
  have hco : contentOf (paths.filterMap (fun p => (device p).map fun c => (⟨p, readBack c, 0⟩ : Mock.File)))
      path = device path := by
    rw [contentOf_files, if_pos hm]
    cases hd : device path with
    | none => rfl
    | some c => rw [Option.map_some, (readBack_iff c).2 (h path hm c hd).1]
  have := C155_readers sizeMax _ hs path s handler cb size
  rw [hco] at this
  exact this

/-- **C164 (exactly these bytes).** Where no zero byte comes before an octal digit, the mock file system has
the contents of the device if and only if the files have only tabs, line ends, zero bytes and printable ASCII
characters.  (`c_escape` writes `x` and two digits for the others, without the backslash.) -/
theorem C164_exact (device : Bytes → Option Bytes)
    (h : ∀ p ∈ paths, ∀ c, device p = some c → (∀ b ∈ c, b < 256) ∧ NoDigitAfterZero c) :
    ∃ fs, mockFiles (header device) = some fs ∧
      ((∀ p ∈ paths, contentOf fs p = device p) ↔
        ∀ p ∈ paths, ∀ c, device p = some c → ∀ b ∈ c, Plain b) := by
  refine ⟨_, mockFiles_header device h, ?_⟩
  constructor
  · intro heq p hp c hc
    have := heq p hp
    rw [contentOf_files, if_pos hp, hc, Option.map_some] at this
    exact (readBack_iff c).1 (Option.some.inj this)
  · intro hpl p hp
    rw [contentOf_files, if_pos hp]
    cases hd : device p with
    | none => rfl
    | some c => rw [Option.map_some, (readBack_iff c).2 (hpl p hp c hd)]

/-- The name of a chip with a trademark sign, in UTF-8: the file in the mock build begins differently. -/
example :
    let device : Bytes → Option Bytes := fun p =>
      if p = b!"/proc/cpuinfo" then some ([0xE2, 0x84, 0xA2] ++ b!"\n") else none
    mockFiles (header device) = some [⟨b!"/proc/cpuinfo", b!"xE2x", 0⟩] := by
  decide +kernel

/-- **C164 is violated (zero bytes before digits).** The escape sequence of a zero byte takes the digits
after it: the file has other bytes, or its size is larger than its literal, so that the mock build would read
outside it. -/
theorem C164_violated_zero_digit :
    mockFiles (header fun p => if p = b!"/proc/cpuinfo" then some [0, 55] else none) =
      some [⟨b!"/proc/cpuinfo", [7, 0], 0⟩] ∧
    mockFiles (header fun p => if p = b!"/proc/cpuinfo" then some [0, 48, 48] else none) = none := by
  decide +kernel

/-- The files of one processor that detection on ARM reads (src/linux/processors.c:25-43), without the list
of the processors of a cluster. -/
def dumpedArmFiles : List Bytes :=
  [b!"cpufreq/cpuinfo_max_freq", b!"cpufreq/cpuinfo_min_freq", b!"topology/physical_package_id",
    b!"topology/core_siblings_list"]

/-- **C164 (the files).** The script writes the lists of processors, /proc/cpuinfo, and for the first 16
processors the files of the processor that detection on ARM reads, except the list of its cluster. -/
theorem C164_files_partial :
    (∀ p ∈ [b!"/proc/cpuinfo", b!"/sys/devices/system/cpu/kernel_max", b!"/sys/devices/system/cpu/possible",
      b!"/sys/devices/system/cpu/present"], p ∈ paths) ∧
    ∀ cpu < 16, ∀ f ∈ dumpedArmFiles,
      b!"/sys/devices/system/cpu/cpu" ++ decimal cpu ++ b!"/" ++ f ∈ paths := by
  constructor
  · have : [b!"/proc/cpuinfo", b!"/sys/devices/system/cpu/kernel_max",
        b!"/sys/devices/system/cpu/possible", b!"/sys/devices/system/cpu/present"] = systemFiles := rfl
    intro p hp
    rw [this] at hp
    exact List.mem_append_left _ hp
  · intro cpu hc f hf
    have hsub : ∀ f ∈ dumpedArmFiles, f ∈ cpuFiles := by decide +kernel
    refine List.mem_append_right _ (List.mem_flatMap.2 ⟨cpu, List.mem_range.2 hc, ?_⟩)
    exact List.mem_append_left _ (List.mem_map.2 ⟨f, hsub f hf, rfl⟩)

/-- Directories of processors are dumped only for the first 16. -/
private theorem dir_lt {cpu : Nat} {f : Bytes}
    (h : b!"/sys/devices/system/cpu/cpu" ++ decimal cpu ++ b!"/" ++ f ∈ paths) : cpu < 16 := by
  rcases List.mem_append.1 h with h | h
  · exfalso
    have hno : systemFiles.all (fun p => !(b!"/sys/devices/system/cpu/cpu").isPrefixOf p) = true := by
      decide +kernel
    have := List.all_eq_true.1 hno _ h
    rw [Bool.not_eq_true', List.append_assoc, List.append_assoc] at this
    rw [List.isPrefixOf_iff_prefix.2 ⟨_, rfl⟩] at this
    cases this
  · obtain ⟨k, hk, hm⟩ := List.mem_flatMap.1 h
    have hk := List.mem_range.1 hk
    have hg : ∃ g, b!"/sys/devices/system/cpu/cpu" ++ decimal cpu ++ b!"/" ++ f = cpuDir k ++ g := by
      rcases List.mem_append.1 hm with hm | hm
      · obtain ⟨g, _, he⟩ := List.mem_map.1 hm
        exact ⟨g, he.symm⟩
      · obtain ⟨i, _, hm⟩ := List.mem_flatMap.1 hm
        obtain ⟨g, _, he⟩ := List.mem_map.1 hm
        exact ⟨_, he.symm⟩
    obtain ⟨g, he⟩ := hg
    unfold cpuDir at he
    simp only [List.append_assoc] at he
    have he := List.append_cancel_left he
    have := (Proof.Tools.cut (ArmChipset.decimal_digits cpu) (ArmChipset.decimal_digits k) (x := 47) (y := 47)
      (by rintro ⟨h, _⟩; omega) (by rintro ⟨h, _⟩; omega) he).1
    have := Proof.Tools.decimal_inj this
    omega

/-- **C164 is violated (missing files).** On the device, detection reads `topology/cluster_cpus_list` of the
processors first (src/arm/linux/init.c:349-365); the script does not write it, so that the mock build always
falls back to `core_siblings_list`.  No file of the processors from number 16 on is written. -/
theorem C164_violated_missing (device : Bytes → Option Bytes)
    (h : ∀ p ∈ paths, ∀ c, device p = some c → (∀ b ∈ c, b < 256) ∧ NoDigitAfterZero c) :
    ∃ fs, mockFiles (header device) = some fs ∧
      (∀ cpu, contentOf fs (b!"/sys/devices/system/cpu/cpu" ++ decimal cpu ++ b!"/" ++
        b!"topology/cluster_cpus_list") = none) ∧
      ∀ cpu ≥ 16, ∀ f, contentOf fs (b!"/sys/devices/system/cpu/cpu" ++ decimal cpu ++ b!"/" ++ f) =
        none := by
  refine ⟨_, mockFiles_header device h, ?_, ?_⟩
  · intro cpu
    rw [contentOf_files, if_neg]
    intro hm
    have hno : paths.all (fun p => !(b!"cluster_cpus_list").isSuffixOf p) = true := by decide +kernel
    have := List.all_eq_true.1 hno _ hm
    rw [Bool.not_eq_true'] at this
    have hs : b!"cluster_cpus_list" <:+ b!"/sys/devices/system/cpu/cpu" ++ decimal cpu ++ b!"/" ++
        b!"topology/cluster_cpus_list" :=
      ⟨b!"/sys/devices/system/cpu/cpu" ++ decimal cpu ++ b!"/" ++ b!"topology/", by simp⟩
    rw [List.isSuffixOf_iff_suffix.2 hs] at this
    cases this
  · intro cpu hc f
    rw [contentOf_files, if_neg]
    intro hm
    have := dir_lt hm
    omega

/-- A device with two clusters in one package: the mock build sees one list of four processors. -/
example :
    let device : Bytes → Option Bytes := fun p =>
      if p = b!"/sys/devices/system/cpu/cpu0/topology/cluster_cpus_list" then some b!"0-1\n"
      else if p = b!"/sys/devices/system/cpu/cpu0/topology/core_siblings_list" then some b!"0-3\n" else none
    mockFiles (header device) = some
      [⟨b!"/sys/devices/system/cpu/cpu0/topology/core_siblings_list", b!"0-3\n", 0⟩] := by
  decide +kernel

end Verif.Props
