import Verif.Proof.AndroidDump
import Verif.Props.FileDump

/-!
# C165: a dumped Android device is read back in the mock build

scripts/android-device-dump.py writes the files and the properties of a device as two C arrays; tests compile
them and give them to `cpuinfo_mock_filesystem` and `cpuinfo_mock_android_properties`.
-/

set_option autoImplicit false

namespace Verif.Props
open Verif.FileDump Verif.AndroidDump Verif.Mock
open ArmChipset (decimal)

/-! ## Properties -/

/-- **C165 (properties, partial).** The properties of a device whose keys and values have only tabs, line ends
and printable ASCII characters other than `]` are the mock properties: the same keys with the same values in
the same order.  Partial: see `C165_violated_bracket`. -/
theorem C165_properties_partial (props : List (Bytes × Bytes))
    (h : ∀ p ∈ props, (∀ b ∈ p.1, Plain b ∧ b ≠ 0 ∧ b ≠ 93) ∧ ∀ b ∈ p.2, Plain b ∧ b ≠ 0 ∧ b ≠ 93) :
    ∃ l, getprop (getpropText props) = some l ∧ mockProperties (propertiesHeader l) = some props := by
  refine ⟨props, getprop_eq props (fun p hp => ⟨fun h0 => ((h p hp).1 93 h0).2.2 rfl,
    fun h0 => ((h p hp).2 93 h0).2.2 rfl⟩), mockProperties_header props (fun p hp => ?_)⟩
  exact ⟨fun b hb => ⟨((h p hp).1 b hb).1, ((h p hp).1 b hb).2.1⟩,
    fun b hb => ⟨((h p hp).2 b hb).1, ((h p hp).2 b hb).2.1⟩⟩

/-- A value with an opening bracket, a quotation mark and a line end, and an empty one. -/
example :
    let props := [(b!"ro.chipname", b!"exynos8895"), (b!"log.tag", b!"a [b\n\"c\" "), (b!"gsm.sim", b!"")]
    (getprop (getpropText props)).bind (fun l => mockProperties (propertiesHeader l)) = some props := by
  decide +kernel

/-- **C165 (detection from properties).** Under the same hypothesis each of the six properties that chipset
detection uses has in the mock build its value on the device. -/
theorem C165_detection (props : List (Bytes × Bytes))
    (h : ∀ p ∈ props, (∀ b ∈ p.1, Plain b ∧ b ≠ 0 ∧ b ≠ 93) ∧ ∀ b ∈ p.2, Plain b ∧ b ≠ 0 ∧ b ≠ 93)
    (old : Mock.Properties) :
    ∃ l mock, getprop (getpropText props) = some l ∧ mockProperties (propertiesHeader l) = some mock ∧
      Mock.propertyText (parseProperties mock old).productBoard =
        ((lookup props b!"ro.product.board").getD []).take 92 ∧
      Mock.propertyText (parseProperties mock old).boardPlatform =
        ((lookup props b!"ro.board.platform").getD []).take 92 ∧
      Mock.propertyText (parseProperties mock old).mediatekPlatform =
        ((lookup props b!"ro.mediatek.platform").getD []).take 92 ∧
      Mock.propertyText (parseProperties mock old).arch = ((lookup props b!"ro.arch").getD []).take 92 ∧
      Mock.propertyText (parseProperties mock old).chipname =
        ((lookup props b!"ro.chipname").getD []).take 92 ∧
      Mock.propertyText (parseProperties mock old).hardwareChipname =
        ((lookup props b!"ro.hardware.chipname").getD []).take 92 := by
  obtain ⟨l, h1, h2⟩ := C165_properties_partial props h
  exact ⟨l, props, h1, h2, C156_properties props (fun p hp =>
    ⟨fun h0 => ((h p hp).1 0 h0).2.1 rfl, fun h0 => ((h p hp).2 0 h0).2.1 rfl⟩) old⟩

/-- **C165 is violated (closing brackets).** A value with a closing bracket stops the script with an
exception, or is taken for two properties. -/
theorem C165_violated_bracket :
    getprop (getpropText [(b!"ro.a", b!"x"), (b!"ro.model", b!"Tab [A]")]) = none ∧
    getprop (getpropText [(b!"ro.a", b!"x]\n[ro.arch]: [exynos9810")]) =
      some [(b!"ro.a", b!"x"), (b!"ro.arch", b!"exynos9810")] := by
  decide +kernel

/-- **C165 (exactly which properties).** Whatever the keys and values are: the script finds the properties of the
device if and only if none of them has a closing bracket. -/
theorem C165_bracket_exact (props : List (Bytes × Bytes)) :
    getprop (getpropText props) = some props ↔ ∀ p ∈ props, 93 ∉ p.1 ∧ 93 ∉ p.2 :=
  ⟨fun h => getpropLoop_free _ _ props h, getprop_eq props⟩

/-! ## Files -/

/-- The array of the files that the script writes for a build. -/
private theorem files_of {build64 abi64 : Bool} {output32 : Option Bytes} {device : Bytes → Option Bytes}
    {k : Nat} (hk : kernelMax device = some k)
    (h : ∀ p ∈ AndroidDump.paths k, ∀ c, filesFor build64 abi64 output32 device p = some c →
      (∀ b ∈ c, Plain b) ∧ NoDigitAfterZero c) :
    ∃ text fs, AndroidDump.header build64 abi64 output32 device = some text ∧ mockFiles text = some fs ∧
      ∀ path, contentOf fs path =
        if path ∈ AndroidDump.paths k then filesFor build64 abi64 output32 device path else none := by
  refine ⟨headerOf (AndroidDump.paths k) (filesFor build64 abi64 output32 device), _, ?_,
    mockFiles_headerOf _ (AndroidDump.paths_ok k) _ (fun p hp c hc => ⟨fun b hb => ?_, (h p hp c hc).2⟩), ?_⟩
  · unfold AndroidDump.header
    rw [hk]
    rfl
  · have := (h p hp c hc).1 b hb
    unfold Plain at this
    omega
  · intro path
    rw [contentOf_files]
    by_cases hm : path ∈ AndroidDump.paths k
    · rw [if_pos hm, if_pos hm]
      cases hd : filesFor build64 abi64 output32 device path with
      | none => rfl
      | some c => rw [Option.map_some, (readBack_iff c).2 (h path hm c hd).1]
    · rw [if_neg hm, if_neg hm]

/-- **C165 (files, partial).** In 64-bit builds, and in all builds for a device whose ABI is not 64-bit, the
mock file system has each of the files of the script with the content of the device, lacks those that the
device lacks, and has no others.  `k` is the number in kernel_max.  Partial: for files of tabs, line ends,
printable ASCII characters, and zero bytes without an octal digit behind them. -/
theorem C165_files_partial (build64 abi64 : Bool) (hb : build64 = true ∨ abi64 = false)
    (output32 : Option Bytes) (device : Bytes → Option Bytes) (k : Nat) (w : Bytes)
    (hw : ∀ c ∈ w, c = 10 ∨ c = 13 ∨ c = 32)
    (hk : device b!"/sys/devices/system/cpu/kernel_max" = some (decimal k ++ w))
    (h : ∀ p ∈ AndroidDump.paths k, ∀ c, device p = some c → (∀ b ∈ c, Plain b) ∧ NoDigitAfterZero c) :
    ∃ text fs, AndroidDump.header build64 abi64 output32 device = some text ∧ mockFiles text = some fs ∧
      ∀ path, contentOf fs path = if path ∈ AndroidDump.paths k then device path else none := by
  have hf : filesFor build64 abi64 output32 device = device := by
    funext p
    unfold filesFor
    rw [if_neg]
    rintro ⟨_, h1, h2⟩
    rcases hb with hb | hb
    · rw [hb] at h2; cases h2
    · rw [hb] at h1; cases h1
  have hk' : kernelMax device = some k := by
    unfold kernelMax
    rw [hk]
    dsimp only
    rw [strip_decimal k w (fun c hc => by rcases hw c hc with rfl | rfl | rfl <;> rfl), pyInt_decimal]
  have := files_of (build64 := build64) (abi64 := abi64) (output32 := output32) hk'
  rw [hf] at this
  exact this h

/-- **C165 (32-bit builds on 64-bit devices, partial).** The mock file system has as /proc/cpuinfo what the
32-bit cpuinfo-dump printed, without its last line end, and the other files as on the device. -/
theorem C165_files32_partial (output : Bytes) (hne : output ≠ []) (h13 : 13 ∉ output)
    (hpo : (∀ b ∈ output, Plain b) ∧ NoDigitAfterZero output) (device : Bytes → Option Bytes)
    (k : Nat) (w : Bytes) (hw : ∀ c ∈ w, c = 10 ∨ c = 13 ∨ c = 32)
    (hk : device b!"/sys/devices/system/cpu/kernel_max" = some (decimal k ++ w))
    (h : ∀ p ∈ AndroidDump.paths k, ∀ c, device p = some c → (∀ b ∈ c, Plain b) ∧ NoDigitAfterZero c) :
    ∃ text fs, AndroidDump.header false true (some output) device = some text ∧ mockFiles text = some fs ∧
      (∀ path, path ≠ b!"/proc/cpuinfo" →
        contentOf fs path = if path ∈ AndroidDump.paths k then device path else none) ∧
      ∃ content, contentOf fs b!"/proc/cpuinfo" = some content ∧
        ((content = output ∧ output.getLast? ≠ some 10) ∨ content ++ [10] = output) := by
  have hk' : kernelMax device = some k := by
    unfold kernelMax
    rw [hk]
    dsimp only
    rw [strip_decimal k w (fun c hc => by rcases hw c hc with rfl | rfl | rfl <;> rfl), pyInt_decimal]
  have hj := join_split output h13
  have hpart : ∃ e, output = joinLines (splitPlain output) ++ e := by
    rcases hj with hj | hj
    · exact ⟨[], by rw [hj.1, List.append_nil]⟩
    · exact ⟨[10], hj.1.symm⟩
  have hcpu : filesFor false true (some output) device b!"/proc/cpuinfo" =
      some (joinLines (splitPlain output)) := by
    unfold filesFor
    rw [if_pos ⟨rfl, rfl, rfl⟩]
    dsimp only
    rw [if_neg hne]
  have hoth : ∀ p, p ≠ b!"/proc/cpuinfo" → filesFor false true (some output) device p = device p := by
    intro p hp
    unfold filesFor
    exact if_neg (fun h0 => hp h0.1)
  obtain ⟨text, fs, h1, h2, h3⟩ := files_of (build64 := false) (abi64 := true) (output32 := some output)
    (device := device) hk' (by
      intro p hp c hc
      by_cases he : p = b!"/proc/cpuinfo"
      · rw [he, hcpu] at hc
        cases hc
        obtain ⟨e, hpe⟩ := hpart
        refine ⟨fun b hb => hpo.1 b (by rw [hpe]; exact List.mem_append_left _ hb), ?_⟩
        have hn := hpo.2
        rw [hpe] at hn
        exact noDigit_part (a := []) (c := e) hn
      · rw [hoth p he] at hc
        exact h p hp c hc)
  refine ⟨text, fs, h1, h2, ?_, joinLines (splitPlain output), ?_, ?_⟩
  · intro path hp
    rw [h3, hoth path hp]
  · have hm : b!"/proc/cpuinfo" ∈ AndroidDump.paths k := List.mem_append_left _ List.mem_cons_self
    rw [h3, if_pos hm, hcpu]
  · rcases hj with ⟨hj, hl⟩ | ⟨hj, _⟩
    · left
      refine ⟨hj, ?_⟩
      rcases hl with hl | hl
      · exact absurd hl hne
      · exact hl
    · exact .inr hj

/-- A 64-bit device with two processors: the 32-bit build has the other /proc/cpuinfo, and the files of
processor 1. -/
example :
    let device : Bytes → Option Bytes := fun p =>
      if p = b!"/proc/cpuinfo" then some b!"CPU architecture: 8\n"
      else if p = b!"/sys/devices/system/cpu/kernel_max" then some b!"1\n"
      else if p = b!"/sys/devices/system/cpu/cpu1/topology/core_id" then some b!"1\n" else none
    (AndroidDump.header false true (some b!"CPU architecture: 7\nHardware: x\n") device).bind mockFiles = some
      [⟨b!"/proc/cpuinfo", b!"CPU architecture: 7\nHardware: x", 0⟩,
        ⟨b!"/sys/devices/system/cpu/kernel_max", b!"1\n", 0⟩,
        ⟨b!"/sys/devices/system/cpu/cpu1/topology/core_id", b!"1\n", 0⟩] := by
  decide +kernel

/-- **C165 (which files).** The lists of processors and /proc/cpuinfo are written, and for every processor up
to kernel_max the files that detection on ARM reads, except the list of its cluster. -/
theorem C165_processors (k : Nat) :
    (∀ p ∈ [b!"/proc/cpuinfo", b!"/sys/devices/system/cpu/kernel_max", b!"/sys/devices/system/cpu/possible",
      b!"/sys/devices/system/cpu/present"], p ∈ AndroidDump.paths k) ∧
    ∀ cpu ≤ k, ∀ f ∈ dumpedArmFiles,
      b!"/sys/devices/system/cpu/cpu" ++ decimal cpu ++ b!"/" ++ f ∈ AndroidDump.paths k := by
  constructor
  · intro p hp
    have : ∀ p ∈ [b!"/proc/cpuinfo", b!"/sys/devices/system/cpu/kernel_max",
        b!"/sys/devices/system/cpu/possible", b!"/sys/devices/system/cpu/present"],
        p ∈ AndroidDump.systemFiles := by decide +kernel
    exact List.mem_append_left _ (this p hp)
  · intro cpu hc f hf
    have hsub : ∀ f ∈ dumpedArmFiles, f ∈ AndroidDump.cpuFiles := by decide +kernel
    refine List.mem_append_right _ (List.mem_flatMap.2 ⟨cpu, List.mem_range.2 (by omega), ?_⟩)
    exact List.mem_append_left _ (List.mem_map.2 ⟨f, hsub f hf, rfl⟩)

/-- Directories of processors are dumped only up to kernel_max. -/
private theorem android_dir {k cpu : Nat} {f : Bytes}
    (h : b!"/sys/devices/system/cpu/cpu" ++ decimal cpu ++ b!"/" ++ f ∈ AndroidDump.paths k) : cpu ≤ k := by
  rcases List.mem_append.1 h with h | h
  · exfalso
    have hno : AndroidDump.systemFiles.all (fun p =>
        !((b!"/sys/devices/system/cpu/cpu").isPrefixOf p &&
          (match p.drop 27 with | c :: _ => Nat.ble 48 c && Nat.ble c 57 | [] => false))) = true := by
      decide +kernel
    have := List.all_eq_true.1 hno _ h
    obtain ⟨d, ds, hd, hdig⟩ := Proof.Tools.decimal_cons cpu
    rw [Bool.not_eq_true', hd, List.append_assoc, List.append_assoc] at this
    rw [List.isPrefixOf_iff_prefix.2 ⟨_, rfl⟩] at this
    have hl : (b!"/sys/devices/system/cpu/cpu" ++ (d :: ds ++ (b!"/" ++ f))).drop 27 =
        d :: ds ++ (b!"/" ++ f) := rfl
    rw [hl] at this
    simp only [List.cons_append, Bool.true_and] at this
    have h2 : (Nat.ble 48 d && Nat.ble d 57) = true := by
      rw [Bool.and_eq_true, Nat.ble_eq, Nat.ble_eq]
      exact hdig
    rw [h2] at this
    cases this
  · obtain ⟨j, hj, hm⟩ := List.mem_flatMap.1 h
    have hj := List.mem_range.1 hj
    have hg : ∃ g, b!"/sys/devices/system/cpu/cpu" ++ decimal cpu ++ b!"/" ++ f = cpuDir j ++ g := by
      rcases List.mem_append.1 hm with hm | hm
      · obtain ⟨g, _, he⟩ := List.mem_map.1 hm
        exact ⟨g, he.symm⟩
      · obtain ⟨i, _, hm⟩ := List.mem_flatMap.1 hm
        obtain ⟨g, _, he⟩ := List.mem_map.1 hm
        exact ⟨_, he.symm⟩
    obtain ⟨g, he⟩ := hg
    unfold cpuDir at he
    simp only [List.append_assoc] at he
    have he := List.append_cancel_left he
    have := (Proof.Tools.cut (ArmChipset.decimal_digits cpu) (ArmChipset.decimal_digits j) (x := 47) (y := 47)
      (by rintro ⟨h, _⟩; omega) (by rintro ⟨h, _⟩; omega) he).1
    have := Proof.Tools.decimal_inj this
    omega

private theorem suffix_no {k : Nat} {p : Bytes} (h : p ∈ AndroidDump.paths k) : ¬ b!"us_list" <:+ p := by
  let ok : Bytes → Bool := fun f =>
    f != [] && (f.getLast? != some 116 || (Nat.ble 7 f.length && !(b!"us_list").isSuffixOf f))
  have key : ∀ a f : Bytes, ok f = true → ¬ b!"us_list" <:+ a ++ f := by
    intro a f hf hsuf
    simp only [ok, Bool.and_eq_true, Bool.or_eq_true, bne_iff_ne, Nat.ble_eq, Bool.not_eq_true'] at hf
    rcases hf.2 with hl | ⟨hl, hn⟩
    · obtain ⟨t, ht⟩ := hsuf
      have h1 : (a ++ f).getLast? = some 116 := by rw [← ht]; simp
      cases hg : f.getLast? with
      | none => exact hf.1 (List.getLast?_eq_none_iff.1 hg)
      | some z =>
        rw [List.getLast?_append, hg, Option.some_or] at h1
        exact hl (hg.trans h1)
    · have := List.suffix_of_suffix_length_le hsuf (List.suffix_append a f) hl
      rw [List.isSuffixOf_iff_suffix.2 this] at hn
      cases hn
  have h1 : AndroidDump.systemFiles.all ok = true := by decide +kernel
  have h2 : AndroidDump.cpuFiles.all ok = true := by decide +kernel
  have h3 : AndroidDump.cacheFiles.all ok = true := by decide +kernel
  rcases List.mem_append.1 h with h | h
  · exact key [] p (List.all_eq_true.1 h1 p h)
  · obtain ⟨j, _, hm⟩ := List.mem_flatMap.1 h
    rcases List.mem_append.1 hm with hm | hm
    · obtain ⟨f, hf, rfl⟩ := List.mem_map.1 hm
      exact key _ f (List.all_eq_true.1 h2 f hf)
    · obtain ⟨i, _, hm⟩ := List.mem_flatMap.1 hm
      obtain ⟨f, hf, rfl⟩ := List.mem_map.1 hm
      rw [← List.append_assoc]
      exact key _ f (List.all_eq_true.1 h3 f hf)

/-- **C165 is violated (missing files).** `topology/cluster_cpus_list`, which detection reads first, is not
written for any processor; and if the device has no file kernel_max, no file of a processor other than 0 is
written. -/
theorem C165_violated_missing (build64 abi64 : Bool) (output32 : Option Bytes)
    (device : Bytes → Option Bytes) (k : Nat) (hk : kernelMax device = some k)
    (h : ∀ p ∈ AndroidDump.paths k, ∀ c, filesFor build64 abi64 output32 device p = some c →
      (∀ b ∈ c, Plain b) ∧ NoDigitAfterZero c) :
    ∃ text fs, AndroidDump.header build64 abi64 output32 device = some text ∧ mockFiles text = some fs ∧
      (∀ cpu, contentOf fs (b!"/sys/devices/system/cpu/cpu" ++ decimal cpu ++ b!"/" ++
        b!"topology/cluster_cpus_list") = none) ∧
      (device b!"/sys/devices/system/cpu/kernel_max" = none → ∀ cpu ≥ 1, ∀ f,
        contentOf fs (b!"/sys/devices/system/cpu/cpu" ++ decimal cpu ++ b!"/" ++ f) = none) := by
  obtain ⟨text, fs, h1, h2, h3⟩ := files_of hk h
  refine ⟨text, fs, h1, h2, ?_, ?_⟩
  · intro cpu
    rw [h3, if_neg]
    intro hm
    exact suffix_no hm ⟨b!"/sys/devices/system/cpu/cpu" ++ decimal cpu ++ b!"/" ++
      b!"topology/cluster_cp", by simp⟩
  · intro hno cpu hc f
    rw [h3, if_neg]
    intro hm
    have := android_dir hm
    unfold kernelMax at hk
    rw [hno] at hk
    cases hk
    omega

/-! ## cpuinfo-dump -/

/-- **C165 (cpuinfo-dump).** However many bytes the calls of `read` return, cpuinfo-dump prints the file. -/
theorem C165_dump (sched : Nat → Nat) (file : Bytes) : dumpLoop sched (file.length + 1) 0 file = file :=
  dump_all sched file _ 0 (by omega)

/-- Reads of one, two, three, … bytes. -/
example : dumpLoop (fun n => n + 1) 12 0 b!"processor\t:" = b!"processor\t:" := by decide +kernel

end Verif.Props
