import Verif.Proof.ArmPackage
import Verif.Proof.ArmExample
import Verif.Proof.ChipsetLongest
import Verif.Props.ArmChipset
import Verif.Props.Files

/-!
# C115, C117: the chipset from Android's properties, and the name of the package

C115 is about `decodeAndroid`, the whole of `cpuinfo_arm_android_decode_chipset`, for arbitrary
contents of the property buffers.  C117 is about `linuxInit`, the whole of `cpuinfo_arm_linux_init`,
with the chipset decoders of the code.
-/

set_option autoImplicit false

namespace Verif.Props
open Spec Spec.Chipsets ArmMidr ArmCpuinfo ArmClusters ArmInit ArmChipset

/-! ## C115 -/

/-- **C115 (combination).** For every contents of the Hardware string and of the six properties,
detection on Android returns a well-formed chipset.  Each source says what the first fitting pattern of
its decoder says (`cs`), corrected as in C112 (`ds`).  If two sources name different vendors, or none
names one, the result is unknown.  If all sources that name a chipset agree, the result is this chipset.
Otherwise series and model of the result are those that all known sources share, or those of the most
trusted source of the vendor; the characters of the suffix come from sources of the same series. -/
theorem C115_android (arm32 : Bool) (p : Properties) (cores freq : Nat) (hp : PropertyBytes p) :
    ∃ (cs ds : Source → Chipset) (r : Chipset),
      (∀ s, Says arm32 p cores freq s (cs s)) ∧
      (∀ s, Corrected arm32 cores freq (cs s) (ds s)) ∧ (∀ s, Valid (ds s)) ∧
      decodeAndroid arm32 p cores freq = .yes r ∧ Valid r ∧ Chosen ds r ∧
      (Known r → SuffixFromSources ds r) := by
  obtain ⟨cs, ds, r, h1, h2, h3, h4, h5, h6, h7, h8⟩ := android_yes (arm32 := arm32) (cores := cores)
    (freq := freq) hp
  refine ⟨cs, ds, r, h1, fun s => ?_, h4, h5, h6, h7, fun h => (h8 h).1⟩
  obtain ⟨r', k1, k2, -⟩ := C112_corrections arm32 (cs s) cores freq (h2 s)
  rw [h3 s] at k1
  injection k1 with e
  rw [e]
  exact k2

theorem firstSource_known {known : Source → Prop} : ∀ {l : List Source} {s : Source},
    FirstSource known l s → known s
  | [], _, h => h.elim
  | _ :: _, _, .inl ⟨h, e⟩ => e ▸ h
  | _ :: _, _, .inr ⟨_, h⟩ => firstSource_known h

/-- **C115 (no invented chipset).** Vendor, series and model of a known result are those of one of the
sources, corrected; and no source names another vendor. -/
theorem C115_source (arm32 : Bool) (p : Properties) (cores freq : Nat) (hp : PropertyBytes p)
    (r : Chipset) (h : decodeAndroid arm32 p cores freq = .yes r) (hk : Known r) :
    ∃ (s : Source) (c d : Chipset), Says arm32 p cores freq s c ∧ Corrected arm32 cores freq c d ∧
      r.vendor = d.vendor ∧ r.series = d.series ∧ r.model = d.model ∧
      ∀ s' c', Says arm32 p cores freq s' c' → c'.vendor = .unknown ∨ c'.vendor = r.vendor := by
  obtain ⟨cs, ds, r', h1, h2, hval, h3, h4, h5, h6⟩ := C115_android arm32 p cores freq hp
  rw [h] at h3
  injection h3 with e
  subst e
  have unique : ∀ s' c', Says arm32 p cores freq s' c' → c' = cs s' := by
    obtain ⟨b0, b1, b2, b3, b4, b5, b6⟩ := hp
    have one : ∀ {s : Bytes} {m : Match Chipset} {P : Pattern}, Decider s m P → ∀ {x y : Chipset},
        P s x → P s y → x = y := by
      intro s m P hd x y hx hy
      have e1 := (hd.iff x).mpr hx
      rw [(hd.iff y).mpr hy] at e1
      injection e1 with e1
      exact e1.symm
    intro s' c' hs
    have hc := h1 s'
    cases s' with
    | hardware =>
      rcases hs with ⟨t1, k1⟩ | ⟨t1, k1⟩ <;> rcases hc with ⟨t2, k2⟩ | ⟨t2, k2⟩
      · exact one (tegraHardware_decodes (cores := cores) (freq := freq)) k1 k2
      · exact absurd t1 t2
      · exact absurd t2 t1
      · exact one (hardware_decodes (textIn_bytes b0)) k1 k2
    | board => exact one (decodeBoard_decodes (textIn_bytes b1)) hs hc
    | platform => exact one (decodePlatform_decodes (textIn_bytes b2) (textIn_noZero _ _)) hs hc
    | mediatek => exact one (decodeMediatek_decodes (textIn_bytes b3)) hs hc
    | arch => exact one (decodeArch_decodes (textIn_bytes b4)) hs hc
    | chipname => exact one (decodeChipname_decodes (textIn_bytes b5)) hs hc
    | hardwareChipname => exact one (decodeChipname_decodes (textIn_bytes b6)) hs hc
  have vend : ∀ s', (ds s').vendor = (cs s').vendor := fun s' => (h2 s').choose_spec.2.2.1
  have ru : r ≠ .unknown := fun e => hk (by rw [e]; rfl)
  rcases h5 with ⟨-, e⟩ | ⟨-, e⟩ | ⟨v, hv, hall, ⟨s0, hs0⟩, hcase⟩
  · exact absurd e ru
  · exact absurd e ru
  have others : r.vendor = v → ∀ s' c', Says arm32 p cores freq s' c' →
      c'.vendor = .unknown ∨ c'.vendor = r.vendor := by
    intro hr s' c' hs
    rw [unique s' c' hs, ← vend s', hr]
    rcases hall s' with e | e
    · left; rw [e]; rfl
    · exact .inr e
  have s0k : ds s0 ≠ .unknown := by
    intro e
    rw [e] at hs0
    exact hv hs0.symm
  rcases hcase with ⟨x, hx, rfl, -⟩ | ⟨-, ⟨-, k2, k3⟩ | ⟨s, k1, k2, k3, k4⟩ | ⟨-, e⟩⟩
  · have e0 : ds s0 = r := (hx s0).resolve_left s0k
    exact ⟨s0, cs s0, ds s0, h1 s0, h2 s0, by rw [e0], by rw [e0], by rw [e0],
      others (by rw [← e0]; exact hs0)⟩
  · have kn : Known (ds s0) := by
      intro e
      rcases hval s0 with e' | ⟨k, -⟩
      · exact s0k e'
      · exact k e
    exact ⟨s0, cs s0, ds s0, h1 s0, h2 s0, by rw [k2, hs0], (k3 s0 kn).1.symm, (k3 s0 kn).2.symm,
      others k2⟩
  · have kn := firstSource_known k1
    refine ⟨s, cs s, ds s, h1 s, h2 s, ?_, k3, k4, others k2⟩
    rw [k2]
    exact (((hall s).resolve_left fun e => kn (by rw [e]; rfl))).symm
  · exact absurd e ru

/-- Properties for examples, in their buffers. -/
private def props (hardware board platform mediatek arch chipname hardwareChipname : Bytes) :
    Properties :=
  ⟨inBuffer 64 hardware, inBuffer 92 board, inBuffer 92 platform, inBuffer 92 mediatek,
    inBuffer 92 arch, inBuffer 92 chipname, inBuffer 92 hardwareChipname⟩

example : decodeAndroid false (props b!"Qualcomm Technologies, Inc MSM8998" b!"msm8998" b!"msm8998"
    [] [] [] b!"MSM8998") 8 0 = .yes (chip .qualcomm .qualcommMsm 8998 []) := by decide +kernel

example : decodeAndroid false (props b!"Qualcomm Technologies, Inc MSM8998" b!"universal9810"
    [] [] [] [] []) 8 0 = .yes .unknown := by decide +kernel

/-- **C115 (suffix, as documented).** If of any two suffixes that sources of the series of the result give one
continues the other, then the suffix of the result is the longest of them: a source of this series gives it, and
the suffixes of all others are beginnings of it. -/
theorem C115_longest_partial (arm32 : Bool) (p : Properties) (cores freq : Nat) (hp : PropertyBytes p) :
    ∃ (cs ds : Source → Chipset) (r : Chipset),
      (∀ s, Says arm32 p cores freq s (cs s)) ∧ (∀ s, Corrected arm32 cores freq (cs s) (ds s)) ∧
      decodeAndroid arm32 p cores freq = .yes r ∧
      (Known r → SuffixesContinue ds r.series →
        ∃ s t, (ds s).series = r.series ∧ SuffixText t ∧ HasSuffix (ds s) t ∧ HasSuffix r t ∧
          ∀ s' u, (ds s').series = r.series → SuffixText u → HasSuffix (ds s') u → u <+: t) := by
  obtain ⟨cs, ds, r, h1, h2, h3, h4, h5, -, -, h8⟩ := android_yes (arm32 := arm32) (cores := cores)
    (freq := freq) hp
  refine ⟨cs, ds, r, h1, fun s => ?_, h5, fun hk hc => ?_⟩
  · obtain ⟨r', k1, k2, -⟩ := C112_corrections arm32 (cs s) cores freq (h2 s)
    rw [h3 s] at k1
    injection k1 with e
    rw [e]
    exact k2
  · have mem : ∀ d ∈ [ds .hardware, ds .board, ds .platform, ds .mediatek, ds .arch, ds .chipname,
        ds .hardwareChipname], ∃ s, d = ds s := by
      intro d hd
      simp only [List.mem_cons, List.not_mem_nil, or_false] at hd
      rcases hd with h | h | h | h | h | h | h <;> exact ⟨_, h⟩
    obtain ⟨t, ⟨ht, ⟨d, hd, hds, hdt⟩, hall⟩, hrt⟩ := propagate_longest (by
        intro c hc
        obtain ⟨s, rfl⟩ := mem c hc
        exact h4 s) (h8 hk).2 (by
        intro c hc' d hd e1 e2 t u ht hu k1 k2
        obtain ⟨s, rfl⟩ := mem c hc'
        obtain ⟨s', rfl⟩ := mem d hd
        exact hc s s' e1 e2 t u ht hu k1 k2)
    obtain ⟨s, rfl⟩ := mem d hd
    refine ⟨s, t, hds, ht, hdt, hrt, fun s' u hs' hu hsu => hall _ ?_ hs' u hu hsu⟩
    cases s' <;> simp

/-- Three sources with the suffixes none, A and AB. -/
example : decodeAndroid false (props b!"MSM8974A" b!"MSM8974" [] [] [] [] b!"MSM8974AB") 4 0 =
    .yes (chip .qualcomm .qualcommMsm 8974 b!"AB") := by decide +kernel

/-- **C115, violated (suffix of another chipset).** Of two sources, MSM8974AB and MSM8998, the second is
trusted, but the result is MSM8998AB, which no source says: suffixes are passed on between different
models. -/
theorem C115_violated_model :
    decodeAndroid false (props b!"MSM8974AB" [] [] [] [] [] b!"MSM8998") 8 0 =
      .yes (chip .qualcomm .qualcommMsm 8998 b!"AB") := by decide +kernel

/-- **C115, violated (mixed suffix).** Three sources say MSM8974AB, MSM8974T and MSM8974; the result is
MSM8974TB, which no source says: the suffix T is written over the first character of AB. -/
theorem C115_violated_mixed :
    decodeAndroid false (props b!"MSM8974AB" b!"MSM8974T" [] [] [] [] b!"MSM8974") 4 0 =
      .yes (chip .qualcomm .qualcommMsm 8974 b!"TB") := by decide +kernel

/-! ## C117 -/

/-- **C117 (name).** Whatever the files contain, when detection succeeds the name of the package is
written, without a null pointer, in at most 47 characters, as the name of a well-formed chipset. -/
theorem C117_package_name (e : Env) (arm32 : Bool) (pub : Published)
    (hc : e.dec.chipset = linuxChipset arm32) (hb : IsBytes e.hardware)
    (hf : ∀ f, e.cpuinfo.1 = some f → IsBytes f) (h : linuxInit e = some (some pub)) :
    ∃ c name, Valid c ∧ pub.packageName = some name ∧ ArmChipset.toString c = some name ∧
      name.length ≤ 47 := by
  obtain ⟨t, hw, rev, hg, -, hn⟩ := package_name e pub h
  obtain ⟨r, hr, hv⟩ := C45_valid arm32 hw rev (countListed t) 0 (gather_bytes e t hw rev hg hb hf)
  obtain ⟨name, hname, hl, -⟩ := C46_names r hv
  refine ⟨r, name, hv, ?_, hname, hl⟩
  rw [hn, hc, linuxChipset, hr]
  exact hname

/-- **C117 (name on Android).** The same on Android, whatever the properties contain. -/
theorem C117_package_name_android (e : Env) (arm32 : Bool) (p : Properties) (pub : Published)
    (hc : e.dec.chipset = androidChipset arm32 p) (hb : IsBytes e.hardware)
    (hf : ∀ f, e.cpuinfo.1 = some f → IsBytes f)
    (hp : PropertyBytes { p with hardware := [] }) (h : linuxInit e = some (some pub)) :
    ∃ c name, Valid c ∧ pub.packageName = some name ∧ ArmChipset.toString c = some name ∧
      name.length ≤ 47 := by
  obtain ⟨t, hw, rev, hg, -, hn⟩ := package_name e pub h
  obtain ⟨-, -, r, -, -, -, hr, hv, -⟩ := C115_android arm32 { p with hardware := hw }
    (countListed t) 0 ⟨gather_bytes e t hw rev hg hb hf, hp.2⟩
  obtain ⟨name, hname, hl, -⟩ := C46_names r hv
  refine ⟨r, name, hv, ?_, hname, hl⟩
  rw [hn, hc, androidChipset, hr]
  exact hname

/-- The line gives the key this value. -/
def LineSays (l key value : Bytes) : Prop := X86Cpuinfo.splitLine l = some (key, value)

/-- **C117 (from the Hardware line).** For every /proc/cpuinfo of lines that fit the buffer, every split
of the reads and every contents of the uninitialised buffers: if `v`, of fewer than 64 characters, is
the value of the last Hardware line and the first fitting pattern says a chipset `c` of another vendor
than Broadcom, then the name of the package is the name of `c` corrected as in C112 for the number of
processors of the package. -/
theorem C117_hardware_line (e : Env) (arm32 : Bool) (pub : Published)
    (hc : e.dec.chipset = linuxChipset arm32) (h : linuxInit e = some (some pub))
    (pre post : List Bytes) (l v : Bytes)
    (hfile : e.cpuinfo.1 = some (joinLines (pre ++ l :: post))) (hs : e.cpuinfo.2.NoError)
    (hnl : ∀ x ∈ pre ++ l :: post, 10 ∉ x) (hfit : LinesFit 1024 (pre ++ l :: post))
    (hl : LineSays l b!"Hardware" v) (hlast : ∀ x ∈ post, ∀ w, ¬ LineSays x b!"Hardware" w)
    (hv : IsBytes v) (h0 : 0 ∉ v) (hlen : v.length < 64) :
    ∃ c r, Decodes (hardwarePatterns arm32 pub.packageProcessorCount 0) v c ∧
      r.vendor = c.vendor ∧ (c.vendor = .unknown → r = c) ∧
      (c.vendor ≠ .unknown → c.vendor ≠ .broadcom →
        Corrected arm32 pub.packageProcessorCount 0 c r) ∧
      pub.packageName = ArmChipset.toString r := by
  obtain ⟨t, hw, rev, hg, hcount, hn⟩ := package_name e pub h
  obtain ⟨n, t0, st, hp, rfl, rfl⟩ := gather_parse e t hw rev hg
  unfold parseProcCpuinfo at hp
  rw [hfile, C06_lines_independent_of_reads _ _ _ _ hs _ (by simp) hnl hfit] at hp
  injection hp with hp
  obtain ⟨b, hb⟩ := (run_texts _ _ _ _ (congrArg Prod.fst hp)).1 pre l post v rfl hl hlast
  have ht : textIn 64 st.hardware = v := text_of_store hb h0 hlen
  obtain ⟨c, r, k1, k2, k3, k4, k5⟩ := C111_linux arm32 (textIn 64 st.hardware) st.revision
    (countListed t) 0 (by rw [ht]; exact hv)
  rw [textIn_idem, ht] at k1
  rw [decodeLinux_text] at k2
  rw [hcount]
  refine ⟨c, r, k1, k3, k4, k5, ?_⟩
  rw [hn, hc, linuxChipset, k2]
  rfl

private theorem raspberry_named {arm32 : Bool} {hw rev v w : Bytes} {n : Nat} {c : Chipset} {m : Nat}
    (ht : textIn 64 hw = v) (ht' : textIn 9 rev = w) (hv : IsBytes v)
    (hx : ∀ x ∈ w, IsHex x) (hlen' : 5 ≤ w.length ∧ w.length ≤ 8)
    (hd : Decodes (hardwarePatterns arm32 n 0) v c)
    (hbc : c.vendor = .broadcom) (hm : piModel (processorField (hexValue w)) = some m) :
    ∃ digits, (∀ x ∈ digits, Digit x) ∧ valueOf digits = m ∧
      ArmChipset.toString (linuxChipset arm32 hw rev n) = some (b!"Broadcom BCM" ++ digits) := by
  have hbytes : IsBytes (textIn 64 hw) := by rw [ht]; exact hv
  obtain ⟨r, hr, hval⟩ := C45_valid arm32 _ rev n 0 hbytes
  have key := C113_raspberry_partial arm32 (textIn 64 hw) rev n 0 c r
    hbytes (by rw [textIn_idem, ht]; exact hd) hbc (by rw [ht']; exact hx) (by rw [ht']; exact hlen')
    hr
  rw [ht', hm] at key
  obtain ⟨hser, hsuf⟩ := broadcom_plain hd hbc
  rw [decodeLinux_text] at hr
  obtain ⟨name, hname, -, hcase⟩ := C46_names r hval
  rw [linuxChipset, hr]
  change ∃ digits, _ ∧ _ ∧ ArmChipset.toString r = _
  have m0 : m ≠ 0 := by
    have : ∀ f < 16, ∀ m, piModel f = some m → m ≠ 0 := by
      intro f hf m hm
      unfold piModel at hm
      match f, hf with
      | 0, _ | 1, _ | 2, _ | 3, _ => simp at hm; omega
      | f + 4, _ => simp at hm
    exact this _ (by unfold processorField; omega) m hm
  rcases hcase with ⟨rfl, -⟩ | ⟨series, u, k1, k2, k3, k4⟩
  · have := congrArg Chipset.model key
    exact absurd this.symm m0
  · rw [key] at k1 k4 k3
    simp only [Option.getD_some] at k1 k3 k4
    rw [hser] at k1
    have e1 : series = b!"BCM" := by injection k1 with k1; exact k1.symm
    have e2 : u = [] := padded_inj k2 suffixText_nil (by
      have a1 : c.suffix = padded u := k3
      have a2 : c.suffix = padded [] := hsuf
      rw [← a1, ← a2])
    rcases k4 with ⟨k, -⟩ | ⟨-, digits, d1, d2, d3⟩
    · exact absurd k m0
    · refine ⟨digits, d1, d2, ?_⟩
      rw [hname, d3, e1, e2, hbc]
      simp [vendorString]

/-- **C117 (Raspberry Pi).** If the last Hardware line names a Broadcom chipset and the value of the last
Revision line is a number of five to eight hexadecimal digits whose processor field is known, then the
package is named after the BCM model of this field. -/
theorem C117_raspberry (e : Env) (arm32 : Bool) (pub : Published)
    (hc : e.dec.chipset = linuxChipset arm32) (h : linuxInit e = some (some pub))
    (ls pre post pre' post' : List Bytes) (l l' v w : Bytes) (c : Chipset) (m : Nat)
    (hfile : e.cpuinfo.1 = some (joinLines ls)) (hs : e.cpuinfo.2.NoError)
    (hnl : ∀ x ∈ ls, 10 ∉ x) (hfit : LinesFit 1024 ls)
    (h1 : ls = pre ++ l :: post) (hl : LineSays l b!"Hardware" v)
    (hlast : ∀ x ∈ post, ∀ w, ¬ LineSays x b!"Hardware" w)
    (h2 : ls = pre' ++ l' :: post') (hl' : LineSays l' b!"Revision" w)
    (hlast' : ∀ x ∈ post', ∀ w, ¬ LineSays x b!"Revision" w)
    (hv : IsBytes v) (h0 : 0 ∉ v) (hlen : v.length < 64)
    (hx : ∀ x ∈ w, IsHex x) (hlen' : 5 ≤ w.length ∧ w.length ≤ 8)
    (hd : Decodes (hardwarePatterns arm32 pub.packageProcessorCount 0) v c)
    (hbc : c.vendor = .broadcom) (hm : piModel (processorField (hexValue w)) = some m) :
    ∃ digits, (∀ x ∈ digits, Digit x) ∧ valueOf digits = m ∧
      pub.packageName = some (b!"Broadcom BCM" ++ digits) := by
  obtain ⟨t, hw, rev, hg, hcount, hn⟩ := package_name e pub h
  obtain ⟨n, t0, st, hp, rfl, rfl⟩ := gather_parse e t hw rev hg
  unfold parseProcCpuinfo at hp
  rw [hfile, C06_lines_independent_of_reads _ _ _ _ hs _ (by rw [h1]; simp) hnl hfit] at hp
  injection hp with hp
  obtain ⟨r1, -, r3, -⟩ := run_texts _ _ _ _ (congrArg Prod.fst hp)
  obtain ⟨b, hb⟩ := r1 pre l post v h1 hl hlast
  obtain ⟨b', hb'⟩ := r3 pre' l' post' w h2 hl' hlast'
  have ht : textIn 64 st.hardware = v := text_of_store hb h0 hlen
  have w0 : 0 ∉ w := fun hz => by have := hx 0 hz; unfold IsHex at this; omega
  have ht' : textIn 9 st.revision = w := text_of_store hb' w0 (by omega)
  rw [hcount] at hd
  rw [hn, hc]
  exact raspberry_named ht ht' hv hx hlen' hd hbc hm

/-- **C117 is violated by every such machine without a Revision line.** The model is then decided by what
happens to be in the Revision buffer, which nothing was written to: any text of five to eight
hexadecimal digits there names the package, whatever the machine is. -/
theorem C117_violated_always (e : Env) (arm32 : Bool) (pub : Published)
    (hc : e.dec.chipset = linuxChipset arm32) (h : linuxInit e = some (some pub))
    (ls pre post : List Bytes) (l v : Bytes) (c : Chipset) (m : Nat)
    (hfile : e.cpuinfo.1 = some (joinLines ls)) (hs : e.cpuinfo.2.NoError)
    (hnl : ∀ x ∈ ls, 10 ∉ x) (hfit : LinesFit 1024 ls)
    (h1 : ls = pre ++ l :: post) (hl : LineSays l b!"Hardware" v)
    (hlast : ∀ x ∈ post, ∀ w, ¬ LineSays x b!"Hardware" w)
    (hno : ∀ x ∈ ls, ∀ w, ¬ LineSays x b!"Revision" w)
    (hv : IsBytes v) (h0 : 0 ∉ v) (hlen : v.length < 64)
    (hx : ∀ x ∈ textIn 9 e.revision, IsHex x)
    (hlen' : 5 ≤ (textIn 9 e.revision).length ∧ (textIn 9 e.revision).length ≤ 8)
    (hd : Decodes (hardwarePatterns arm32 pub.packageProcessorCount 0) v c)
    (hbc : c.vendor = .broadcom)
    (hm : piModel (processorField (hexValue (textIn 9 e.revision))) = some m) :
    ∃ digits, (∀ x ∈ digits, Digit x) ∧ valueOf digits = m ∧
      pub.packageName = some (b!"Broadcom BCM" ++ digits) := by
  obtain ⟨t, hw, rev, hg, hcount, hn⟩ := package_name e pub h
  obtain ⟨n, t0, st, hp, rfl, rfl⟩ := gather_parse e t hw rev hg
  unfold parseProcCpuinfo at hp
  rw [hfile, C06_lines_independent_of_reads _ _ _ _ hs _ (by rw [h1]; simp) hnl hfit] at hp
  injection hp with hp
  obtain ⟨r1, -, -, r4⟩ := run_texts _ _ _ _ (congrArg Prod.fst hp)
  obtain ⟨b, hb⟩ := r1 pre l post v h1 hl hlast
  have hrev : st.revision = e.revision := r4 hno
  rw [hcount] at hd
  rw [hn, hc]
  exact raspberry_named (text_of_store hb h0 hlen) (by rw [hrev]) hv hx hlen' hd hbc hm

private def piBlock (n : Bytes) : Bytes :=
  b!"processor\t: " ++ n ++ b!"\nCPU implementer\t: 0x41\nCPU architecture: 8\n" ++
    b!"CPU variant\t: 0x0\nCPU part\t: 0xd03\nCPU revision\t: 4\n\n"

private def piFile (b : Bytes) : File := (some b, fun _ => some 64)

private def piCache (size : Nat) : X86Init.Cache := ⟨size, 4, size / 256, 1, 64, 0, 0, 0⟩

/-- A machine with two Cortex-A53, this end of /proc/cpuinfo and this contents of the Revision
buffer. -/
private def piExample (tail revision : Bytes) : Env :=
  { config := ⟨.arm64, false⟩
    kernelMax := piFile b!"1\n", possibleMax := piFile b!"0-1\n", presentMax := piFile b!"0-1\n"
    possible := piFile b!"0-1\n", present := piFile b!"0-1\n"
    cpuinfo := piFile (piBlock b!"0" ++ piBlock b!"1" ++ tail)
    maxFrequency := fun _ => (none, fun _ => none), minFrequency := fun _ => (none, fun _ => none)
    packageId := fun _ => piFile b!"0\n"
    clusterCpus := fun _ => (none, fun _ => none)
    coreSiblings := fun _ => piFile b!"0-1\n"
    hardware := List.replicate 64 1, revision := inBuffer 9 revision
    junk := ⟨0, 0, 0, 0⟩, junk' := ⟨0, 0, 0, 0⟩
    dec := { chipset := linuxChipset false
             vendorUarch := fun m _ => (m / 2 ^ 24 % 256, m / 16 % 4096)
             caches := fun _ cores _ _ _ _ =>
               ⟨piCache 32768, piCache 32768, piCache (cores * 131072), piCache 0⟩
             maxCacheSize := fun _ => none }
    sort := armSort .arm64, alloc := fun _ => true }

private def nameOf (e : Env) : Option Bytes := ((linuxInit e).bind id).bind (·.packageName)

example : nameOf (piExample b!"Hardware\t: Qualcomm Technologies, Inc SDM845\n" []) =
    some b!"Qualcomm Snapdragon 845" := by decide +kernel

example : nameOf (piExample b!"Hardware\t: BCM2835\nRevision\t: c03111\n" []) =
    some b!"Broadcom BCM2711" := by decide +kernel

example : LineSays b!"Hardware\t: BCM2835" b!"Hardware" b!"BCM2835" ∧
    LineSays b!"Revision\t: c03111" b!"Revision" b!"c03111" ∧
    piModel (processorField (hexValue b!"c03111")) = some 2711 := by
  unfold LineSays; decide +kernel

/-- **C117, violated.** Without a Revision line the Revision buffer is read although nothing was ever
written to it: the same machine is named after whatever the stack contained. -/
theorem C117_violated :
    nameOf (piExample b!"Hardware\t: BCM2835\n" b!"a02082") = some b!"Broadcom BCM2837" ∧
    nameOf (piExample b!"Hardware\t: BCM2835\n" b!"c03111") = some b!"Broadcom BCM2711" := by
  decide +kernel

end Verif.Props
