import Verif.Model.ArmChipsetMatch

/-!
# Chipset decoding, corrections and names, src/arm/linux/chipset.c:2399-4235

`arm32` says whether the build is for 32-bit ARM (`CPUINFO_ARCH_ARM`); otherwise it is for 64-bit ARM.
The frequency parameter is the one the functions receive; src/arm/linux/init.c:243 and 246 always pass
0.  Log messages are left out.
-/

set_option autoImplicit false

namespace Verif.ArmChipset

/-- The text in a buffer, up to `strnlen(buffer, n)`. -/
def textIn (n : Nat) (buffer : Bytes) : Bytes := (buffer.take n).takeWhile (· != 0)

/-- A series of `if (match…) return chipset;`: the first that does not return false. -/
def firstMatch {α : Type} : List (Match α) → Match α
  | [] => .no
  | .no :: ms => firstMatch ms
  | m :: _ => m

/-- The end of every decoder: nothing matched, the chipset is unknown. -/
def orUnknown : Match Chipset → Match Chipset
  | .no => .yes .unknown
  | m => m

/-- Checks that exist in 32-bit builds only. -/
def onlyArm32 {α : Type} (arm32 : Bool) (ms : List α) : List α := if arm32 then ms else []

/-- Search in a table, e.g. src/arm/linux/chipset.c:2429-2447.  `strncmp(platform, s, length) == 0`
with a text `s` of `length` characters says that `s` begins `platform`; `platform[length] == 0` that
`platform` ends there. -/
def lookup (arm32 : Bool) (table : List SpecialEntry) (s : Bytes) : Option SpecialEntry :=
  table.find? fun e =>
    inBuild arm32 e.arm32Only && s.isPrefixOf e.platform && e.platform.length == s.length

/-- Creating the chipset from an entry, e.g. src/arm/linux/chipset.c:2437-2445. -/
def ofEntry (e : SpecialEntry) : Chipset := mk (seriesVendor e.series) e.series e.model [e.suffix]

/-- A search as one more check. -/
def tableMatch (arm32 : Bool) (table : List SpecialEntry) (s : Bytes) : Match Chipset :=
  match lookup arm32 table s with
  | some e => .yes (ofEntry e)
  | none => .no

/-- The checks at the start of a word, src/arm/linux/chipset.c:2462-2516. -/
def wordChecks (s : Bytes) : Match Chipset :=
  firstMatch [matchMsmApq s, matchSdm s, matchSm s, matchMt s true, matchKirin s, matchRk s]

/-- The loop over the words of the Hardware string, src/arm/linux/chipset.c:2450-2522. -/
def wordLoop : Bytes → Bool → Match Chipset
  | [], _ => .no
  | c :: rest, wordStart =>
    if c = 32 ∨ c = 9 ∨ c = 44 then wordLoop rest true
    else if wordStart && isAlphabetic c then
      firstMatch [wordChecks (c :: rest), wordLoop rest false]
    else wordLoop rest false

/-- `cpuinfo_arm_linux_decode_chipset_from_proc_cpuinfo_hardware`, src/arm/linux/chipset.c:2412-2675,
on the text of the Hardware string. -/
def decodeHardware (arm32 : Bool) (s : Bytes) (cores freq : Nat) (tegra : Bool) : Match Chipset :=
  if tegra then orUnknown (tableMatch arm32 tegraEntries s)
  else
    orUnknown (firstMatch
      ([wordLoop s true, matchSamsungExynos s, matchUniversal s]
        ++ onlyArm32 arm32 [matchSmdk s cores]
        ++ [matchSc s, matchT s, matchUms s]
        ++ onlyArm32 arm32 [matchPxa s]
        ++ [matchSunxi arm32 s cores, matchBcm s]
        ++ onlyArm32 arm32 [matchOmap s, matchWmt s cores freq]
        ++ [matchTcc s, tableMatch arm32 hardwareEntries s]))

/-- Creating the chipset from a board entry with the suffix of MSM8996PRO completed,
src/arm/linux/chipset.c:2911-2926. -/
def ofBoardEntry (e : SpecialEntry) : Chipset :=
  mk (seriesVendor e.series) e.series e.model
    [e.suffix, if e.suffix = 80 then 82 else 0, if e.suffix = 80 then 79 else 0]

/-- The search in the board table as one more check, src/arm/linux/chipset.c:2901-2928. -/
def boardMatch (arm32 : Bool) (s : Bytes) : Match Chipset :=
  match lookup arm32 boardEntries s with
  | some e => .yes (ofBoardEntry e)
  | none => .no

/-- `cpuinfo_arm_android_decode_chipset_from_ro_product_board`, src/arm/linux/chipset.c:2813-2933. -/
def decodeBoard (arm32 : Bool) (s : Bytes) (cores freq : Nat) : Match Chipset :=
  orUnknown (firstMatch
    ([matchMsmApq s, matchUniversal s]
      ++ onlyArm32 arm32 [matchSmdk s cores]
      ++ [matchMt s true, matchSc s]
      ++ onlyArm32 arm32 [matchPxa s, matchLc s, matchBroadcom s cores freq]
      ++ [matchHuawei s, boardMatch arm32 s]))

/-- The check for "omap4", src/arm/linux/chipset.c:3205-3222. -/
def matchOmap4 (s : Bytes) (cores freq : Nat) : Match Chipset :=
  if s.length = 5 ∧ cores = 2 ∧ freq = 1008000 ∧ s = b!"omap4" then
    .yes (mk .texasInstruments .texasInstrumentsOmap 4430 [])
  else .no

/-- The first six characters of a zero-padded array. -/
def six (s : Bytes) : Bytes := (s ++ List.replicate 6 0).take 6

/-- The search in the Amlogic table, src/arm/linux/chipset.c:3224-3250.
`strncmp(entry, platform, 6) == 0` on a text of at most six characters compares the six characters with
the zeros that follow the text; both arrays are that long. -/
def matchAmlogic (arm32 : Bool) (s : Bytes) : Match Chipset :=
  if s.length ≤ 6 then
    match amlogicEntries.find? fun e => inBuild arm32 e.arm32Only && six e.platform == six s with
    | some e => .yes (mk .amlogic e.series e.model e.suffix)
    | none => .no
  else .no

/-- `cpuinfo_arm_android_decode_chipset_from_ro_board_platform`, src/arm/linux/chipset.c:3109-3281. -/
def decodePlatform (arm32 : Bool) (s : Bytes) (cores freq : Nat) : Match Chipset :=
  orUnknown (firstMatch
    ([matchMsmApq s, matchExynos s, matchMt s true, matchKirin s, matchSc s, matchRk s]
      ++ onlyArm32 arm32 [matchLc s]
      ++ [matchHuawei s]
      ++ onlyArm32 arm32 [matchBroadcom s cores freq, matchOmap4 s cores freq]
      ++ [matchAmlogic arm32 s, tableMatch arm32 platformEntries s]))

/-- `cpuinfo_arm_android_decode_chipset_from_ro_mediatek_platform`, src/arm/linux/chipset.c:3291-3305. -/
def decodeMediatek (s : Bytes) : Match Chipset := orUnknown (matchMt s false)

/-- `cpuinfo_arm_android_decode_chipset_from_ro_arch`, src/arm/linux/chipset.c:3320-3334. -/
def decodeArch (s : Bytes) : Match Chipset := orUnknown (matchExynos s)

/-- The check for "mp523x", src/arm/linux/chipset.c:3412-3425. -/
def matchMp523x (s : Bytes) : Match Chipset :=
  if s.length = 6 ∧ s = b!"mp523x" then .yes (mk .renesas .renesasMp 5232 []) else .no

/-- `cpuinfo_arm_android_decode_chipset_from_ro_chipname`, src/arm/linux/chipset.c:3346-3432. -/
def decodeChipname (arm32 : Bool) (s : Bytes) : Match Chipset :=
  orUnknown (firstMatch
    ([matchMsmApq s, matchSm s, matchExynos s, matchUniversal s, matchMt s true, matchSc s]
      ++ onlyArm32 arm32 [matchPxa s, matchMp523x s]))

/-- The models of `cpuinfo_arm_fixup_chipset` that depend on the number of cores: `a` cores confirm the
model, `b` cores say that it is the model `other`, anything else that it is unknown (0). -/
def byCores (cores a b model other : Nat) : Nat :=
  if cores = a then model else if cores = b then other else 0

/-- MSM without suffix, src/arm/linux/chipset.c:3450-3574. -/
def fixMsm (arm32 : Bool) (c : Chipset) (cores : Nat) : Chipset :=
  if c.model = 8216 then { c with model := 8916 }
  else if c.model = 8916 then { c with model := byCores cores 4 8 8916 8939 }
  else if c.model = 8937 then { c with model := byCores cores 8 4 8937 8917 }
  else if c.model = 8960 then
    { c with
      series := if cores = 4 then .qualcommApq else c.series
      model := byCores cores 2 4 8960 8064 }
  else if c.model = 8996 then { c with model := byCores cores 4 8 8996 8994 }
  else if arm32 ∧ c.model = 8610 then { c with model := byCores cores 2 4 8610 8612 }
  else c

/-- MSM with suffix, src/arm/linux/chipset.c:3575-3614. -/
def fixMsmSuffix (c : Chipset) (freq : Nat) : Match Chipset := do
  let w ← load32 c.suffix 0
  if w = 0x004D534D then
    return { c with suffix := ((c.suffix.set 0 0).set 1 0).set 2 0 }
  else if c.model = 8976 then
    if w = 0x00004753 then
      return { c with suffix := ((c.suffix.set 0 80).set 1 82).set 2 79 }
    else return c
  else if c.model = 8996 then
    if w = 0x004F5250 then
      return { c with
        suffix := ((c.suffix.set 3 45).set 4 65).set 5 (if freq ≥ 2188800 then 67 else 66) }
    else return c
  else return c

/-- APQ, src/arm/linux/chipset.c:3616-3630. -/
def fixApq (c : Chipset) : Match Chipset := do
  let w ← load32 c.suffix 0
  if w = 0x00515041 then
    return { c with suffix := ((c.suffix.set 0 0).set 1 0).set 2 0 }
  else return c

/-- Exynos, src/arm/linux/chipset.c:3631-3681. -/
def fixExynos (arm32 : Bool) (c : Chipset) (cores : Nat) : Chipset :=
  if arm32 ∧ c.model = 4410 then { c with model := 4412 }
  else if arm32 ∧ c.model = 5420 then { c with model := byCores cores 4 6 5420 5260 }
  else if c.model = 7580 then { c with model := byCores cores 8 4 7580 7578 }
  else c

/-- The model of an MT chipset, src/arm/linux/chipset.c:3682-3699. -/
def fixMtModel (c : Chipset) (cores : Nat) : Chipset :=
  if c.model = 6752 then { c with model := byCores cores 8 4 6752 6732 } else c

/-- The suffix of an MT chipset, src/arm/linux/chipset.c:3700-3720. -/
def fixMtSuffix (c : Chipset) : Match Chipset := do
  if (← byteAt c.suffix 0) = 84 then
    let w ← load32 c.suffix 1
    if w = 0x4F425255 ∨ w = 0x4F425552 then
      if (← byteAt c.suffix 5) = 0 then
        return { c with suffix := (((c.suffix.set 1 0).set 2 0).set 3 0).set 4 0 }
      else return c
    else return c
  else return c

/-- RK, src/arm/linux/chipset.c:3721-3739. -/
def fixRk (c : Chipset) (cores : Nat) : Chipset :=
  if c.model = 3288 then { c with model := byCores cores 4 6 3288 3399 } else c

/-- `cpuinfo_arm_fixup_chipset`, src/arm/linux/chipset.c:3443-3743. -/
def fixup (arm32 : Bool) (c : Chipset) (cores freq : Nat) : Match Chipset :=
  match c.series with
  | .qualcommMsm => do
    if (← byteAt c.suffix 0) = 0 then return fixMsm arm32 c cores
    else fixMsmSuffix c freq
  | .qualcommApq => fixApq c
  | .samsungExynos => .yes (fixExynos arm32 c cores)
  | .mediatekMt => fixMtSuffix (fixMtModel c cores)
  | .rockchipRk => .yes (fixRk c cores)
  | _ => .yes c

/-- The model by a new-style revision code, src/arm/linux/chipset.c:4175-4193; 0 if unknown. -/
def revisionModel (c : Byte) : Nat :=
  if c = 48 then 2835 else if c = 49 then 2836 else if c = 50 then 2837
  else if c = 51 then 2711 else 0

/-- `cpuinfo_arm_fixup_raspberry_pi_chipset`, src/arm/linux/chipset.c:4149-4200, on the text of the
Revision string.  `(size_t)(length - 5) <= 3` says `5 ≤ length ≤ 8`. -/
def fixupRaspberryPi (arm32 : Bool) (c : Chipset) (revision : Bytes) : Match Chipset :=
  if arm32 ∧ revision.length = 4 then
    .yes (if c.model = 2708 then { c with model := 2835 } else c)
  else if 5 ≤ revision.length ∧ revision.length ≤ 8 then do
    let r ← byteAt revision (revision.length - 4)
    if revisionModel r ≠ 0 then
      return { c with model := revisionModel r, suffix := c.suffix.set 0 0 }
    else return c
  else .yes c

/-- `cpuinfo_arm_linux_decode_chipset`, src/arm/linux/chipset.c:4215-4233, on the two buffers. -/
def decodeLinux (arm32 : Bool) (hardware revision : Bytes) (cores freq : Nat) : Match Chipset := do
  let c ← decodeHardware arm32 (textIn 64 hardware) cores freq false
  if c.vendor = .unknown then return c
  else if c.vendor = .broadcom then fixupRaspberryPi arm32 c (textIn 9 revision)
  else fixup arm32 c cores freq

/-- Decimal digits of a number, as printed by `%u`. -/
def decimal (n : Nat) : Bytes := (Nat.toDigits 10 n).map Char.toNat

/-- `snprintf(name, 48, "%s", text)`, without the terminator. -/
def printed (text : Bytes) : Bytes := text.take 47

/-- `cpuinfo_arm_chipset_to_string`, src/arm/linux/chipset.c:3810-3842: the text written to the buffer of
48 bytes; `none` when the null pointer of the unknown series is printed.  The tests for identifiers out
of range (3814-3820) never fire, the enumerations are exactly these values.  `strncpy` copies the
vendor's text, shorter than the buffer, and fills the rest with zeros. -/
def toString (c : Chipset) : Option Bytes :=
  if c.model = 0 then
    match seriesString c.series with
    | none => some (vendorString c.vendor)
    | some series => some (printed (vendorString c.vendor ++ [32] ++ series))
  else
    match seriesString c.series with
    | none => none
    | some series =>
      some (printed (vendorString c.vendor ++ [32] ++ series ++ decimal c.model ++ textIn 8 c.suffix))

/-! ## Android, src/arm/linux/chipset.c:3844-4141 -/

/-- `struct cpuinfo_android_properties`, src/arm/linux/api.h:24-32. -/
structure Properties where
  hardware : Bytes
  board : Bytes
  platform : Bytes
  mediatek : Bytes
  arch : Bytes
  chipname : Bytes
  hardwareChipname : Bytes
deriving DecidableEq, Repr

/-- The `disambiguate_*` functions: the first chipset of known series, else the last. -/
def firstKnown : List Chipset → Chipset → Chipset
  | [], last => last
  | c :: cs, last => if c.series ≠ .unknown then c else firstKnown cs last

/-- The check of vendors, src/arm/linux/chipset.c:4003-4018: `none` when two differ. -/
def commonVendor : List Chipset → Vendor → Option Vendor
  | [], v => some v
  | c :: cs, v =>
    if c.vendor ≠ .unknown then
      if v = .unknown then commonVendor cs c.vendor
      else if v ≠ c.vendor then none
      else commonVendor cs v
    else commonVendor cs v

/-- `memcpy(dst, src, n)` on the suffix arrays. -/
def copySuffix (dst src : Bytes) (n : Nat) : Bytes := src.take n ++ dst.drop n

/-- One pair of the suffix propagation, src/arm/linux/chipset.c:4034-4059.  `lengthI` was computed
before the inner loop. -/
def propagatePair (lengthI : Nat) (ci cj : Chipset) : Chipset × Chipset :=
  let lengthJ := (textIn 8 cj.suffix).length
  if ci.series = cj.series ∧ lengthI ≠ lengthJ ∧
      (min lengthI lengthJ = 0 ∨
        ci.suffix.take (min lengthI lengthJ) = cj.suffix.take (min lengthI lengthJ)) then
    if lengthI > lengthJ then (ci, { cj with suffix := copySuffix cj.suffix ci.suffix lengthI })
    else ({ ci with suffix := copySuffix ci.suffix cj.suffix lengthJ }, cj)
  else (ci, cj)

/-- The inner loop of the suffix propagation over the chipsets before `ci`. -/
def propagateInner (lengthI : Nat) : Chipset → List Chipset → Chipset × List Chipset
  | ci, [] => (ci, [])
  | ci, cj :: cs =>
    let (ci, cj) := propagatePair lengthI ci cj
    let (ci, cs) := propagateInner lengthI ci cs
    (ci, cj :: cs)

/-- The suffix propagation, src/arm/linux/chipset.c:4029-4060; `done` are the chipsets before the
current one. -/
def propagate (done : List Chipset) : List Chipset → List Chipset
  | [] => done
  | c :: cs =>
    let (c, done) := propagateInner (textIn 8 c.suffix).length c done
    propagate (done ++ [c]) cs

/-- Whether two chipsets count as different, src/arm/linux/chipset.c:4067-4068. -/
def differ (a b : Chipset) : Bool :=
  a.series != b.series || a.model != b.model || textIn 8 a.suffix != textIn 8 b.suffix

/-- The loop that chooses the chipset, src/arm/linux/chipset.c:4062-4068 and 4139-4140: `none` when two
differ. -/
def agreed : Chipset → List Chipset → Option Chipset
  | chosen, [] => some chosen
  | chosen, c :: cs =>
    if c.series ≠ .unknown then
      if chosen.series = .unknown then agreed c cs
      else if differ c chosen then none
      else agreed chosen cs
    else agreed chosen cs

/-- The choice between different chipsets, src/arm/linux/chipset.c:4069-4135. -/
def disambiguate (vendor : Vendor)
    (hardware board platform mediatek chipname hardwareChipname : Chipset) : Chipset :=
  match vendor with
  | .qualcomm => firstKnown [hardwareChipname, chipname, hardware, board] platform
  | .mediatek => firstKnown [chipname, hardware, board, platform] mediatek
  | .hisilicon => firstKnown [hardware, board] platform
  | .amlogic => firstKnown [hardware] platform
  | .marvell => firstKnown [chipname, board] hardware
  | .rockchip => firstKnown [board, hardware] platform
  | .spreadtrum => firstKnown [chipname, board, hardware] platform
  | _ => .unknown

/-- Everything after the decoding of the properties, src/arm/linux/chipset.c:4003-4140. -/
def combine (arm32 : Bool) (cs : List Chipset) (cores freq : Nat) : Match Chipset :=
  match commonVendor cs .unknown with
  | none => .yes .unknown
  | some .unknown => .yes .unknown
  | some vendor => do
    let fixed ← cs.mapM fun c => fixup arm32 c cores freq
    let all := propagate [] fixed
    match agreed .unknown all with
    | some c => return c
    | none =>
      match all with
      | [hardware, board, platform, mediatek, _, chipname, hardwareChipname] =>
        return disambiguate vendor hardware board platform mediatek chipname hardwareChipname
      | _ => .outside

/-- The seven decoded properties, src/arm/linux/chipset.c:3980-4001. -/
def decodeAll (arm32 : Bool) (p : Properties) (cores freq : Nat) : Match (List Chipset) := do
  let tegra ←
    match isTegra (textIn 92 p.platform) with
    | .outside => .outside
    | .no => .yes false
    | .yes _ => .yes true
  let hardware ← decodeHardware arm32 (textIn 64 p.hardware) cores freq tegra
  let board ← decodeBoard arm32 (textIn 92 p.board) cores freq
  let platform ← decodePlatform arm32 (textIn 92 p.platform) cores freq
  let mediatek ← decodeMediatek (textIn 92 p.mediatek)
  let arch ← decodeArch (textIn 92 p.arch)
  let chipname ← decodeChipname arm32 (textIn 92 p.chipname)
  let hardwareChipname ← decodeChipname arm32 (textIn 92 p.hardwareChipname)
  return [hardware, board, platform, mediatek, arch, chipname, hardwareChipname]

/-- `cpuinfo_arm_android_decode_chipset`, src/arm/linux/chipset.c:3971-4141. -/
def decodeAndroid (arm32 : Bool) (p : Properties) (cores freq : Nat) : Match Chipset := do
  combine arm32 (← decodeAll arm32 p cores freq) cores freq

end Verif.ArmChipset
