import Verif.Model.ArmChipsetTables

/-!
# The signatures of src/arm/linux/chipset.c

Every `match_*` function receives a string as two pointers `start`, `end`; here it is the list of the
bytes in between.  A read at or after `end` is the distinct outcome `outside`: the callers' buffers
may well be longer, but the functions promise to look at `[start, end)` only.

Simplification: the output structure is returned instead of written through a pointer.  The stores a
function makes before it returns false (match_mt, match_sc, match_lc) are dropped: every caller
ignores the structure after false.
-/

set_option autoImplicit false

namespace Verif.ArmChipset

/-- Outcome of a signature check. -/
inductive Match (α : Type) where
  /-- a byte outside the string was read -/
  | outside
  /-- the function returned false -/
  | no
  /-- the function returned true with this output -/
  | yes (a : α)
deriving DecidableEq, Repr

/-- Sequencing: stop at the first `outside` or `no`. -/
def Match.bind {α β : Type} : Match α → (α → Match β) → Match β
  | .outside, _ => .outside
  | .no, _ => .no
  | .yes a, f => f a

instance : Monad Match where
  pure := .yes
  bind := Match.bind

/-- `if (!c) return false;` -/
def need (c : Bool) : Match Unit := if c then .yes () else .no

/-- The read `start[i]`. -/
def byteAt (s : Bytes) (i : Nat) : Match Byte :=
  match s[i]? with
  | some c => .yes c
  | none => .outside

/-- `is_ascii_whitespace`, src/arm/linux/chipset.c:13-23. -/
def isWhitespace (c : Byte) : Bool := c == 32 || c == 9 || c == 13 || c == 10

/-- `is_ascii_alphabetic`, src/arm/linux/chipset.c:25-28. -/
def isAlphabetic (c : Byte) : Bool := decide (((c ||| 0x20) + 256 - 97) % 256 ≤ 25)

/-- `is_ascii_alphabetic_uppercase`, src/arm/linux/chipset.c:30-32. -/
def isUppercase (c : Byte) : Bool := decide ((c + 256 - 65) % 256 ≤ 25)

/-- `is_ascii_numeric`, src/arm/linux/chipset.c:34-36. -/
def isNumeric (c : Byte) : Bool := decide ((c + 256 - 48) % 256 < 10)

/-- `load_u16le(start + i)`, src/arm/linux/chipset.c:38-41. -/
def load16 (s : Bytes) (i : Nat) : Match Nat := do
  let b1 ← byteAt s (i + 1)
  let b0 ← byteAt s i
  return (b1 <<< 8) ||| b0

/-- `load_u24le(start + i)`, src/arm/linux/chipset.c:43-45. -/
def load24 (s : Bytes) (i : Nat) : Match Nat := do
  let b2 ← byteAt s (i + 2)
  let w ← load16 s i
  return (b2 <<< 16) ||| w

/-- `load_u32le(start + i)`, src/arm/linux/chipset.c:47-51. -/
def load32 (s : Bytes) (i : Nat) : Match Nat := do
  let b3 ← byteAt s (i + 3)
  let b2 ← byteAt s (i + 2)
  let b1 ← byteAt s (i + 1)
  let b0 ← byteAt s i
  return (b3 <<< 24) ||| (b2 <<< 16) ||| (b1 <<< 8) ||| b0

/-- `(uint32_t)(uint8_t)c - '0'` in 32-bit arithmetic. -/
def digitOf (c : Byte) : Nat := (c + U32 - 48) % U32

/-- The digit loops of all signatures, e.g. src/arm/linux/chipset.c:141-150: `n` digits from `pos` on,
continuing the number `model`. -/
def parseDigits (s : Bytes) (pos : Nat) : Nat → Nat → Match Nat
  | 0, model => .yes model
  | n + 1, model => do
    let c ← byteAt s pos
    need (digitOf c < 10)
    parseDigits s (pos + 1) n ((model * 10 + digitOf c) % U32)

/-- A chipset with the structure's zero-initialised suffix array of 8 characters started by `suffix`
(`CPUINFO_ARM_CHIPSET_SUFFIX_MAX`, src/arm/api.h:78). -/
def mk (vendor : Vendor) (series : Series) (model : Nat) (suffix : Bytes) : Chipset :=
  ⟨vendor, series, model, suffix ++ List.replicate (8 - suffix.length) 0⟩

/-- The suffix loops of src/arm/linux/chipset.c:160-177 (`extra` is `-`) and 640-661 (`extra` is `/`):
at most `n` characters from `pos` on, up to the first that is neither a letter nor `extra`; letters
become upper case. -/
def parseSuffix (extra : Byte) (s : Bytes) (pos : Nat) : Nat → Match Bytes
  | 0 => .yes []
  | n + 1 =>
    if pos = s.length then .yes []
    else do
      let c ← byteAt s pos
      if isAlphabetic c then
        let rest ← parseSuffix extra s (pos + 1) n
        return (c &&& 0xDF) :: rest
      else if c = extra then
        let rest ← parseSuffix extra s (pos + 1) n
        return c :: rest
      else .yes []

/-- `match_msm_apq`, src/arm/linux/chipset.c:106-179. -/
def matchMsmApq (s : Bytes) : Match Chipset := do
  need (decide (7 ≤ s.length))
  let signature := 0x00202020 ||| (← load24 s 0)
  need (signature == 0x6D736D || signature == 0x717061)
  let series := if signature = 0x6D736D then Series.qualcommMsm else Series.qualcommApq
  let c ← byteAt s 3
  let pos := if c = 32 then 4 else 3
  need (decide (c ≠ 32 ∨ pos + 4 ≤ s.length))
  let model ← parseDigits s pos 4 0
  let suffix ← parseSuffix 45 s (pos + 4) 8
  return mk .qualcomm series model suffix

/-- `match_sdm`, src/arm/linux/chipset.c:192-225. -/
def matchSdm (s : Bytes) : Match Chipset := do
  need (s.length == 6)
  need ((← load24 s 0) == 0x004D4453)
  let model ← parseDigits s 3 3 0
  return mk .qualcomm .qualcommSnapdragon model []

/-- `match_sm`, src/arm/linux/chipset.c:238-271. -/
def matchSm (s : Bytes) : Match Chipset := do
  need (s.length == 6)
  need ((← load16 s 0) == 0x4D53)
  let model ← parseDigits s 2 4 0
  return mk .qualcomm .qualcommSnapdragon model []

/-- `match_samsung_exynos`, src/arm/linux/chipset.c:285-357. -/
def matchSamsungExynos (s : Bytes) : Match Chipset := do
  need (s.length == 18 || s.length == 19)
  need ((0x20202000 ||| (← load32 s 0)) == 0x736D6153)
  need ((0x00202020 ||| (← load32 s 4)) == 0x20676E75)
  need ((0x20202000 ||| (← load32 s 8)) == 0x6E797845)
  need ((0x2020 ||| (← load16 s 12)) == 0x736F)
  let c ← byteAt s 14
  let pos := if c = 32 then 15 else 14
  need (decide (c ≠ 32 ∨ s.length = 19))
  let model ← parseDigits s pos 4 0
  return mk .samsung .samsungExynos model []

/-- `match_exynos`, src/arm/linux/chipset.c:372-409. -/
def matchExynos (s : Bytes) : Match Chipset := do
  need (s.length == 10)
  need ((← load32 s 0) == 0x6E797865)
  need ((← load16 s 4) == 0x736F)
  let model ← parseDigits s 6 4 0
  return mk .samsung .samsungExynos model []

/-- `match_universal`, src/arm/linux/chipset.c:424-469. -/
def matchUniversal (s : Bytes) : Match Chipset := do
  need (s.length == 13)
  need ((0x20 ||| (← byteAt s 0)) == 0x75)
  need ((0x20202020 ||| (← load32 s 1)) == 0x6576696E)
  need ((0x20202020 ||| (← load32 s 5)) == 0x6C617372)
  let model ← parseDigits s 9 4 0
  return mk .samsung .samsungExynos model []

/-- The model of `match_and_parse_smdk`, src/arm/linux/chipset.c:513-531; 0 if unknown. -/
def smdkModel (word cores : Nat) : Nat :=
  if word = 0x30313234 then 4210
  else if word = 0x32317834 then
    if cores = 2 then 4212 else if cores = 4 then 4412 else 0
  else 0

/-- `match_and_parse_smdk`, src/arm/linux/chipset.c:487-543. -/
def matchSmdk (s : Bytes) (cores : Nat) : Match Chipset := do
  need (s.length == 8)
  need ((0x20202020 ||| (← load32 s 0)) == 0x6B646D73)
  let model := smdkModel (← load32 s 4) cores
  need (model != 0)
  return mk .samsung .samsungExynos model []

/-- The suffix loop of `match_mt` with `match_end`, src/arm/linux/chipset.c:624-639: all `n`
characters from `pos` on must be letters or slashes. -/
def parseWholeSuffix (s : Bytes) (pos : Nat) : Nat → Match Bytes
  | 0 => .yes []
  | n + 1 => do
    let c ← byteAt s pos
    need (isAlphabetic c || c == 47)
    let rest ← parseWholeSuffix s (pos + 1) n
    return (if isAlphabetic c then c &&& 0xDF else c) :: rest

/-- `match_mt`, src/arm/linux/chipset.c:564-665. -/
def matchMt (s : Bytes) (matchEnd : Bool) : Match Chipset := do
  need (decide (6 ≤ s.length))
  need ((0x2020 ||| (← load16 s 0)) == 0x746D)
  let c ← byteAt s 2
  let pos := if c ||| 0x20 = 107 then 3 else 2
  need (decide (c ||| 0x20 ≠ 107 ∨ pos + 4 ≤ s.length))
  let model ← parseDigits s pos 4 0
  if matchEnd then
    need (decide (s.length - (pos + 4) ≤ 8))
    let suffix ← parseWholeSuffix s (pos + 4) (s.length - (pos + 4))
    return mk .mediatek .mediatekMt model suffix
  else
    let suffix ← parseSuffix 47 s (pos + 4) 8
    return mk .mediatek .mediatekMt model suffix

/-- `match_kirin`, src/arm/linux/chipset.c:678-732. -/
def matchKirin (s : Bytes) : Match Chipset := do
  need (s.length == 8 || s.length == 9)
  need (((← byteAt s 0) ||| 0x20) == 107)
  need ((← load32 s 1) == 0x6E697269)
  let c ← byteAt s 5
  need (!isWhitespace c || s.length == 9)
  let model ← parseDigits s (s.length - 3) 3 0
  return mk .hisilicon .hisiliconKirin model []

/-- The optional suffix letter of `match_rk`, src/arm/linux/chipset.c:780-792; 0 if absent. -/
def suffixLetter (s : Bytes) : Match Byte :=
  if s.length = 7 then do
    let c ← byteAt s 6
    need (isAlphabetic c)
    return c &&& 0xDF
  else .yes 0

/-- `match_rk`, src/arm/linux/chipset.c:747-805. -/
def matchRk (s : Bytes) : Match Chipset := do
  need (s.length == 6 || s.length == 7)
  need ((0x2020 ||| (← load16 s 0)) == 0x6B72)
  let model ← parseDigits s 2 4 0
  let suffix ← suffixLetter s
  return mk .rockchip .rockchipRk model [suffix]

/-- The suffix loop of `match_sc`, src/arm/linux/chipset.c:886-901: at most `n` characters from `pos`
on, all of which must be letters. -/
def parseLetters (s : Bytes) (pos : Nat) : Nat → Match Bytes
  | 0 => .yes []
  | n + 1 =>
    if pos = s.length then .yes []
    else do
      let c ← byteAt s pos
      need (isAlphabetic c)
      let rest ← parseLetters s (pos + 1) n
      return (c &&& 0xDF) :: rest

/-- `match_sc`, src/arm/linux/chipset.c:821-903. -/
def matchSc (s : Bytes) : Match Chipset := do
  need (decide (5 ≤ s.length))
  let w := 0x2020 ||| (← load16 s 0)
  need (w == 0x6373 || w == 0x7073)
  if (← byteAt s 2) ||| 0x20 = 120 then
    need (s.length == 5)
    need ((← load16 s 3) == 0x3531)
    return mk .spreadtrum .spreadtrumSc 7715 []
  else
    need (decide (6 ≤ s.length))
    let model ← parseDigits s 2 4 0
    let suffix ← parseLetters s 6 8
    return mk .spreadtrum .spreadtrumSc model suffix

/-- `match_t`, src/arm/linux/chipset.c:919-961. -/
def matchT (s : Bytes) : Match Chipset := do
  need (s.length == 11 || s.length == 12)
  need ((← load32 s 0) == 0x73696E55)
  need ((← load32 s 4) == 0x5420636F)
  let model ← parseDigits s 8 (s.length - 8) 0
  return mk .unisoc .unisocT model []

/-- `match_ums`, src/arm/linux/chipset.c:977-1025. -/
def matchUms (s : Bytes) : Match Chipset := do
  need (s.length == 13 || s.length == 14)
  need ((← load32 s 0) == 0x73696E55)
  need ((← load32 s 4) == 0x5520636F)
  need ((← load16 s 8) == 0x534D)
  let model ← parseDigits s 10 (s.length - 10) 0
  return mk .unisoc .unisocUms model []

/-- The optional suffix letter of `match_lc`, src/arm/linux/chipset.c:1070-1081: the letter goes to
`chipset->suffix[0]`, the local variable `suffix` stays 0. -/
def lcLetter (s : Bytes) : Match Byte :=
  if s.length = 7 then do
    let c ← byteAt s 6
    need (isAlphabetic c)
    return 0
  else .yes 0

/-- `match_lc`, src/arm/linux/chipset.c:1040-1094.  The final assignment replaces the whole structure,
so what was stored in `chipset->suffix[0]` before is lost. -/
def matchLc (s : Bytes) : Match Chipset := do
  need (s.length == 6 || s.length == 7)
  need ((← load16 s 0) == 0x636C)
  let model ← parseDigits s 2 4 0
  let suffix ← lcLetter s
  return mk .leadcore .leadcoreLc model [suffix]

/-- The model of `match_pxa`, src/arm/linux/chipset.c:1130-1152. -/
def pxaModel (s : Bytes) : Match Nat :=
  if s.length = 7 then do
    if (← load32 s 3) = 0x38384C31 then return 1088
    else parseDigits s 3 (s.length - 3) 0
  else parseDigits s 3 (s.length - 3) 0

/-- `match_pxa`, src/arm/linux/chipset.c:1109-1161. -/
def matchPxa (s : Bytes) : Match Chipset := do
  need (s.length == 6 || s.length == 7)
  need ((← byteAt s 0) == 80)
  need ((← load16 s 1) == 0x4158)
  let model ← pxaModel s
  return mk .marvell .marvellPxa model []

/-- `match_bcm`, src/arm/linux/chipset.c:1174-1207. -/
def matchBcm (s : Bytes) : Match Chipset := do
  need (s.length == 7)
  need ((← load24 s 0) == 0x004D4342)
  let model ← parseDigits s 3 4 0
  return mk .broadcom .broadcomBcm model []

/-- `match_omap`, src/arm/linux/chipset.c:1220-1252. -/
def matchOmap (s : Bytes) : Match Chipset := do
  need (s.length == 8)
  need ((← load32 s 0) == 0x50414D4F)
  let model ← parseDigits s 4 4 0
  return mk .texasInstruments .texasInstrumentsOmap model []

/-- The decision of `match_and_parse_broadcom`, src/arm/linux/chipset.c:1300-1368: model and suffix;
model 0 if unknown. -/
def broadcomModel (s : Bytes) (cores freq word : Nat) : Match (Nat × Byte) :=
  if word = 0x61656872 then
    .yes (if s.length = 4 ∧ cores = 1 then (21654, if freq ≥ 999999 then 71 else 0) else (0, 0))
  else if word = 0x6176616A then
    .yes (if s.length = 4 ∧ cores = 4 then (23550, 0) else (0, 0))
  else if word = 0x61776168 then
    if s.length = 6 then do
      if (← load16 s 4) = 0x6969 then
        return if cores = 1 then (21663, 0)
          else if cores = 2 then (21664, if freq ≥ 1200000 then 84 else 0)
          else (0, 0)
      else return (0, 0)
    else .yes (0, 0)
  else if word = 0x72706163 then
    if s.length = 5 then do
      if (← byteAt s 4) = 105 then
        return if cores = 2 then (28155, 0) else (0, 0)
      else return (0, 0)
    else .yes (0, 0)
  else .yes (0, 0)

/-- `match_and_parse_broadcom`, src/arm/linux/chipset.c:1272-1384. -/
def matchBroadcom (s : Bytes) (cores freq : Nat) : Match Chipset := do
  need (s.length == 4 || s.length == 5 || s.length == 6)
  let (model, suffix) ← broadcomModel s cores freq (← load32 s 0)
  need (model != 0)
  return mk .broadcom .broadcomBcm model [suffix]

/-- The entries of a table that exist in the build. -/
def inBuild (arm32 arm32Only : Bool) : Bool := arm32 || !arm32Only

/-- The number of the sunXi platform and the position after it, src/arm/linux/chipset.c:1489-1513. -/
def sunxiNumber (s : Bytes) : Match (Nat × Nat) := do
  let c3 ← byteAt s 3
  need (digitOf c3 < 10)
  let c4 ← byteAt s 4
  if digitOf c4 < 10 then
    need (5 != s.length)
    return ((digitOf c3 * 10 + digitOf c4) % U32, 5)
  else return (digitOf c3, 4)

/-- The search of `match_and_parse_sunxi`, src/arm/linux/chipset.c:1520-1530: model and suffix, zero if
the platform is not in the table. -/
def sunxiModel (arm32 : Bool) (platform cores : Nat) : Nat × Byte :=
  match sunxiEntries.find? fun e =>
      inBuild arm32 e.arm32Only && platform == e.sunxi && cores == e.cores with
  | some e => (e.model, e.suffix)
  | none => (0, 0)

/-- `match_and_parse_sunxi`, src/arm/linux/chipset.c:1469-1547. -/
def matchSunxi (arm32 : Bool) (s : Bytes) (cores : Nat) : Match Chipset := do
  need (decide (5 ≤ s.length))
  need ((← byteAt s 0) == 115)
  need ((← load16 s 1) == 0x6E75)
  let (platform, pos) ← sunxiNumber s
  need ((← byteAt s pos) == 105)
  let (model, suffix) := sunxiModel arm32 platform cores
  return mk .allwinner .allwinnerA model [suffix]

/-- The model of `match_and_parse_wmt`, src/arm/linux/chipset.c:1585-1606; 0 if unknown. -/
def wmtModel (cores freq : Nat) : Nat :=
  if cores = 1 then
    if freq = 1008000 then 8950 else if freq = 1200000 then 8850 else 0
  else if cores = 2 then
    if freq = 1500000 then 8880 else 0
  else 0

/-- `match_and_parse_wmt`, src/arm/linux/chipset.c:1565-1620. -/
def matchWmt (s : Bytes) (cores freq : Nat) : Match Chipset := do
  need (s.length == 3)
  need ((← byteAt s 0) == 87)
  need ((← load16 s 1) == 0x544D)
  return mk .wondermedia .wondermediaWm (wmtModel cores freq) []

/-- The search of `match_and_parse_huawei`, src/arm/linux/chipset.c:1806-1813; 0 if absent. -/
def huaweiModel (word : Nat) : Nat :=
  match huaweiEntries.find? fun e => e.1 == word with
  | some e => e.2
  | none => 0

/-- The checks of the rest of a Huawei platform, src/arm/linux/chipset.c:1820-1835. -/
def huaweiRest (s : Bytes) : Match Unit :=
  if 3 < s.length then do
    need ((← byteAt s 3) == 45)
    need (isUppercase (← byteAt s 4))
    need ((← byteAt s (s.length - 3)) == 76)
    need (isNumeric (← byteAt s (s.length - 2)))
    need (isNumeric (← byteAt s (s.length - 1)))
  else .yes ()

/-- `match_and_parse_huawei`, src/arm/linux/chipset.c:1780-1844. -/
def matchHuawei (s : Bytes) : Match Chipset := do
  need (s.length == 3 || s.length == 7 || s.length == 8)
  let model := huaweiModel (← load24 s 0)
  need (model != 0)
  huaweiRest s
  return mk .hisilicon .hisiliconKirin model []

/-- `match_tcc`, src/arm/linux/chipset.c:1857-1899. -/
def matchTcc (s : Bytes) : Match Chipset := do
  need (s.length == 7)
  need ((← byteAt s 0) == 116)
  need ((← load16 s 1) == 0x6363)
  let model ← parseDigits s 3 3 0
  need ((← byteAt s 6) == 120)
  return mk .telechips .telechipsTcc model [88]

/-- `is_tegra`, src/arm/linux/chipset.c:1912-1935; `no` is false. -/
def isTegra (s : Bytes) : Match Unit := do
  need (s.length == 5 || s.length == 6)
  need ((← byteAt s 0) == 116)
  need ((← load32 s 1) == 0x61726765)
  if s.length = 5 then return ()
  else need ((← byteAt s 5) == 51)

end Verif.ArmChipset
