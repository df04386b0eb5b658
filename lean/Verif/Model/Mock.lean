import Verif.Model.SmallFile
import Verif.Model.Multiline
import Verif.Model.CpuList

/-!
# Model of src/linux/mockfile.c and src/arm/android/properties.c

The file system that tests give to the mock build of the library, and the three readers of the library
on top of it (their `#if CPUINFO_MOCK` parts).

Simplifications:
* Only calls after `cpuinfo_mock_filesystem`; before, they go to the operating system.
* A file descriptor is the value of `(unsigned int)fd`.
* Paths and contents are bytes; `strcmp` and `strncmp` compare texts without a zero byte.
* Callbacks of the readers do not open files.
-/

set_option autoImplicit false

namespace Verif.Mock

/-- `struct cpuinfo_mock_file`, include/cpuinfo-mock.h:40-45; `content` has `size` bytes. -/
structure File where
  path : Bytes
  content : Bytes
  offset : Nat
deriving DecidableEq, Repr

/-- `cpuinfo_mock_files`, src/linux/mockfile.c:23-24. -/
abbrev FS := List File

/-- The values of `errno` that the functions set. -/
inductive Errno
  | eacces | enfile | enoent | ebadf
deriving DecidableEq, Repr

/-- `cpuinfo_mock_filesystem`, src/linux/mockfile.c:26-36; `sizeMax` is `SIZE_MAX`. -/
def mount (sizeMax : Nat) (files : FS) : FS := files.map fun f => { f with offset := sizeMax }

/-- The loop of `cpuinfo_mock_open`, src/linux/mockfile.c:44-58, from index `i` on. -/
def openFrom (sizeMax : Nat) (path : Bytes) (rdonly : Bool) :
    (i : Nat) → FS → Except Errno Nat × FS
  | _, [] => (.error .enoent, [])
  | i, f :: fs =>
    if f.path = path then
      if !rdonly then (.error .eacces, f :: fs)
      else if f.offset ≠ sizeMax then (.error .enfile, f :: fs)
      else (.ok i, { f with offset := 0 } :: fs)
    else
      let r := openFrom sizeMax path rdonly (i + 1) fs
      (r.1, f :: r.2)

/-- `cpuinfo_mock_open`, src/linux/mockfile.c:38-60. -/
def mockOpen (sizeMax : Nat) (fs : FS) (path : Bytes) (rdonly : Bool) : Except Errno Nat × FS :=
  openFrom sizeMax path rdonly 0 fs

/-- `cpuinfo_mock_close`, src/linux/mockfile.c:62-78. -/
def mockClose (sizeMax : Nat) (fs : FS) (fd : Nat) : Except Errno Unit × FS :=
  match fs[fd]? with
  | none => (.error .ebadf, fs)
  | some f =>
    if f.offset = sizeMax then (.error .ebadf, fs)
    else (.ok (), fs.set fd { f with offset := sizeMax })

/-- `cpuinfo_mock_read`, src/linux/mockfile.c:80-103: the bytes copied to the buffer; `none` is a
`memcpy` from outside `content`. -/
def mockRead (sizeMax : Nat) (fs : FS) (fd capacity : Nat) : Option (Except Errno Bytes × FS) :=
  match fs[fd]? with
  | none => some (.error .ebadf, fs)
  | some f =>
    if f.offset = sizeMax then some (.error .ebadf, fs)
    else
      let rest := (f.content.length + (sizeMax + 1) - f.offset) % (sizeMax + 1)
      let count := if rest > capacity then capacity else rest
      if f.offset + count ≤ f.content.length then
        some (.ok ((f.content.drop f.offset).take count),
          fs.set fd { f with offset := (f.offset + count) % (sizeMax + 1) })
      else none

/-- The loop of `cpuinfo_linux_parse_small_file`, src/linux/smallfile.c:44-64, with
`cpuinfo_mock_read`. -/
def smallLoop (sizeMax size : Nat) : Nat → FS → Nat → Bytes → Option (SmallFile.Outcome × FS)
  | 0, _, _, _ => none
  | fuel + 1, fs, fd, buf =>
    match mockRead sizeMax fs fd (size - buf.length) with
    | none => none
    | some (.error _, fs') => some (.failed, fs')
    | some (.ok got, fs') =>
      if (buf ++ got).length ≥ size then some (.failed, fs')
      else if got = [] then some (.callback (buf ++ got), fs')
      else smallLoop sizeMax size fuel fs' fd (buf ++ got)

/-- `cpuinfo_linux_parse_small_file` in the mock build, src/linux/smallfile.c:19-78. -/
def smallParse (sizeMax : Nat) (fs : FS) (path : Bytes) (size fuel : Nat) :
    Option (SmallFile.Outcome × FS) :=
  match mockOpen sizeMax fs path true with
  | (.error _, fs') => some (.failed, fs')
  | (.ok fd, fs') =>
    (smallLoop sizeMax size fuel fs' fd []).map fun r => (r.1, (mockClose sizeMax r.2 fd).2)

/-- The loop of `cpuinfo_linux_parse_multiline_file`, src/linux/multiline.c:44-98, with
`cpuinfo_mock_read`. -/
def multiLoop {σ : Type} (sizeMax size : Nat) (cb : Multiline.Handler σ) :
    Nat → FS → Nat → Bytes → σ → Nat → Option ((σ × Bool) × FS)
  | 0, _, _, _, _, _ => none
  | fuel + 1, fs, fd, buf, s, n =>
    match mockRead sizeMax fs fd (size - buf.length) with
    | none => none
    | some (.error _, fs') => some ((s, false), fs')
    | some (.ok [], fs') => some (cb s buf n, fs')
    | some (.ok (g :: gs), fs') =>
      match Multiline.drain cb [] (buf ++ (g :: gs)) s n with
      | .stopped s' => some ((s', false), fs')
      | .more s' n' left => multiLoop sizeMax size cb fuel fs' fd left s' n'

/-- `cpuinfo_linux_parse_multiline_file` in the mock build, src/linux/multiline.c:19-113. -/
def multiParse {σ : Type} (sizeMax : Nat) (fs : FS) (path : Bytes) (size fuel : Nat)
    (cb : Multiline.Handler σ) (s : σ) : Option ((σ × Bool) × FS) :=
  match mockOpen sizeMax fs path true with
  | (.error _, fs') => some ((s, false), fs')
  | (.ok fd, fs') =>
    (multiLoop sizeMax size cb fuel fs' fd [] s 1).map fun r => (r.1, (mockClose sizeMax r.2 fd).2)

/-- The loop of `cpuinfo_linux_parse_cpulist`, src/linux/cpulist.c:177-230, with
`cpuinfo_mock_read`. -/
def listLoop {σ : Type} (sizeMax : Nat) (cb : σ → Nat → Nat → σ × Bool) :
    Nat → FS → Nat → Bytes → σ → Bool → Option ((σ × Bool) × FS)
  | 0, _, _, _, _, _ => none
  | fuel + 1, fs, fd, buf, s, ok =>
    match mockRead sizeMax fs fd (CpuList.bufferSize - buf.length) with
    | none => none
    | some (.error _, fs') => some ((s, false), fs')
    | some (.ok [], fs') =>
      let (s', k) := CpuList.entryStep cb s buf
      some ((s', ok && k), fs')
    | some (.ok (g :: gs), fs') =>
      let (s', ok', left) := CpuList.drain cb [] (buf ++ (g :: gs)) s ok
      listLoop sizeMax cb fuel fs' fd left s' ok'

/-- `cpuinfo_linux_parse_cpulist` in the mock build, src/linux/cpulist.c:154-242. -/
def listParse {σ : Type} (sizeMax : Nat) (fs : FS) (path : Bytes) (fuel : Nat)
    (cb : σ → Nat → Nat → σ × Bool) (s : σ) : Option ((σ × Bool) × FS) :=
  match mockOpen sizeMax fs path true with
  | (.error _, fs') => some ((s, false), fs')
  | (.ok fd, fs') =>
    (listLoop sizeMax cb fuel fs' fd [] s true).map fun r => (r.1, (mockClose sizeMax r.2 fd).2)

/-! ## src/arm/android/properties.c -/

/-- `strncmp(a, b, n) == 0` for texts without a zero byte: the bytes and the terminating zero agree in
the first `n` places. -/
def strncmpEq (a b : Bytes) (n : Nat) : Bool := (a ++ [0]).take n == (b ++ [0]).take n

/-- `strncpy(…, v, n)`: the `n` bytes written. -/
def strncpy (v : Bytes) (n : Nat) : Bytes := v.take n ++ List.replicate (n - v.length) 0

/-- `CPUINFO_BUILD_PROP_NAME_MAX`, src/arm/linux/api.h:21. -/
def propNameMax : Nat := 32
/-- `CPUINFO_BUILD_PROP_VALUE_MAX`, src/arm/linux/api.h:22. -/
def propValueMax : Nat := 92

/-- `cpuinfo_android_property_get`, src/arm/android/properties.c:24-35: what the buffer `old` of
`propValueMax` bytes holds afterwards. -/
def propertyGet (props : List (Bytes × Bytes)) (key old : Bytes) : Bytes :=
  match props.find? fun p => strncmpEq key p.1 propNameMax with
  | some p => strncpy p.2 propValueMax
  | none => 0 :: old.drop 1

/-- `struct cpuinfo_android_properties`, src/arm/linux/api.h:24-32. -/
structure Properties where
  productBoard : Bytes
  boardPlatform : Bytes
  mediatekPlatform : Bytes
  arch : Bytes
  chipname : Bytes
  hardwareChipname : Bytes
deriving DecidableEq, Repr

/-- `cpuinfo_arm_android_parse_properties`, src/arm/android/properties.c:42-68. -/
def parseProperties (props : List (Bytes × Bytes)) (p : Properties) : Properties :=
  { productBoard := propertyGet props b!"ro.product.board" p.productBoard
    boardPlatform := propertyGet props b!"ro.board.platform" p.boardPlatform
    mediatekPlatform := propertyGet props b!"ro.mediatek.platform" p.mediatekPlatform
    arch := propertyGet props b!"ro.arch" p.arch
    chipname := propertyGet props b!"ro.chipname" p.chipname
    hardwareChipname := propertyGet props b!"ro.hardware.chipname" p.hardwareChipname }

/-- What the decoders see of a buffer: `strnlen(value, CPUINFO_BUILD_PROP_VALUE_MAX)` bytes, e.g.
src/arm/linux/chipset.c:2819. -/
def propertyText (buffer : Bytes) : Bytes := (buffer.take propValueMax).takeWhile (· != 0)

end Verif.Mock
