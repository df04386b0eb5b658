import Verif.Model.Build

/-!
# Which files Bazel, ndk-build and confu build the library from

BUILD.bazel:20-164 and 230-492, jni/Android.mk:1-66, configure.py:11-77, and the messages of src/cpuinfo/log.h:58-105.

Simplifications:
* `CPUINFO_MOCK` is off in configure.py.
* A configuration of Bazel is `--cpu`, `--apple_platform_type` and whether the crosstool is that of Android; the
  setting `emscripten_wasmsimd`, which no `select` uses, is left out.
* The library clog, which jni/Android.mk and configure.py link, has none of the functions of src/log.c.
-/

set_option autoImplicit false

namespace Verif.Build

/-- The most severe message in a file (1: fatal, 2: error, 3: warning, 4: info, 5: debug), src/cpuinfo/log.h:10-15;
6 if it has none.  The messages of src/init.c are errors on targets without detection. -/
def severest (t : Target) : File → Nat
  | .api => 1
  | .init => if entry t = none then 2 else 6
  | .x86LinuxInit | .x86MachInit | .x86WindowsInit | .x86FreebsdInit | .armWindowsSysInfo | .armWindowsInit
  | .armLinuxInit | .armLinuxChipset | .armMachInit | .riscvLinuxInit | .emscriptenInit | .smallfile | .processors
  | .machTopology | .freebsdTopology => 2
  | .x86Topology | .x86CacheDeterministic | .x86LinuxCpuinfo | .armUarch | .armCache | .armLinuxCpuinfo
  | .armLinuxHwcap | .aarch32Isa | .aarch64Isa | .riscvUarch | .riscvHw | .cpulist => 3
  | .armLinuxClusters | .armLinuxMidr | .androidProperties | .multiline => 4
  | .x86Init => 5
  | .cache | .log | .x86Info | .x86Vendor | .x86Uarch | .x86Name | .x86Isa | .x86CacheInit | .x86CacheDescriptor
  | .riscvIsa => 6

/-- A program can be linked when the files are compiled with this `CPUINFO_LOG_LEVEL`: messages that are not
compiled out call functions of src/log.c. -/
def LinksAt (level : Nat) (t : Target) (l : List File) : Prop :=
  Links t l ∧ ∀ f ∈ l, severest t f ≤ level → .log ∈ l

instance (level : Nat) (t : Target) (l : List File) : Decidable (LinksAt level t l) :=
  inferInstanceAs (Decidable (_ ∧ _))

/-! ## Bazel -/

namespace Bazel

/-- `--apple_platform_type` -/
inductive Apple where
  | macos | ios | watchos | tvos | visionos | catalyst
deriving DecidableEq

/-- What the choice depends on. -/
structure Config where
  /-- `--cpu` -/
  cpu : Bytes
  /-- `--apple_platform_type`, by default macos -/
  apple : Apple := .macos
  /-- `--crosstool_top` is //external:android/crosstool -/
  android : Bool := false

/-- A `config_setting` that the `select` of BUILD.bazel:129-164 uses, with its files there and what
it stands for. -/
structure Setting where
  cpu : Bytes
  apple : Option Apple
  android : Bool
  files : List File
  target : Target
deriving DecidableEq

/-- BUILD.bazel:28-39. -/
def x86 : List File :=
  [.x86CacheDescriptor, .x86CacheDeterministic, .x86CacheInit, .x86Info, .x86Init, .x86Isa, .x86Name, .x86Topology,
   .x86Uarch, .x86Vendor]

/-- BUILD.bazel:41-44. -/
def arm : List File := [.armCache, .armUarch]

/-- BUILD.bazel:51-56. -/
def linux : List File := [.cpulist, .multiline, .processors, .smallfile]

/-- BUILD.bazel:74-77. -/
def linuxX86 : List File := [.x86LinuxCpuinfo, .x86LinuxInit]

/-- BUILD.bazel:79-86. -/
def linuxArm : List File :=
  [.armLinuxChipset, .armLinuxClusters, .armLinuxCpuinfo, .armLinuxHwcap, .armLinuxInit, .armLinuxMidr]

/-- BUILD.bazel:46-48 and 92-96. -/
def linuxRiscv : List File := [.riscvUarch, .riscvLinuxInit, .riscvIsa, .riscvHw]

/-- A setting for Linux by `cpu` alone. -/
def onLinux (cpu : Bytes) (a : Arch) (l : List File) : Setting := ⟨cpu, none, false, common ++ l, ⟨a, .linux⟩⟩

/-- A setting for the crosstool of Android. -/
def onAndroid (cpu : Bytes) (a : Arch) (l : List File) : Setting := ⟨cpu, none, true, common ++ l, ⟨a, .android⟩⟩

/-- A setting for x86 of Apple. -/
def appleX86 (p : Apple) (cpu : Bytes) (a : Arch) : Setting :=
  ⟨cpu, some p, false, common ++ x86 ++ [.machTopology] ++ [.x86MachInit], ⟨a, .apple⟩⟩

/-- A setting for ARM of Apple. -/
def appleArm (p : Apple) (cpu : Bytes) (a : Arch) : Setting :=
  ⟨cpu, some p, false, common ++ [.machTopology] ++ [.armMachInit], ⟨a, .apple⟩⟩

/-- The `select`, BUILD.bazel:129-164, with the settings of BUILD.bazel:230-492. -/
def settings : List Setting :=
  [onLinux b!"k8" .x8664 (x86 ++ linux ++ linuxX86),
   onLinux b!"arm" .arm (arm ++ linux ++ (linuxArm ++ [.aarch32Isa])),
   onLinux b!"armhf" .arm (arm ++ linux ++ (linuxArm ++ [.aarch32Isa])),
   onLinux b!"armv7a" .arm (arm ++ linux ++ (linuxArm ++ [.aarch32Isa])),
   onLinux b!"armeabi" .arm (arm ++ linux ++ (linuxArm ++ [.aarch32Isa])),
   onLinux b!"aarch64" .arm64 (arm ++ linux ++ (linuxArm ++ [.aarch64Isa])),
   onLinux b!"mips64" .other linux,
   onLinux b!"riscv32" .riscv32 (linux ++ linuxRiscv),
   onLinux b!"riscv64" .riscv64 (linux ++ linuxRiscv),
   onLinux b!"s390x" .other linux,
   appleX86 .macos b!"darwin_x86_64" .x8664,
   appleX86 .macos b!"darwin" .x8664,
   appleArm .macos b!"darwin_arm64" .arm64,
   ⟨b!"freebsd", none, false, common ++ x86 ++ [.freebsdTopology] ++ [.x86FreebsdInit], ⟨.x8664, .freebsd⟩⟩,
   ⟨b!"x64_windows", none, false, common ++ x86 ++ [.x86WindowsInit], ⟨.x8664, .windows⟩⟩,
   ⟨b!"arm64_windows", none, false, common ++ arm ++ [.armWindowsSysInfo, .armWindowsInit], ⟨.arm64, .windows⟩⟩,
   onAndroid b!"armeabi-v7a" .arm (arm ++ linux ++ (linuxArm ++ [.aarch32Isa]) ++ [.androidProperties]),
   onAndroid b!"arm64-v8a" .arm64 (arm ++ linux ++ (linuxArm ++ [.aarch64Isa]) ++ [.androidProperties]),
   onAndroid b!"x86" .x86 (x86 ++ linux ++ linuxX86),
   onAndroid b!"x86_64" .x8664 (x86 ++ linux ++ linuxX86),
   onAndroid b!"riscv64" .riscv64 (linux ++ linuxRiscv),
   appleX86 .ios b!"ios_x86_64" .x8664,
   appleX86 .ios b!"ios_i386" .x86,
   appleArm .ios b!"ios_armv7" .arm,
   appleArm .ios b!"ios_arm64" .arm64,
   appleArm .ios b!"ios_arm64e" .arm64,
   appleArm .ios b!"ios_sim_arm64" .arm64,
   appleX86 .watchos b!"watchos_x86_64" .x8664,
   appleX86 .watchos b!"watchos_i386" .x86,
   appleArm .watchos b!"watchos_armv7k" .arm,
   appleArm .watchos b!"watchos_arm64_32" .arm64,
   appleX86 .tvos b!"tvos_x86_64" .x8664,
   appleArm .tvos b!"tvos_arm64" .arm64,
   ⟨b!"wasm", none, false, common ++ [.emscriptenInit], ⟨.wasm, .other⟩⟩]

/-- A setting matches if all values it lists do. -/
def Setting.holds (s : Setting) (c : Config) : Bool :=
  s.cpu = c.cpu && (s.apple = none || s.apple = some c.apple) && (!s.android || c.android)

/-- A setting lists all values that the other lists. -/
def Setting.refines (s r : Setting) : Bool :=
  s.cpu = r.cpu && (r.apple = none || s.apple = r.apple) && (!r.android || s.android)

/-- The `select` takes the setting that refines all matching ones; otherwise Bazel stops with an error. -/
def chosen (c : Config) : Option Setting :=
  let m := settings.filter (·.holds c)
  m.find? fun s => m.all s.refines

end Bazel

/-! ## ndk-build -/

namespace Ndk

/-- `TARGET_ARCH_ABI`, of old and new versions of the NDK. -/
inductive Abi where
  | armeabi | armeabiV7a | arm64V8a | x86 | x8664 | mips | mips64 | riscv64
deriving DecidableEq

/-- What the compiler compiles for. -/
def target : Abi → Target
  | .armeabi | .armeabiV7a => ⟨.arm, .android⟩
  | .arm64V8a => ⟨.arm64, .android⟩
  | .x86 => ⟨.x86, .android⟩
  | .x8664 => ⟨.x8664, .android⟩
  | .riscv64 => ⟨.riscv64, .android⟩
  | .mips | .mips64 => ⟨.other, .android⟩

/-- `LOCAL_SRC_FILES`, jni/Android.mk:5-45. -/
def sources (a : Abi) : List File :=
  [.init, .api, .cache, .processors, .smallfile, .multiline, .cpulist] ++
  (if a = .armeabiV7a || a = .arm64V8a then
    [.armUarch, .armCache, .armLinuxInit, .armLinuxCpuinfo, .armLinuxClusters, .armLinuxChipset, .armLinuxMidr,
     .armLinuxHwcap, .androidProperties] ++
    (if a = .armeabiV7a then [.aarch32Isa] else []) ++ (if a = .arm64V8a then [.aarch64Isa] else [])
  else []) ++
  (if a = .x86 || a = .x8664 then
    [.x86Init, .x86Info, .x86Name, .x86Isa, .x86Vendor, .x86Uarch, .x86Topology, .x86CacheInit,
     .x86CacheDescriptor, .x86CacheDeterministic, .x86LinuxCpuinfo, .x86LinuxInit]
  else [])

/-- `CPUINFO_LOG_LEVEL`, jni/Android.mk:56-60; `debug` is `NDK_DEBUG=1`. -/
def level (debug : Bool) : Nat := if debug then 5 else 0

end Ndk

/-! ## confu -/

namespace Confu

/-- `sources`, configure.py:26-74. -/
def sources (t : Target) : List File :=
  let linux := t.os = .linux || t.os = .android
  [.api, .init, .cache] ++
  (if t.arch = .x86 || t.arch = .x8664 then
    [.x86Init, .x86Info, .x86Isa, .x86Vendor, .x86Uarch, .x86Name, .x86Topology, .x86CacheInit,
     .x86CacheDescriptor, .x86CacheDeterministic] ++
    (if t.os = .apple then [.x86MachInit] else if linux then [.x86LinuxInit, .x86LinuxCpuinfo] else [])
  else []) ++
  (if t.arch = .arm || t.arch = .arm64 then
    [.armUarch, .armCache] ++
    (if linux then
      [.armLinuxInit, .armLinuxCpuinfo, .armLinuxClusters, .armLinuxMidr, .armLinuxChipset, .armLinuxHwcap] ++
      (if t.arch = .arm then [.aarch32Isa] else [.aarch64Isa]) ++
      (if t.os = .android then [.androidProperties] else [])
    else [])
  else []) ++
  (if (t.arch = .riscv32 || t.arch = .riscv64) && t.os = .linux then [.riscvLinuxInit, .riscvIsa] else []) ++
  (if t.os = .apple then [.machTopology] else []) ++
  (if linux then [.cpulist, .smallfile, .multiline, .processors] else [])

/-- The argument of `--log`, configure.py:6-7. -/
inductive Log where
  | none | fatal | error | warning | info | debug
deriving DecidableEq

/-- `CPUINFO_LOG_LEVEL`, configure.py:16; without an argument the level is that of `error`. -/
def level : Option Log → Nat
  | some .none => 0
  | some .fatal => 1
  | some .error | .none => 2
  | some .warning => 3
  | some .info => 4
  | some .debug => 5

end Confu

end Verif.Build
