import Verif.Base

/-!
# Which files CMake builds the library from, and which of them they need

CMakeLists.txt:61-245, the choice of the detection function in src/init.c:23-66, and the calls between the files.

Simplifications:
* A variable of CMake counts as false only if it is empty (or undefined); names like `NO` or `0` of processors
  and systems are not considered.
* `.` in a regular expression matches every byte.
* The mock, test and benchmark targets are left out.
* What the compiler defines (`Target`) is independent of what CMake is told (`Config`).
* A file needs the files that define the functions it calls; variables are defined in src/api.c.  Headers and
  system libraries are not considered.
-/

set_option autoImplicit false

namespace Verif.Build

/-- The source files of the library, below src/. -/
inductive File where
  | api | cache | init | log
  | x86Init | x86Info | x86Vendor | x86Uarch | x86Name | x86Topology | x86Isa
  | x86CacheInit | x86CacheDescriptor | x86CacheDeterministic
  | x86LinuxInit | x86LinuxCpuinfo | x86MachInit | x86WindowsInit | x86FreebsdInit
  | armWindowsSysInfo | armWindowsInit | armUarch | armCache
  | armLinuxInit | armLinuxCpuinfo | armLinuxClusters | armLinuxChipset | armLinuxMidr | armLinuxHwcap
  | aarch32Isa | aarch64Isa | armMachInit | androidProperties
  | riscvUarch | riscvLinuxInit | riscvHw | riscvIsa
  | emscriptenInit
  | smallfile | multiline | cpulist | processors | machTopology | freebsdTopology
deriving DecidableEq

/-- The variables of CMake that the choice depends on. -/
structure Config where
  /-- `CMAKE_SYSTEM_NAME` -/
  systemName : Bytes
  /-- `CMAKE_SYSTEM_PROCESSOR` -/
  systemProcessor : Bytes
  /-- `CMAKE_OSX_ARCHITECTURES` -/
  osxArchitectures : Bytes := []
  /-- `CMAKE_GENERATOR MATCHES "^Visual Studio "` -/
  visualStudio : Bool := false
  /-- `CMAKE_VS_PLATFORM_NAME` -/
  vsPlatform : Bytes := []
  /-- `IOS` -/
  ios : Bool := false
  /-- `IOS_ARCH` -/
  iosArch : Bytes := []
  /-- CMake is of version 3.14 or later. -/
  cmake314 : Bool := true

/-- `CMAKE_SYSTEM_NAME MATCHES "^(Darwin|iOS|tvOS|watchOS)$"`, CMakeLists.txt:62. -/
def appleName (s : Bytes) : Bool := s ∈ [b!"Darwin", b!"iOS", b!"tvOS", b!"watchOS"]

/-- `CMAKE_SYSTEM_NAME MATCHES "^(Windows|WindowsStore|CYGWIN|MSYS)$"`, CMakeLists.txt:182. -/
def windowsName (s : Bytes) : Bool := s ∈ [b!"Windows", b!"WindowsStore", b!"CYGWIN", b!"MSYS"]

/-- `CMAKE_SYSTEM_NAME STREQUAL "Linux" OR CMAKE_SYSTEM_NAME STREQUAL "Android"`. -/
def linuxName (s : Bytes) : Bool := s ∈ [b!"Linux", b!"Android"]

/-- The systems in the list of CMakeLists.txt:111. -/
def listed (s : Bytes) : Bool :=
  windowsName s || linuxName s || s ∈ [b!"Darwin", b!"FreeBSD"]

/-- A text matches a pattern without anchors. -/
def contains (w : Bytes) : Bytes → Bool
  | [] => w.isPrefixOf []
  | c :: r => w.isPrefixOf (c :: r) || contains w r

/-- `^armv[5-8]` -/
def armv : Bytes → Bool
  | 97 :: 114 :: 109 :: 118 :: d :: _ => 53 ≤ d && d ≤ 56
  | _ => false

/-- `^(i[3-6]86|AMD64|x86(_64)?)$` -/
def x86Processor (s : Bytes) : Bool :=
  s ∈ [b!"i386", b!"i486", b!"i586", b!"i686", b!"AMD64", b!"x86", b!"x86_64"]

/-- `^(armv[5-8].*|aarch64|arm64.*)$` -/
def armProcessor (s : Bytes) : Bool := armv s || s = b!"aarch64" || b!"arm64".isPrefixOf s

/-- `^(riscv(32|64))$` -/
def riscvProcessor (s : Bytes) : Bool := s ∈ [b!"riscv32", b!"riscv64"]

/-- `CPUINFO_TARGET_PROCESSOR`, CMakeLists.txt:69-87; `none` is the fatal error. -/
def targetProcessor (c : Config) : Option Bytes :=
  let p := if contains b!"FreeBSD" c.systemName && c.systemProcessor = b!"amd64" then b!"AMD64"
    else c.systemProcessor
  if appleName c.systemName && (c.osxArchitectures = b!"x86_64" || b!"arm64".isPrefixOf c.osxArchitectures) then
    some c.osxArchitectures
  else if c.visualStudio && c.vsPlatform ≠ [] then
    if c.vsPlatform = b!"Win32" then some b!"x86"
    else if c.vsPlatform = b!"x64" then some b!"x86_64"
    else if c.vsPlatform = b!"ARM64" then some b!"arm64"
    else if b!"ARM64E".isPrefixOf c.vsPlatform || b!"arm64e".isPrefixOf c.vsPlatform then some b!"arm64"
    else none
  else some p

/-- `CPUINFO_SUPPORTED_PLATFORM`, CMakeLists.txt:90-118. -/
def supported (c : Config) (tp : Bytes) : Bool :=
  (if c.systemProcessor = [] then c.ios
    else x86Processor tp || armProcessor tp || b!"ARM64".isPrefixOf tp || riscvProcessor tp) &&
  (if c.systemName = [] then false
    else listed c.systemName || !(c.cmake314 && !appleName c.systemName))

/-- The files of all builds, CMakeLists.txt:161. -/
def common : List File := [.api, .cache, .init, .log]

/-- CMakeLists.txt:165-175. -/
def x86Files : List File :=
  [.x86Init, .x86Info, .x86Vendor, .x86Uarch, .x86Name, .x86Topology, .x86Isa, .x86CacheInit,
   .x86CacheDescriptor, .x86CacheDeterministic]

/-- CMakeLists.txt:176-186. -/
def x86System (s : Bytes) : List File :=
  if linuxName s then [.x86LinuxInit, .x86LinuxCpuinfo]
  else if appleName s then [.x86MachInit]
  else if windowsName s then [.x86WindowsInit]
  else if s = b!"FreeBSD" then [.x86FreebsdInit]
  else []

/-- CMakeLists.txt:196-213. -/
def armSystem (s sp tp : Bytes) : List File :=
  if linuxName s then
    [.armLinuxInit, .armLinuxCpuinfo, .armLinuxClusters, .armLinuxChipset, .armLinuxMidr, .armLinuxHwcap] ++
    (if armv sp then [.aarch32Isa]
      else if sp = b!"aarch64" || sp = b!"arm64" then [.aarch64Isa] else [])
  else if appleName s && contains b!"arm64" tp then [.armMachInit]
  else []

/-- The files for the processor, CMakeLists.txt:164-228. -/
def processorFiles (c : Config) (tp : Bytes) : List File :=
  if c.systemName ≠ b!"Emscripten" && (x86Processor tp || c.iosArch = b!"i386" || c.iosArch = b!"x86_64") then
    x86Files ++ x86System c.systemName
  else if b!"Windows".isPrefixOf c.systemName && (tp = b!"ARM64" || tp = b!"arm64") then
    [.armWindowsSysInfo, .armWindowsInit, .armUarch]
  else if armProcessor tp || b!"armv7".isPrefixOf c.iosArch || b!"arm64".isPrefixOf c.iosArch then
    [.armUarch, .armCache] ++ armSystem c.systemName c.systemProcessor tp ++
      (if c.systemName = b!"Android" then [.androidProperties] else [])
  else if riscvProcessor tp then
    .riscvUarch :: (if linuxName c.systemName then [.riscvLinuxInit, .riscvHw, .riscvIsa] else [])
  else []

/-- The files for the system, CMakeLists.txt:230-245. -/
def systemFiles (s : Bytes) : List File :=
  (if s = b!"Emscripten" then [.emscriptenInit] else []) ++
  (if linuxName s then [.smallfile, .multiline, .cpulist, .processors]
    else if appleName s then [.machTopology]
    else if s = b!"FreeBSD" then [.freebsdTopology]
    else [])

/-- `CPUINFO_SRCS`, CMakeLists.txt:160-245; `none` if CMake stops. -/
def sources (c : Config) : Option (List File) :=
  (targetProcessor c).map fun tp =>
    common ++ (if supported c tp then processorFiles c tp ++ systemFiles c.systemName else [])

/-- The architectures of include/cpuinfo.h:17-55. -/
inductive Arch where
  | x86 | x8664 | arm | arm64 | riscv32 | riscv64 | asmjs | wasm | wasmsimd | other
deriving DecidableEq

/-- The systems that the macros of the compiler tell apart (`windows`: `_WIN32`, `cygwin`: `__CYGWIN__`). -/
inductive Os where
  | linux | android | apple | freebsd | windows | cygwin | other
deriving DecidableEq

/-- What the compiler compiles for. -/
structure Target where
  arch : Arch
  os : Os
deriving DecidableEq

/-- The file of the detection function that `cpuinfo_initialize` calls, src/init.c:23-66; `none`: it only logs
an error. -/
def entry (t : Target) : Option File :=
  match t.arch with
  | .x86 | .x8664 =>
    match t.os with
    | .apple => some .x86MachInit
    | .freebsd => some .x86FreebsdInit
    | .linux | .android => some .x86LinuxInit
    | .windows | .cygwin => some .x86WindowsInit
    | .other => none
  | .arm | .arm64 =>
    match t.os with
    | .linux | .android => some .armLinuxInit
    | .apple => some .armMachInit
    | .windows => some .armWindowsInit
    | _ => none
  | .riscv32 | .riscv64 =>
    match t.os with
    | .linux | .android => some .riscvLinuxInit
    | _ => none
  | .asmjs | .wasm | .wasmsimd => some .emscriptenInit
  | .other => none

/-- The files with the functions that a file calls.  All files also use src/log.c. -/
def needs (t : Target) : File → List File
  | .init => (entry t).toList
  | .x86Init => [.x86Isa, .x86Topology, .x86Info, .x86Vendor, .x86Uarch, .x86CacheInit]
  | .x86CacheInit => [.x86CacheDescriptor, .x86CacheDeterministic]
  | .x86LinuxInit => [.cache, .processors, .x86Init, .x86Name, .x86LinuxCpuinfo]
  | .x86LinuxCpuinfo => [.multiline]
  | .x86MachInit => [.cache, .machTopology, .x86Init, .x86Name]
  | .x86FreebsdInit => [.cache, .freebsdTopology, .x86Init, .x86Name]
  | .x86WindowsInit => [.cache, .x86Init, .x86Name]
  | .armCache => [.cache]
  | .armLinuxInit =>
    [.processors, .armCache, .armUarch, .armLinuxCpuinfo, .armLinuxMidr, .armLinuxClusters, .armLinuxChipset,
     .armLinuxHwcap] ++
    (if t.arch = .arm64 then [.aarch64Isa] else if t.arch = .arm then [.aarch32Isa] else []) ++
    (if t.os = .android then [.androidProperties] else [])
  | .armLinuxCpuinfo => [.multiline]
  | .armMachInit => [.cache, .machTopology]
  | .armWindowsSysInfo => [.cache]
  | .armWindowsInit => [.armUarch, .armWindowsSysInfo]
  | .riscvLinuxInit => [.processors, .riscvHw, .riscvIsa]
  | .riscvHw => [.riscvUarch]
  | .processors => [.smallfile, .cpulist]
  | _ => []

/-- A program that calls `cpuinfo_initialize` can be linked. -/
def Links (t : Target) (l : List File) : Prop := ∀ f ∈ l, ∀ g ∈ needs t f, g ∈ l

instance (t : Target) (l : List File) : Decidable (Links t l) :=
  inferInstanceAs (Decidable (∀ f ∈ l, ∀ g ∈ needs t f, g ∈ l))

end Verif.Build
