import Verif.Model.FileDump

/-!
# Model of scripts/android-device-dump.py and tools/cpuinfo-dump.c

The script that writes the files and the properties of an Android device as a C header for the mock build.

Simplifications:
* `adb` works: it pulls exactly the files of the device, and `adb shell` returns what the command prints.
* What the preprocessor leaves of the header is modelled, for each build: the lines `#if CPUINFO_ARCH_ARM64`,
  `#elif CPUINFO_ARCH_ARM` and `#endif` around /proc/cpuinfo of 64-bit devices choose the entry, and
  the two arrays are given separately.  Builds for 32-bit and 64-bit ARM only.
* `int(…)` on decimal digits; anything else is an exception.
* The copies of dmesg, /proc/cpuinfo and build.prop to directories of the tests are left out.
-/

set_option autoImplicit false

namespace Verif.AndroidDump
open FileDump
open ArmChipset (decimal)

/-- `SYSTEM_FILES`, scripts/android-device-dump.py:25-160. -/
def systemFiles : List Bytes :=
  [b!"/proc/cpuinfo", b!"/system/build.prop", b!"/sys/class/kgsl/kgsl-3d0/bus_split",
    b!"/sys/class/kgsl/kgsl-3d0/clock_mhz", b!"/sys/class/kgsl/kgsl-3d0/deep_nap_timer",
    b!"/sys/class/kgsl/kgsl-3d0/default_pwrlevel", b!"/sys/class/kgsl/kgsl-3d0/dev",
    b!"/sys/class/kgsl/kgsl-3d0/devfreq/available_frequencies",
    b!"/sys/class/kgsl/kgsl-3d0/devfreq/available_governors",
    b!"/sys/class/kgsl/kgsl-3d0/devfreq/cur_freq", b!"/sys/class/kgsl/kgsl-3d0/devfreq/governor",
    b!"/sys/class/kgsl/kgsl-3d0/devfreq/gpu_load", b!"/sys/class/kgsl/kgsl-3d0/devfreq/max_freq",
    b!"/sys/class/kgsl/kgsl-3d0/devfreq/min_freq",
    b!"/sys/class/kgsl/kgsl-3d0/devfreq/polling_interval",
    b!"/sys/class/kgsl/kgsl-3d0/devfreq/suspend_time", b!"/sys/class/kgsl/kgsl-3d0/devfreq/target_freq",
    b!"/sys/class/kgsl/kgsl-3d0/devfreq/trans_stat", b!"/sys/class/kgsl/kgsl-3d0/device/op_cpu_table",
    b!"/sys/class/kgsl/kgsl-3d0/freq_table_mhz", b!"/sys/class/kgsl/kgsl-3d0/ft_fast_hang_detect",
    b!"/sys/class/kgsl/kgsl-3d0/ft_hang_intr_status", b!"/sys/class/kgsl/kgsl-3d0/ft_long_ib_detect",
    b!"/sys/class/kgsl/kgsl-3d0/ft_pagefault_policy", b!"/sys/class/kgsl/kgsl-3d0/ft_policy",
    b!"/sys/class/kgsl/kgsl-3d0/gpu_available_frequencies",
    b!"/sys/class/kgsl/kgsl-3d0/gpu_busy_percentage", b!"/sys/class/kgsl/kgsl-3d0/gpu_clock_stats",
    b!"/sys/class/kgsl/kgsl-3d0/gpu_llc_slice_enable", b!"/sys/class/kgsl/kgsl-3d0/gpu_model",
    b!"/sys/class/kgsl/kgsl-3d0/gpubusy", b!"/sys/class/kgsl/kgsl-3d0/gpuclk",
    b!"/sys/class/kgsl/kgsl-3d0/gpuhtw_llc_slice_enable", b!"/sys/class/kgsl/kgsl-3d0/hwcg",
    b!"/sys/class/kgsl/kgsl-3d0/idle_timer", b!"/sys/class/kgsl/kgsl-3d0/lm",
    b!"/sys/class/kgsl/kgsl-3d0/max_gpuclk", b!"/sys/class/kgsl/kgsl-3d0/max_pwrlevel",
    b!"/sys/class/kgsl/kgsl-3d0/min_clock_mhz", b!"/sys/class/kgsl/kgsl-3d0/min_pwrlevel",
    b!"/sys/class/kgsl/kgsl-3d0/num_pwrlevels", b!"/sys/class/kgsl/kgsl-3d0/pmqos_active_latency",
    b!"/sys/class/kgsl/kgsl-3d0/popp", b!"/sys/class/kgsl/kgsl-3d0/preempt_count",
    b!"/sys/class/kgsl/kgsl-3d0/preempt_level", b!"/sys/class/kgsl/kgsl-3d0/preemption",
    b!"/sys/class/kgsl/kgsl-3d0/pwrscale", b!"/sys/class/kgsl/kgsl-3d0/reset_count",
    b!"/sys/class/kgsl/kgsl-3d0/skipsaverestore", b!"/sys/class/kgsl/kgsl-3d0/sptp_pc",
    b!"/sys/class/kgsl/kgsl-3d0/thermal_pwrlevel", b!"/sys/class/kgsl/kgsl-3d0/throttling",
    b!"/sys/class/kgsl/kgsl-3d0/usesgmem", b!"/sys/class/kgsl/kgsl-3d0/wake_nice",
    b!"/sys/class/kgsl/kgsl-3d0/wake_timeout", b!"/sys/devices/soc0/accessory_chip",
    b!"/sys/devices/soc0/build_id", b!"/sys/devices/soc0/chip_family", b!"/sys/devices/soc0/chip_name",
    b!"/sys/devices/soc0/family", b!"/sys/devices/soc0/foundry_id", b!"/sys/devices/soc0/hw_platform",
    b!"/sys/devices/soc0/image_crm_version", b!"/sys/devices/soc0/image_variant",
    b!"/sys/devices/soc0/image_version", b!"/sys/devices/soc0/images", b!"/sys/devices/soc0/machine",
    b!"/sys/devices/soc0/ncluster_array_offset", b!"/sys/devices/soc0/ndefective_parts_array_offset",
    b!"/sys/devices/soc0/nmodem_supported", b!"/sys/devices/soc0/nproduct_id",
    b!"/sys/devices/soc0/num_clusters", b!"/sys/devices/soc0/num_defective_parts",
    b!"/sys/devices/soc0/platform_subtype", b!"/sys/devices/soc0/platform_subtype_id",
    b!"/sys/devices/soc0/platform_version", b!"/sys/devices/soc0/pmic_die_revision",
    b!"/sys/devices/soc0/pmic_model", b!"/sys/devices/soc0/raw_device_family",
    b!"/sys/devices/soc0/raw_device_number", b!"/sys/devices/soc0/raw_id",
    b!"/sys/devices/soc0/raw_version", b!"/sys/devices/soc0/revision",
    b!"/sys/devices/soc0/select_image", b!"/sys/devices/soc0/serial_number",
    b!"/sys/devices/soc0/soc_id", b!"/sys/devices/soc0/vendor", b!"/sys/devices/system/b.L/big_threads",
    b!"/sys/devices/system/b.L/boot_cluster", b!"/sys/devices/system/b.L/core_status",
    b!"/sys/devices/system/b.L/little_threads", b!"/sys/devices/system/b.L/down_migrations",
    b!"/sys/devices/system/b.L/up_migrations", b!"/sys/devices/system/cpu/isolated",
    b!"/sys/devices/system/cpu/kernel_max", b!"/sys/devices/system/cpu/modalias",
    b!"/sys/devices/system/cpu/offline", b!"/sys/devices/system/cpu/online",
    b!"/sys/devices/system/cpu/possible", b!"/sys/devices/system/cpu/present",
    b!"/sys/devices/system/cpu/sched_isolated", b!"/sys/devices/system/cpu/clusterhotplug/cur_hstate",
    b!"/sys/devices/system/cpu/clusterhotplug/down_freq",
    b!"/sys/devices/system/cpu/clusterhotplug/down_tasks",
    b!"/sys/devices/system/cpu/clusterhotplug/down_threshold",
    b!"/sys/devices/system/cpu/clusterhotplug/sampling_rate",
    b!"/sys/devices/system/cpu/clusterhotplug/time_in_state",
    b!"/sys/devices/system/cpu/clusterhotplug/up_freq",
    b!"/sys/devices/system/cpu/clusterhotplug/up_tasks",
    b!"/sys/devices/system/cpu/clusterhotplug/up_threshold",
    b!"/sys/devices/system/cpu/cpufreq/all_time_in_state",
    b!"/sys/devices/system/cpu/cpufreq/current_in_state",
    b!"/sys/devices/system/cpu/cpufreq/cpufreq_limit/big_cpu_num",
    b!"/sys/devices/system/cpu/cpufreq/cpufreq_limit/big_max_freq",
    b!"/sys/devices/system/cpu/cpufreq/cpufreq_limit/big_min_freq",
    b!"/sys/devices/system/cpu/cpufreq/cpufreq_limit/hmp_boost_type",
    b!"/sys/devices/system/cpu/cpufreq/cpufreq_limit/hmp_prev_boost_type",
    b!"/sys/devices/system/cpu/cpufreq/cpufreq_limit/ltl_cpu_num",
    b!"/sys/devices/system/cpu/cpufreq/cpufreq_limit/ltl_divider",
    b!"/sys/devices/system/cpu/cpufreq/cpufreq_limit/ltl_max_freq",
    b!"/sys/devices/system/cpu/cpufreq/cpufreq_limit/ltl_min_freq",
    b!"/sys/devices/system/cpu/cpufreq/cpufreq_limit/ltl_min_lock",
    b!"/sys/devices/system/cpu/cpufreq/cpufreq_limit/requests",
    b!"/sys/devices/system/cpu/cpuidle/current_driver",
    b!"/sys/devices/system/cpu/cpuidle/current_governor_ro",
    b!"/sys/devices/system/cpu/cputopo/cpus_per_cluster",
    b!"/sys/devices/system/cpu/cputopo/big_cpumask", b!"/sys/devices/system/cpu/cputopo/glbinfo",
    b!"/sys/devices/system/cpu/cputopo/is_big_little",
    b!"/sys/devices/system/cpu/cputopo/is_multi_cluster",
    b!"/sys/devices/system/cpu/cputopo/little_cpumask", b!"/sys/devices/system/cpu/cputopo/nr_clusters",
    b!"/sys/devices/system/sched/idle_prefer", b!"/sys/devices/system/sched/sched_boost"]

/-- `CPU_FILES`, scripts/android-device-dump.py:162-207. -/
def cpuFiles : List Bytes :=
  [b!"core_ctl/active_cpus", b!"core_ctl/busy_up_thres", b!"core_ctl/busy_down_thres",
    b!"core_ctl/enable", b!"core_ctl/global_state", b!"core_ctl/is_big_cluster", b!"core_ctl/max_cpus",
    b!"core_ctl/min_cpus", b!"core_ctl/need_cpus", b!"core_ctl/not_preferred",
    b!"core_ctl/offline_delay_ms", b!"core_ctl/task_thres", b!"current_driver", b!"current_governor_ro",
    b!"cpuidle/driver/name", b!"cpufreq/affected_cpus", b!"cpufreq/cpuinfo_max_freq",
    b!"cpufreq/cpuinfo_min_freq", b!"cpufreq/cpuinfo_transition_latency", b!"cpufreq/related_cpus",
    b!"cpufreq/scaling_available_frequencies", b!"cpufreq/scaling_available_governors",
    b!"cpufreq/scaling_cur_freq", b!"cpufreq/scaling_driver", b!"cpufreq/scaling_governor",
    b!"cpufreq/scaling_max_freq", b!"cpufreq/scaling_min_freq", b!"cpufreq/sched/down_throttle_nsec",
    b!"cpufreq/sched/up_throttle_nsec", b!"cpufreq/stats/time_in_state", b!"cpufreq/stats/total_trans",
    b!"cpufreq/stats/trans_table", b!"isolate", b!"regs/identification/midr_el1",
    b!"regs/identification/revidr_el1", b!"sched_load_boost", b!"topology/core_id",
    b!"topology/core_siblings", b!"topology/core_siblings_list", b!"topology/cpu_capacity",
    b!"topology/max_cpu_capacity", b!"topology/physical_package_id", b!"topology/thread_siblings",
    b!"topology/thread_siblings_list"]

/-- `CACHE_FILES`, scripts/android-device-dump.py:209-220. -/
def cacheFiles : List Bytes :=
  [b!"allocation_policy", b!"coherency_line_size", b!"level", b!"number_of_sets", b!"shared_cpu_list",
    b!"shared_cpu_map", b!"size", b!"type", b!"ways_of_associativity", b!"write_policy"]

/-- The paths of one processor, scripts/android-device-dump.py:369-375. -/
def cpuPaths (cpu : Nat) : List Bytes :=
  cpuFiles.map (fun f => cpuDir cpu ++ f) ++
    (List.range 5).flatMap fun index =>
      cacheFiles.map fun f => cpuDir cpu ++ (b!"cache/index" ++ decimal index ++ b!"/" ++ f)

/-- The paths in the order of `main`, scripts/android-device-dump.py:345 and 368-375. -/
def paths (kernelMax : Nat) : List Bytes :=
  systemFiles ++ (List.range (kernelMax + 1)).flatMap cpuPaths

/-- The white space of `str.strip`. -/
def isWhite (c : Byte) : Bool := c == 32 || (Nat.ble 9 c && Nat.ble c 13)

/-- `str.strip()`. -/
def strip (s : Bytes) : Bytes := ((s.dropWhile isWhite).reverse.dropWhile isWhite).reverse

/-- `int(text)` on digits; `none` is an exception. -/
def pyInt (text : Bytes) : Option Nat :=
  if text ≠ [] ∧ text.all isDigitByte then some (text.foldl (fun n c => 10 * n + (c - 48)) 0) else none
where
  isDigitByte (c : Byte) : Bool := Nat.ble 48 c && Nat.ble c 57

/-- `kernel_max`, scripts/android-device-dump.py:337 and 355-356. -/
def kernelMax (device : Bytes → Option Bytes) : Option Nat :=
  match device b!"/sys/devices/system/cpu/kernel_max" with
  | some content => pyInt (strip content)
  | none => some 0

/-- `str.splitlines()` of Python 2. -/
def splitPlain : Bytes → List Bytes
  | [] => []
  | 13 :: 10 :: r => [] :: splitPlain r
  | c :: r =>
    if c = 10 ∨ c = 13 then [] :: splitPlain r
    else
      match splitPlain r with
      | [] => [[c]]
      | l :: ls => (c :: l) :: ls

/-- `"\n".join(…)`, scripts/android-device-dump.py:363. -/
def joinLines : List Bytes → Bytes
  | [] => []
  | [l] => l
  | l :: ls => l ++ 10 :: joinLines ls

/-- The files as the script writes them for a build, scripts/android-device-dump.py:345-366; `abi64`: the
property ro.product.cpu.abi is "arm64-v8a"; `output32`: what the 32-bit cpuinfo-dump prints, `none` if it
fails. -/
def filesFor (build64 abi64 : Bool) (output32 : Option Bytes) (device : Bytes → Option Bytes) :
    Bytes → Option Bytes := fun path =>
  if path = b!"/proc/cpuinfo" ∧ abi64 = true ∧ build64 = false then
    match output32 with
    | some text => if text = [] then none else some (joinLines (splitPlain text))
    | none => none
  else device path

/-- The array of files, scripts/android-device-dump.py:338-377; `none` is an exception. -/
def header (build64 abi64 : Bool) (output32 : Option Bytes) (device : Bytes → Option Bytes) : Option Bytes :=
  (kernelMax device).map fun k => headerOf (paths k) (filesFor build64 abi64 output32 device)

/-- `….split("]", 1)` into two parts; `none` is the exception when there is no bracket. -/
def splitBracket : Bytes → Option (Bytes × Bytes)
  | [] => none
  | c :: r => if c = 93 then some ([], r) else (splitBracket r).map fun p => (c :: p.1, p.2)

/-- `assert properties.startswith(…)` and `properties[1:]`. -/
def expect (c : Byte) : Bytes → Option Bytes
  | [] => none
  | x :: r => if x = c then some r else none

/-- The loop of `adb_getprop`, scripts/android-device-dump.py:279-291; `none` is an exception.  Each round
takes at least one byte, so that as many rounds as bytes are enough. -/
def getpropLoop : (fuel : Nat) → Bytes → Option (List (Bytes × Bytes))
  | _, [] => some []
  | 0, _ :: _ => none
  | fuel + 1, c :: r => do
    let text ← expect 91 (c :: r)
    let (key, text) ← splitBracket text
    let text ← expect 58 (strip text)
    let text ← expect 91 (strip text)
    let (value, text) ← splitBracket text
    let l ← getpropLoop fuel (strip text)
    return (key, value) :: l

/-- `adb_getprop`, scripts/android-device-dump.py:276-291. -/
def getprop (text : Bytes) : Option (List (Bytes × Bytes)) := getpropLoop text.length text

/-- What is written for a property, scripts/android-device-dump.py:381-384. -/
def propertyText (p : Bytes × Bytes) : Bytes :=
  b!"\t{\n" ++ (b!"\t\t.key = \"" ++ cEscape p.1 ++ b!"\",\n") ++
    (b!"\t\t.value = \"" ++ cEscape p.2 ++ b!"\",\n") ++ b!"\t},\n"

/-- The array of properties, scripts/android-device-dump.py:379-386. -/
def propertiesHeader (props : List (Bytes × Bytes)) : Bytes :=
  b!"struct cpuinfo_mock_property properties[] = {\n" ++ props.flatMap propertyText ++
    b!"\t{ NULL },\n" ++ b!"};\n"

/-- The loop of cpuinfo-dump, tools/cpuinfo-dump.c:25-40: what it prints of a file when the calls of `read`
return at most as many bytes as `sched` says (at least one before the end of the file; at most
`BUFFER_SIZE`). -/
def dumpLoop (sched : Nat → Nat) : (fuel : Nat) → (call : Nat) → Bytes → Bytes
  | 0, _, _ => []
  | _ + 1, _, [] => []
  | fuel + 1, call, c :: r =>
    let n := min 4096 (max 1 (sched call))
    (c :: r).take n ++ dumpLoop sched fuel (call + 1) ((c :: r).drop n)

end Verif.AndroidDump
