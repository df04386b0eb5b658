import Verif.Props.BufferExact
import Verif.Props.ClusterExact
import Verif.Props.CpuList
import Verif.Props.Files
import Verif.Props.NameExact
import Verif.Props.Processors
import Verif.Props.X86Cpuinfo
import Verif.Props.X86Init
import Verif.Props.AndroidDump
import Verif.Props.Api
import Verif.Props.X86Cpuid
import Verif.Props.SmallExact
import Verif.Props.X86Exact
import Verif.Props.X86ExactMore
import Verif.Props.X86Isa
import Verif.Props.X86Name
import Verif.Props.X86NameCore
import Verif.Props.X86NameRyzen
import Verif.Props.X86NameWords
import Verif.Props.ArmMidr
import Verif.Props.ArmCpuinfo
import Verif.Props.ArmClusters
import Verif.Props.ArmClusterMidr
import Verif.Props.ArmInit
import Verif.Props.ArmCache
import Verif.Props.ArmSets
import Verif.Props.ArmIsa
import Verif.Props.Log
import Verif.Props.LogHexagon
import Verif.Props.LogLevels
import Verif.Props.Emscripten
import Verif.Props.Uniform
import Verif.Props.UniformCaches
import Verif.Props.UniformCounts
import Verif.Props.UniformExact
import Verif.Props.Riscv
import Verif.Props.RiscvExact
import Verif.Props.RiscvLists
import Verif.Props.ArmChipset
import Verif.Props.ArmPackage
import Verif.Props.ArmUnlisted
import Verif.Props.ArmApi
import Verif.Props.Windows
import Verif.Props.WinApi
import Verif.Props.ArmCores
import Verif.Props.X86Cores
import Verif.Props.ArmDefined
import Verif.Props.ArmExact
import Verif.Props.ArmMachIsa
import Verif.Props.ArmMach
import Verif.Props.ArmMachApi
import Verif.Props.ArmWin
import Verif.Props.ArmWinLinks
import Verif.Props.AuxvDump
import Verif.Props.Build
import Verif.Props.BuildOther
import Verif.Props.ArmWinApi
import Verif.Props.Memory
import Verif.Props.WinBuffer
import Verif.Props.X86Labels
import Verif.Props.Tools
import Verif.Props.ToolsMain
import Verif.Props.FileDump
import Verif.Props.IsaInfo
import Verif.Props.CpuidDump
import Verif.Props.Mock
import Verif.Props.IsaOrderExact
import Verif.Props.IsaRace
import Verif.Props.CacheBoundExact
