import Verif.Props.Movement
import Verif.Props.Elements
import Verif.Props.AtomConfigRead
import Verif.Props.StructIO
import Verif.Props.Structure
import Verif.Props.Neigh
import Verif.Props.NeighIndex
import Verif.Props.Trajectory
import Verif.Props.Readers
import Verif.Props.Dataset
import Verif.Props.DeepMD
import Verif.Props.DeepMDNorm
import Verif.Props.Report
import Verif.Props.Kpoints
import Verif.Props.Averages
import Verif.Props.Displacement
import Verif.Props.Perturb
import Verif.Props.Dos
import Verif.Props.FatOrbital
import Verif.Props.CellList
import Verif.Props.EnvMatrix
import Verif.Props.MtpRadial
import Verif.Props.MtpLevel
import Verif.Props.MtpCrystal
import Verif.Props.MtpMoment
import Verif.Props.MtpSmooth
import Verif.Props.EnvSmooth
import Verif.Props.CellListD
import Verif.Props.Voxels
import Verif.Props.Se4pwForces
import Verif.Props.AbstractClass
import Verif.Props.EnvMatrixD
import Verif.Props.FrameText
import Verif.Props.MtpParam
import Verif.Props.Infer
import Verif.Props.Extractor
import Verif.Props.Batch
import Verif.Props.StructObj
import Verif.Props.Bind
import Verif.Props.TildeR
import Verif.Props.TildeRHeap
import Verif.Props.ArrayUtils
import Verif.Props.TildeRMem
import Verif.Props.RbcRadial
import Verif.Props.BasisHeap
import Verif.Props.EnvOp
import Verif.Props.Collection
import Verif.Props.KptFile
import Verif.Props.Cross
import Verif.Props.MtpSort
import Verif.Props.AlignedArray
import Verif.Props.Vec3
import Verif.Props.FFInfer
import Verif.Props.Factory
import Verif.Props.Crystal
import Verif.Props.CrystalCpp
import Verif.Props.OwnedAtoms
import Verif.Props.BinSizes
import Verif.Props.NormFile
import Verif.Props.EdgeOrder
import Verif.Props.DisplacementExact
import Verif.Props.InferExact
import Verif.Props.CellListExact
import Verif.Props.NeighIndexExact
import Verif.Props.CellListNarrow
import Verif.Props.FailedWrite
import Verif.Props.ExactConditions
import Verif.Props.MtpParamExact
import Verif.Props.EnvSlots
import Verif.Props.MtpMultiplicity
import Verif.Props.MtpTiny
import Verif.Props.VoxelsExact
import Verif.Props.MoreExact
import Verif.Props.DecodeExact
import Verif.Props.ExactThird
import Verif.Props.ExactFourth
import Verif.Props.ExactFifth
import Verif.Props.ExactSixth
import Verif.Props.CrossExact
import Verif.Props.ExactSeventh
import Verif.Props.MtpJump
import Verif.Props.NormStats
import Verif.Props.FolderNames
import Verif.Props.ExactEighth
import Verif.Props.BasisSelf
import Verif.Props.ArraySizes
import Verif.Props.DatasetFlow
import Verif.Props.CellLimits
import Verif.Props.NumpyPipe
import Verif.Props.NbrShow
import Verif.Props.NeighD
import Verif.Props.DeepMDD
import Verif.Props.CrossD
import Verif.Props.Stable
import Verif.Props.Extensive
import Verif.Props.ExtensiveCpp
import Verif.Props.StableCpp
import Verif.Props.Labels
import Verif.Props.Se4pwEnv
import Verif.Props.Se4pwD
import Verif.Props.Instances
import Verif.Props.TildeRD
import Verif.Props.DeepMDNormD
import Verif.Props.NormStatsD
import Verif.Props.NormColumns
import Verif.Props.AnglesExact
import Verif.Props.StructLeak
import Verif.Props.MsdD
import Verif.Props.MtpBlocks
