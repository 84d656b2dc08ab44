import Verif.Basic
import Verif.BitSet
import Verif.BitSetLemmas
import Verif.BitSetSpec
import Verif.BaseArith
import Verif.BaseArithLemmas
import Verif.DivisorSpec
import Verif.BaseBitsSpec
import Verif.PoolTasks
import Verif.PoolTasksSpec
import Verif.PoolModel
import Verif.PoolInv1
import Verif.PoolInv2
import Verif.PoolInv3
import Verif.PoolInv4
import Verif.PoolInv5
import Verif.PoolLive
import Verif.PoolSpec
import Verif.PoolFinding
import Verif.VecOps
import Verif.Algo
import Verif.AlgoSpec
import Verif.Alloc
import Verif.AllocSpec
import Verif.BitPack
import Verif.BitPackPrograms
import Verif.BitPackSpec
import Verif.BitPackCheck
import Verif.Float16
import Verif.FloatRound
import Verif.Float16Spec
import Verif.Float64Spec
import Verif.Heap
import Verif.SortSpec
import Verif.HeapProof
import Verif.SortNet
import Verif.NetPrograms
import Verif.NetCheck
import Verif.NetCheck16
import Verif.BaseCase
import Verif.NetSort
import Verif.SortArr
import Verif.BaseCaseProof
import Verif.Partition
import Verif.PartitionProof
import Verif.FastPath
import Verif.FastPathProof
import Verif.Recurse
import Verif.PivotProof
import Verif.PivotProof2
import Verif.RecurseProof
import Verif.SortTop
import Verif.SortTraits
import Verif.SortKeys
import Verif.SortNaN
import Verif.CostDist
import Verif.CostDistProof
import Verif.AutoTune
import Verif.AutoTuneRing
import Verif.AutoTuneSpec
import Verif.Stats
import Verif.RobustStats
import Verif.Random
import Verif.RandomPrimes
import Verif.RandomPoly
import Verif.RandomSpec
import Verif.Targets
import Verif.TargetsLemmas
import Verif.TargetsSpec
import Verif.Dot
import Verif.DotSpec
import Verif.MatVec
import Verif.MatVecSpec
import Verif.Topology
import Verif.TopologySpec
import Verif.TopologyDetect
import Verif.TopologySafe
import Verif.TopologyTotal
import Verif.TopologyCache
import Verif.Image
import Verif.ImageSpec
import Verif.CInt
import Verif.EmuArith
import Verif.EmuLemmas
import Verif.EmuArithSpec
import Verif.EmuArithSpec2
import Verif.EmuArithSpec3
import Verif.EmuArithSpec4
import Verif.EmuArithExamples
import Verif.EmuMask
import Verif.EmuMaskSpec
import Verif.EmuMove
import Verif.EmuMoveSpec
import Verif.EmuFloat
import Verif.EmuFloatLemmas
import Verif.EmuFloatLane
import Verif.EmuFloatRound
import Verif.EmuFloatRound2
import Verif.EmuFloatRound3
import Verif.EmuFloatSpec
import Verif.EmuConv
import Verif.EmuConvSpec
import Verif.EmuConvF2I
import Verif.EmuConvFloat
import Verif.EmuConvSpec2
import Verif.EmuConvSpec3
import Verif.EmuConvSpec4
import Verif.EmuConvExamples
import Verif.GenLanes
import Verif.GenCLMul
import Verif.GenCLMulSpec
import Verif.GenAES
import Verif.GenAESSpec
import Verif.GenAESSpec2
import Verif.GenAESSpec3
import Verif.GenLanes2
import Verif.GenBits
import Verif.GenBitsSpec
import Verif.GenLzcntSpec
import Verif.EmuFArith
import Verif.EmuFArithSpec
import Verif.EmuFArithLanes
import Verif.GenDiv
import Verif.GenDivReal
import Verif.GenDivReal2
import Verif.GenDiv64
import Verif.GenDiv64U
import Verif.GenDivLane
import Verif.GenDivSpec
import Verif.GenDivSpec2
import Verif.GenArith
import Verif.GenArithSpec
import Verif.GenArithSpec2
import Verif.GenArithSpec3
import Verif.GenArithSpec4
import Verif.GenArithSpec5
import Verif.GenArithExamples
import Verif.GenDot
import Verif.GenDotSpec
import Verif.GenDotSpec2
import Verif.GenDotExamples
import Verif.GenMem
import Verif.GenMemSpec
import Verif.GenMemSpec2
import Verif.GenMemExamples
import Verif.GenFloat
import Verif.GenFloatReal
import Verif.GenFloatSpec
import Verif.GenFloatSpec2
import Verif.GenFloatSpec3
import Verif.GenFloatExamples
import Verif.GenRot
import Verif.GenBytes
import Verif.GenRotSpec
import Verif.GenRotSpec2
import Verif.GenRotSpec3
import Verif.GenRotExamples
import Verif.GenShuf
import Verif.GenShufSpec
import Verif.GenShufSpec2
import Verif.GenShufSpec3
import Verif.GenShufExamples
import Verif.GenHalf
import Verif.GenHalfSpec
import Verif.GenHalfSpec2
import Verif.GenHalfDem
import Verif.GenHalfSpec3
import Verif.GenHalfSpec4
import Verif.GenHalfExamples
import Verif.Unroller
import Verif.UnrollerSpec
import Verif.UnrollerSpec2
import Verif.UnrollerSpec3
import Verif.UnrollerExamples
import Verif.X86Reg
import Verif.X86Intrin
import Verif.X86Ops
import Verif.X86Lanes
import Verif.X86OpsSpec
import Verif.X86OpsSpec2
import Verif.X86OpsSpec3
import Verif.X86OpsSpec4
import Verif.X86OpsExamples
import Verif.X86Intrin2
import Verif.X86Perm
import Verif.X86Sym
import Verif.X86PermSpec
import Verif.X86PermExamples
import Verif.X86Intrin3
import Verif.X86Mul
import Verif.X86MulSpec
import Verif.X86MulSpec2
import Verif.X86MulExamples
import Verif.X86Conv
import Verif.X86ConvSpec
import Verif.X86ConvSpec2
import Verif.X86ConvSpec3
import Verif.X86ConvSpec4
import Verif.X86ConvSpec5
import Verif.X86ConvExamples
import Verif.X86Lookup
import Verif.X86LookupSpec
import Verif.X86LookupSpec2
import Verif.X86LookupSpec3
import Verif.X86LookupExamples
import Verif.X86Reg256
import Verif.X86Shift
import Verif.X86Reg256Spec
import Verif.X86ShiftSpec
import Verif.X86ShiftSpec2
import Verif.X86ShiftExamples
import Verif.X86CompressTables
import Verif.X86Mask
import Verif.X86MaskSpec
import Verif.X86CompressSpec
import Verif.X86CompressSpec2
import Verif.X86MaskExamples
import Verif.X86Interleaved
import Verif.X86InterleavedSpec
import Verif.X86InterleavedSpec2
import Verif.X86InterleavedExamples
import Verif.X86First
import Verif.X86FirstSpec
import Verif.X86FirstExamples
import Verif.X86Reduce
import Verif.X86ReduceSpec
import Verif.X86ReduceSpec2
import Verif.X86ReduceSpec3
import Verif.X86ReduceExamples
import Verif.X86V256
import Verif.X86V256Spec
import Verif.X86V256Spec2
import Verif.X86V256Spec3
import Verif.X86V256Spec4
import Verif.X86V256Examples
import Verif.X86V256Tables
import Verif.X86V256Mask
import Verif.X86V256MaskSpec
import Verif.X86V256CompressSpec
import Verif.X86V256MaskExamples
import Verif.X86V256Conv
import Verif.X86V256ConvSpec
import Verif.X86V256ConvExamples
import Verif.X86V256Ops
import Verif.X86V256OpsSpec
import Verif.X86V256OpsExamples
import Verif.X86V256Mul
import Verif.X86V256MulSpec
import Verif.X86V256MulExamples
import Verif.X86V256First
import Verif.X86V256FirstSpec
import Verif.X86V256FirstExamples
import Verif.X86V256Reduce
import Verif.X86V256ReduceSpec
import Verif.X86V256ReduceExamples
import Verif.X86Bits
import Verif.X86BitsSpec
import Verif.X86BitsExamples
import Verif.X86Pairwise
import Verif.X86PairwiseSpec
import Verif.X86SatWideSpec
import Verif.X86PairwiseExamples
import Verif.X86V256Pairwise
import Verif.X86V256PairwiseSpec
import Verif.X86V256PairwiseExamples
import Verif.X86Lane
import Verif.X86LaneSpec
import Verif.X86LaneExamples
