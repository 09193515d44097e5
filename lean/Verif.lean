import Verif.Props.Index
import Verif.Props.View
import Verif.Props.ViewFuse
import Verif.Props.Assign
import Verif.Props.Reduce
import Verif.Props.Visit
import Verif.Props.Mat
import Verif.Props.Cumul
import Verif.Props.Memory
import Verif.Props.Einsum1
import Verif.Props.EinsumGather
import Verif.Props.EinsumForm2
import Verif.Props.Einsum2
import Verif.Props.Einsum2Conv
import Verif.Props.Pool
import Verif.Props.PoolCat
import Verif.Props.Hlists
import Verif.Props.Pool2
import Verif.Props.Gather
import Verif.Props.GatherW
import Verif.Props.GatherRows
import Verif.Props.Sparse
import Verif.Props.CSR
import Verif.Props.Threads
import Verif.Props.Maps
import Verif.Props.Observers
import Verif.Props.Banks
import Verif.Props.Math
import Verif.Props.Perm
import Verif.Props.Comb
import Verif.Props.PrefixTree
import Verif.Props.Graph
import Verif.Props.GraphMake
import Verif.Props.LabeledTree
import Verif.Props.IntTree
import Verif.Props.Planted
import Verif.Props.RView
import Verif.Props.RView2
import Verif.Props.RView3
import Verif.Props.Rows
import Verif.Props.BGtensor
import Verif.Props.BGprod
import Verif.Props.LtensorSpec
import Verif.Props.Construct
import Verif.Props.LT
import Verif.Props.Json
import Verif.Props.Conv
import Verif.Props.RConv
import Verif.Props.RConvSparse
import Verif.Props.Slices
import Verif.Props.TProgram
import Verif.Props.TFunctions
import Verif.Props.RConvRefuse
import Verif.Props.Spaces
import Verif.Props.SliceOps
import Verif.Props.EinsumFn
import Verif.Props.RViewThree
import Verif.Props.CTree
import Verif.Props.CView
import Verif.Props.CViewMix
import Verif.Props.CViewProd
import Verif.Props.BlockSparse
import Verif.Props.BlockSparseMul
import Verif.Props.Rmask
import Verif.Props.SparseTV
import Verif.Props.Delta
import Verif.Props.Gtensor
import Verif.Props.Mem
import Verif.Props.Owners
import Verif.Props.HighViews
import Verif.Props.AnyViews
import Verif.Props.RtensorA
import Verif.Props.RtensorAOps
import Verif.Props.RtensorAProd
import Verif.Props.RtensorAMem
import Verif.Props.Doubling
import Verif.Props.BGPack
import Verif.Props.GpuR
import Verif.Props.GpuS
import Verif.Props.GpuSlices
import Verif.Props.GpuT
import Verif.Props.GpuConv
import Verif.Props.GpuConvS
import Verif.Props.PoolMem
import Verif.Props.IntMem
import Verif.Props.GpuEin
import Verif.Props.Devices
import Verif.Props.Cublas
import Verif.Props.Cublas2
import Verif.Props.CublasA
import Verif.Props.CtensorA
import Verif.Props.CtensorAOps
import Verif.Props.CellMaps
import Verif.Props.CellMapsGpu
import Verif.Props.CtensorACols
import Verif.Props.Batched
import Verif.Props.CublasC
import Verif.Props.RtensorArrayA
import Verif.Props.RtensorArrayA2
import Verif.Props.RtensorArrayA3
import Verif.Props.RtensorArrayA4
import Verif.Props.RtensorArrayA5
import Verif.Props.TVMore
import Verif.Props.Unitary
import Verif.Props.TVNorms
import Verif.Props.GpuC
import Verif.Props.GpuAcc
import Verif.Props.GdimsMore
import Verif.Props.BsmGpu
import Verif.Props.CtensorArrayA
import Verif.Props.CtensorArrayA2
import Verif.Props.CtensorArrayA3
import Verif.Props.TensorPack
import Verif.Props.TensorPack2
import Verif.Props.TensorPack3
import Verif.Props.Interpol
import Verif.Props.Interpol3
import Verif.Props.InterpolSphere
import Verif.Props.CtensorB
import Verif.Props.CtensorB2
import Verif.Props.Scalar
import Verif.Props.ScalarGrad
import Verif.Props.SparseTensor
import Verif.Props.CtensorArrayB
import Verif.Props.CtensorArrayB2
import Verif.Props.Minivec
import Verif.Props.Monitored
import Verif.Props.GPUbuffer
import Verif.Props.Iview
import Verif.Props.Iview3
import Verif.Props.IntPoolMem
import Verif.Props.Pvector
import Verif.Props.FratReal
import Verif.Props.Iview1
import Verif.Props.VecHelpers
import Verif.Props.TreeMem
import Verif.Props.IMapMove
