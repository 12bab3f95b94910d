import Verif.Base
import Verif.Model.Coord
import Verif.Model.Row
import Verif.Model.Col
import Verif.Model.Mat
import Verif.Spec
import Verif.Props.Convert
import Verif.Props.Dense
import Verif.Props.Basic
import Verif.Props.Assemble
import Verif.Props.FromDense
import Verif.Props.Elementwise
import Verif.Props.Product
import Verif.Props.Select
import Verif.Props.Dok
import Verif.Props.Graph
import Verif.Props.Scc
import Verif.Props.Complex
import Verif.Props.Text
import Verif.Props.Eigen
import Verif.Props.Expr
import Verif.Props.Widen
import Verif.Props.Exact
import Verif.Props.Moves
import Verif.Props.Order
import Verif.Props.Access
import Verif.Props.Diagram
import Verif.Props.Shapes
import Verif.Props.Threads
import Verif.Props.Build
import Verif.Props.Invalid
import Verif.Props.Crash
import Verif.Props.Release
import Verif.Props.Scalar
import Verif.Props.Wrap
import Verif.Props.Round
import Verif.SpecTyped
import Verif.Lemmas.Typed
import Verif.Lemmas.TypedGraph
import Verif.Lemmas.TypedExpr
import Verif.Props.Typed
import Verif.Model.Cost
import Verif.SpecCost
import Verif.Lemmas.Cost
import Verif.Lemmas.CostBound
import Verif.Lemmas.CostLower
import Verif.Lemmas.CostScc
import Verif.Props.Cost
import Verif.Model.CostGraph
import Verif.Lemmas.CostGraph
import Verif.Lemmas.CostBfs
import Verif.Props.CostGraph
import Verif.Model.CostMore
import Verif.Lemmas.CostMore
import Verif.Lemmas.CostMoreBound
import Verif.Props.CostMore
import Verif.Model.Usize
import Verif.SpecUsize
import Verif.Lemmas.Usize
import Verif.Props.Usize
import Verif.SpecParam
import Verif.Lemmas.Param
import Verif.Lemmas.ParamKernels
import Verif.Lemmas.ParamMat
import Verif.Lemmas.ParamExpr
import Verif.Props.Param
import Verif.SpecHistory
import Verif.Model.History
import Verif.Lemmas.History
import Verif.Props.History
import Verif.Model.CostMat
import Verif.Lemmas.CostMat
import Verif.Lemmas.CostMatBound
import Verif.Props.CostMat
import Verif.Props.Laws
import Verif.Props.Search
import Verif.Props.ReadBack
import Verif.Props.Backward
import Verif.Lemmas.Capacity
import Verif.Props.Capacity
import Verif.Props.Blocks
import Verif.Props.ComplexLaws
import Verif.Props.CostCoo
import Verif.Props.GraphLaws
import Verif.Props.DiagLaws
import Verif.Props.Powers
import Verif.Props.Boundary
import Verif.Props.ElementLaws
import Verif.Props.Relabel
import Verif.Props.Ways
import Verif.Props.Laplacian
import Verif.Props.LawsCsc
import Verif.Props.Gather
import Verif.Props.Mirror
import Verif.Props.Leftover
import Verif.Props.Markov
import Verif.Props.RoundProg
import Verif.Model.UsizeCsc
import Verif.Lemmas.UsizeCsc
import Verif.Props.UsizeCsc
import Verif.Props.ColumnLaws
import Verif.Props.Detours
import Verif.Props.DetourProg
import Verif.Props.RoundProgCsc
import Verif.Props.SccSafe
import Verif.Props.Band
import Verif.Props.Symmetric
import Verif.Props.SameBits
import Verif.Props.SameBitsProg
import Verif.Conformance
