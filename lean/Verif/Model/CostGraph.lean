import Verif.Model.Cost
/-!
The searches of src/graph.rs with a counter, as in `Verif.Model.Cost`: a step is an array access, a round of a loop, or an element
written by an allocation. Each definition is the one of the same name in `Verif.Model.Graph` with the counter added.
-/
namespace Sparse
open MT
section
variable {T : Type}

/-- src/graph.rs:315-321 and 322-328 -/
def cc_pushT (v : Nat) (indices indptr : List Int) (labels0 : List Node) (ss_head0 : Node) : MT (List Node × Node) := do
  let mut labels := labels0
  let mut ss_head := ss_head0
  let start ← toUsize (← indptr.rdT v)
  let stop ← toUsize (← indptr.rdT (v + 1))
  for j in rng start stop do
    tick
    let w ← toUsize (← indices.rdT j)
    if (← labels.rdT w) = .void then
      labels ← labels.wrT w ss_head
      ss_head := .label w
  return (labels, ss_head)

/-- src/graph.rs:289-335 (each `push` of the final conversion of the labels is a step) -/
def connected_components_undirectedT (fuel n : Nat) (indices1 indptr1 indices2 indptr2 : List Int) : MT (Nat × List Nat) := do
  let mut labels ← vecT n Node.void
  let mut label := 0
  for v in rng 0 n do
    tick
    if (← labels.rdT v) = .void then
      labels ← labels.wrT v .fin
      let r ← whileT fuel (labels, Node.label v) fun (labels, ss_head) => do
        if ss_head = .fin then
          return .done (labels, ss_head)
        let v ← ss_head.unwrap
        let ss_head ← labels.rdT v
        let labels ← labels.wrT v (.label label)
        let (labels, ss_head) ← cc_pushT v indices1 indptr1 labels ss_head
        let (labels, ss_head) ← cc_pushT v indices2 indptr2 labels ss_head
        return .yield (labels, ss_head)
      labels := r.1
      label := label + 1
  let mut out : List Nat := []
  for l in labels do
    tick
    out := out ++ [← l.unwrap]
    tick
  return (label, out)

/-- src/graph.rs:363-370 -/
def csg_seedT (fuel n_nod : Nat) (ft : IdxTy) (flag : List Int) : MT Nat :=
  whileT fuel 0 fun ii => do
    let x ← flag.rdT ii
    let stop ← if x ≥ 0 then pure false else do pure (decide (x ≠ (← ft.ofInt (-2))))
    if stop then
      return .done ii
    let ii := ii + 1
    if ii ≥ n_nod then
      let _ ← (throw .err : M Unit)
    return .yield ii

/-- src/graph.rs:380-396 -/
def csg_roundT (ft : IdxTy) (icomp : Nat) (a_p a_j : List Int) (n_pos0 n_pos : Nat) (flag0 pos0 : List Int) (n_pos_new0 : Nat) :
    MT (List Int × List Int × Nat × Nat) := do
  let mut flag := flag0
  let mut pos := pos0
  let mut n_pos_new := n_pos_new0
  let mut n_new : Nat := 0
  for ir in rng n_pos0 n_pos do
    tick
    let pos_ir ← toUsize (← pos.rdT ir)
    let start ← toUsize (← a_p.rdT pos_ir)
    let stop ← toUsize (← a_p.rdT (pos_ir + 1))
    for ic in rng start stop do
      tick
      let aj_ic ← toUsize (← a_j.rdT ic)
      if (← flag.rdT aj_ic) = (← ft.ofInt (-1)) then
        flag ← flag.wrT aj_ic (← ft.ofUsize icomp)
        pos ← pos.wrT n_pos_new (← a_j.rdT ic)
        n_pos_new := n_pos_new + 1
        n_new := n_new + 1
  return (flag, pos, n_pos_new, n_new)

/-- src/graph.rs:374-402 -/
def csg_searchT (ft : IdxTy) (n_nod icomp : Nat) (a_p a_j : List Int) (flag0 pos0 : List Int) :
    MT (List Int × List Int × Nat) := do
  let mut flag := flag0
  let mut pos := pos0
  let mut n_pos0 : Nat := 0
  let mut n_pos : Nat := 1
  let mut n_pos_new : Nat := 1
  for _ii in rng 0 n_nod do
    tick
    let (flag', pos', n_pos_new', n_new) ← csg_roundT ft icomp a_p a_j n_pos0 n_pos flag pos n_pos_new
    flag := flag'
    pos := pos'
    n_pos_new := n_pos_new'
    n_pos0 := n_pos
    n_pos := n_pos_new
    if n_new = 0 then
      break
  return (flag, pos, n_pos)

/-- src/graph.rs:340-412 -/
def cs_graph_componentsT (t ft : IdxTy) (fuel n_nod : Nat) (a_p a_j : List Int) (flag0 : List Int) : MT (Int × List Int) := do
  let mut flag := flag0
  let mut pos ← vecT n_nod (1 : Int)
  let mut n_comp : Int := 0
  let mut n_stop := n_nod
  for ir in rng 0 n_nod do
    tick
    flag ← flag.wrT ir (← ft.ofInt (-1))
    if (← a_p.rdT (ir + 1)) = (← a_p.rdT ir) then
      n_stop ← usub n_stop 1
      flag ← flag.wrT ir (← ft.ofInt (-2))
  let mut n_tot : Nat := 0
  for icomp in rng 0 n_nod do
    tick
    let ii ← csg_seedT fuel n_nod ft flag
    flag ← flag.wrT ii (← ft.ofUsize icomp)
    pos ← pos.wrT 0 (← t.ofUsize ii)
    let (flag', pos', n_pos) ← csg_searchT ft n_nod icomp a_p a_j flag pos
    flag := flag'
    pos := pos'
    n_tot := n_tot + n_pos
    if n_tot = n_stop then
      n_comp ← t.ofUsize (icomp + 1)
      break
  return (n_comp, flag)

/-- src/csr/csr.rs:434-447 -/
def CSR.connected_componentsT (t ft : IdxTy) (fuel : Nat) (a : CSR T) : MT (Int × List Int) := do
  if a.cols ≠ a.rows then
    let _ ← (throw .err : M Unit)
  let n := a.rows
  let flag ← vecT n (0 : Int)
  cs_graph_componentsT t ft fuel n a.rowptr a.colidx flag

/-- src/graph.rs:509-524, 561-577 and 580-594 -/
def dfs_childT (pnode : Nat) (indices indptr : List Int) (s0 : Dfs) : MT (Dfs × Bool) := do
  let mut s := s0
  let mut no_children := true
  let start ← toUsize (← indptr.rdT pnode)
  let stop ← toUsize (← indptr.rdT (pnode + 1))
  for i in rng start stop do
    tick
    let cnode ← toUsize (← indices.rdT i)
    if (← s.flag.rdT cnode) then
      continue
    else
      let i_root := s.i_root + 1
      let root_list ← s.root_list.wrT i_root.toNat cnode
      let node_list ← s.node_list.wrT s.i_nl_end cnode
      let predecessors ← s.predecessors.wrT cnode (some pnode)
      let flag ← s.flag.wrT cnode true
      s := { node_list, predecessors, root_list, flag, i_root, i_nl_end := s.i_nl_end + 1 }
      no_children := false
      break
  return (s, no_children)

/-- src/graph.rs:495-505 and 546-557 -/
def dfs_initT (head_node : Nat) (node_list0 : List Nat) (predecessors : List (Option Nat)) : MT Dfs := do
  let n := node_list0.length
  let root_list ← vecT n 0
  let flag ← vecT n false
  let node_list ← node_list0.wrT 0 head_node
  let root_list ← root_list.wrT 0 head_node
  let flag ← flag.wrT head_node true
  return { node_list, predecessors, root_list, flag, i_root := 0, i_nl_end := 1 }

/-- src/graph.rs:487-535 -/
def depth_first_directedT (fuel head_node : Nat) (indices indptr : List Int) (node_list : List Nat)
    (predecessors : List (Option Nat)) : MT (List Nat × List (Option Nat) × Nat) := do
  let n := node_list.length
  let s ← dfs_initT head_node node_list predecessors
  let s ← whileT fuel s fun s => do
    if s.i_root < 0 then
      return .done s
    let pnode ← s.root_list.rdT s.i_root.toNat
    let (s, no_children) ← dfs_childT pnode indices indptr s
    if s.i_nl_end = n then
      return .done s
    if no_children then
      return .yield { s with i_root := s.i_root - 1 }
    return .yield s
  return (s.node_list, s.predecessors, s.i_nl_end)

/-- src/graph.rs:537-606 -/
def depth_first_undirectedT (fuel head_node : Nat) (indices1 indptr1 indices2 indptr2 : List Int) (node_list : List Nat)
    (predecessors : List (Option Nat)) : MT (List Nat × List (Option Nat) × Nat) := do
  let n := node_list.length
  let s ← dfs_initT head_node node_list predecessors
  let s ← whileT fuel s fun s => do
    if s.i_root < 0 then
      return .done s
    let pnode ← s.root_list.rdT s.i_root.toNat
    let (s, no_children) ← dfs_childT pnode indices1 indptr1 s
    let (s, no_children) ← if no_children then dfs_childT pnode indices2 indptr2 s else pure (s, no_children)
    if s.i_nl_end = n then
      return .done s
    if no_children then
      return .yield { s with i_root := s.i_root - 1 }
    return .yield s
  return (s.node_list, s.predecessors, s.i_nl_end)

/-- src/csr/csr.rs:166-175 `t`: the three arrays are copied -/
def CSR.transposeGT (a : CSR T) : MT (CSC T) :=
  .lift (a.colidx.length + a.rowptr.length + a.values.length) a.transpose

/-- src/csc/csc.rs:463-491 -/
def CSC.to_csrGT [Zero T] (t : IdxTy) (a : CSC T) : MT (CSR T) := do
  let n1 ← a.nnz
  let n2 ← a.nnz
  let b_p ← vecT (a.rows + 1) (0 : Int)
  let b_j ← vecT n1 (0 : Int)
  let b_x ← vecT n2 (0 : T)
  let (rowptr, colidx, values) ← csr_tocscT t a.cols a.rows a.colptr a.rowidx a.values b_p b_j b_x
  (unwrapR (CSR.new a.rows a.cols rowptr colidx values) : M (CSR T))

/-- src/graph.rs:60-88 -/
def connected_componentsT [Zero T] (t : IdxTy) (fuel : Nat) (g : CSR T) (directed0 : Bool) (connection : Connection) :
    MT (Nat × List Nat) := do
  let mut directed := directed0
  if connection = .weak then
    directed := false
  validate_graph g
  let n := g.cols
  if directed then
    connected_components_directedT fuel n g.colidx g.rowptr
  else
    let gt ← (← g.transposeGT).to_csrGT t
    connected_components_undirectedT fuel n g.colidx g.rowptr gt.colidx gt.rowptr

/-- src/graph.rs:452-485 -/
def depth_first_orderT [Zero T] (t : IdxTy) (fuel : Nat) (g : CSR T) (i_start : Nat) (directed : Bool) :
    MT (List Nat × List (Option Nat)) := do
  validate_graph g
  let n := g.cols
  let node_list ← vecT n 0
  let predecessors ← vecT n none
  let (node_list, predecessors, length) ←
    if directed then
      depth_first_directedT fuel i_start g.colidx g.rowptr node_list predecessors
    else do
      let gt ← (← g.transposeGT).to_csrGT t
      depth_first_undirectedT fuel i_start g.colidx g.rowptr gt.colidx gt.rowptr node_list predecessors
  let nodes ← MT.lift length (node_list.slice 0 length)
  return (nodes, predecessors)

end
end Sparse
