import Verif.Model.Mat
/-!
src/graph.rs. Every `while` loop takes the number of rounds it may run (`fuel`) as an argument; theorems give a
bound that is always enough. Sections of a function that are used twice, or are loops of their own, are separate
definitions citing their lines.
-/
namespace Sparse

section
variable {T : Type}

/-- src/graph.rs:9-19 -/
inductive Connection where
  | weak | strong
  deriving DecidableEq, Repr

/-- src/graph.rs:106-111 -/
inductive Node where
  | label (l : Nat)
  | void
  | fin
  deriving DecidableEq, Repr

/-- src/graph.rs:113-121 (`fin` is `Node::End`) -/
def Node.unwrap : Node → M Nat
  | .label l => pure l
  | .void => throw (.panic .unwrap)
  | .fin => throw (.panic .unwrap)

/-- src/graph.rs:123-137: `self < other` -/
def Node.lt : Node → Node → Bool
  | .label a, .label b => decide (a < b)
  | .label _, .void => false
  | .label _, .fin => false
  | .void, .label _ => true
  | .void, .void => false
  | .void, .fin => false
  | .fin, .label _ => true
  | .fin, .void => true
  | .fin, .fin => false

/-- src/graph.rs:123-137: `self <= other` -/
def Node.le : Node → Node → Bool
  | .label a, .label b => decide (a ≤ b)
  | .label _, .void => false
  | .label _, .fin => false
  | .void, .label _ => true
  | .void, .void => true
  | .void, .fin => false
  | .fin, .label _ => true
  | .fin, .void => true
  | .fin, .fin => true

/-- src/graph.rs:185-208 (the loop that adds the successors of `v`): returns `ss`, `stack_b`, `stack_head` -/
def scc_push (v : Nat) (indices indptr : List Int) (labels ss0 stack_b0 : List Node) (stack_head0 : Node) :
    M (List Node × List Node × Node) := do
  let mut ss := ss0
  let mut stack_b := stack_b0
  let mut stack_head := stack_head0
  let start ← toUsize (← indptr.rd v)
  let stop ← toUsize (← indptr.rd (v + 1))
  for j in rng start stop do
    let w ← toUsize (← indices.rd j)
    if (← labels.rd w) = .void then
      if (← ss.rd w) ≠ .void then
        let f ← ss.rd w
        let b ← stack_b.rd w
        if b ≠ .fin then
          ss ← ss.wr (← b.unwrap) f
        if f ≠ .fin then
          stack_b ← stack_b.wr (← f.unwrap) b
      ss ← ss.wr w stack_head
      stack_b ← stack_b.wr w .fin
      stack_b ← stack_b.wr (← stack_head.unwrap) (.label w)
      stack_head := .label w
  return (ss, stack_b, stack_head)

/-- src/graph.rs:218-226 (the loop that computes the lowlink of `v`): returns `root`, `low_v` -/
def scc_low (v : Nat) (indices indptr : List Int) (labels : List Node) : M (Bool × Node) := do
  let mut root := true
  let mut low_v ← labels.rd v
  let start ← toUsize (← indptr.rd v)
  let stop ← toUsize (← indptr.rd (v + 1))
  for j in rng start stop do
    let low_w ← labels.rd (← toUsize (← indices.rd j))
    if low_w.lt low_v then
      low_v := low_w
      root := false
  return (root, low_v)

/-- src/graph.rs:232-243 (the loop that pops a component): returns `labels`, `ss`, `ss_head`, `index` -/
def scc_pop (fuel v : Nat) (label : Node) (labels0 ss0 : List Node) (ss_head0 : Node) (index0 : Nat) :
    M (List Node × List Node × Node × Nat) :=
  whileM fuel (labels0, ss0, ss_head0, index0) fun (labels, ss, ss_head, index) => do
    if ss_head = .fin then
      return .done (labels, ss, ss_head, index)
    let a ← labels.rd v
    let b ← labels.rd (← ss_head.unwrap)
    if a.le b = false then
      return .done (labels, ss, ss_head, index)
    let w ← ss_head.unwrap
    let ss_head' ← ss.rd w
    let ss' ← ss.wr w .void
    let labels' ← labels.wr w label
    let index' ← usub index 1
    return .yield (labels', ss', ss_head', index')

/-- src/graph.rs:246-258 -/
def scc_next : Node → M Node
  | .label l => pure (if l = 0 then .void else .label (l - 1))
  | .void => pure .fin
  | .fin => throw (.panic .unreachable)

/-- the mutable variables of `connected_components_directed` -/
structure Scc where
  labels : List Node
  ss : List Node
  stack_b : List Node
  ss_head : Node
  index : Nat
  label : Node
  deriving DecidableEq

/-- src/graph.rs:179-265 (one round of the loop over the DFS stack): the new state and `stack_head` -/
def scc_step (fuel : Nat) (indices indptr : List Int) (s : Scc) (stack_head : Node) : M (Scc × Node) := do
  let v ← stack_head.unwrap
  if (← s.labels.rd v) = .void then
    let labels ← s.labels.wr v (.label s.index)
    let (ss, stack_b, stack_head') ← scc_push v indices indptr labels s.ss s.stack_b stack_head
    return ({ s with labels, ss, stack_b, index := s.index + 1 }, stack_head')
  else
    let stack_head' ← s.ss.rd v
    let mut stack_b := s.stack_b
    if stack_head' ≠ .void ∧ stack_head' ≠ .fin then
      stack_b ← stack_b.wr (← stack_head'.unwrap) .fin
    let ss ← s.ss.wr v .void
    stack_b ← stack_b.wr v .void
    let (root, low_v) ← scc_low v indices indptr s.labels
    let labels ← s.labels.wr v low_v
    if root then
      let index ← usub s.index 1
      let (labels, ss, ss_head, index) ← scc_pop fuel v s.label labels ss s.ss_head index
      let labels ← labels.wr v s.label
      let label ← scc_next s.label
      return ({ labels, ss, stack_b, ss_head, index, label }, stack_head')
    else
      let ss ← ss.wr v s.ss_head
      return ({ s with labels, ss, stack_b, ss_head := .label v }, stack_head')

/-- src/graph.rs:152-279 -/
def connected_components_directed (fuel n : Nat) (indices indptr : List Int) : M (Nat × List Nat) := do
  let mut s : Scc := ⟨List.replicate n .void, List.replicate n .void, List.replicate n .void, .fin, 0, .label (← usub n 1)⟩
  for v in rng 0 n do
    if (← s.labels.rd v) = .void then
      let ss ← s.ss.wr v .fin
      let stack_b ← s.stack_b.wr v .fin
      let r ← whileM fuel (({ s with ss, stack_b } : Scc), Node.label v) fun (s, stack_head) => do
        if stack_head = .fin then
          return .done (s, stack_head)
        let r ← scc_step fuel indices indptr s stack_head
        return .yield r
      s := r.1
  let count ← match s.label with
    | .label l => do usub (← usub n 1) l
    | _ => pure n
  let mut out : List Nat := []
  for l in s.labels do
    out := out ++ [← usub (← usub n 1) (← l.unwrap)]
  return (count, out)

/-- src/graph.rs:315-321 and 322-328 (pushing the unseen neighbours of `v`): returns `labels`, `ss_head` -/
def cc_push (v : Nat) (indices indptr : List Int) (labels0 : List Node) (ss_head0 : Node) : M (List Node × Node) := do
  let mut labels := labels0
  let mut ss_head := ss_head0
  let start ← toUsize (← indptr.rd v)
  let stop ← toUsize (← indptr.rd (v + 1))
  for j in rng start stop do
    let w ← toUsize (← indices.rd j)
    if (← labels.rd w) = .void then
      labels ← labels.wr w ss_head
      ss_head := .label w
  return (labels, ss_head)

/-- src/graph.rs:289-335 -/
def connected_components_undirected (fuel n : Nat) (indices1 indptr1 indices2 indptr2 : List Int) : M (Nat × List Nat) := do
  let mut labels := List.replicate n Node.void
  let mut label := 0
  for v in rng 0 n do
    if (← labels.rd v) = .void then
      labels ← labels.wr v .fin
      let r ← whileM fuel (labels, Node.label v) fun (labels, ss_head) => do
        if ss_head = .fin then
          return .done (labels, ss_head)
        let v ← ss_head.unwrap
        let ss_head ← labels.rd v
        let labels ← labels.wr v (.label label)
        let (labels, ss_head) ← cc_push v indices1 indptr1 labels ss_head
        let (labels, ss_head) ← cc_push v indices2 indptr2 labels ss_head
        return .yield (labels, ss_head)
      labels := r.1
      label := label + 1
  let mut out : List Nat := []
  for l in labels do
    out := out ++ [← l.unwrap]
  return (label, out)

/-- src/graph.rs:608-613 -/
def validate_graph (g : CSR T) : M Unit :=
  if g.rows ≠ g.cols then throw .err else pure ()

/-- src/graph.rs:60-88 -/
def connected_components [Zero T] (t : IdxTy) (fuel : Nat) (g : CSR T) (directed0 : Bool) (connection : Connection) :
    M (Nat × List Nat) := do
  let mut directed := directed0
  if connection = .weak then
    directed := false
  validate_graph g
  let n := g.cols
  if directed then
    connected_components_directed fuel n g.colidx g.rowptr
  else
    let gt ← (← g.transpose).to_csr t
    connected_components_undirected fuel n g.colidx g.rowptr gt.colidx gt.rowptr

/-- src/graph.rs:363-370 (finding a seed): returns `ii` -/
def csg_seed (fuel n_nod : Nat) (ft : IdxTy) (flag : List Int) : M Nat :=
  whileM fuel 0 fun ii => do
    let x ← flag.rd ii
    let stop ← if x ≥ 0 then pure false else do pure (decide (x ≠ (← ft.ofInt (-2))))
    if stop then
      return .done ii
    let ii := ii + 1
    if ii ≥ n_nod then
      throw .err
    return .yield ii

/-- src/graph.rs:380-396 (one round of the breadth-first search over the nodes at positions `n_pos0 .. n_pos`):
returns `flag`, `pos`, `n_pos_new`, `n_new` -/
def csg_round (ft : IdxTy) (icomp : Nat) (a_p a_j : List Int) (n_pos0 n_pos : Nat) (flag0 pos0 : List Int) (n_pos_new0 : Nat) :
    M (List Int × List Int × Nat × Nat) := do
  let mut flag := flag0
  let mut pos := pos0
  let mut n_pos_new := n_pos_new0
  let mut n_new : Nat := 0
  for ir in rng n_pos0 n_pos do
    let pos_ir ← toUsize (← pos.rd ir)
    let start ← toUsize (← a_p.rd pos_ir)
    let stop ← toUsize (← a_p.rd (pos_ir + 1))
    for ic in rng start stop do
      let aj_ic ← toUsize (← a_j.rd ic)
      if (← flag.rd aj_ic) = (← ft.ofInt (-1)) then
        flag ← flag.wr aj_ic (← ft.ofUsize icomp)
        pos ← pos.wr n_pos_new (← a_j.rd ic)
        n_pos_new := n_pos_new + 1
        n_new := n_new + 1
  return (flag, pos, n_pos_new, n_new)

/-- src/graph.rs:374-402 (the breadth-first search from the seed): returns `flag`, `pos`, `n_pos` -/
def csg_search (ft : IdxTy) (n_nod icomp : Nat) (a_p a_j : List Int) (flag0 pos0 : List Int) :
    M (List Int × List Int × Nat) := do
  let mut flag := flag0
  let mut pos := pos0
  let mut n_pos0 : Nat := 0
  let mut n_pos : Nat := 1
  let mut n_pos_new : Nat := 1
  for _ii in rng 0 n_nod do
    let (flag', pos', n_pos_new', n_new) ← csg_round ft icomp a_p a_j n_pos0 n_pos flag pos n_pos_new
    flag := flag'
    pos := pos'
    n_pos_new := n_pos_new'
    n_pos0 := n_pos
    n_pos := n_pos_new
    if n_new = 0 then
      break
  return (flag, pos, n_pos)

/-- src/graph.rs:340-412: the returned number of components and the final `flag` -/
def cs_graph_components (t ft : IdxTy) (fuel n_nod : Nat) (a_p a_j : List Int) (flag0 : List Int) : M (Int × List Int) := do
  let mut flag := flag0
  let mut pos : List Int := List.replicate n_nod 1
  let mut n_comp : Int := 0
  let mut n_stop := n_nod
  for ir in rng 0 n_nod do
    flag ← flag.wr ir (← ft.ofInt (-1))
    if (← a_p.rd (ir + 1)) = (← a_p.rd ir) then
      n_stop ← usub n_stop 1
      flag ← flag.wr ir (← ft.ofInt (-2))
  let mut n_tot : Nat := 0
  for icomp in rng 0 n_nod do
    let ii ← csg_seed fuel n_nod ft flag
    flag ← flag.wr ii (← ft.ofUsize icomp)
    pos ← pos.wr 0 (← t.ofUsize ii)
    let (flag', pos', n_pos) ← csg_search ft n_nod icomp a_p a_j flag pos
    flag := flag'
    pos := pos'
    n_tot := n_tot + n_pos
    if n_tot = n_stop then
      n_comp ← t.ofUsize (icomp + 1)
      break
  return (n_comp, flag)

/-- src/csr/csr.rs:434-447 -/
def CSR.connected_components (t ft : IdxTy) (fuel : Nat) (a : CSR T) : M (Int × List Int) := do
  if a.cols ≠ a.rows then
    throw .err
  let n := a.rows
  cs_graph_components t ft fuel n a.rowptr a.colidx (List.replicate n 0)

/-- the mutable variables of `depth_first_directed` and `depth_first_undirected` -/
structure Dfs where
  node_list : List Nat
  predecessors : List (Option Nat)
  root_list : List Nat
  flag : List Bool
  i_root : Int
  i_nl_end : Nat
  deriving DecidableEq

/-- src/graph.rs:509-524, 561-577 and 580-594 (looking for an unvisited neighbour of `pnode`): the new state and
`no_children`. `i_root as usize` is `Int.toNat`; `i_root` is not negative there. -/
def dfs_child (pnode : Nat) (indices indptr : List Int) (s0 : Dfs) : M (Dfs × Bool) := do
  let mut s := s0
  let mut no_children := true
  let start ← toUsize (← indptr.rd pnode)
  let stop ← toUsize (← indptr.rd (pnode + 1))
  for i in rng start stop do
    let cnode ← toUsize (← indices.rd i)
    if (← s.flag.rd cnode) then
      continue
    else
      let i_root := s.i_root + 1
      let root_list ← s.root_list.wr i_root.toNat cnode
      let node_list ← s.node_list.wr s.i_nl_end cnode
      let predecessors ← s.predecessors.wr cnode (some pnode)
      let flag ← s.flag.wr cnode true
      s := { node_list, predecessors, root_list, flag, i_root, i_nl_end := s.i_nl_end + 1 }
      no_children := false
      break
  return (s, no_children)

/-- src/graph.rs:495-505 and 546-557: the state before the loop -/
def dfs_init (head_node : Nat) (node_list0 : List Nat) (predecessors : List (Option Nat)) : M Dfs := do
  let n := node_list0.length
  let root_list := List.replicate n 0
  let flag := List.replicate n false
  let node_list ← node_list0.wr 0 head_node
  let root_list ← root_list.wr 0 head_node
  let flag ← flag.wr head_node true
  return { node_list, predecessors, root_list, flag, i_root := 0, i_nl_end := 1 }

/-- src/graph.rs:487-535: `node_list`, `predecessors` and the returned length -/
def depth_first_directed (fuel head_node : Nat) (indices indptr : List Int) (node_list : List Nat)
    (predecessors : List (Option Nat)) : M (List Nat × List (Option Nat) × Nat) := do
  let n := node_list.length
  let s ← dfs_init head_node node_list predecessors
  let s ← whileM fuel s fun s => do
    if s.i_root < 0 then
      return .done s
    let pnode ← s.root_list.rd s.i_root.toNat
    let (s, no_children) ← dfs_child pnode indices indptr s
    if s.i_nl_end = n then
      return .done s
    if no_children then
      return .yield { s with i_root := s.i_root - 1 }
    return .yield s
  return (s.node_list, s.predecessors, s.i_nl_end)

/-- src/graph.rs:537-606: `node_list`, `predecessors` and the returned length -/
def depth_first_undirected (fuel head_node : Nat) (indices1 indptr1 indices2 indptr2 : List Int) (node_list : List Nat)
    (predecessors : List (Option Nat)) : M (List Nat × List (Option Nat) × Nat) := do
  let n := node_list.length
  let s ← dfs_init head_node node_list predecessors
  let s ← whileM fuel s fun s => do
    if s.i_root < 0 then
      return .done s
    let pnode ← s.root_list.rd s.i_root.toNat
    let (s, no_children) ← dfs_child pnode indices1 indptr1 s
    let (s, no_children) ← if no_children then dfs_child pnode indices2 indptr2 s else pure (s, no_children)
    if s.i_nl_end = n then
      return .done s
    if no_children then
      return .yield { s with i_root := s.i_root - 1 }
    return .yield s
  return (s.node_list, s.predecessors, s.i_nl_end)

/-- src/graph.rs:452-485 -/
def depth_first_order [Zero T] (t : IdxTy) (fuel : Nat) (g : CSR T) (i_start : Nat) (directed : Bool) :
    M (List Nat × List (Option Nat)) := do
  validate_graph g
  let n := g.cols
  let node_list := List.replicate n 0
  let predecessors := List.replicate n none
  let (node_list, predecessors, length) ←
    if directed then
      depth_first_directed fuel i_start g.colidx g.rowptr node_list predecessors
    else do
      let gt ← (← g.transpose).to_csr t
      depth_first_undirected fuel i_start g.colidx g.rowptr gt.colidx gt.rowptr node_list predecessors
  return (← node_list.slice 0 length, predecessors)

end
end Sparse
