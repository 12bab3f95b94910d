import Verif.Model.Dok
/-!
Model of the textual output: `to_string` of the four formats, src/csr/table.rs and `CSR::to_table`.
A `String` (or the `Vec<u8>` it is made from) is its list of characters. `Display` of an index is its decimal form;
`Display` and `pretty_string` of the scalar type are parameters.
-/
namespace Sparse

section
variable {T : Type}

/-- `format!("{}", n)` of an integer -/
def dec (z : Int) : List Char := (toString z).toList

/-- `format!("({}, {}) {}", i, j, v)` -/
def fmtEntry (disp : T → List Char) (i j : Int) (v : T) : List Char :=
  ['('] ++ dec i ++ [',', ' '] ++ dec j ++ [')', ' '] ++ disp v

/-- src/coo/coo.rs:374-386 -/
def Coo.to_string (disp : T → List Char) (a : Coo T) : M (List Char) := do
  let mut buf : List Char := []
  for i in rng 0 a.nnz do
    if !buf.isEmpty then
      buf := buf ++ ['\n']
    buf := buf ++ fmtEntry disp (← a.rowidx.rd i) (← a.colidx.rd i) (← a.values.rd i)
  return buf

/-- src/csr/csr.rs:450-472 -/
def CSR.to_string (disp : T → List Char) (a : CSR T) : M (List Char) := do
  let mut w : List Char := []
  for i in rng 0 a.rows do
    let start ← toUsize (← a.rowptr.rd i)
    let stop ← toUsize (← a.rowptr.rd (i + 1))
    for jj in rng start stop do
      w := w ++ fmtEntry disp i (← a.colidx.rd jj) (← a.values.rd jj) ++ ['\n']
  return w

/-- src/csc/csc.rs:535-551 -/
def CSC.to_string (disp : T → List Char) (a : CSC T) : M (List Char) := do
  let mut buf : List Char := []
  for j in rng 0 a.cols do
    let col_start ← toUsize (← a.colptr.rd j)
    let col_end ← toUsize (← a.colptr.rd (j + 1))
    for ii in rng col_start col_end do
      let i ← toUsize (← a.rowidx.rd ii)
      if !buf.isEmpty then
        buf := buf ++ ['\n']
      buf := buf ++ fmtEntry disp i j (← a.values.rd ii)
  return buf

/-- src/dok/dok.rs:127-136; `es` is the order in which the hash map enumerates its entries -/
def DoK.to_string (disp : T → List Char) (_d : DoK T) (es : KMap T) : M (List Char) := do
  let mut buf : List Char := []
  for e in es do
    if !buf.isEmpty then
      buf := buf ++ ['\n']
    buf := buf ++ fmtEntry disp e.1.1 e.1.2 e.2
  return buf

/-- src/csr/table.rs:26-32: the line of column numbers -/
def table_head (n_col : Nat) : M (List Char) := do
  let mut tw : List Char := ['\t']
  for c in rng 0 n_col do
    tw := tw ++ dec c ++ ['\t']
  return tw ++ ['\n']

/-- src/csr/table.rs:39-62: the cells of row `r`. A `HashMap` is an association list whose first match is the latest
insertion. -/
def table_row (pretty : T → List Char) (n_col : Nat) (a_p a_j : List Int) (a_x : List T) (r : Nat) (tw0 : List Char) :
    M (List Char) := do
  let mut tw := tw0
  let start ← toUsize (← a_p.rd r)
  let stop ← toUsize (← a_p.rd (r + 1))
  let mut nz_cols : List (Nat × Nat) := []
  for jj in rng start stop do
    nz_cols := ((← toUsize (← a_j.rd jj)), jj) :: nz_cols
  for c in rng 0 n_col do
    tw ← match nz_cols.lookup c with
      | none => pure (tw ++ ['-'])
      | some ii => do pure (tw ++ pretty (← a_x.rd ii))
    if c = (← usub n_col 1) then
      tw := tw ++ ['\t', '\n']
    else
      tw := tw ++ ['\t']
  return tw

/-- src/csr/table.rs:11-65. The result is the text handed to the `TabWriter`; how that crate turns tab-separated cells
into aligned columns is not modelled. `pretty` is `pretty_string` under the given configuration. -/
def csr_table (pretty : T → List Char) (n_row n_col : Nat) (a_p a_j : List Int) (a_x : List T) (label : Bool) :
    M (List Char) := do
  let mut tw : List Char ← if label then table_head n_col else pure []
  for r in rng 0 n_row do
    if label then
      tw := tw ++ dec r ++ ['\t']
    tw ← table_row pretty n_col a_p a_j a_x r tw
  return tw

/-- `str::trim_end_matches("\n")` -/
def trimEnd (s : List Char) : List Char := (s.reverse.dropWhile fun c => decide (c = '\n')).reverse

/-- src/csr/csr.rs:475-490; `layout` is the effect of the `TabWriter` on the text written to it -/
def CSR.to_table (pretty : T → List Char) (layout : List Char → List Char) (a : CSR T) : M (List Char) := do
  let w ← csr_table pretty a.rows a.cols a.rowptr a.colidx a.values false
  return trimEnd (layout w)

end
end Sparse
