import Verif.Model.Access
import Verif.SpecHistory
/-! In-place calls on a CSR or CSC matrix, one after the other. -/
namespace Sparse
section
variable {T : Type}

/-- src/csr/csr.rs:189-235 and 145-147: one call on a CSR matrix (`prune`, lines 217-235, is not public on CSR) -/
def CSR.call [Zero T] [Add T] (t : IdxTy) (a : CSR T) : InPlace T → M (CSR T)
  | .sort => a.sort_indexes
  | .merge => a.sum_duplicates t
  | .prune => a.prune
  | .write k v => do return a.values_mut (← a.values.wr k v)

/-- src/csc/csc.rs:194-237 and 129-131: one call on a CSC matrix -/
def CSC.call [Zero T] [Add T] (t : IdxTy) (a : CSC T) : InPlace T → M (CSC T)
  | .sort => a.sort_indexes
  | .merge => a.sum_duplicates t
  | .prune => a.prune
  | .write k v => do return a.values_mut (← a.values.wr k v)

end
end Sparse
