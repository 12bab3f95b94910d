import Verif.Model.Mat
/-! Model of the complex views: src/traits.rs:30-71 (`Complex`), src/csr/ccsr.rs, src/csc/ccsc.rs, src/coo/ccoo.rs. -/
namespace Sparse

/-- `num_complex::Complex<F>`: the type implementing the trait `Complex<F>` (src/traits.rs:30-71) -/
structure Cx (F : Type) where
  re : F
  im : F
  deriving DecidableEq, Repr

section
variable {F : Type}

/-- src/traits.rs:42-44, 60-62: `num_complex` changes the sign of the imaginary part -/
def Cx.conj [Neg F] (z : Cx F) : Cx F := ⟨z.re, -z.im⟩

/-! ### CSR -/

/-- src/csr/ccsr.rs:21-30 -/
def CSR.with_real [Zero F] (re : CSR F) : M (CSR (Cx F)) :=
  unwrapR (CSR.new re.rows re.cols re.rowptr re.colidx (re.values.map fun v => ⟨v, 0⟩))

/-- src/csr/ccsr.rs:32-41 -/
def CSR.with_imag [Zero F] (im : CSR F) : M (CSR (Cx F)) :=
  unwrapR (CSR.new im.rows im.cols im.rowptr im.colidx (im.values.map fun v => ⟨0, v⟩))

/-- src/csr/ccsr.rs:43-52 -/
def CSR.conj [Neg F] (a : CSR (Cx F)) : M (CSR (Cx F)) :=
  unwrapR (CSR.new a.rows a.cols a.rowptr a.colidx (a.values.map fun d => d.conj))

/-- src/csr/ccsr.rs:54-63 -/
def CSR.real (a : CSR (Cx F)) : M (CSR F) :=
  unwrapR (CSR.new a.rows a.cols a.rowptr a.colidx (a.values.map fun d => d.re))

/-- src/csr/ccsr.rs:65-74 -/
def CSR.imag (a : CSR (Cx F)) : M (CSR F) :=
  unwrapR (CSR.new a.rows a.cols a.rowptr a.colidx (a.values.map fun d => d.im))

/-- src/csr/ccsr.rs:76-78 -/
def CSR.h [Neg F] (a : CSR (Cx F)) : M (CSC (Cx F)) := do
  (← a.conj).transpose

/-! ### CSC -/

/-- src/csc/ccsc.rs:19-28 -/
def CSC.conj [Neg F] (a : CSC (Cx F)) : M (CSC (Cx F)) :=
  unwrapR (CSC.new a.rows a.cols a.rowidx a.colptr (a.values.map fun d => d.conj))

/-- src/csc/ccsc.rs:30-39 -/
def CSC.real (a : CSC (Cx F)) : M (CSC F) :=
  unwrapR (CSC.new a.rows a.cols a.rowidx a.colptr (a.values.map fun d => d.re))

/-- src/csc/ccsc.rs:41-50 -/
def CSC.imag (a : CSC (Cx F)) : M (CSC F) :=
  unwrapR (CSC.new a.rows a.cols a.rowidx a.colptr (a.values.map fun d => d.im))

/-- src/csc/ccsc.rs:52-54 -/
def CSC.h [Neg F] (a : CSC (Cx F)) : M (CSR (Cx F)) := do
  (← a.conj).transpose

/-! ### Coo -/

/-- src/coo/ccoo.rs:18-27 -/
def Coo.conj [Neg F] (a : Coo (Cx F)) : M (Coo (Cx F)) :=
  unwrapR (Coo.new a.rows a.cols a.rowidx a.colidx (a.values.map fun d => d.conj))

/-- src/coo/ccoo.rs:29-38 -/
def Coo.real (a : Coo (Cx F)) : M (Coo F) :=
  unwrapR (Coo.new a.rows a.cols a.rowidx a.colidx (a.values.map fun d => d.re))

/-- src/coo/ccoo.rs:40-49 -/
def Coo.imag (a : Coo (Cx F)) : M (Coo F) :=
  unwrapR (Coo.new a.rows a.cols a.rowidx a.colidx (a.values.map fun d => d.im))

/-- src/coo/ccoo.rs:51-53 -/
def Coo.h [Neg F] (a : Coo (Cx F)) : M (Coo (Cx F)) := do
  return (← a.conj).transpose

end
end Sparse
