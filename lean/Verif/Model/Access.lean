import Verif.Model.Text
/-!
Model of `values_mut` and of `pretty_string`.

The accessors `rows`, `cols`, `shape`, `rowidx`, `colidx`, `rowptr`, `colptr`, `values` are the fields of the model's
structures (src/coo/coo.rs:183-205, src/csr/csr.rs:120-142, src/csc/csc.rs:104-135).
-/
namespace Sparse

section
variable {T : Type}

/-- src/coo/coo.rs:208-210: the matrix after the caller has written through the returned `&mut [T]`; `xs` is the
content the caller leaves in the slice, which has the length of the old one. -/
def Coo.values_mut (a : Coo T) (xs : List T) : Coo T := { a with values := xs }

/-- src/csr/csr.rs:145-147, as `Coo.values_mut` -/
def CSR.values_mut (a : CSR T) (xs : List T) : CSR T := { a with values := xs }

/-- src/csc/csc.rs:129-131, as `Coo.values_mut` -/
def CSC.values_mut (a : CSC T) (xs : List T) : CSC T := { a with values := xs }

/-- src/traits.rs:88-90: the default, used by the integer types; `disp` is `Display` -/
def pretty_int (disp : T → List Char) (v : T) : List Char := disp v

/-- src/traits.rs:93-102: `f64` and `f32`; `dtoa` is the external crate's formatter under the configuration -/
def pretty_float (dtoa : T → List Char) (v : T) : List Char := dtoa v

/-- src/traits.rs:104-127: complex numbers; `signNeg x` is `x.signum() < 0.0` -/
def pretty_complex (dtoa : T → List Char) (signNeg : T → Bool) (re im : T) : List Char :=
  dtoa re ++ (if signNeg im then ['-'] else ['+']) ++ ['j'] ++ dtoa im

end
end Sparse
