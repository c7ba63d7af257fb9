import Verif.Model.Assembly
import Verif.Model.Pattern
/-! # Model of the vectors of nodal values and the matrix files of `src/util.rs`

A text is a list of characters; `none` is a panic. Errors of the file system are left out. -/
set_option autoImplicit false

namespace Fenris.Dump
open Fenris.Assembly
variable {K : Type}

/-! ### Vectors of nodal values -/

/-- `global_vector_from_point_fn` (src/util.rs:816-829). The closure may change its state: its first argument numbers the calls. -/
def globalVectorLoop {P : Type} (s : Nat) (f : Nat → P → Fin s → K) : Nat → List P → List K → List K
  | _, [], result => result
  | i, p :: ps, result => globalVectorLoop s f (i + 1) ps (result ++ List.ofFn (f i p))

/-- src/util.rs:816-829. -/
def globalVectorFromPointFn {P : Type} (s : Nat) (points : List P) (f : Nat → P → Fin s → K) : List K :=
  globalVectorLoop s f 0 points []

/-- `v.rows_generic(start, s)`: `none` when the rows are out of range. -/
def rowsGeneric (v : List K) (start s : Nat) : Option (List K) :=
  if start + s ≤ v.length then some ((v.drop start).take s) else none

/-- `v.rows_generic_mut(start, s).copy_from(ui)`. -/
def writeRows (v : List K) (start : Nat) (ui : List K) : Option (List K) :=
  if start + ui.length ≤ v.length then some (v.take start ++ ui ++ v.drop (start + ui.length)) else none

/-- The loop of `extract_by_node_index` (src/util.rs:434-439). -/
def extractLoop (s : Nat) (u : List K) : Nat → List Nat → List K → Option (List K)
  | _, [], out => some out
  | iLocal, iGlobal :: rest, out =>
    (rowsGeneric u (s * iGlobal) s).bind fun ui => (writeRows out (s * iLocal) ui).bind fun out' => extractLoop s u (iLocal + 1) rest out'

/-- `extract_by_node_index` (src/util.rs:427-441). -/
def extractByNodeIndex [Zero K] (s : Nat) (u : List K) (nodes : List Nat) : Option (List K) :=
  extractLoop s u 0 nodes (List.replicate (s * nodes.length) 0)

/-! ### Files -/

/-- `Display` of `usize`: decimal digits. -/
def natText (n : Nat) : List Char := Nat.toDigits 10 n

/-- A row of `dump_matrix_to_file` (src/util.rs:335-340); `fmt` is `Display` of the scalars. Reading the first entry panics if there are no
columns. -/
def matrixRow (fmt : K → List Char) (ncols : Nat) (row : Nat → K) : Option (List Char) :=
  if 0 < ncols then some (fmt (row 0) ++ (List.range' 1 (ncols - 1)).flatMap (fun j => ' ' :: fmt (row j)) ++ ['\n']) else none

/-- `dump_matrix_to_file` (src/util.rs:327-345). -/
def dumpMatrix (fmt : K → List Char) (nrows ncols : Nat) (A : Nat → Nat → K) : Option (List Char) :=
  ((List.range nrows).mapM fun i => matrixRow fmt ncols (A i)).map List.flatten

/-- The entries of a row with the row's number, as `triplet_iter` of nalgebra-sparse goes through them. -/
def rowTriplets (i : Nat) (row : List Nat × List K) : List (Nat × Nat × K) := (row.1.zip row.2).map fun x => (i, x.1, x.2)

/-- `triplet_iter`: row after row. -/
def tripletsFrom : Nat → List (List Nat × List K) → List (Nat × Nat × K)
  | _, [] => []
  | i, row :: rows => rowTriplets i row ++ tripletsFrom (i + 1) rows

/-- `nnz`. -/
def nnz (A : Csr K) : Nat := (A.rows.map fun row => row.2.length).sum

/-- src/util.rs:395. -/
def mmHeader : List Char := "%%MatrixMarket matrix coordinate real general".toList

/-- A line with an entry (src/util.rs:400-403); `fmt` is the format `{:.e}`. -/
def mmEntry (fmt : K → List Char) (x : Nat × Nat × K) : List Char :=
  natText (x.1 + 1) ++ ' ' :: (natText (x.2.1 + 1) ++ ' ' :: (fmt x.2.2 ++ ['\n']))

/-- `dump_csr_matrix_to_mm_file` (src/util.rs:387-407). -/
def dumpCsr (fmt : K → List Char) (A : Csr K) : List Char :=
  mmHeader ++ '\n' :: (natText A.rows.length ++ ' ' :: (natText A.ncols ++ ' ' :: (natText (nnz A) ++ '\n' ::
    (tripletsFrom 0 A.rows).flatMap (mmEntry fmt))))

/-- `CsrMatrix::try_from_pattern_and_values(pattern, vec![1.0; nnz])` (src/util.rs:363-364). -/
def onesCsr [One K] (p : CsrPattern) : Option (Csr K) :=
  ((List.range p.nrows).mapM p.lane).map fun lanes => ⟨p.ncols, lanes.map fun l => (l, List.replicate l.length 1)⟩

/-- `CooMatrix::push`: panics when row or column are out of range. -/
def cooPush (nrows ncols : Nat) (coo : List (Nat × Nat × K)) (x : Nat × Nat × K) : Option (List (Nat × Nat × K)) :=
  if x.1 < nrows ∧ x.2.1 < ncols then some (coo ++ [x]) else none

/-- Adding an entry to a row that is sorted by columns. -/
def addSorted [Add K] (j : Nat) (v : K) : List (Nat × K) → List (Nat × K)
  | [] => [(j, v)]
  | (c, w) :: rest => if j < c then (j, v) :: (c, w) :: rest else if j = c then (c, w + v) :: rest else (c, w) :: addSorted j v rest

/-- `CsrMatrix::from(&CooMatrix)` of nalgebra-sparse: in each row the columns are sorted and the values of equal columns are added. -/
def csrFromCoo [Add K] (nrows ncols : Nat) (coo : List (Nat × Nat × K)) : Csr K where
  ncols := ncols
  rows := (List.range nrows).map fun i =>
    ((coo.filter fun x => x.1 = i).foldl (fun row x => addSorted x.2.1 x.2.2 row) []).unzip

/-- The loop over the elements (src/util.rs:370-375). -/
def elementCoo [One K] (elements : List (List Nat)) (numVertices : Nat) : Option (List (Nat × Nat × K)) :=
  (elements.zipIdx.flatMap fun e => e.1.map fun j => (e.2, j, (1 : K))).foldlM (cooPush elements.length numVertices) []

/-- `dump_mesh_connectivity_matrices` (src/util.rs:349-380): the two files. The pattern is assembled in parallel; by C20 it is that of the serial
assembler. -/
def dumpConnectivity [One K] [Add K] (fmt : K → List Char) (ord : List Nat → List Nat) (elements : List (List Nat)) (numVertices : Nat) :
    Option (List Char × List Char) :=
  (assemblePattern ord ⟨1, numVertices, elements⟩).bind fun p =>
    (onesCsr (K := K) p).bind fun A =>
      (elementCoo (K := K) elements numVertices).map fun coo => (dumpCsr fmt A, dumpCsr fmt (csrFromCoo elements.length numVertices coo))

end Fenris.Dump
