import Verif.Model.PivotedCholesky

/-! `/repo/ccpy/cholesky/cholesky.py`, `cholesky_eri_from_pyscf`, lines 181–301.  Real numbers stand for floating-point numbers.  The
integrals come from a library that returns blocks of them by shells of basis functions. -/

namespace Ccpy.ShellCholesky
open Ccpy.PivotedCholesky (argmax)

/-- What the function asks of the molecule: `mol.nbas` shells, each with `mol.bas_angular(i)` and `mol.bas_nctr(i)`, and all integrals
`(pq|rs)` over basis functions. -/
structure Mol where
  nbas : ℕ
  angular : ℕ → ℕ
  nctr : ℕ → ℕ
  eri : ℕ → ℕ → ℕ → ℕ → ℝ

/-- `mol.nao_nr()` is an integer of python or of NumPy, depending on the version of the library.  The difference matters on line 214. -/
inductive Flavour
  | python
  | numpy

/-- `message % n` for an integer `n`, line 214.  A `%` with no conversion for its argument is a `TypeError` (`none`), unless the argument
has the method `__getitem__`, as integers of NumPy do: then it is taken for a dictionary that need not be used up.  A message with
a conversion is returned as it is. -/
def percent (message : List Char) (k : Flavour) : Option (List Char) :=
  if '%' ∈ message then some message
  else match k with
    | .python => none
    | .numpy => some message

namespace Mol
variable (mol : Mol)

/-- The list `dims`, lines 225-231: `dims[i]` is the first basis function of shell `i`. -/
def dims : ℕ → ℕ
  | 0 => 0
  | i + 1 => dims i + (2 * mol.angular i + 1) * mol.nctr i

/-- `mol.nao_nr()`, line 209, for spherical basis functions. -/
def nao : ℕ := mol.dims mol.nbas

/-- `mol.intor('int2e_sph', shls_slice=(i0, i1, j0, j1, k0, k1, l0, l1))[a, b, c, d]`, lines 234, 250: the block of the integrals that
begins with the shells `i0`, `j0`, `k0`, `l0`. -/
def intor (i0 j0 k0 l0 : ℕ) (a b c d : ℕ) : ℝ :=
  mol.eri (mol.dims i0 + a) (mol.dims j0 + b) (mol.dims k0 + c) (mol.dims l0 + d)

/-- One pass of the loop over shells, lines 233-237; the diagonal of the square array `buf.reshape(di * nao, di * nao)` has the elements
`buf[r // nao, r % nao, r // nao, r % nao]`. -/
noncomputable def diagStep (s : ℕ × (ℕ → ℝ)) (i : ℕ) : ℕ × (ℕ → ℝ) :=
  let ndiag := s.1
  let di := (2 * mol.angular i + 1) * mol.nctr i
  (ndiag + di * mol.nao,
   fun r => if ndiag ≤ r ∧ r < ndiag + di * mol.nao then
      mol.intor i 0 i 0 ((r - ndiag) / mol.nao) ((r - ndiag) % mol.nao) ((r - ndiag) / mol.nao) ((r - ndiag) % mol.nao)
    else s.2 r)

/-- The array `diag`, lines 210, 232-237. -/
noncomputable def diag : ℕ → ℝ := ((List.range mol.nbas).foldl mol.diagStep (0, fun _ => 0)).2

/-- `np.searchsorted(dims, j)`, lines 242, 273: the number of elements less than `j`. -/
def searchsorted (j : ℕ) : ℕ := ((List.range (mol.nbas + 1)).filter fun t => mol.dims t < j).length

/-- The shell of a basis function, lines 242-247 and 273-278. -/
def shell (j : ℕ) : ℕ :=
  let sj := mol.searchsorted j
  if mol.dims sj ≠ j ∧ j ≠ 0 then sj - 1 else sj

/-- The column of the integrals for the pair `nu` of basis functions, lines 240-252 and 270-283. -/
noncomputable def column (nu r : ℕ) : ℝ :=
  let j := nu / mol.nao
  let l := nu % mol.nao
  let sj := mol.shell j
  let sl := mol.shell l
  let cj := max (j - mol.dims sj) 0
  let cl := max (l - mol.dims sl) 0
  mol.intor 0 0 sj sl (r / mol.nao) (r % mol.nao) cj cl

end Mol

/-- The arrays and numbers of the loop. -/
structure State where
  vecs : ℕ → ℕ → ℝ
  mapprox : ℕ → ℝ
  nchol : ℕ
  deltaMax : ℝ

/-- Lines 238-254. -/
noncomputable def start (mol : Mol) : State :=
  let nu := argmax mol.diag (mol.nao * mol.nao - 1)
  let deltaMax := mol.diag nu
  { vecs := Function.update (fun _ _ => 0) 0 fun r => mol.column nu r / Real.sqrt deltaMax
    mapprox := fun _ => 0
    nchol := 0
    deltaMax := deltaMax }

/-- One pass of the loop, lines 259-287.  (The new vector is not a number when `deltaMax` is zero; the loop then ends and leaves the
vector out.) -/
noncomputable def step (mol : Mol) (s : State) : State :=
  let mapprox := fun r => s.mapprox r + s.vecs s.nchol r * s.vecs s.nchol r
  let delta := fun r => mol.diag r - mapprox r
  let nu := argmax (fun r => |delta r|) (mol.nao * mol.nao - 1)
  let deltaMax := |delta nu|
  let R := fun r => ∑ x ∈ Finset.range (s.nchol + 1), s.vecs x nu * s.vecs x r
  { vecs := Function.update s.vecs (s.nchol + 1) fun r => (mol.column nu r - R r) / Real.sqrt deltaMax
    mapprox := mapprox
    nchol := s.nchol + 1
    deltaMax := deltaMax }

/-- The loop, lines 255-289, with room for `room` more vectors in the array; `none` is the `IndexError` of line 286 when there is none. -/
noncomputable def loop (mol : Mol) (tol : ℝ) : ℕ → State → Option State
  | 0, s => if tol < |s.deltaMax| then none else some s
  | room + 1, s => if tol < |s.deltaMax| then loop mol tol room (step mol s) else some s

/-- Lines 222-291: the number of vectors, and the vectors `chol_vecs[x, p, q]`.  No room for the first vector is an `IndexError`, and no basis
function a `ValueError` of `np.argmax`. -/
noncomputable def decompose (mol : Mol) (tol : ℝ) (ncholMax : ℕ) : Option (ℕ × (ℕ → ℕ → ℕ → ℝ)) :=
  if mol.nao = 0 ∨ ncholMax = 0 then none
  else (loop mol tol (ncholMax - 1) (start mol)).map fun s => (s.nchol, fun x p q => s.vecs x (p * mol.nao + q))

/-- `cholesky_eri_from_pyscf(mol, tol, cmax=cmax)`, lines 181-301. -/
noncomputable def choleskyEri (mol : Mol) (k : Flavour) (tol : ℝ) (cmax : ℕ) : Option (ℕ × (ℕ → ℕ → ℕ → ℝ)) :=
  (percent "Generating Cholesky decomposition of ERI".toList k).bind fun _ => decompose mol tol (cmax * mol.nao)

end Ccpy.ShellCholesky
