import Mathlib.Algebra.BigOperators.Group.Finset.Basic
import Mathlib.Algebra.Field.Defs
import Mathlib.Algebra.Order.Group.Unbundled.Abs

/-! `transform_to_natorbs`, `/repo/ccpy/density/natural_orbitals.py:20-134`, for real numbers. The eigensolver `scipy.linalg.eig` and
`np.argsort` are arguments of the model. -/

namespace Ccpy.NatOrbs

variable {K : Type*}

/-- A matrix. -/
abbrev Mat (K : Type*) := ℕ → ℕ → K

/-- The blocks of a one-body array. -/
structure OneBody (K : Type*) where
  oo : Mat K
  ov : Mat K
  vo : Mat K
  vv : Mat K

/-- `rdm1a_matrix` and `rdm1b_matrix`, natural_orbitals.py:36-39. -/
def rdmSpin [Field K] (no : ℕ) (d : OneBody K) : Mat K := fun p q =>
  if p < no then if q < no then d.oo p q else d.ov p (q - no) * 0
  else if q < no then d.vo (p - no) q * 0 else d.vv (p - no) (q - no)

/-- `rdm_matrix`, natural_orbitals.py:40. -/
def rdmMatrix [Field K] (noa nob : ℕ) (a b : OneBody K) : Mat K := fun p q => rdmSpin noa a p q + rdmSpin nob b p q

/-- The lists `idx` of the orbitals of every irrep, natural_orbitals.py:47-51; `irr p` is the number of the irrep of orbital `p`. -/
def symIndex (n : ℕ) (irr : ℕ → ℕ) : ℕ → List ℕ :=
  (List.range n).foldl (fun idx p s => if s = irr p then idx s ++ [p] else idx s) fun _ => []

/-- The result `nval, left, right` of `eig`; the vectors are columns. -/
structure Eig (K : Type*) where
  vals : ℕ → K
  left : Mat K
  right : Mat K

/-- The arrays `nocc_vals`, `L` and `R`. -/
structure Orbs (K : Type*) where
  occ : ℕ → K
  left : Mat K
  right : Mat K

/-- `M[i, j] = x`, natural_orbitals.py:65-66. -/
def put (M : Mat K) (i j : ℕ) (x : K) : Mat K := fun p q => if p = i ∧ q = j then x else M p q

/-- `rdm_sym_block`, natural_orbitals.py:56-59. -/
def irrepBlock (n : ℕ) (irr : ℕ → ℕ) (rdm : Mat K) (sym : ℕ) : Mat K := fun p q =>
  rdm ((symIndex n irr sym).getD p 0) ((symIndex n irr sym).getD q 0)

/-- The loop over the irreps, natural_orbitals.py:53-66. -/
def fill [Field K] (n pg : ℕ) (irr : ℕ → ℕ) (eig : ℕ → Mat K → Eig K) (rdm : Mat K) : Orbs K :=
  (List.range pg).foldl (fun (st : Orbs K) sym =>
    let idx := symIndex n irr sym
    let m := idx.length
    let out := eig m (irrepBlock n irr rdm sym)
    (List.range m).foldl (fun (st : Orbs K) p =>
      let st := { st with occ := fun k => if k = idx.getD p 0 then out.vals p else st.occ k }
      (List.range m).foldl (fun (st : Orbs K) q =>
        { st with left := put st.left (idx.getD q 0) (idx.getD p 0) (out.left q p)
                  right := put st.right (idx.getD q 0) (idx.getD p 0) (out.right q p) }) st) st)
    ⟨fun _ => 0, fun _ _ => 0, fun _ _ => 0⟩

/-- `idx = np.flip(np.argsort(nocc_vals))` and the selection of the columns, natural_orbitals.py:67-70. -/
def sortOrbs (n : ℕ) (argsort : ℕ → ℕ) (o : Orbs K) : Orbs K :=
  let idx := fun k => argsort (n - 1 - k)
  ⟨fun k => o.occ (idx k), fun i k => o.left i (idx k), fun i k => o.right i (idx k)⟩

/-- `L[:, i] /= abs(np.dot(L[:, i].conj(), R[:, i]))`, natural_orbitals.py:80-81. -/
def biorthogonalize [Field K] [LinearOrder K] (n : ℕ) (o : Orbs K) : Orbs K :=
  { o with left := fun k i => o.left k i / |∑ k ∈ Finset.range n, o.left k i * o.right k i| }

/-- The arrays `nocc_vals`, `L` and `R` that are used for the transformation; `argsort` takes the occupations. -/
def natorbs [Field K] [LinearOrder K] (n pg : ℕ) (irr : ℕ → ℕ) (eig : ℕ → Mat K → Eig K) (argsort : (ℕ → K) → ℕ → ℕ) (rdm : Mat K) :
    Orbs K :=
  let o := fill n pg irr eig rdm
  biorthogonalize n (sortOrbs n (argsort o.occ) o)

/-- The array `temp` of the two-body integrals, natural_orbitals.py:85-101: the sixteen assignments to slices put together; `ab` gives the
block for the spaces of its four axes (`true` for occupied). -/
def twoBody (noa nob : ℕ) (ab : Bool → Bool → Bool → Bool → ℕ → ℕ → ℕ → ℕ → K) : ℕ → ℕ → ℕ → ℕ → K := fun p q r s =>
  ab (p < noa) (q < nob) (r < noa) (s < nob) (if p < noa then p else p - noa) (if q < nob then q else q - nob)
    (if r < noa then r else r - noa) (if s < nob then s else s - nob)

/-- The array `temp` of the one-body integrals, natural_orbitals.py:106-110. -/
def oneBody [Field K] (noa : ℕ) (H G : OneBody K) : Mat K := fun p q =>
  if p < noa then if q < noa then H.oo p q - G.oo p q else H.ov p (q - noa) - G.ov p (q - noa)
  else if q < noa then H.vo (p - noa) q - G.vo (p - noa) q else H.vv (p - noa) (q - noa) - G.vv (p - noa) (q - noa)

/-- `np.pad` with `nfrozen` zeros before the elements, natural_orbitals.py:103 and 112. -/
def pad4 [Field K] (nfrozen : ℕ) (v : ℕ → ℕ → ℕ → ℕ → K) : ℕ → ℕ → ℕ → ℕ → K := fun p q r s =>
  if nfrozen ≤ p ∧ nfrozen ≤ q ∧ nfrozen ≤ r ∧ nfrozen ≤ s then v (p - nfrozen) (q - nfrozen) (r - nfrozen) (s - nfrozen) else 0
def pad2 [Field K] (nfrozen : ℕ) (h : Mat K) : Mat K := fun p q =>
  if nfrozen ≤ p ∧ nfrozen ≤ q then h (p - nfrozen) (q - nfrozen) else 0

/-- `e1int_no`, natural_orbitals.py:111-112. -/
def e1intNo [Field K] (n nfrozen : ℕ) (o : Orbs K) (h : Mat K) : Mat K :=
  pad2 nfrozen fun p q => ∑ i ∈ Finset.range n, ∑ j ∈ Finset.range n, o.left i p * h i j * o.right j q

/-- `e2int_no`, natural_orbitals.py:102-103. -/
def e2intNo [Field K] (n nfrozen : ℕ) (o : Orbs K) (v : ℕ → ℕ → ℕ → ℕ → K) : ℕ → ℕ → ℕ → ℕ → K :=
  pad4 nfrozen fun p q r s => ∑ i ∈ Finset.range n, ∑ j ∈ Finset.range n, ∑ k ∈ Finset.range n, ∑ l ∈ Finset.range n,
    o.left i p * o.left j q * v i j k l * o.right k r * o.right l s

end Ccpy.NatOrbs
