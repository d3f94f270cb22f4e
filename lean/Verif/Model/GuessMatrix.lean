import Verif.Model.SpinMatrix
import Verif.Model.TensorArrays

/-! Model of the matrices diagonalised for initial guesses: `/repo/ccpy/eom_guess/cis.py`, `sfcis.py`, `eacis.py`, `ipcis.py`,
`deacis.py` and `dipcis.py`, and of the routines that spread the eigenvectors over the full space.  Floats are modelled by rational
numbers, and arrays by functions. -/

namespace Ccpy.GuessMatrix
open Ccpy.SpinMatrix Ccpy.Tensor

abbrev Matrix := ℕ → ℕ → ℚ

/-- The elements of the blocks of `H` that the routines read. -/
structure Blocks where
  a_oo : ℕ → ℕ → ℚ
  a_vv : ℕ → ℕ → ℚ
  b_oo : ℕ → ℕ → ℚ
  b_vv : ℕ → ℕ → ℚ
  aa_voov : ℕ → ℕ → ℕ → ℕ → ℚ
  ab_voov : ℕ → ℕ → ℕ → ℕ → ℚ
  ab_ovvo : ℕ → ℕ → ℕ → ℕ → ℚ
  ab_ovov : ℕ → ℕ → ℕ → ℕ → ℚ
  ab_oooo : ℕ → ℕ → ℕ → ℕ → ℚ
  ab_vvvv : ℕ → ℕ → ℕ → ℕ → ℚ
  bb_voov : ℕ → ℕ → ℕ → ℕ → ℚ

/-- The blocks of the stored integrals `H`; `read` gives the elements of an array. -/
def blocks (read : Ex → List ℕ → ℚ) (H : Ints) : Blocks where
  a_oo p q := read H.a.oo [p, q]
  a_vv p q := read H.a.vv [p, q]
  b_oo p q := read H.b.oo [p, q]
  b_vv p q := read H.b.vv [p, q]
  aa_voov p q r s := read H.aa.voov [p, q, r, s]
  ab_voov p q r s := read H.ab.voov [p, q, r, s]
  ab_ovvo p q r s := read H.ab.ovvo [p, q, r, s]
  ab_ovov p q r s := read H.ab.ovov [p, q, r, s]
  ab_oooo p q r s := read H.ab.oooo [p, q, r, s]
  ab_vvvv p q r s := read H.ab.vvvv [p, q, r, s]
  bb_voov p q r s := read H.bb.voov [p, q, r, s]

/-- `for k in range(lo, lo + n)` -/
def loop {σ : Type} (lo n : ℕ) (body : ℕ → σ → σ) (s : σ) : σ := (List.range' lo n).foldl (fun s k => body k s) s

/-- `M[I, J] += x`, as in cis.py:85. -/
def inc (I J : ℕ) (x : ℚ) (M : Matrix) : Matrix := fun p q => if p = I ∧ q = J then M p q + x else M p q

/-- `M[I, J] = x`, as in deacis.py:101-105. -/
def put (I J : ℕ) (x : ℚ) (M : Matrix) : Matrix := fun p q => if p = I ∧ q = J then x else M p q

/-- Lines cis.py:73-98 and, with the other spin, :109-134: the elements between excitations of the same spin.  `idx` is the array of
running numbers; a missing excitation has number zero. -/
def like (oo vv : ℕ → ℕ → ℚ) (voov : ℕ → ℕ → ℕ → ℕ → ℚ) (idx : ℕ → ℕ → ℕ) (no nu : ℕ) : Matrix :=
  loop 0 nu (fun a => loop 0 no fun i M =>
    let idet := idx a i
    if idet = 0 then M else
    let I := idet - 1
    let M := loop 0 no (fun m M =>
      let jdet := idx a m
      if jdet = 0 then M else inc I (jdet - 1) (-oo m i) M) M
    let M := loop 0 nu (fun e M =>
      let jdet := idx e i
      if jdet = 0 then M else inc I (jdet - 1) (vv a e) M) M
    loop 0 nu (fun e => loop 0 no fun m M =>
      let jdet := idx e m
      if jdet = 0 then M else inc I (jdet - 1) (voov a m i e) M) M) fun _ _ => 0

/-- Lines cis.py:99-105 and :135-141: the elements between excitations of different spins.  In the program they are filled in the same
loops as the elements above. -/
def unlike (v : ℕ → ℕ → ℕ → ℕ → ℚ) (idx idx' : ℕ → ℕ → ℕ) (no nu no' nu' : ℕ) : Matrix :=
  loop 0 nu (fun a => loop 0 no fun i M =>
    let idet := idx a i
    if idet = 0 then M else
    let I := idet - 1
    loop 0 nu' (fun e => loop 0 no' fun m M =>
      let jdet := idx' e m
      if jdet = 0 then M else inc I (jdet - 1) (v a m i e) M) M) fun _ _ => 0

/-- `np.concatenate` of four blocks, the first with `m` rows and `n` columns, cis.py:142-147. -/
def assemble (m n : ℕ) (A B C D : Matrix) : Matrix := fun p q =>
  if p < m then if q < n then A p q else B p (q - n) else if q < n then C (p - m) q else D (p - m) (q - n)

/-- `build_cis_hamiltonian`, cis.py:59-147, with the index arrays of `get_index_arrays`, cis.py:286-319. -/
def buildCis (s : Counts) (sym1 : ℕ → ℕ → Bool) (H : Blocks) : Matrix :=
  let n1a := s.noa * s.nua
  assemble n1a n1a
    (like H.a_oo H.a_vv H.aa_voov (idxA s sym1) s.noa s.nua)
    (unlike (fun a m i e => H.ab_voov a m i e) (idxA s sym1) (idxB s sym1) s.noa s.nua s.nob s.nub)
    (unlike (fun a m i e => H.ab_ovvo m a e i) (idxB s sym1) (idxA s sym1) s.nob s.nub s.noa s.nua)
    (like H.b_oo H.b_vv H.bb_voov (idxB s sym1) s.nob s.nub)

/-- `build_sfcis_hamiltonian`, sfcis.py:19-38; the running numbers `ct1` and `ct2` are kept in the state of the loops. -/
def buildSfcis (s : Counts) (H : Blocks) : Matrix :=
  (loop 0 s.nub (fun a => loop 0 s.noa fun i (st : ℕ × Matrix) =>
    let inner := loop 0 s.nub (fun b => loop 0 s.noa fun j (st' : ℕ × Matrix) =>
      (st'.1 + 1, put st.1 st'.1 (H.b_vv a b * eqn i j - H.a_oo j i * eqn a b - H.ab_ovov j a i b) st'.2)) (0, st.2)
    (st.1 + 1, inner.2)) (0, fun _ _ => 0)).2

/-- `build_1p_hamiltonian`, eacis.py:19-26. -/
def build1p (s : Counts) (H : Blocks) : Matrix :=
  loop 0 s.nua (fun a => loop 0 s.nua fun b M => put a b (H.a_vv a b) M) fun _ _ => 0

/-- `build_1h_hamiltonian`, ipcis.py:19-26. -/
def build1h (s : Counts) (H : Blocks) : Matrix :=
  loop 0 s.noa (fun i => loop 0 s.noa fun j M => put i j (-H.a_oo j i) M) fun _ _ => 0

/-- The index arrays of `get_index_arrays`, deacis.py:151-182 and dipcis.py:141-172: a running number over the active pairs `(p, q)`,
`lo ≤ p < lo + n` and `lo' ≤ q < lo' + n'`, and zero for pairs of another symmetry. -/
def idxPair (lo lo' n' : ℕ) (sym1 : ℕ → ℕ → Bool) (p q : ℕ) : ℕ :=
  if sym1 p q then (p - lo) * n' + (q - lo') + 1 else 0

/-- The loops deacis.py:92-107 and dipcis.py:92-107. -/
def buildPairs (lo lo' n n' : ℕ) (idx : ℕ → ℕ → ℕ) (x : ℕ → ℕ → ℕ → ℕ → ℚ) : Matrix :=
  loop lo n (fun a => loop lo' n' fun b M =>
    let idet := idx a b
    if idet = 0 then M else
    let ind1 := idet - 1
    loop lo n (fun c => loop lo' n' fun d M =>
      let jdet := idx c d
      if jdet ≠ 0 then put ind1 (jdet - 1) (x a b c d) M else M) M) fun _ _ => 0

/-- The numbers of active orbitals, deacis.py:87-88 and dipcis.py:85-86. -/
def nactuA (s : Counts) (nactu : ℕ) : ℕ := min nactu s.nua
def nactuB (s : Counts) (nactu mult : ℕ) : ℕ := min (nactu + (mult - 1)) s.nub
def nactoA (s : Counts) (nacto mult : ℕ) : ℕ := min (nacto + (mult - 1)) s.noa
def nactoB (s : Counts) (nacto : ℕ) : ℕ := min nacto s.nob

/-- `build_2p_hamiltonian`, deacis.py:78-108. -/
def build2p (s : Counts) (nactu mult : ℕ) (sym1 : ℕ → ℕ → Bool) (H : Blocks) : Matrix :=
  buildPairs 0 0 (nactuA s nactu) (nactuB s nactu mult) (idxPair 0 0 (nactuB s nactu mult) sym1) fun a b c d =>
    H.b_vv b d * eqn a c + H.a_vv a c * eqn b d + H.ab_vvvv a b c d

/-- `build_2h_hamiltonian`, dipcis.py:78-108.  (`abs(jdet - 1)` is `jdet - 1` since `jdet` is positive.) -/
def build2h (s : Counts) (nacto mult : ℕ) (sym1 : ℕ → ℕ → Bool) (H : Blocks) : Matrix :=
  let na := nactoA s nacto mult
  let nb := nactoB s nacto
  buildPairs (s.noa - na) (s.nob - nb) na nb (idxPair (s.noa - na) (s.nob - nb) nb sym1) fun i j k l =>
    -H.b_oo l j * eqn i k - H.a_oo k i * eqn j l + H.ab_oooo k l i j

/-- The loops of `scatter`, deacis.py:68-75 and dipcis.py:68-75: `active` selects the pairs that take the next element of `V`; the
state has the counters `ct`, `ct2` and the array `V_out`. -/
def scatterLoop (n n' : ℕ) (active : ℕ → ℕ → Bool) (V : ℕ → ℚ) : ℕ × ℕ × (ℕ → ℚ) :=
  loop 0 n (fun a => loop 0 n' fun b (st : ℕ × ℕ × (ℕ → ℚ)) =>
    let (ct, ct2, out) := st
    if active a b then (ct + 1, ct2 + 1, fun p => if p = ct then V ct2 else out p) else (ct + 1, ct2, out)) (0, 0, fun _ => 0)

/-- `scatter`, deacis.py:64-76. -/
def scatter2p (s : Counts) (nactu : ℕ) (V : ℕ → ℚ) : ℕ → ℚ :=
  (scatterLoop s.nua s.nub (fun a b => decide (a < nactu) && decide (b < nactu)) V).2.2

/-- `scatter`, dipcis.py:64-76. -/
def scatter2h (s : Counts) (nacto : ℕ) (V : ℕ → ℚ) : ℕ → ℚ :=
  (scatterLoop s.noa s.nob (fun i j => decide (s.noa - nacto ≤ i) && decide (s.nob - nacto ≤ j)) V).2.2

end Ccpy.GuessMatrix
