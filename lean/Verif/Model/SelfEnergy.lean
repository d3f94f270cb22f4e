import Verif.Model.FortranLoop
import Verif.Spec.SelfEnergy
import Mathlib.Data.Rat.Init

/-! Model of `/repo/ccpy/mbpt/mbgf.py` and of `/repo/ccpy/lib/fortran/mbgf_loops.f90`.  Floats are modelled by rational numbers; a
division by zero gives zero here.  The module `mbgf_loops` that mbgf.py:4 imports is taken to be the one of the Fortran file. -/

namespace Ccpy.SelfEnergy
open Ccpy.Fortran

abbrev Arr2 := ℕ → ℕ → ℚ
abbrev Arr4 := ℕ → ℕ → ℕ → ℕ → ℚ

/-- The array arguments of `mbgf2_selfenergy`, `/repo/ccpy/lib/fortran/mbgf_loops.f90:7-21`; indices start at one. -/
structure Args where
  fA_oo : Arr2
  fA_vv : Arr2
  fB_oo : Arr2
  fB_vv : Arr2
  vA_oovv : Arr4
  vA_vvoo : Arr4
  vA_ooov : Arr4
  vA_ovoo : Arr4
  vB_oovv : Arr4
  vB_vvoo : Arr4
  vB_ooov : Arr4
  vB_ovoo : Arr4

/-- `sigma(i,j) = sigma(i,j) + x`, as in `/repo/ccpy/lib/fortran/mbgf_loops.f90:39-40`. -/
def bump (i j : ℕ) (x : ℚ) (M : Arr2) : Arr2 := fun p q => if p = i ∧ q = j then M p q + x else M p q

/-- `mbgf2_selfenergy`, `/repo/ccpy/lib/fortran/mbgf_loops.f90:7-71`: the arrays `sigma_a` and `sigma_b`.  (The arguments `vB_oovo`,
`vB_vooo` and `vC_*` are not used by the subroutine.) -/
def fortranSigma (ω : ℚ) (x : Args) (noa nua nob nub : ℕ) : Arr2 × Arr2 :=
  (doLoop 1 noa (fun i => doLoop 1 noa fun j M =>
    let M := doLoop 1 noa (fun n => doLoop 1 nua fun f M =>
      let e_nf := x.fA_oo n n - x.fA_vv f f
      let M := doLoop (n + 1) noa (fun m M =>
        let denom := x.fA_oo m m + e_nf - ω
        bump i j (-(x.vA_ooov m n i f * x.vA_ovoo j f m n / denom)) M) M
      doLoop (f + 1) nua (fun e M =>
        let denom := e_nf - x.fA_vv e e + ω
        bump i j (x.vA_oovv j n e f * x.vA_vvoo e f i n / denom) M) M) M
    doLoop 1 nob (fun n => doLoop 1 nub fun f M =>
      let e_nf := x.fB_oo n n - x.fB_vv f f
      let M := doLoop 1 noa (fun m M =>
        let denom := x.fA_oo m m + e_nf - ω
        bump i j (-(x.vB_ooov m n i f * x.vB_ovoo j f m n / denom)) M) M
      doLoop 1 nua (fun e M =>
        let denom := e_nf - x.fA_vv e e + ω
        bump i j (x.vB_oovv j n e f * x.vB_vvoo e f i n / denom) M) M) M) fun _ _ => 0,
  fun _ _ => 0)

/-- A NumPy array with its shape; indices start at zero. -/
structure Nd2 where
  n0 : ℕ
  n1 : ℕ
  at' : Arr2
structure Nd4 where
  n0 : ℕ
  n1 : ℕ
  n2 : ℕ
  n3 : ℕ
  at' : Arr4

/-- `a[i, j]` for indices that are not negative, as in mbgf.py:46; `none` is an `IndexError`. -/
def Nd2.get (a : Nd2) (i j : ℕ) : Option ℚ := if i < a.n0 ∧ j < a.n1 then some (a.at' i j) else none

/-- `a[i, j, k, l]` for indices that are not negative, as in mbgf.py:51; `none` is an `IndexError`. -/
def Nd4.get (a : Nd4) (i j k l : ℕ) : Option ℚ :=
  if i < a.n0 ∧ j < a.n1 ∧ k < a.n2 ∧ l < a.n3 then some (a.at' i j k l) else none

/-- The position of the index `p` in an axis of length `n`; negative indices count from the end, as in mbgf.py:156 for `p = -1`. -/
def axis (n : ℕ) (p : ℤ) : Option ℕ :=
  if 0 ≤ p ∧ p < n then some p.toNat else if p < 0 ∧ -(n : ℤ) ≤ p then some (p + n).toNat else none

/-- The entries of the dictionaries `ints` and `sys` that are used, mbgf.py:28-32, :36-38. -/
structure Dicts where
  noa : ℕ
  nua : ℕ
  nob : ℕ
  nub : ℕ
  fA_oo : Nd2
  fA_vv : Nd2
  fB_oo : Nd2
  fB_vv : Nd2
  vA_oovv : Nd4
  vA_vvoo : Nd4
  vA_ooov : Nd4
  vA_ovoo : Nd4
  vB_oovv : Nd4
  vB_vvoo : Nd4
  vB_ooov : Nd4
  vB_ovoo : Nd4
  vB_oovo : Nd4
  vB_vooo : Nd4
  vC_oovv : Nd4
  vC_vvoo : Nd4
  vC_ooov : Nd4
  vC_ovoo : Nd4

/-- The sliced integrals of a problem (the caller's part: "Sliced F_N and V_N integrals", mbgf.py:18-19). -/
def slices (P : Problem) : Dicts :=
  let oa := P.no false
  let ob := P.no true
  let ua := P.nu false
  let ub := P.nu true
  { noa := oa, nua := ua, nob := ob, nub := ub
    fA_oo := ⟨oa, oa, P.fA⟩
    fA_vv := ⟨ua, ua, fun a b => P.fA (oa + a) (oa + b)⟩
    fB_oo := ⟨ob, ob, P.fB⟩
    fB_vv := ⟨ub, ub, fun a b => P.fB (ob + a) (ob + b)⟩
    vA_oovv := ⟨oa, oa, ua, ua, fun i j a b => P.vAA i j (oa + a) (oa + b)⟩
    vA_vvoo := ⟨ua, ua, oa, oa, fun a b i j => P.vAA (oa + a) (oa + b) i j⟩
    vA_ooov := ⟨oa, oa, oa, ua, fun i j k a => P.vAA i j k (oa + a)⟩
    vA_ovoo := ⟨oa, ua, oa, oa, fun i a j k => P.vAA i (oa + a) j k⟩
    vB_oovv := ⟨oa, ob, ua, ub, fun i j a b => P.vAB i j (oa + a) (ob + b)⟩
    vB_vvoo := ⟨ua, ub, oa, ob, fun a b i j => P.vAB (oa + a) (ob + b) i j⟩
    vB_ooov := ⟨oa, ob, oa, ub, fun i j k a => P.vAB i j k (ob + a)⟩
    vB_ovoo := ⟨oa, ub, oa, ob, fun i a j k => P.vAB i (ob + a) j k⟩
    vB_oovo := ⟨oa, ob, ua, ob, fun i j a k => P.vAB i j (oa + a) k⟩
    vB_vooo := ⟨ua, ob, oa, ob, fun a i j k => P.vAB (oa + a) i j k⟩
    vC_oovv := ⟨ob, ob, ub, ub, fun i j a b => P.vBB i j (ob + a) (ob + b)⟩
    vC_vvoo := ⟨ub, ub, ob, ob, fun a b i j => P.vBB (ob + a) (ob + b) i j⟩
    vC_ooov := ⟨ob, ob, ob, ub, fun i j k a => P.vBB i j k (ob + a)⟩
    vC_ovoo := ⟨ob, ub, ob, ob, fun i a j k => P.vBB i (ob + a) j k⟩ }

/-- `for k in range(lo, hi)` with a body that may raise. -/
def forRange {σ : Type} (lo hi : ℕ) (body : ℕ → σ → Option σ) (s : σ) : Option σ :=
  (List.range' lo (hi - lo)).foldlM (fun s k => body k s) s

/-- The loops of the block `ooa`, mbgf.py:41-74. -/
def pythonA (ω : ℚ) (x : Dicts) : Option Arr2 :=
  forRange 0 x.noa (fun i => forRange 0 x.noa fun j M => do
    let M ← forRange 0 x.noa (fun n => forRange 0 x.nua fun f M => do
      let e_nf := (← x.fA_oo.get n n) - (← x.fA_vv.get f f)
      let M ← forRange (n + 1) x.noa (fun m M => do
        let denom := (← x.fA_oo.get m m) + e_nf - ω
        some (bump i j (-((← x.vA_ooov.get m n i f) * (← x.vA_ovoo.get j f m n) / denom)) M)) M
      forRange (f + 1) x.nua (fun e M => do
        let denom := e_nf - (← x.fA_vv.get e e) + ω
        some (bump i j ((← x.vA_oovv.get j n e f) * (← x.vA_vvoo.get e f i n) / denom) M)) M) M
    forRange 0 x.nob (fun n => forRange 0 x.nub fun f M => do
      let e_nf := (← x.fB_oo.get n n) - (← x.fB_vv.get f f)
      let M ← forRange 0 x.noa (fun m M => do
        let denom := (← x.fA_oo.get m m) + e_nf - ω
        some (bump i j (-((← x.vB_ooov.get m n i f) * (← x.vB_ovoo.get j f m n) / denom)) M)) M
      forRange 0 x.nua (fun e M => do
        let denom := e_nf - (← x.fA_vv.get e e) + ω
        some (bump i j ((← x.vB_oovv.get j n e f) * (← x.vB_vvoo.get e f i n) / denom) M)) M) M) fun _ _ => 0

/-- The loops of the block `oob`, mbgf.py:76-109. -/
def pythonB (ω : ℚ) (x : Dicts) : Option Arr2 :=
  forRange 0 x.nob (fun i => forRange 0 x.nob fun j M => do
    let M ← forRange 0 x.noa (fun n => forRange 0 x.nua fun f M => do
      let e_nf := (← x.fA_oo.get n n) - (← x.fA_vv.get f f)
      let M ← forRange 0 x.noa (fun m M => do
        let denom := (← x.fB_oo.get m m) + e_nf - ω
        some (bump i j (-((← x.vB_oovo.get n m f i) * (← x.vB_vooo.get f j n m) / denom)) M)) M
      forRange 0 x.nua (fun e M => do
        let denom := e_nf - (← x.fB_vv.get e e) + ω
        some (bump i j ((← x.vB_oovv.get n j f e) * (← x.vB_vvoo.get f e n i) / denom) M)) M) M
    forRange 0 x.nob (fun n => forRange 0 x.nub fun f M => do
      let e_nf := (← x.fB_oo.get n n) - (← x.fB_vv.get f f)
      let M ← forRange (n + 1) x.nob (fun m M => do
        let denom := (← x.fB_oo.get m m) + e_nf - ω
        some (bump i j (-((← x.vC_ooov.get m n i f) * (← x.vC_ovoo.get j f m n) / denom)) M)) M
      forRange (f + 1) x.nub (fun e M => do
        let denom := e_nf - (← x.fB_vv.get e e) + ω
        some (bump i j ((← x.vC_oovv.get j n e f) * (← x.vC_vvoo.get e f j n) / denom) M)) M) M) fun _ _ => 0

/-- `calc_mp2_selfenergy`, mbgf.py:10-110. -/
def calcMp2Selfenergy (ω : ℚ) (x : Dicts) : Option (Arr2 × Arr2) := do
  let a ← pythonA ω x
  let b ← pythonB ω x
  some (a, b)

/-- The arrays seen by the Fortran routine, whose indices start at one, mbgf.py:160-180. -/
def one2 (a : Nd2) : Arr2 := fun i j => a.at' (i - 1) (j - 1)
def one4 (a : Nd4) : Arr4 := fun i j k l => a.at' (i - 1) (j - 1) (k - 1) (l - 1)

/-- The arguments of the call, mbgf.py:160-180. -/
def args (x : Dicts) : Args where
  fA_oo := one2 x.fA_oo
  fA_vv := one2 x.fA_vv
  fB_oo := one2 x.fB_oo
  fB_vv := one2 x.fB_vv
  vA_oovv := one4 x.vA_oovv
  vA_vvoo := one4 x.vA_vvoo
  vA_ooov := one4 x.vA_ooov
  vA_ovoo := one4 x.vA_ovoo
  vB_oovv := one4 x.vB_oovv
  vB_vvoo := one4 x.vB_vvoo
  vB_ooov := one4 x.vB_ooov
  vB_ovoo := one4 x.vB_ovoo

/-- The arrays that the call mbgf.py:160 returns, with indices from zero. -/
def callSigma (ω : ℚ) (x : Dicts) : Nd2 × Nd2 :=
  let s := fortranSigma ω (args x) x.noa x.nua x.nob x.nub
  (⟨x.noa + x.nua, x.noa + x.nua, fun p q => s.1 (p + 1) (q + 1)⟩,
   ⟨x.nob + x.nub, x.nob + x.nub, fun p q => s.2 (p + 1) (q + 1)⟩)

/-- `a[p, p]` for any integer `p`, mbgf.py:156, :181. -/
def Nd2.diag (a : Nd2) (p : ℤ) : Option ℚ := do some (a.at' (← axis a.n0 p) (← axis a.n1 p))

/-- The iterations for one root, mbgf.py:158-191: the first component of the result is the energy that is kept, `none` when the
iterations are exhausted. -/
def iterations (x : Dicts) (p : ℤ) (tol : ℚ) : ℕ → ℚ → Option (Option ℚ)
  | 0, _ => some none
  | it + 1, e0 => do
    let sigma_a := (callSigma e0 x).1
    let e1 := (← x.fA_oo.diag p) + (← sigma_a.diag p)
    let resid := e1 - e0
    if |resid| < tol then some (some (-1 * e1)) else iterations x p tol it e1

/-- `gf2_ip`, mbgf.py:113-207, for the defaults `maxit = 50` and `tol = 1.0e-08` or others: the arrays `omega` and `is_converged`.
The root number `k = iroot - 1` counts down from the orbital `Nocc_a - 1`.  (What is printed is left out, except for
`is_converged`, which is printed at the end.) -/
def gf2Ip (nroot : ℕ) (x : Dicts) (maxit : ℕ) (tol : ℚ) : Option ((ℕ → ℚ) × (ℕ → Bool)) :=
  forRange 0 nroot (fun k s => do
    let p : ℤ := (x.noa : ℤ) - 1 - k
    let e0 ← x.fA_oo.diag p
    match ← iterations x p tol maxit e0 with
    | some w => some (fun q => if q = k then w else s.1 q, fun q => if q = k then true else s.2 q)
    | none => some s) (fun _ => 0, fun _ => false)

end Ccpy.SelfEnergy
