import Verif.Lemmas.UpdateLists
import Mathlib.Data.Rat.Defs
import Mathlib.Algebra.Field.Rat
import Mathlib.Algebra.Order.Ring.Rat
import Mathlib.Algebra.Order.Ring.Unbundled.Rat
import Mathlib.Tactic.NormNum
import Mathlib.Tactic.Linarith
import Mathlib.Algebra.Order.BigOperators.Group.Finset

/-! # C43: amplitude update kernels

`JacobiStep` (in `Verif/Spec/Update.lean`) says that every amplitude changes by the antisymmetrised
residual over the shifted energy difference, that the recorded increment is this change, that nothing
else is touched and that the result is antisymmetric. -/

namespace Ccpy.UpdateKernels
open Ccpy.Writes Ccpy.Spec Ccpy.Fortran

variable {R : Type*} [Field R] [CharZero R]

/-- Orbital energies of a spin, as read from the diagonals of the Fock matrices. -/
abbrev diag (fA fB : ℕ → ℕ → R) : Bool → ℕ → R := bySpin (fun i => fA i i) (fun i => fB i i)

section example_data
/-! Data for the examples: orbital energies `-i`, `-i - 1`, `a`, `a + 1` on the diagonals, an arbitrary
residual and an antisymmetric amplitude tensor. -/

def exA (i j : ℕ) : ℚ := if i = j then -i else 7
def exA' (i j : ℕ) : ℚ := if i = j then -i - 1 else 7
def exB (a b : ℕ) : ℚ := if a = b then a else 5
def exB' (a b : ℕ) : ℚ := if a = b then a + 1 else 5
abbrev exo : Bool → ℕ → ℚ := diag exA exA'
abbrev exv : Bool → ℕ → ℚ := diag exB exB'

def exX {m n : ℕ} (k : (Fin m → ℕ) × (Fin n → ℕ)) : ℚ :=
  ∑ i, ((i.1 + 1) * k.1 i ^ 2 : ℕ) + ∑ i, ∑ j, ((i.1 + 1) * (j.1 + 2) ^ 2 * k.1 i ^ 2 * k.2 j : ℕ)

abbrev exT {m n : ℕ} {sp : Fin m → Bool} {sh : Fin n → Bool} (k : (Fin m → ℕ) × (Fin n → ℕ)) : ℚ :=
  antisymmetrize sp sh (fun k => 2 * exX k + 1) k

theorem ex_neg {m n : ℕ} (sp : Fin (m + 1) → Bool) (sh : Fin n → Bool) (nv no : Bool → ℕ)
    (k : (Fin (m + 1) → ℕ) × (Fin n → ℕ)) (hk : InRange sp sh nv no k) :
    energyDifference sp sh exo exv k < 0 := by
  have h1 : ∀ s i, exo s i ≤ 0 := by
    intro s i
    cases s <;> simp only [bySpin, exA, exA', if_true, if_false, Bool.false_eq_true]
    · have : (0 : ℚ) ≤ i := Nat.cast_nonneg i
      linarith
    · have : (0 : ℚ) ≤ i := Nat.cast_nonneg i
      linarith
  have h2 : ∀ s i, 1 ≤ i → 0 < exv s i := by
    intro s i hi
    have : (1 : ℚ) ≤ i := by exact_mod_cast hi
    cases s <;> simp only [bySpin, exB, exB', if_true, if_false, Bool.false_eq_true] <;> linarith
  have h3 : ∑ i, exo (sh i) (k.2 i) ≤ 0 := Finset.sum_nonpos fun i _ => h1 _ _
  have h4 : 0 < ∑ i, exv (sp i) (k.1 i) :=
    Finset.sum_pos (fun i _ => h2 _ _ (hk.1 i).1) Finset.univ_nonempty
  unfold energyDifference
  linarith

theorem ex_den {m n : ℕ} (sp : Fin (m + 1) → Bool) (sh : Fin n → Bool) (nv no : Bool → ℕ)
    (k : (Fin (m + 1) → ℕ) × (Fin n → ℕ)) (hk : InRange sp sh nv no k) :
    energyDifference sp sh exo exv k ≠ 0 := (ex_neg sp sh nv no k hk).ne
end example_data

/-- `update_t1a` performs a shifted Jacobi step. -/
theorem C43_t1a (noa nua nob nub : ℕ) (fA_oo fA_vv fB_oo fB_vv : ℕ → ℕ → R) (shift : R)
    (X T : Key1 → R) (hT : AntisymUnder (SpinExchange ![false] ![false]) T)
    (hden : ∀ k, InRange ![false] ![false] (bySpin nua nub) (bySpin noa nob) k →
      energyDifference ![false] ![false] (diag fA_oo fB_oo) (diag fA_vv fB_vv) k ≠ shift) :
    JacobiStep ![false] ![false] (bySpin nua nub) (bySpin noa nob)
      (diag fA_oo fB_oo) (diag fA_vv fB_vv) shift X T
      (updateT1a noa nua fA_oo fA_vv shift X T).1
      (updateT1a noa nua fA_oo fA_vv shift X T).2 := by
  refine jacobiStep_of (visits1 false (bySpin nua nub) (bySpin noa nob)) hT hden
    (lists_pat1 false) (lists_pat1 false) (lists_pat1 false) copies1_at resids1_at terms1_at
    (fun x => ?_) ((runs_do fun _ => runs_do fun _ => runs_leaf _) (T, fun _ => 0))
  simp [energyDifference, diag, bySpin, key1]
  

example : JacobiStep ![false] ![false] (bySpin 4 5) (bySpin 3 4) exo exv 0 exX (exT (sp := ![false]) (sh := ![false]))
    (updateT1a 3 4 exA exB 0 exX (exT (sp := ![false]) (sh := ![false]))).1 (updateT1a 3 4 exA exB 0 exX (exT (sp := ![false]) (sh := ![false]))).2 :=
  C43_t1a 3 4 4 5 exA exB exA' exB' 0 exX _ (antisymmetrize_antisym _ _ _) (ex_den _ _ _ _)

/-- `update_t1b` performs a shifted Jacobi step. -/
theorem C43_t1b (noa nua nob nub : ℕ) (fA_oo fA_vv fB_oo fB_vv : ℕ → ℕ → R) (shift : R)
    (X T : Key1 → R) (hT : AntisymUnder (SpinExchange ![true] ![true]) T)
    (hden : ∀ k, InRange ![true] ![true] (bySpin nua nub) (bySpin noa nob) k →
      energyDifference ![true] ![true] (diag fA_oo fB_oo) (diag fA_vv fB_vv) k ≠ shift) :
    JacobiStep ![true] ![true] (bySpin nua nub) (bySpin noa nob)
      (diag fA_oo fB_oo) (diag fA_vv fB_vv) shift X T
      (updateT1b nob nub fB_oo fB_vv shift X T).1
      (updateT1b nob nub fB_oo fB_vv shift X T).2 := by
  refine jacobiStep_of (visits1 true (bySpin nua nub) (bySpin noa nob)) hT hden
    (lists_pat1 true) (lists_pat1 true) (lists_pat1 true) copies1_at resids1_at terms1_at
    (fun x => ?_) ((runs_do fun _ => runs_do fun _ => runs_leaf _) (T, fun _ => 0))
  simp [energyDifference, diag, bySpin, key1]
  

example : JacobiStep ![true] ![true] (bySpin 4 5) (bySpin 3 4) exo exv 0 exX (exT (sp := ![true]) (sh := ![true]))
    (updateT1b 4 5 exA' exB' 0 exX (exT (sp := ![true]) (sh := ![true]))).1 (updateT1b 4 5 exA' exB' 0 exX (exT (sp := ![true]) (sh := ![true]))).2 :=
  C43_t1b 3 4 4 5 exA exB exA' exB' 0 exX _ (antisymmetrize_antisym _ _ _) (ex_den _ _ _ _)

/-- `update_t2a` performs a shifted Jacobi step. -/
theorem C43_t2a (noa nua nob nub : ℕ) (fA_oo fA_vv fB_oo fB_vv : ℕ → ℕ → R) (shift : R)
    (X T : Key2 → R) (hT : AntisymUnder (SpinExchange ![false, false] ![false, false]) T)
    (hden : ∀ k, InRange ![false, false] ![false, false] (bySpin nua nub) (bySpin noa nob) k →
      energyDifference ![false, false] ![false, false] (diag fA_oo fB_oo) (diag fA_vv fB_vv) k ≠ shift) :
    JacobiStep ![false, false] ![false, false] (bySpin nua nub) (bySpin noa nob)
      (diag fA_oo fB_oo) (diag fA_vv fB_vv) shift X T
      (updateT2a noa nua fA_oo fA_vv shift X T).1
      (updateT2a noa nua fA_oo fA_vv shift X T).2 := by
  refine jacobiStep_of (visits2 false (bySpin nua nub) (bySpin noa nob)) hT hden
    (lists_pat2 false) (lists_pat2 false) (lists_pat2 false) copies2_at resids2_at terms2_at
    (fun x => ?_) ((runs_do fun _ => runs_do fun _ => runs_do fun _ => runs_do fun _ => runs_leaf _) (T, fun _ => 0))
  simp [energyDifference, diag, bySpin, Fin.sum_univ_succ, key2]
  ring

example : JacobiStep ![false, false] ![false, false] (bySpin 4 5) (bySpin 3 4) exo exv 0 exX (exT (sp := ![false, false]) (sh := ![false, false]))
    (updateT2a 3 4 exA exB 0 exX (exT (sp := ![false, false]) (sh := ![false, false]))).1 (updateT2a 3 4 exA exB 0 exX (exT (sp := ![false, false]) (sh := ![false, false]))).2 :=
  C43_t2a 3 4 4 5 exA exB exA' exB' 0 exX _ (antisymmetrize_antisym _ _ _) (ex_den _ _ _ _)

/-- `update_t2b` performs a shifted Jacobi step. -/
theorem C43_t2b (noa nua nob nub : ℕ) (fA_oo fA_vv fB_oo fB_vv : ℕ → ℕ → R) (shift : R)
    (X T : Key2 → R) (hT : AntisymUnder (SpinExchange ![false, true] ![false, true]) T)
    (hden : ∀ k, InRange ![false, true] ![false, true] (bySpin nua nub) (bySpin noa nob) k →
      energyDifference ![false, true] ![false, true] (diag fA_oo fB_oo) (diag fA_vv fB_vv) k ≠ shift) :
    JacobiStep ![false, true] ![false, true] (bySpin nua nub) (bySpin noa nob)
      (diag fA_oo fB_oo) (diag fA_vv fB_vv) shift X T
      (updateT2b noa nua nob nub fA_oo fA_vv fB_oo fB_vv shift X T).1
      (updateT2b noa nua nob nub fA_oo fA_vv fB_oo fB_vv shift X T).2 := by
  refine jacobiStep_of (visits2b (bySpin nua nub) (bySpin noa nob)) hT hden
    (lists_pat2b) (lists_pat2b) (lists_pat2b) copies2b_at resids2b_at terms2b_at
    (fun x => ?_) ((runs_do fun _ => runs_do fun _ => runs_do fun _ => runs_do fun _ => runs_leaf _) (T, fun _ => 0))
  simp [energyDifference, diag, bySpin, Fin.sum_univ_succ, key2b]
  ring

example : JacobiStep ![false, true] ![false, true] (bySpin 4 5) (bySpin 3 4) exo exv 0 exX (exT (sp := ![false, true]) (sh := ![false, true]))
    (updateT2b 3 4 4 5 exA exB exA' exB' 0 exX (exT (sp := ![false, true]) (sh := ![false, true]))).1 (updateT2b 3 4 4 5 exA exB exA' exB' 0 exX (exT (sp := ![false, true]) (sh := ![false, true]))).2 :=
  C43_t2b 3 4 4 5 exA exB exA' exB' 0 exX _ (antisymmetrize_antisym _ _ _) (ex_den _ _ _ _)

/-- `update_t2c` performs a shifted Jacobi step. -/
theorem C43_t2c (noa nua nob nub : ℕ) (fA_oo fA_vv fB_oo fB_vv : ℕ → ℕ → R) (shift : R)
    (X T : Key2 → R) (hT : AntisymUnder (SpinExchange ![true, true] ![true, true]) T)
    (hden : ∀ k, InRange ![true, true] ![true, true] (bySpin nua nub) (bySpin noa nob) k →
      energyDifference ![true, true] ![true, true] (diag fA_oo fB_oo) (diag fA_vv fB_vv) k ≠ shift) :
    JacobiStep ![true, true] ![true, true] (bySpin nua nub) (bySpin noa nob)
      (diag fA_oo fB_oo) (diag fA_vv fB_vv) shift X T
      (updateT2c nob nub fB_oo fB_vv shift X T).1
      (updateT2c nob nub fB_oo fB_vv shift X T).2 := by
  refine jacobiStep_of (visits2 true (bySpin nua nub) (bySpin noa nob)) hT hden
    (lists_pat2 true) (lists_pat2 true) (lists_pat2 true) copies2_at resids2_at terms2_at
    (fun x => ?_) ((runs_do fun _ => runs_do fun _ => runs_do fun _ => runs_do fun _ => runs_leaf _) (T, fun _ => 0))
  simp [energyDifference, diag, bySpin, Fin.sum_univ_succ, key2]
  ring

example : JacobiStep ![true, true] ![true, true] (bySpin 4 5) (bySpin 3 4) exo exv 0 exX (exT (sp := ![true, true]) (sh := ![true, true]))
    (updateT2c 4 5 exA' exB' 0 exX (exT (sp := ![true, true]) (sh := ![true, true]))).1 (updateT2c 4 5 exA' exB' 0 exX (exT (sp := ![true, true]) (sh := ![true, true]))).2 :=
  C43_t2c 3 4 4 5 exA exB exA' exB' 0 exX _ (antisymmetrize_antisym _ _ _) (ex_den _ _ _ _)

/-- `update_t3a_v2` performs a shifted Jacobi step. -/
theorem C43_t3a (noa nua nob nub : ℕ) (fA_oo fA_vv fB_oo fB_vv : ℕ → ℕ → R) (shift : R)
    (X T : Key3 → R) (hT : AntisymUnder (SpinExchange ![false, false, false] ![false, false, false]) T)
    (hden : ∀ k, InRange ![false, false, false] ![false, false, false] (bySpin nua nub) (bySpin noa nob) k →
      energyDifference ![false, false, false] ![false, false, false] (diag fA_oo fB_oo) (diag fA_vv fB_vv) k ≠ shift) :
    JacobiStep ![false, false, false] ![false, false, false] (bySpin nua nub) (bySpin noa nob)
      (diag fA_oo fB_oo) (diag fA_vv fB_vv) shift X T
      (updateT3a noa nua fA_oo fA_vv shift X T).1
      (updateT3a noa nua fA_oo fA_vv shift X T).2 := by
  refine jacobiStep_of (visits3 false (bySpin nua nub) (bySpin noa nob)) hT hden
    (lists_copies3 false) (lists_resids3 false) (lists_terms3 false) copies3_at resids3_at terms3_at
    (fun x => ?_) ((runs_do fun _ => runs_do fun _ => runs_do fun _ => runs_do fun _ => runs_do fun _ => runs_do fun _ => runs_leaf _) (T, fun _ => 0))
  simp [energyDifference, diag, bySpin, Fin.sum_univ_succ, key3]
  ring

example : JacobiStep ![false, false, false] ![false, false, false] (bySpin 4 5) (bySpin 3 4) exo exv 0 exX (exT (sp := ![false, false, false]) (sh := ![false, false, false]))
    (updateT3a 3 4 exA exB 0 exX (exT (sp := ![false, false, false]) (sh := ![false, false, false]))).1 (updateT3a 3 4 exA exB 0 exX (exT (sp := ![false, false, false]) (sh := ![false, false, false]))).2 :=
  C43_t3a 3 4 4 5 exA exB exA' exB' 0 exX _ (antisymmetrize_antisym _ _ _) (ex_den _ _ _ _)

/-- `update_t3b_v2` performs a shifted Jacobi step. -/
theorem C43_t3b (noa nua nob nub : ℕ) (fA_oo fA_vv fB_oo fB_vv : ℕ → ℕ → R) (shift : R)
    (X T : Key3 → R) (hT : AntisymUnder (SpinExchange ![false, false, true] ![false, false, true]) T)
    (hden : ∀ k, InRange ![false, false, true] ![false, false, true] (bySpin nua nub) (bySpin noa nob) k →
      energyDifference ![false, false, true] ![false, false, true] (diag fA_oo fB_oo) (diag fA_vv fB_vv) k ≠ shift) :
    JacobiStep ![false, false, true] ![false, false, true] (bySpin nua nub) (bySpin noa nob)
      (diag fA_oo fB_oo) (diag fA_vv fB_vv) shift X T
      (updateT3b noa nua nob nub fA_oo fA_vv fB_oo fB_vv shift X T).1
      (updateT3b noa nua nob nub fA_oo fA_vv fB_oo fB_vv shift X T).2 := by
  refine jacobiStep_of (visits3b (bySpin nua nub) (bySpin noa nob)) hT hden
    (lists_3b) (lists_3b) (lists_3b) copies3b_at resids3b_at terms3b_at
    (fun x => ?_) ((runs_do fun _ => runs_do fun _ => runs_do fun _ => runs_do fun _ => runs_do fun _ => runs_do fun _ => runs_leaf _) (T, fun _ => 0))
  simp [energyDifference, diag, bySpin, Fin.sum_univ_succ, key3b]
  ring

example : JacobiStep ![false, false, true] ![false, false, true] (bySpin 4 5) (bySpin 3 4) exo exv 0 exX (exT (sp := ![false, false, true]) (sh := ![false, false, true]))
    (updateT3b 3 4 4 5 exA exB exA' exB' 0 exX (exT (sp := ![false, false, true]) (sh := ![false, false, true]))).1 (updateT3b 3 4 4 5 exA exB exA' exB' 0 exX (exT (sp := ![false, false, true]) (sh := ![false, false, true]))).2 :=
  C43_t3b 3 4 4 5 exA exB exA' exB' 0 exX _ (antisymmetrize_antisym _ _ _) (ex_den _ _ _ _)

/-- `update_t3c_v2` performs a shifted Jacobi step. -/
theorem C43_t3c (noa nua nob nub : ℕ) (fA_oo fA_vv fB_oo fB_vv : ℕ → ℕ → R) (shift : R)
    (X T : Key3 → R) (hT : AntisymUnder (SpinExchange ![false, true, true] ![false, true, true]) T)
    (hden : ∀ k, InRange ![false, true, true] ![false, true, true] (bySpin nua nub) (bySpin noa nob) k →
      energyDifference ![false, true, true] ![false, true, true] (diag fA_oo fB_oo) (diag fA_vv fB_vv) k ≠ shift) :
    JacobiStep ![false, true, true] ![false, true, true] (bySpin nua nub) (bySpin noa nob)
      (diag fA_oo fB_oo) (diag fA_vv fB_vv) shift X T
      (updateT3c noa nua nob nub fA_oo fA_vv fB_oo fB_vv shift X T).1
      (updateT3c noa nua nob nub fA_oo fA_vv fB_oo fB_vv shift X T).2 := by
  refine jacobiStep_of (visits3c (bySpin nua nub) (bySpin noa nob)) hT hden
    (lists_3c) (lists_3c) (lists_3c) copies3c_at resids3c_at terms3c_at
    (fun x => ?_) ((runs_do fun _ => runs_do fun _ => runs_do fun _ => runs_do fun _ => runs_do fun _ => runs_do fun _ => runs_leaf _) (T, fun _ => 0))
  simp [energyDifference, diag, bySpin, Fin.sum_univ_succ, key3c]
  ring

example : JacobiStep ![false, true, true] ![false, true, true] (bySpin 4 5) (bySpin 3 4) exo exv 0 exX (exT (sp := ![false, true, true]) (sh := ![false, true, true]))
    (updateT3c 3 4 4 5 exA exB exA' exB' 0 exX (exT (sp := ![false, true, true]) (sh := ![false, true, true]))).1 (updateT3c 3 4 4 5 exA exB exA' exB' 0 exX (exT (sp := ![false, true, true]) (sh := ![false, true, true]))).2 :=
  C43_t3c 3 4 4 5 exA exB exA' exB' 0 exX _ (antisymmetrize_antisym _ _ _) (ex_den _ _ _ _)

/-- `update_t3d_v2` performs a shifted Jacobi step. -/
theorem C43_t3d (noa nua nob nub : ℕ) (fA_oo fA_vv fB_oo fB_vv : ℕ → ℕ → R) (shift : R)
    (X T : Key3 → R) (hT : AntisymUnder (SpinExchange ![true, true, true] ![true, true, true]) T)
    (hden : ∀ k, InRange ![true, true, true] ![true, true, true] (bySpin nua nub) (bySpin noa nob) k →
      energyDifference ![true, true, true] ![true, true, true] (diag fA_oo fB_oo) (diag fA_vv fB_vv) k ≠ shift) :
    JacobiStep ![true, true, true] ![true, true, true] (bySpin nua nub) (bySpin noa nob)
      (diag fA_oo fB_oo) (diag fA_vv fB_vv) shift X T
      (updateT3d nob nub fB_oo fB_vv shift X T).1
      (updateT3d nob nub fB_oo fB_vv shift X T).2 := by
  refine jacobiStep_of (visits3 true (bySpin nua nub) (bySpin noa nob)) hT hden
    (lists_copies3 true) (lists_resids3 true) (lists_terms3 true) copies3_at resids3_at terms3_at
    (fun x => ?_) ((runs_do fun _ => runs_do fun _ => runs_do fun _ => runs_do fun _ => runs_do fun _ => runs_do fun _ => runs_leaf _) (T, fun _ => 0))
  simp [energyDifference, diag, bySpin, Fin.sum_univ_succ, key3]
  ring

example : JacobiStep ![true, true, true] ![true, true, true] (bySpin 4 5) (bySpin 3 4) exo exv 0 exX (exT (sp := ![true, true, true]) (sh := ![true, true, true]))
    (updateT3d 4 5 exA' exB' 0 exX (exT (sp := ![true, true, true]) (sh := ![true, true, true]))).1 (updateT3d 4 5 exA' exB' 0 exX (exT (sp := ![true, true, true]) (sh := ![true, true, true]))).2 :=
  C43_t3d 3 4 4 5 exA exB exA' exB' 0 exX _ (antisymmetrize_antisym _ _ _) (ex_den _ _ _ _)

omit [CharZero R] in
/-- Any Jacobi step is at rest exactly when all antisymmetrised residuals vanish. -/
theorem C43_fixed_point {m n : ℕ} {sp : Fin m → Bool} {sh : Fin n → Bool} {nv no : Bool → ℕ}
    {eo ev : Bool → ℕ → R} {shift : R} {X T T' D : (Fin m → ℕ) × (Fin n → ℕ) → R}
    (h : JacobiStep sp sh nv no eo ev shift X T T' D)
    (hden : ∀ k, InRange sp sh nv no k → energyDifference sp sh eo ev k ≠ shift) :
    T' = T ↔ ∀ k, InRange sp sh nv no k → antisymmetrize sp sh X k = 0 := by
  constructor
  · intro e k hk
    rw [← h.step k hk, e, sub_self, mul_zero]
  · intro e
    funext k
    by_cases hk : InRange sp sh nv no k
    · have := h.step k hk
      rw [e k hk] at this
      exact sub_eq_zero.mp ((mul_eq_zero.mp this).resolve_left (sub_ne_zero.mpr (hden k hk)))
    · exact h.outside k hk

/-- The residual of the examples is not a solution: the amplitudes move. -/
example : (updateT2a 3 4 exA exB 0 exX (exT (sp := ![false, false]) (sh := ![false, false]))).1
      (![1, 3], ![2, 1]) ≠ exT (sp := ![false, false]) (sh := ![false, false]) (![1, 3], ![2, 1]) := by
  decide +kernel

end Ccpy.UpdateKernels
