import Verif.Lemmas.UpdateLeft
import Verif.Props.UpdateKernels

/-! # C58: left-amplitude update kernels

`LeftStep` (in `Verif/Spec/LeftUpdate.lean`) says that every left amplitude moves by the left residual
`omega L - X` over the shifted diagonal, that the residual array is overwritten by this change, that
nothing else is touched and that both arrays stay antisymmetric. -/

namespace Ccpy.UpdateKernels
open Ccpy.Writes Ccpy.Spec Ccpy.Fortran

variable {R : Type*} [Field R] [CharZero R]

theorem ex_denL {m n : ℕ} (sp : Fin (m + 1) → Bool) (sh : Fin n → Bool) (nv no : Bool → ℕ)
    (k : (Fin (m + 1) → ℕ) × (Fin n → ℕ)) (hk : InRange sp sh nv no k) :
    -energyDifference sp sh exo exv k - (-1) + 1 / 2 ≠ 0 := by
  have := ex_neg sp sh nv no k hk
  linarith

/-- A second antisymmetric tensor for the examples. -/
abbrev exY {m n : ℕ} {sp : Fin m → Bool} {sh : Fin n → Bool} (k : (Fin m → ℕ) × (Fin n → ℕ)) : ℚ :=
  antisymmetrize sp sh (fun k => exX k * exX k - 3) k

/-- `update_L1` performs a shifted left step on its `l1a` block. -/
theorem C58_l1a (noa nua nob nub : ℕ) (omega : R) (H1A_oo H1A_vv H1B_oo H1B_vv : ℕ → ℕ → R) (shift : R)
    (L X : Key1 → R) (hL : AntisymUnder (SpinExchange ![false] ![false]) L)
    (hX : AntisymUnder (SpinExchange ![false] ![false]) X)
    (hden : ∀ k, InRange ![false] ![false] (bySpin nua nub) (bySpin noa nob) k →
      -energyDifference ![false] ![false] (diag H1A_oo H1B_oo) (diag H1A_vv H1B_vv) k - omega + shift ≠ 0) :
    LeftStep ![false] ![false] (bySpin nua nub) (bySpin noa nob)
      (diag H1A_oo H1B_oo) (diag H1A_vv H1B_vv) omega shift X L
      (updateL1a noa nua omega H1A_oo H1A_vv shift L X).1
      (updateL1a noa nua omega H1A_oo H1A_vv shift L X).2 := by
  refine leftStep_of (visitsL1 false (bySpin nua nub) (bySpin noa nob)) hL hX hden (fun x hf s => ?_)
    ((runs_do fun _ => runs_do fun _ => runs_leaf _) (L, X))
  refine storeLeft_stores (lists_pat1 false) (lists_pat1 false) hf (copies1_at x) (copies1_at x) ?_ omega shift s
  simp [energyDifference, diag, bySpin, key1]
  

example : LeftStep ![false] ![false] (bySpin 4 5) (bySpin 3 4) exo exv (-1) (1 / 2) (exY (sp := ![false]) (sh := ![false])) (exT (sp := ![false]) (sh := ![false]))
    (updateL1a 3 4 (-1) exA exB (1 / 2) (exT (sp := ![false]) (sh := ![false])) (exY (sp := ![false]) (sh := ![false]))).1
    (updateL1a 3 4 (-1) exA exB (1 / 2) (exT (sp := ![false]) (sh := ![false])) (exY (sp := ![false]) (sh := ![false]))).2 :=
  C58_l1a 3 4 4 5 (-1) exA exB exA' exB' (1 / 2) _ _ (antisymmetrize_antisym _ _ _)
    (antisymmetrize_antisym _ _ _) (ex_denL _ _ _ _)

/-- `update_L1` performs a shifted left step on its `l1b` block. -/
theorem C58_l1b (noa nua nob nub : ℕ) (omega : R) (H1A_oo H1A_vv H1B_oo H1B_vv : ℕ → ℕ → R) (shift : R)
    (L X : Key1 → R) (hL : AntisymUnder (SpinExchange ![true] ![true]) L)
    (hX : AntisymUnder (SpinExchange ![true] ![true]) X)
    (hden : ∀ k, InRange ![true] ![true] (bySpin nua nub) (bySpin noa nob) k →
      -energyDifference ![true] ![true] (diag H1A_oo H1B_oo) (diag H1A_vv H1B_vv) k - omega + shift ≠ 0) :
    LeftStep ![true] ![true] (bySpin nua nub) (bySpin noa nob)
      (diag H1A_oo H1B_oo) (diag H1A_vv H1B_vv) omega shift X L
      (updateL1b nob nub omega H1B_oo H1B_vv shift L X).1
      (updateL1b nob nub omega H1B_oo H1B_vv shift L X).2 := by
  refine leftStep_of (visitsL1 true (bySpin nua nub) (bySpin noa nob)) hL hX hden (fun x hf s => ?_)
    ((runs_do fun _ => runs_do fun _ => runs_leaf _) (L, X))
  refine storeLeft_stores (lists_pat1 true) (lists_pat1 true) hf (copies1_at x) (copies1_at x) ?_ omega shift s
  simp [energyDifference, diag, bySpin, key1]
  

example : LeftStep ![true] ![true] (bySpin 4 5) (bySpin 3 4) exo exv (-1) (1 / 2) (exY (sp := ![true]) (sh := ![true])) (exT (sp := ![true]) (sh := ![true]))
    (updateL1b 4 5 (-1) exA' exB' (1 / 2) (exT (sp := ![true]) (sh := ![true])) (exY (sp := ![true]) (sh := ![true]))).1
    (updateL1b 4 5 (-1) exA' exB' (1 / 2) (exT (sp := ![true]) (sh := ![true])) (exY (sp := ![true]) (sh := ![true]))).2 :=
  C58_l1b 3 4 4 5 (-1) exA exB exA' exB' (1 / 2) _ _ (antisymmetrize_antisym _ _ _)
    (antisymmetrize_antisym _ _ _) (ex_denL _ _ _ _)

/-- `update_L2` performs a shifted left step on its `l2a` block. -/
theorem C58_l2a (noa nua nob nub : ℕ) (omega : R) (H1A_oo H1A_vv H1B_oo H1B_vv : ℕ → ℕ → R) (shift : R)
    (L X : Key2 → R) (hL : AntisymUnder (SpinExchange ![false, false] ![false, false]) L)
    (hX : AntisymUnder (SpinExchange ![false, false] ![false, false]) X)
    (hden : ∀ k, InRange ![false, false] ![false, false] (bySpin nua nub) (bySpin noa nob) k →
      -energyDifference ![false, false] ![false, false] (diag H1A_oo H1B_oo) (diag H1A_vv H1B_vv) k - omega + shift ≠ 0) :
    LeftStep ![false, false] ![false, false] (bySpin nua nub) (bySpin noa nob)
      (diag H1A_oo H1B_oo) (diag H1A_vv H1B_vv) omega shift X L
      (updateL2a noa nua omega H1A_oo H1A_vv shift L X).1
      (updateL2a noa nua omega H1A_oo H1A_vv shift L X).2 := by
  refine leftStep_of (visitsL2 false (bySpin nua nub) (bySpin noa nob)) hL hX hden (fun x hf s => ?_)
    ((runs_do fun _ => runs_do fun _ => runs_do fun _ => runs_do fun _ => runs_leaf _) (L, X))
  refine storeLeft_stores (lists_pat2 false) (lists_pat2 false) hf (copiesL2_at x) (copiesXL2_at x) ?_ omega shift s
  simp [energyDifference, diag, bySpin, Fin.sum_univ_succ, keyL2]
  ring

example : LeftStep ![false, false] ![false, false] (bySpin 4 5) (bySpin 3 4) exo exv (-1) (1 / 2) (exY (sp := ![false, false]) (sh := ![false, false])) (exT (sp := ![false, false]) (sh := ![false, false]))
    (updateL2a 3 4 (-1) exA exB (1 / 2) (exT (sp := ![false, false]) (sh := ![false, false])) (exY (sp := ![false, false]) (sh := ![false, false]))).1
    (updateL2a 3 4 (-1) exA exB (1 / 2) (exT (sp := ![false, false]) (sh := ![false, false])) (exY (sp := ![false, false]) (sh := ![false, false]))).2 :=
  C58_l2a 3 4 4 5 (-1) exA exB exA' exB' (1 / 2) _ _ (antisymmetrize_antisym _ _ _)
    (antisymmetrize_antisym _ _ _) (ex_denL _ _ _ _)

/-- `update_L2` performs a shifted left step on its `l2b` block. -/
theorem C58_l2b (noa nua nob nub : ℕ) (omega : R) (H1A_oo H1A_vv H1B_oo H1B_vv : ℕ → ℕ → R) (shift : R)
    (L X : Key2 → R) (hL : AntisymUnder (SpinExchange ![false, true] ![false, true]) L)
    (hX : AntisymUnder (SpinExchange ![false, true] ![false, true]) X)
    (hden : ∀ k, InRange ![false, true] ![false, true] (bySpin nua nub) (bySpin noa nob) k →
      -energyDifference ![false, true] ![false, true] (diag H1A_oo H1B_oo) (diag H1A_vv H1B_vv) k - omega + shift ≠ 0) :
    LeftStep ![false, true] ![false, true] (bySpin nua nub) (bySpin noa nob)
      (diag H1A_oo H1B_oo) (diag H1A_vv H1B_vv) omega shift X L
      (updateL2b noa nua nob nub omega H1A_oo H1A_vv H1B_oo H1B_vv shift L X).1
      (updateL2b noa nua nob nub omega H1A_oo H1A_vv H1B_oo H1B_vv shift L X).2 := by
  refine leftStep_of (visitsL2b (bySpin nua nub) (bySpin noa nob)) hL hX hden (fun x hf s => ?_)
    ((runs_do fun _ => runs_do fun _ => runs_do fun _ => runs_do fun _ => runs_leaf _) (L, X))
  refine storeLeft_stores (lists_pat2b) (lists_pat2b) hf (copies2b_at x) (copies2b_at x) ?_ omega shift s
  simp [energyDifference, diag, bySpin, Fin.sum_univ_succ, key2b]
  ring

example : LeftStep ![false, true] ![false, true] (bySpin 4 5) (bySpin 3 4) exo exv (-1) (1 / 2) (exY (sp := ![false, true]) (sh := ![false, true])) (exT (sp := ![false, true]) (sh := ![false, true]))
    (updateL2b 3 4 4 5 (-1) exA exB exA' exB' (1 / 2) (exT (sp := ![false, true]) (sh := ![false, true])) (exY (sp := ![false, true]) (sh := ![false, true]))).1
    (updateL2b 3 4 4 5 (-1) exA exB exA' exB' (1 / 2) (exT (sp := ![false, true]) (sh := ![false, true])) (exY (sp := ![false, true]) (sh := ![false, true]))).2 :=
  C58_l2b 3 4 4 5 (-1) exA exB exA' exB' (1 / 2) _ _ (antisymmetrize_antisym _ _ _)
    (antisymmetrize_antisym _ _ _) (ex_denL _ _ _ _)

/-- `update_L2` performs a shifted left step on its `l2c` block. -/
theorem C58_l2c (noa nua nob nub : ℕ) (omega : R) (H1A_oo H1A_vv H1B_oo H1B_vv : ℕ → ℕ → R) (shift : R)
    (L X : Key2 → R) (hL : AntisymUnder (SpinExchange ![true, true] ![true, true]) L)
    (hX : AntisymUnder (SpinExchange ![true, true] ![true, true]) X)
    (hden : ∀ k, InRange ![true, true] ![true, true] (bySpin nua nub) (bySpin noa nob) k →
      -energyDifference ![true, true] ![true, true] (diag H1A_oo H1B_oo) (diag H1A_vv H1B_vv) k - omega + shift ≠ 0) :
    LeftStep ![true, true] ![true, true] (bySpin nua nub) (bySpin noa nob)
      (diag H1A_oo H1B_oo) (diag H1A_vv H1B_vv) omega shift X L
      (updateL2c nob nub omega H1B_oo H1B_vv shift L X).1
      (updateL2c nob nub omega H1B_oo H1B_vv shift L X).2 := by
  refine leftStep_of (visitsL2 true (bySpin nua nub) (bySpin noa nob)) hL hX hden (fun x hf s => ?_)
    ((runs_do fun _ => runs_do fun _ => runs_do fun _ => runs_do fun _ => runs_leaf _) (L, X))
  refine storeLeft_stores (lists_pat2 true) (lists_pat2 true) hf (copiesL2_at x) (copiesXL2_at x) ?_ omega shift s
  simp [energyDifference, diag, bySpin, Fin.sum_univ_succ, keyL2]
  ring

example : LeftStep ![true, true] ![true, true] (bySpin 4 5) (bySpin 3 4) exo exv (-1) (1 / 2) (exY (sp := ![true, true]) (sh := ![true, true])) (exT (sp := ![true, true]) (sh := ![true, true]))
    (updateL2c 4 5 (-1) exA' exB' (1 / 2) (exT (sp := ![true, true]) (sh := ![true, true])) (exY (sp := ![true, true]) (sh := ![true, true]))).1
    (updateL2c 4 5 (-1) exA' exB' (1 / 2) (exT (sp := ![true, true]) (sh := ![true, true])) (exY (sp := ![true, true]) (sh := ![true, true]))).2 :=
  C58_l2c 3 4 4 5 (-1) exA exB exA' exB' (1 / 2) _ _ (antisymmetrize_antisym _ _ _)
    (antisymmetrize_antisym _ _ _) (ex_denL _ _ _ _)

/-- `update_L3` performs a shifted left step on its `l3a` block. -/
theorem C58_l3a (noa nua nob nub : ℕ) (omega : R) (H1A_oo H1A_vv H1B_oo H1B_vv : ℕ → ℕ → R) (shift : R)
    (L X : Key3 → R) (hL : AntisymUnder (SpinExchange ![false, false, false] ![false, false, false]) L)
    (hX : AntisymUnder (SpinExchange ![false, false, false] ![false, false, false]) X)
    (hden : ∀ k, InRange ![false, false, false] ![false, false, false] (bySpin nua nub) (bySpin noa nob) k →
      -energyDifference ![false, false, false] ![false, false, false] (diag H1A_oo H1B_oo) (diag H1A_vv H1B_vv) k - omega + shift ≠ 0) :
    LeftStep ![false, false, false] ![false, false, false] (bySpin nua nub) (bySpin noa nob)
      (diag H1A_oo H1B_oo) (diag H1A_vv H1B_vv) omega shift X L
      (updateL3a noa nua omega H1A_oo H1A_vv shift L X).1
      (updateL3a noa nua omega H1A_oo H1A_vv shift L X).2 := by
  refine leftStep_of (visitsL3 false (bySpin nua nub) (bySpin noa nob)) hL hX hden (fun x hf s => ?_)
    ((runs_do fun _ => runs_do fun _ => runs_do fun _ => runs_do fun _ => runs_do fun _ => runs_do fun _ => runs_leaf _) (L, X))
  refine storeLeftVal_stores (lists_copies3 false) (lists_resids3 false) hf (copiesL3_at x) (setXL3_at x) ?_ omega shift s
  simp [energyDifference, diag, bySpin, Fin.sum_univ_succ, keyL3]
  ring

example : LeftStep ![false, false, false] ![false, false, false] (bySpin 4 5) (bySpin 3 4) exo exv (-1) (1 / 2) (exY (sp := ![false, false, false]) (sh := ![false, false, false])) (exT (sp := ![false, false, false]) (sh := ![false, false, false]))
    (updateL3a 3 4 (-1) exA exB (1 / 2) (exT (sp := ![false, false, false]) (sh := ![false, false, false])) (exY (sp := ![false, false, false]) (sh := ![false, false, false]))).1
    (updateL3a 3 4 (-1) exA exB (1 / 2) (exT (sp := ![false, false, false]) (sh := ![false, false, false])) (exY (sp := ![false, false, false]) (sh := ![false, false, false]))).2 :=
  C58_l3a 3 4 4 5 (-1) exA exB exA' exB' (1 / 2) _ _ (antisymmetrize_antisym _ _ _)
    (antisymmetrize_antisym _ _ _) (ex_denL _ _ _ _)

/-- `update_L3` performs a shifted left step on its `l3b` block. -/
theorem C58_l3b (noa nua nob nub : ℕ) (omega : R) (H1A_oo H1A_vv H1B_oo H1B_vv : ℕ → ℕ → R) (shift : R)
    (L X : Key3 → R) (hL : AntisymUnder (SpinExchange ![false, false, true] ![false, false, true]) L)
    (hX : AntisymUnder (SpinExchange ![false, false, true] ![false, false, true]) X)
    (hden : ∀ k, InRange ![false, false, true] ![false, false, true] (bySpin nua nub) (bySpin noa nob) k →
      -energyDifference ![false, false, true] ![false, false, true] (diag H1A_oo H1B_oo) (diag H1A_vv H1B_vv) k - omega + shift ≠ 0) :
    LeftStep ![false, false, true] ![false, false, true] (bySpin nua nub) (bySpin noa nob)
      (diag H1A_oo H1B_oo) (diag H1A_vv H1B_vv) omega shift X L
      (updateL3b noa nua nob nub omega H1A_oo H1A_vv H1B_oo H1B_vv shift L X).1
      (updateL3b noa nua nob nub omega H1A_oo H1A_vv H1B_oo H1B_vv shift L X).2 := by
  refine leftStep_of (visitsL3b (bySpin nua nub) (bySpin noa nob)) hL hX hden (fun x hf s => ?_)
    ((runs_do fun _ => runs_do fun _ => runs_do fun _ => runs_do fun _ => runs_do fun _ => runs_do fun _ => runs_leaf _) (L, X))
  refine storeLeftVal_stores (lists_3b) (lists_3b) hf (copiesL3b_at x) (setXL3b_at x) ?_ omega shift s
  simp [energyDifference, diag, bySpin, Fin.sum_univ_succ, keyL3]
  ring

example : LeftStep ![false, false, true] ![false, false, true] (bySpin 4 5) (bySpin 3 4) exo exv (-1) (1 / 2) (exY (sp := ![false, false, true]) (sh := ![false, false, true])) (exT (sp := ![false, false, true]) (sh := ![false, false, true]))
    (updateL3b 3 4 4 5 (-1) exA exB exA' exB' (1 / 2) (exT (sp := ![false, false, true]) (sh := ![false, false, true])) (exY (sp := ![false, false, true]) (sh := ![false, false, true]))).1
    (updateL3b 3 4 4 5 (-1) exA exB exA' exB' (1 / 2) (exT (sp := ![false, false, true]) (sh := ![false, false, true])) (exY (sp := ![false, false, true]) (sh := ![false, false, true]))).2 :=
  C58_l3b 3 4 4 5 (-1) exA exB exA' exB' (1 / 2) _ _ (antisymmetrize_antisym _ _ _)
    (antisymmetrize_antisym _ _ _) (ex_denL _ _ _ _)

/-- `update_L3` performs a shifted left step on its `l3c` block. -/
theorem C58_l3c (noa nua nob nub : ℕ) (omega : R) (H1A_oo H1A_vv H1B_oo H1B_vv : ℕ → ℕ → R) (shift : R)
    (L X : Key3 → R) (hL : AntisymUnder (SpinExchange ![false, true, true] ![false, true, true]) L)
    (hX : AntisymUnder (SpinExchange ![false, true, true] ![false, true, true]) X)
    (hden : ∀ k, InRange ![false, true, true] ![false, true, true] (bySpin nua nub) (bySpin noa nob) k →
      -energyDifference ![false, true, true] ![false, true, true] (diag H1A_oo H1B_oo) (diag H1A_vv H1B_vv) k - omega + shift ≠ 0) :
    LeftStep ![false, true, true] ![false, true, true] (bySpin nua nub) (bySpin noa nob)
      (diag H1A_oo H1B_oo) (diag H1A_vv H1B_vv) omega shift X L
      (updateL3c noa nua nob nub omega H1A_oo H1A_vv H1B_oo H1B_vv shift L X).1
      (updateL3c noa nua nob nub omega H1A_oo H1A_vv H1B_oo H1B_vv shift L X).2 := by
  refine leftStep_of (visitsL3c (bySpin nua nub) (bySpin noa nob)) hL hX hden (fun x hf s => ?_)
    ((runs_do fun _ => runs_do fun _ => runs_do fun _ => runs_do fun _ => runs_do fun _ => runs_do fun _ => runs_leaf _) (L, X))
  refine storeLeftVal_stores (lists_3c) (lists_3c) hf (copiesL3c_at x) (setXL3c_at x) ?_ omega shift s
  simp [energyDifference, diag, bySpin, Fin.sum_univ_succ, keyL3]
  ring

example : LeftStep ![false, true, true] ![false, true, true] (bySpin 4 5) (bySpin 3 4) exo exv (-1) (1 / 2) (exY (sp := ![false, true, true]) (sh := ![false, true, true])) (exT (sp := ![false, true, true]) (sh := ![false, true, true]))
    (updateL3c 3 4 4 5 (-1) exA exB exA' exB' (1 / 2) (exT (sp := ![false, true, true]) (sh := ![false, true, true])) (exY (sp := ![false, true, true]) (sh := ![false, true, true]))).1
    (updateL3c 3 4 4 5 (-1) exA exB exA' exB' (1 / 2) (exT (sp := ![false, true, true]) (sh := ![false, true, true])) (exY (sp := ![false, true, true]) (sh := ![false, true, true]))).2 :=
  C58_l3c 3 4 4 5 (-1) exA exB exA' exB' (1 / 2) _ _ (antisymmetrize_antisym _ _ _)
    (antisymmetrize_antisym _ _ _) (ex_denL _ _ _ _)

/-- `update_L3` performs a shifted left step on its `l3d` block. -/
theorem C58_l3d (noa nua nob nub : ℕ) (omega : R) (H1A_oo H1A_vv H1B_oo H1B_vv : ℕ → ℕ → R) (shift : R)
    (L X : Key3 → R) (hL : AntisymUnder (SpinExchange ![true, true, true] ![true, true, true]) L)
    (hX : AntisymUnder (SpinExchange ![true, true, true] ![true, true, true]) X)
    (hden : ∀ k, InRange ![true, true, true] ![true, true, true] (bySpin nua nub) (bySpin noa nob) k →
      -energyDifference ![true, true, true] ![true, true, true] (diag H1A_oo H1B_oo) (diag H1A_vv H1B_vv) k - omega + shift ≠ 0) :
    LeftStep ![true, true, true] ![true, true, true] (bySpin nua nub) (bySpin noa nob)
      (diag H1A_oo H1B_oo) (diag H1A_vv H1B_vv) omega shift X L
      (updateL3d nob nub omega H1B_oo H1B_vv shift L X).1
      (updateL3d nob nub omega H1B_oo H1B_vv shift L X).2 := by
  refine leftStep_of (visitsL3 true (bySpin nua nub) (bySpin noa nob)) hL hX hden (fun x hf s => ?_)
    ((runs_do fun _ => runs_do fun _ => runs_do fun _ => runs_do fun _ => runs_do fun _ => runs_do fun _ => runs_leaf _) (L, X))
  refine storeLeftVal_stores (lists_copies3 true) (lists_resids3 true) hf (copiesL3_at x) (setXL3_at x) ?_ omega shift s
  simp [energyDifference, diag, bySpin, Fin.sum_univ_succ, keyL3]
  ring

example : LeftStep ![true, true, true] ![true, true, true] (bySpin 4 5) (bySpin 3 4) exo exv (-1) (1 / 2) (exY (sp := ![true, true, true]) (sh := ![true, true, true])) (exT (sp := ![true, true, true]) (sh := ![true, true, true]))
    (updateL3d 4 5 (-1) exA' exB' (1 / 2) (exT (sp := ![true, true, true]) (sh := ![true, true, true])) (exY (sp := ![true, true, true]) (sh := ![true, true, true]))).1
    (updateL3d 4 5 (-1) exA' exB' (1 / 2) (exT (sp := ![true, true, true]) (sh := ![true, true, true])) (exY (sp := ![true, true, true]) (sh := ![true, true, true]))).2 :=
  C58_l3d 3 4 4 5 (-1) exA exB exA' exB' (1 / 2) _ _ (antisymmetrize_antisym _ _ _)
    (antisymmetrize_antisym _ _ _) (ex_denL _ _ _ _)

omit [CharZero R] in
/-- Any left step is at rest exactly when the left vector is an eigenvector with eigenvalue `omega`,
and then the recorded change vanishes. -/
theorem C58_fixed_point {m n : ℕ} {sp : Fin m → Bool} {sh : Fin n → Bool} {nv no : Bool → ℕ}
    {eo ev : Bool → ℕ → R} {omega shift : R} {X L L' X' : (Fin m → ℕ) × (Fin n → ℕ) → R}
    (h : LeftStep sp sh nv no eo ev omega shift X L L' X')
    (hden : ∀ k, InRange sp sh nv no k → -energyDifference sp sh eo ev k - omega + shift ≠ 0) :
    (L' = L ↔ ∀ k, InRange sp sh nv no k → X k = omega * L k) ∧
      (L' = L ↔ ∀ k, InRange sp sh nv no k → X' k = 0) := by
  have key : ∀ k, InRange sp sh nv no k → (L' k = L k ↔ X k = omega * L k) := by
    intro k hk
    have := h.step k hk
    constructor
    · intro e
      rw [e, sub_self, mul_zero] at this
      exact (sub_eq_zero.mp this.symm).symm
    · intro e
      rw [e, sub_self] at this
      exact sub_eq_zero.mp ((mul_eq_zero.mp this).resolve_left (hden k hk))
  refine ⟨⟨fun e k hk => (key k hk).mp (by rw [e]), fun e => ?_⟩,
    ⟨fun e k hk => by rw [h.change k hk, e, sub_self], fun e => ?_⟩⟩
  · funext k
    by_cases hk : InRange sp sh nv no k
    · exact (key k hk).mpr (e k hk)
    · exact (h.outside k hk).1
  · funext k
    by_cases hk : InRange sp sh nv no k
    · exact sub_eq_zero.mp ((h.change k hk).symm.trans (e k hk))
    · exact (h.outside k hk).1

/-- The left vector of the examples is not an eigenvector: it moves. -/
example : (updateL2a 3 4 (-1) exA exB (1 / 2) (exT (sp := ![false, false]) (sh := ![false, false]))
      (exY (sp := ![false, false]) (sh := ![false, false]))).1
      (![1, 3], ![2, 1]) ≠ exT (sp := ![false, false]) (sh := ![false, false]) (![1, 3], ![2, 1]) := by
  decide +kernel

end Ccpy.UpdateKernels
