import Verif.Lemmas.ClusterExists
import Mathlib.Algebra.Order.Ring.Unbundled.Rat
import Mathlib.Data.Rat.Cast.CharZero

/-! # C42: the cluster analysis inverts the exponential ansatz

`ExponentialUpTo n C T` says that the CI coefficients `C` are those of `exp(T)` through rank `n`;
`ClusterBlock` says that an array holds the amplitudes of `T` at the excitations present in `C` and
zeros elsewhere (`Verif/Spec/ClusterExpansion.lean`). -/

namespace Ccpy.ClusterAnalysis
open Ccpy.Writes Ccpy.Spec Ccpy.UpdateKernels Ccpy.Fortran

variable {R : Type*} [Field R] [CharZero R] [DecidableEq R]

/-! Cluster amplitudes for the examples: singles, doubles and triples all present. -/

/-- spin-conserving singles -/
def exA (p h : SpinOrb) : ℚ := if p.1 = h.1 then (p.2 : ℚ) + 2 * h.2 * h.2 + (if p.2 = h.2 then 1 else 0) else 0
def exA2 (p q h k : SpinOrb) : ℚ := 2 * (exA p h * exA q k - exA p k * exA q h)
def exA3 (p q r h k l : SpinOrb) : ℚ :=
  exA p h * exA2 q r k l - exA p k * exA2 q r h l + exA p l * exA2 q r h k

/-- Example amplitudes. -/
def exT : Amplitudes ℚ := amp exA exA2 exA3

theorem exT_excitation : IsExcitation exT := by
  refine amp_excitation ?_ ?_ ?_ ?_ ?_ ?_ ?_ ?_ ?_
  · intro p q h k; unfold exA2; ring
  · intro p q h k; unfold exA2; ring
  · intro p q r h k l; unfold exA3 exA2; ring
  · intro p q r h k l; unfold exA3 exA2; ring
  · intro p q r h k l; unfold exA3 exA2; ring
  · intro p q r h k l; unfold exA3 exA2; ring
  · rintro ⟨s, a⟩ ⟨s', i⟩ hs
    cases s <;> cases s' <;> simp [nb] at hs <;> simp [exA]
  · rintro ⟨s, a⟩ ⟨t, b⟩ ⟨s', i⟩ ⟨t', j⟩ hs
    unfold exA2
    cases s <;> cases t <;> cases s' <;> cases t' <;> simp [nb] at hs <;> simp [exA]
  · rintro ⟨s, a⟩ ⟨t, b⟩ ⟨u, c⟩ ⟨s', i⟩ ⟨t', j⟩ ⟨u', k⟩ hs
    unfold exA3 exA2
    cases s <;> cases t <;> cases u <;> cases s' <;> cases t' <;> cases u' <;> simp [nb] at hs <;>
      simp [exA]

/-- A row of the list of quadruple excitations: four particles, four holes. -/
def quadruple (r : Fin 8 → ℕ) : (Fin 4 → ℕ) × (Fin 4 → ℕ) := (![r 0, r 1, r 2, r 3], ![r 4, r 5, r 6, r 7])

/-- The `t2a` block of the cluster analysis. -/
theorem C42_t2a (noa nua nob nub : ℕ) {C T : Amplitudes R} (hT : IsExcitation T)
    (hC : ExponentialUpTo 2 C T) :
    ClusterBlock ![false, false] ![false, false] (bySpin nua nub) (bySpin noa nob) C T
      (t2a noa nua (block ![false] ![false] C) (block ![false, false] ![false, false] C)) := by
  simp only [exp_block hC (show 1 ≤ 2 by decide), exp_block hC (show 2 ≤ 2 by decide)]
  refine clusterBlock_of (visitsC2 false (bySpin nua nub) (bySpin noa nob)) hT (exp_block hC (le_refl 2) _ _)
    (exp_antisym2 hT _ _) (lists_pat2 false) copies_t2a_at (fun x => val_t2a_eq hT x.1 x.2.1 x.2.2.1 x.2.2.2.1) ?_
  exact (runs_do fun _ => runs_do fun _ => runs_do fun _ => runs_do fun _ => runs_leaf _) _

example : ClusterBlock ![false, false] ![false, false] (bySpin 4 5) (bySpin 3 4) (expAmp exT) exT
    (t2a 3 4 (block ![false] ![false] (expAmp exT)) (block ![false, false] ![false, false] (expAmp exT))) :=
  C42_t2a 3 4 4 5 exT_excitation (fun _ _ _ _ => rfl)

/-- The `t2b` block of the cluster analysis. -/
theorem C42_t2b (noa nua nob nub : ℕ) {C T : Amplitudes R} (hT : IsExcitation T)
    (hC : ExponentialUpTo 2 C T) :
    ClusterBlock ![false, true] ![false, true] (bySpin nua nub) (bySpin noa nob) C T
      (t2b noa nua nob nub (block ![false] ![false] C) (block ![true] ![true] C) (block ![false, true] ![false, true] C)) := by
  simp only [exp_block hC (show 1 ≤ 2 by decide), exp_block hC (show 2 ≤ 2 by decide)]
  refine clusterBlock_of (visitsC2b (bySpin nua nub) (bySpin noa nob)) hT (exp_block hC (le_refl 2) _ _)
    (exp_antisym2 hT _ _) (lists_pat2b) copies_t2b_at (fun x => val_t2b_eq hT x.1 x.2.1 x.2.2.1 x.2.2.2.1) ?_
  exact (runs_do fun _ => runs_do fun _ => runs_do fun _ => runs_do fun _ => runs_leaf _) _

example : ClusterBlock ![false, true] ![false, true] (bySpin 4 5) (bySpin 3 4) (expAmp exT) exT
    (t2b 3 4 4 5 (block ![false] ![false] (expAmp exT)) (block ![true] ![true] (expAmp exT)) (block ![false, true] ![false, true] (expAmp exT))) :=
  C42_t2b 3 4 4 5 exT_excitation (fun _ _ _ _ => rfl)

/-- The `t2c` block of the cluster analysis. -/
theorem C42_t2c (noa nua nob nub : ℕ) {C T : Amplitudes R} (hT : IsExcitation T)
    (hC : ExponentialUpTo 2 C T) :
    ClusterBlock ![true, true] ![true, true] (bySpin nua nub) (bySpin noa nob) C T
      (t2c nob nub (block ![true] ![true] C) (block ![true, true] ![true, true] C)) := by
  simp only [exp_block hC (show 1 ≤ 2 by decide), exp_block hC (show 2 ≤ 2 by decide)]
  refine clusterBlock_of (visitsC2 true (bySpin nua nub) (bySpin noa nob)) hT (exp_block hC (le_refl 2) _ _)
    (exp_antisym2 hT _ _) (lists_pat2 true) copies_t2c_at (fun x => val_t2c_eq hT x.1 x.2.1 x.2.2.1 x.2.2.2.1) ?_
  exact (runs_do fun _ => runs_do fun _ => runs_do fun _ => runs_do fun _ => runs_leaf _) _

example : ClusterBlock ![true, true] ![true, true] (bySpin 4 5) (bySpin 3 4) (expAmp exT) exT
    (t2c 4 5 (block ![true] ![true] (expAmp exT)) (block ![true, true] ![true, true] (expAmp exT))) :=
  C42_t2c 3 4 4 5 exT_excitation (fun _ _ _ _ => rfl)

/-- The `t3a` block of the cluster analysis. -/
theorem C42_t3a (noa nua nob nub : ℕ) {C T : Amplitudes R} (hT : IsExcitation T)
    (hC : ExponentialUpTo 3 C T) :
    ClusterBlock ![false, false, false] ![false, false, false] (bySpin nua nub) (bySpin noa nob) C T
      (t3a noa nua (block ![false] ![false] C) (block ![false, false] ![false, false] C) (block ![false, false, false] ![false, false, false] C)) := by
  simp only [exp_block hC (show 1 ≤ 3 by decide), exp_block hC (show 2 ≤ 3 by decide), exp_block hC (show 3 ≤ 3 by decide)]
  refine clusterBlock_of (visitsC3 false (bySpin nua nub) (bySpin noa nob)) hT (exp_block hC (le_refl 3) _ _)
    (exp_antisym3 hT _ _) (lists_copies3 false) copies_t3a_at (fun x => val_t3a_eq hT x.1 x.2.1 x.2.2.1 x.2.2.2.1 x.2.2.2.2.1 x.2.2.2.2.2.1) ?_
  exact (runs_do fun _ => runs_do fun _ => runs_do fun _ => runs_do fun _ => runs_do fun _ => runs_do fun _ => runs_leaf _) _

example : ClusterBlock ![false, false, false] ![false, false, false] (bySpin 4 5) (bySpin 3 4) (expAmp exT) exT
    (t3a 3 4 (block ![false] ![false] (expAmp exT)) (block ![false, false] ![false, false] (expAmp exT)) (block ![false, false, false] ![false, false, false] (expAmp exT))) :=
  C42_t3a 3 4 4 5 exT_excitation (fun _ _ _ _ => rfl)

/-- The `t3b` block of the cluster analysis. -/
theorem C42_t3b (noa nua nob nub : ℕ) {C T : Amplitudes R} (hT : IsExcitation T)
    (hC : ExponentialUpTo 3 C T) :
    ClusterBlock ![false, false, true] ![false, false, true] (bySpin nua nub) (bySpin noa nob) C T
      (t3b noa nua nob nub (block ![false] ![false] C) (block ![true] ![true] C) (block ![false, false] ![false, false] C) (block ![false, true] ![false, true] C) (block ![false, false, true] ![false, false, true] C)) := by
  simp only [exp_block hC (show 1 ≤ 3 by decide), exp_block hC (show 2 ≤ 3 by decide), exp_block hC (show 3 ≤ 3 by decide)]
  refine clusterBlock_of (visitsC3b (bySpin nua nub) (bySpin noa nob)) hT (exp_block hC (le_refl 3) _ _)
    (exp_antisym3 hT _ _) (lists_3b) copies_t3b_at (fun x => val_t3b_eq hT x.1 x.2.1 x.2.2.1 x.2.2.2.1 x.2.2.2.2.1 x.2.2.2.2.2.1) ?_
  exact (runs_do fun _ => runs_do fun _ => runs_do fun _ => runs_do fun _ => runs_do fun _ => runs_do fun _ => runs_leaf _) _

example : ClusterBlock ![false, false, true] ![false, false, true] (bySpin 4 5) (bySpin 3 4) (expAmp exT) exT
    (t3b 3 4 4 5 (block ![false] ![false] (expAmp exT)) (block ![true] ![true] (expAmp exT)) (block ![false, false] ![false, false] (expAmp exT)) (block ![false, true] ![false, true] (expAmp exT)) (block ![false, false, true] ![false, false, true] (expAmp exT))) :=
  C42_t3b 3 4 4 5 exT_excitation (fun _ _ _ _ => rfl)

/-- The `t3c` block of the cluster analysis. -/
theorem C42_t3c (noa nua nob nub : ℕ) {C T : Amplitudes R} (hT : IsExcitation T)
    (hC : ExponentialUpTo 3 C T) :
    ClusterBlock ![false, true, true] ![false, true, true] (bySpin nua nub) (bySpin noa nob) C T
      (t3c noa nua nob nub (block ![false] ![false] C) (block ![true] ![true] C) (block ![false, true] ![false, true] C) (block ![true, true] ![true, true] C) (block ![false, true, true] ![false, true, true] C)) := by
  simp only [exp_block hC (show 1 ≤ 3 by decide), exp_block hC (show 2 ≤ 3 by decide), exp_block hC (show 3 ≤ 3 by decide)]
  refine clusterBlock_of (visitsC3c (bySpin nua nub) (bySpin noa nob)) hT (exp_block hC (le_refl 3) _ _)
    (exp_antisym3 hT _ _) (lists_3c) copies_t3c_at (fun x => val_t3c_eq hT x.1 x.2.1 x.2.2.1 x.2.2.2.1 x.2.2.2.2.1 x.2.2.2.2.2.1) ?_
  exact (runs_do fun _ => runs_do fun _ => runs_do fun _ => runs_do fun _ => runs_do fun _ => runs_do fun _ => runs_leaf _) _

example : ClusterBlock ![false, true, true] ![false, true, true] (bySpin 4 5) (bySpin 3 4) (expAmp exT) exT
    (t3c 3 4 4 5 (block ![false] ![false] (expAmp exT)) (block ![true] ![true] (expAmp exT)) (block ![false, true] ![false, true] (expAmp exT)) (block ![true, true] ![true, true] (expAmp exT)) (block ![false, true, true] ![false, true, true] (expAmp exT))) :=
  C42_t3c 3 4 4 5 exT_excitation (fun _ _ _ _ => rfl)

/-- The `t3d` block of the cluster analysis. -/
theorem C42_t3d (noa nua nob nub : ℕ) {C T : Amplitudes R} (hT : IsExcitation T)
    (hC : ExponentialUpTo 3 C T) :
    ClusterBlock ![true, true, true] ![true, true, true] (bySpin nua nub) (bySpin noa nob) C T
      (t3d nob nub (block ![true] ![true] C) (block ![true, true] ![true, true] C) (block ![true, true, true] ![true, true, true] C)) := by
  simp only [exp_block hC (show 1 ≤ 3 by decide), exp_block hC (show 2 ≤ 3 by decide), exp_block hC (show 3 ≤ 3 by decide)]
  refine clusterBlock_of (visitsC3 true (bySpin nua nub) (bySpin noa nob)) hT (exp_block hC (le_refl 3) _ _)
    (exp_antisym3 hT _ _) (lists_copies3 true) copies_t3d_at (fun x => val_t3d_eq hT x.1 x.2.1 x.2.2.1 x.2.2.2.1 x.2.2.2.2.1 x.2.2.2.2.2.1) ?_
  exact (runs_do fun _ => runs_do fun _ => runs_do fun _ => runs_do fun _ => runs_do fun _ => runs_do fun _ => runs_leaf _) _

example : ClusterBlock ![true, true, true] ![true, true, true] (bySpin 4 5) (bySpin 3 4) (expAmp exT) exT
    (t3d 4 5 (block ![true] ![true] (expAmp exT)) (block ![true, true] ![true, true] (expAmp exT)) (block ![true, true, true] ![true, true, true] (expAmp exT))) :=
  C42_t3d 3 4 4 5 exT_excitation (fun _ _ _ _ => rfl)

/-- Quadruples of spin case `aaaa`: the amplitudes of `T` at the listed excitations. -/
theorem C42_t4_aaaa {C T : Amplitudes R} (hT : IsExcitation T) (hC : ExponentialUpTo 4 C T)
    (rows : List (Fin 8 → ℕ)) :
    t4_aaaa (block ![false] ![false] C) (block ![false, false] ![false, false] C) (block ![false, false, false] ![false, false, false] C) rows
      (rows.map fun r => block ![false, false, false, false] ![false, false, false, false] C (quadruple r)) =
    rows.map fun r => block ![false, false, false, false] ![false, false, false, false] T (quadruple r) := by
  simp only [exp_block hC (show 1 ≤ 4 by decide), exp_block hC (show 2 ≤ 4 by decide), exp_block hC (show 3 ≤ 4 by decide), exp_block hC (show 4 ≤ 4 by decide)]
  exact zipWith_map_rows rows fun r => val_t4_aaaa_eq hT _ _ _ _ _ _ _ _

example : t4_aaaa (block ![false] ![false] (expAmp exT)) (block ![false, false] ![false, false] (expAmp exT)) (block ![false, false, false] ![false, false, false] (expAmp exT)) [![1, 2, 3, 4, 1, 2, 3, 4], ![1, 3, 2, 4, 2, 3, 1, 5]]
      ([![1, 2, 3, 4, 1, 2, 3, 4], ![1, 3, 2, 4, 2, 3, 1, 5]].map fun r => block ![false, false, false, false] ![false, false, false, false] (expAmp exT) (quadruple r)) =
    [![1, 2, 3, 4, 1, 2, 3, 4], ![1, 3, 2, 4, 2, 3, 1, 5]].map fun r => block ![false, false, false, false] ![false, false, false, false] exT (quadruple r) :=
  C42_t4_aaaa exT_excitation (fun _ _ _ _ => rfl) _

/-- Quadruples of spin case `aaab`: the amplitudes of `T` at the listed excitations. -/
theorem C42_t4_aaab {C T : Amplitudes R} (hT : IsExcitation T) (hC : ExponentialUpTo 4 C T)
    (rows : List (Fin 8 → ℕ)) :
    t4_aaab (block ![false] ![false] C) (block ![true] ![true] C) (block ![false, false] ![false, false] C) (block ![false, true] ![false, true] C) (block ![false, false, false] ![false, false, false] C) (block ![false, false, true] ![false, false, true] C) rows
      (rows.map fun r => block ![false, false, false, true] ![false, false, false, true] C (quadruple r)) =
    rows.map fun r => block ![false, false, false, true] ![false, false, false, true] T (quadruple r) := by
  simp only [exp_block hC (show 1 ≤ 4 by decide), exp_block hC (show 2 ≤ 4 by decide), exp_block hC (show 3 ≤ 4 by decide), exp_block hC (show 4 ≤ 4 by decide)]
  exact zipWith_map_rows rows fun r => val_t4_aaab_eq hT _ _ _ _ _ _ _ _

example : t4_aaab (block ![false] ![false] (expAmp exT)) (block ![true] ![true] (expAmp exT)) (block ![false, false] ![false, false] (expAmp exT)) (block ![false, true] ![false, true] (expAmp exT)) (block ![false, false, false] ![false, false, false] (expAmp exT)) (block ![false, false, true] ![false, false, true] (expAmp exT)) [![1, 2, 3, 4, 1, 2, 3, 4], ![1, 3, 2, 4, 2, 3, 1, 5]]
      ([![1, 2, 3, 4, 1, 2, 3, 4], ![1, 3, 2, 4, 2, 3, 1, 5]].map fun r => block ![false, false, false, true] ![false, false, false, true] (expAmp exT) (quadruple r)) =
    [![1, 2, 3, 4, 1, 2, 3, 4], ![1, 3, 2, 4, 2, 3, 1, 5]].map fun r => block ![false, false, false, true] ![false, false, false, true] exT (quadruple r) :=
  C42_t4_aaab exT_excitation (fun _ _ _ _ => rfl) _

/-- Quadruples of spin case `aabb`: the amplitudes of `T` at the listed excitations. -/
theorem C42_t4_aabb {C T : Amplitudes R} (hT : IsExcitation T) (hC : ExponentialUpTo 4 C T)
    (rows : List (Fin 8 → ℕ)) :
    t4_aabb (block ![false] ![false] C) (block ![true] ![true] C) (block ![false, false] ![false, false] C) (block ![false, true] ![false, true] C) (block ![true, true] ![true, true] C) (block ![false, false, true] ![false, false, true] C) (block ![false, true, true] ![false, true, true] C) rows
      (rows.map fun r => block ![false, false, true, true] ![false, false, true, true] C (quadruple r)) =
    rows.map fun r => block ![false, false, true, true] ![false, false, true, true] T (quadruple r) := by
  simp only [exp_block hC (show 1 ≤ 4 by decide), exp_block hC (show 2 ≤ 4 by decide), exp_block hC (show 3 ≤ 4 by decide), exp_block hC (show 4 ≤ 4 by decide)]
  exact zipWith_map_rows rows fun r => val_t4_aabb_eq hT _ _ _ _ _ _ _ _

example : t4_aabb (block ![false] ![false] (expAmp exT)) (block ![true] ![true] (expAmp exT)) (block ![false, false] ![false, false] (expAmp exT)) (block ![false, true] ![false, true] (expAmp exT)) (block ![true, true] ![true, true] (expAmp exT)) (block ![false, false, true] ![false, false, true] (expAmp exT)) (block ![false, true, true] ![false, true, true] (expAmp exT)) [![1, 2, 3, 4, 1, 2, 3, 4], ![1, 3, 2, 4, 2, 3, 1, 5]]
      ([![1, 2, 3, 4, 1, 2, 3, 4], ![1, 3, 2, 4, 2, 3, 1, 5]].map fun r => block ![false, false, true, true] ![false, false, true, true] (expAmp exT) (quadruple r)) =
    [![1, 2, 3, 4, 1, 2, 3, 4], ![1, 3, 2, 4, 2, 3, 1, 5]].map fun r => block ![false, false, true, true] ![false, false, true, true] exT (quadruple r) :=
  C42_t4_aabb exT_excitation (fun _ _ _ _ => rfl) _

/-- Quadruples of spin case `abbb`: the amplitudes of `T` at the listed excitations. -/
theorem C42_t4_abbb {C T : Amplitudes R} (hT : IsExcitation T) (hC : ExponentialUpTo 4 C T)
    (rows : List (Fin 8 → ℕ)) :
    t4_abbb (block ![false] ![false] C) (block ![true] ![true] C) (block ![false, true] ![false, true] C) (block ![true, true] ![true, true] C) (block ![false, true, true] ![false, true, true] C) (block ![true, true, true] ![true, true, true] C) rows
      (rows.map fun r => block ![false, true, true, true] ![false, true, true, true] C (quadruple r)) =
    rows.map fun r => block ![false, true, true, true] ![false, true, true, true] T (quadruple r) := by
  simp only [exp_block hC (show 1 ≤ 4 by decide), exp_block hC (show 2 ≤ 4 by decide), exp_block hC (show 3 ≤ 4 by decide), exp_block hC (show 4 ≤ 4 by decide)]
  exact zipWith_map_rows rows fun r => val_t4_abbb_eq hT _ _ _ _ _ _ _ _

example : t4_abbb (block ![false] ![false] (expAmp exT)) (block ![true] ![true] (expAmp exT)) (block ![false, true] ![false, true] (expAmp exT)) (block ![true, true] ![true, true] (expAmp exT)) (block ![false, true, true] ![false, true, true] (expAmp exT)) (block ![true, true, true] ![true, true, true] (expAmp exT)) [![1, 2, 3, 4, 1, 2, 3, 4], ![1, 3, 2, 4, 2, 3, 1, 5]]
      ([![1, 2, 3, 4, 1, 2, 3, 4], ![1, 3, 2, 4, 2, 3, 1, 5]].map fun r => block ![false, true, true, true] ![false, true, true, true] (expAmp exT) (quadruple r)) =
    [![1, 2, 3, 4, 1, 2, 3, 4], ![1, 3, 2, 4, 2, 3, 1, 5]].map fun r => block ![false, true, true, true] ![false, true, true, true] exT (quadruple r) :=
  C42_t4_abbb exT_excitation (fun _ _ _ _ => rfl) _

/-- Quadruples of spin case `bbbb`: the amplitudes of `T` at the listed excitations. -/
theorem C42_t4_bbbb {C T : Amplitudes R} (hT : IsExcitation T) (hC : ExponentialUpTo 4 C T)
    (rows : List (Fin 8 → ℕ)) :
    t4_bbbb (block ![true] ![true] C) (block ![true, true] ![true, true] C) (block ![true, true, true] ![true, true, true] C) rows
      (rows.map fun r => block ![true, true, true, true] ![true, true, true, true] C (quadruple r)) =
    rows.map fun r => block ![true, true, true, true] ![true, true, true, true] T (quadruple r) := by
  simp only [exp_block hC (show 1 ≤ 4 by decide), exp_block hC (show 2 ≤ 4 by decide), exp_block hC (show 3 ≤ 4 by decide), exp_block hC (show 4 ≤ 4 by decide)]
  exact zipWith_map_rows rows fun r => val_t4_bbbb_eq hT _ _ _ _ _ _ _ _

example : t4_bbbb (block ![true] ![true] (expAmp exT)) (block ![true, true] ![true, true] (expAmp exT)) (block ![true, true, true] ![true, true, true] (expAmp exT)) [![1, 2, 3, 4, 1, 2, 3, 4], ![1, 3, 2, 4, 2, 3, 1, 5]]
      ([![1, 2, 3, 4, 1, 2, 3, 4], ![1, 3, 2, 4, 2, 3, 1, 5]].map fun r => block ![true, true, true, true] ![true, true, true, true] (expAmp exT) (quadruple r)) =
    [![1, 2, 3, 4, 1, 2, 3, 4], ![1, 3, 2, 4, 2, 3, 1, 5]].map fun r => block ![true, true, true, true] ![true, true, true, true] exT (quadruple r) :=
  C42_t4_bbbb exT_excitation (fun _ _ _ _ => rfl) _

/-- The examples are not trivial: coefficients and amplitudes of every rank are non-zero. -/
example : block ![false, false] ![false, false] (expAmp exT) (![2, 1], ![1, 2]) ≠ 0 ∧
    block ![false, false] ![false, false] exT (![2, 1], ![1, 2]) ≠ 0 ∧
    block ![false, false, true] ![false, false, true] (expAmp exT) (![1, 2, 3], ![2, 1, 3]) ≠ 0 ∧
    block ![false, false, true] ![false, false, true] exT (![1, 2, 3], ![2, 1, 3]) ≠ 0 ∧
    block ![false, false, true, true] ![false, false, true, true] (expAmp exT)
      (quadruple ![1, 2, 3, 4, 1, 2, 3, 4]) ≠ 0 := by
  decide +kernel

/-- Every CI wave function (in intermediate normalisation) is an exponential, so the analysis of its
coefficients returns cluster amplitudes that reproduce it, wherever its coefficients do not vanish. -/
theorem C42_every_wave_function (noa nua nob nub : ℕ) {C : Amplitudes R} (hC : IsExcitation C)
    (h0 : C [] [] = 1) :
    ∃ T : Amplitudes R, IsExcitation T ∧ ExponentialUpTo 3 C T ∧
      ClusterBlock ![false, false] ![false, false] (bySpin nua nub) (bySpin noa nob) C T
        (t2a noa nua (block ![false] ![false] C) (block ![false, false] ![false, false] C)) ∧
      ClusterBlock ![false, true] ![false, true] (bySpin nua nub) (bySpin noa nob) C T
        (t2b noa nua nob nub (block ![false] ![false] C) (block ![true] ![true] C)
          (block ![false, true] ![false, true] C)) ∧
      ClusterBlock ![true, true] ![true, true] (bySpin nua nub) (bySpin noa nob) C T
        (t2c nob nub (block ![true] ![true] C) (block ![true, true] ![true, true] C)) ∧
      ClusterBlock ![false, false, false] ![false, false, false] (bySpin nua nub) (bySpin noa nob) C T
        (t3a noa nua (block ![false] ![false] C) (block ![false, false] ![false, false] C)
          (block ![false, false, false] ![false, false, false] C)) ∧
      ClusterBlock ![false, false, true] ![false, false, true] (bySpin nua nub) (bySpin noa nob) C T
        (t3b noa nua nob nub (block ![false] ![false] C) (block ![true] ![true] C)
          (block ![false, false] ![false, false] C) (block ![false, true] ![false, true] C)
          (block ![false, false, true] ![false, false, true] C)) ∧
      ClusterBlock ![false, true, true] ![false, true, true] (bySpin nua nub) (bySpin noa nob) C T
        (t3c noa nua nob nub (block ![false] ![false] C) (block ![true] ![true] C)
          (block ![false, true] ![false, true] C) (block ![true, true] ![true, true] C)
          (block ![false, true, true] ![false, true, true] C)) ∧
      ClusterBlock ![true, true, true] ![true, true, true] (bySpin nua nub) (bySpin noa nob) C T
        (t3d nob nub (block ![true] ![true] C) (block ![true, true] ![true, true] C)
          (block ![true, true, true] ![true, true, true] C)) := by
  have hT := log_excitation hC
  have hE := log_exponential h0
  have hE2 : ExponentialUpTo 2 C _ := fun p h hl h2 => hE p h hl (Nat.le_succ_of_le h2)
  exact ⟨_, hT, hE, C42_t2a noa nua nob nub hT hE2, C42_t2b noa nua nob nub hT hE2,
    C42_t2c noa nua nob nub hT hE2, C42_t3a noa nua nob nub hT hE, C42_t3b noa nua nob nub hT hE,
    C42_t3c noa nua nob nub hT hE, C42_t3d noa nua nob nub hT hE⟩

/-- a CI wave function for the example: the reference plus `exT` as coefficients -/
def exC : Amplitudes ℚ := fun p h => if p = [] ∧ h = [] then 1 else exT p h

theorem exC_excitation : IsExcitation exC := by
  have key : ∀ p h, exC p h = if p.length = 0 ∧ h.length = 0 then 1 else exT p h := by
    intro p h; simp [exC]
  refine ⟨?_, ?_, ?_⟩
  · intro n p g h
    rw [key, key]
    match n, p, g with
    | 0, p, g => rw [Subsingleton.elim g 1]; simp
    | n + 1, p, g => simpa using exT_excitation.particles (n + 1) p g h
  · intro n p h g
    rw [key, key]
    match n, h, g with
    | 0, p, g => rw [Subsingleton.elim g 1]; simp
    | n + 1, h, g => simpa using exT_excitation.holes (n + 1) p h g
  · intro p h hs
    rw [key]
    split
    · rename_i h0
      rw [List.length_eq_zero_iff.mp h0.1, List.length_eq_zero_iff.mp h0.2] at hs
      exact absurd rfl hs
    · exact exT_excitation.spin p h hs

example : IsExcitation exC ∧ exC [] [] = 1 := ⟨exC_excitation, rfl⟩

/-- Where a CI coefficient vanishes although the cluster amplitude does not, the analysis stores
zero: the disconnected part is not subtracted there. -/
theorem C42_absent_coefficient :
    ∃ C T : Amplitudes ℚ, IsExcitation T ∧ ExponentialUpTo 4 C T ∧
      block ![false, false] ![false, false] C (![1, 2], ![1, 2]) = 0 ∧
      block ![false, false] ![false, false] T (![1, 2], ![1, 2]) ≠ 0 ∧
      t2a 2 2 (block ![false] ![false] C) (block ![false, false] ![false, false] C) (![1, 2], ![1, 2]) = 0 := by
  refine ⟨expAmp (amp exA (fun p q h k => -(exA p h * exA q k - exA p k * exA q h)) fun _ _ _ _ _ _ => 0),
    amp exA (fun p q h k => -(exA p h * exA q k - exA p k * exA q h)) fun _ _ _ _ _ _ => 0, ?_,
    fun _ _ _ _ => rfl, by decide +kernel, by decide +kernel, by decide +kernel⟩
  refine amp_excitation ?_ ?_ ?_ ?_ ?_ ?_ ?_ ?_ ?_
  · intro p q h k; ring
  · intro p q h k; ring
  · intro p q r h k l; ring
  · intro p q r h k l; ring
  · intro p q r h k l; ring
  · intro p q r h k l; ring
  · rintro ⟨s, a⟩ ⟨s', i⟩ hs
    cases s <;> cases s' <;> simp [nb] at hs <;> simp [exA]
  · rintro ⟨s, a⟩ ⟨t, b⟩ ⟨s', i⟩ ⟨t', j⟩ hs
    cases s <;> cases t <;> cases s' <;> cases t' <;> simp [nb] at hs <;> simp [exA]
  · intro p q r h k l _; rfl

end Ccpy.ClusterAnalysis
