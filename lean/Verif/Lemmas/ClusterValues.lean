import Verif.Lemmas.ClusterAnalysis

/-! The cluster-analysis formulas applied to the coefficients of `exp(T)`. -/

namespace Ccpy.ClusterAnalysis
open Ccpy.Writes Ccpy.Spec Ccpy.UpdateKernels

set_option linter.unusedSimpArgs false

variable {R : Type*} [Field R] {T : Amplitudes R}

theorem val_t2a_eq (hT : IsExcitation T) (a b i j : ℕ) :
    val_t2a (block ![false] ![false] (expAmp T)) (block ![false, false] ![false, false] (expAmp T)) a b i j =
      block ![false, false] ![false, false] T (![a, b], ![i, j]) := by
  simp [val_t2a, block, exp1, exp2, exp3, Z1 hT, Z2 hT, P2 hT (false, a) (false, b), H2 hT (false, i) (false, j)]
  try ring

theorem val_t2b_eq (hT : IsExcitation T) (a b i j : ℕ) :
    val_t2b (block ![false] ![false] (expAmp T)) (block ![true] ![true] (expAmp T)) (block ![false, true] ![false, true] (expAmp T)) a b i j =
      block ![false, true] ![false, true] T (![a, b], ![i, j]) := by
  simp [val_t2b, block, exp1, exp2, exp3, Z1 hT, Z2 hT, P2 hT (false, a) (true, b), H2 hT (false, i) (true, j)]
  try ring

theorem val_t2c_eq (hT : IsExcitation T) (a b i j : ℕ) :
    val_t2c (block ![true] ![true] (expAmp T)) (block ![true, true] ![true, true] (expAmp T)) a b i j =
      block ![true, true] ![true, true] T (![a, b], ![i, j]) := by
  simp [val_t2c, block, exp1, exp2, exp3, Z1 hT, Z2 hT, P2 hT (true, a) (true, b), H2 hT (true, i) (true, j)]
  try ring

theorem val_t3a_eq (hT : IsExcitation T) (a b c i j k : ℕ) :
    val_t3a (block ![false] ![false] (expAmp T)) (block ![false, false] ![false, false] (expAmp T)) (block ![false, false, false] ![false, false, false] (expAmp T)) a b c i j k =
      block ![false, false, false] ![false, false, false] T (![a, b, c], ![i, j, k]) := by
  simp [val_t3a, block, exp1, exp2, exp3, Z1 hT, Z2 hT, P2 hT (false, a) (false, b), P2 hT (false, a) (false, c), P2 hT (false, b) (false, c), H2 hT (false, i) (false, j), H2 hT (false, i) (false, k), H2 hT (false, j) (false, k)]
  try ring

theorem val_t3b_eq (hT : IsExcitation T) (a b c i j k : ℕ) :
    val_t3b (block ![false] ![false] (expAmp T)) (block ![true] ![true] (expAmp T)) (block ![false, false] ![false, false] (expAmp T)) (block ![false, true] ![false, true] (expAmp T)) (block ![false, false, true] ![false, false, true] (expAmp T)) a b c i j k =
      block ![false, false, true] ![false, false, true] T (![a, b, c], ![i, j, k]) := by
  simp [val_t3b, block, exp1, exp2, exp3, Z1 hT, Z2 hT, P2 hT (false, a) (false, b), P2 hT (false, a) (true, c), P2 hT (false, b) (true, c), H2 hT (false, i) (false, j), H2 hT (false, i) (true, k), H2 hT (false, j) (true, k)]
  try ring

theorem val_t3c_eq (hT : IsExcitation T) (a b c i j k : ℕ) :
    val_t3c (block ![false] ![false] (expAmp T)) (block ![true] ![true] (expAmp T)) (block ![false, true] ![false, true] (expAmp T)) (block ![true, true] ![true, true] (expAmp T)) (block ![false, true, true] ![false, true, true] (expAmp T)) a b c i j k =
      block ![false, true, true] ![false, true, true] T (![a, b, c], ![i, j, k]) := by
  simp [val_t3c, block, exp1, exp2, exp3, Z1 hT, Z2 hT, P2 hT (false, a) (true, b), P2 hT (false, a) (true, c), P2 hT (true, b) (true, c), H2 hT (false, i) (true, j), H2 hT (false, i) (true, k), H2 hT (true, j) (true, k)]
  try ring

theorem val_t3d_eq (hT : IsExcitation T) (a b c i j k : ℕ) :
    val_t3d (block ![true] ![true] (expAmp T)) (block ![true, true] ![true, true] (expAmp T)) (block ![true, true, true] ![true, true, true] (expAmp T)) a b c i j k =
      block ![true, true, true] ![true, true, true] T (![a, b, c], ![i, j, k]) := by
  simp [val_t3d, block, exp1, exp2, exp3, Z1 hT, Z2 hT, P2 hT (true, a) (true, b), P2 hT (true, a) (true, c), P2 hT (true, b) (true, c), H2 hT (true, i) (true, j), H2 hT (true, i) (true, k), H2 hT (true, j) (true, k)]
  try ring

set_option maxHeartbeats 4000000 in
theorem val_t4_aaaa_eq (hT : IsExcitation T) (a b c d i j k l : ℕ) :
    val_t4_aaaa (block ![false] ![false] (expAmp T)) (block ![false, false] ![false, false] (expAmp T)) (block ![false, false, false] ![false, false, false] (expAmp T)) a b c d i j k l
      (block ![false, false, false, false] ![false, false, false, false] (expAmp T) (![a, b, c, d], ![i, j, k, l])) =
      block ![false, false, false, false] ![false, false, false, false] T (![a, b, c, d], ![i, j, k, l]) := by
  simp [val_t4_aaaa, block, exp1, exp2, exp3, expAmp, expAux, unshuffle, Z1 hT, Z2 hT, Z3 hT,
    P2 hT (false, a) (false, b), P2 hT (false, a) (false, c), P2 hT (false, a) (false, d), P2 hT (false, b) (false, c), P2 hT (false, b) (false, d), P2 hT (false, c) (false, d), P3 hT (false, a) (false, b) (false, c), P3 hT (false, a) (false, b) (false, d), P3 hT (false, a) (false, c) (false, d), P3 hT (false, b) (false, c) (false, d), H2 hT (false, i) (false, j), H2 hT (false, i) (false, k), H2 hT (false, i) (false, l), H2 hT (false, j) (false, k), H2 hT (false, j) (false, l), H2 hT (false, k) (false, l), H3 hT (false, i) (false, j) (false, k), H3 hT (false, i) (false, j) (false, l), H3 hT (false, i) (false, k) (false, l), H3 hT (false, j) (false, k) (false, l)]
  ring

set_option maxHeartbeats 4000000 in
theorem val_t4_aaab_eq (hT : IsExcitation T) (a b c d i j k l : ℕ) :
    val_t4_aaab (block ![false] ![false] (expAmp T)) (block ![true] ![true] (expAmp T)) (block ![false, false] ![false, false] (expAmp T)) (block ![false, true] ![false, true] (expAmp T)) (block ![false, false, false] ![false, false, false] (expAmp T)) (block ![false, false, true] ![false, false, true] (expAmp T)) a b c d i j k l
      (block ![false, false, false, true] ![false, false, false, true] (expAmp T) (![a, b, c, d], ![i, j, k, l])) =
      block ![false, false, false, true] ![false, false, false, true] T (![a, b, c, d], ![i, j, k, l]) := by
  simp [val_t4_aaab, block, exp1, exp2, exp3, expAmp, expAux, unshuffle, Z1 hT, Z2 hT, Z3 hT,
    P2 hT (false, a) (false, b), P2 hT (false, a) (false, c), P2 hT (false, a) (true, d), P2 hT (false, b) (false, c), P2 hT (false, b) (true, d), P2 hT (false, c) (true, d), P3 hT (false, a) (false, b) (false, c), P3 hT (false, a) (false, b) (true, d), P3 hT (false, a) (false, c) (true, d), P3 hT (false, b) (false, c) (true, d), H2 hT (false, i) (false, j), H2 hT (false, i) (false, k), H2 hT (false, i) (true, l), H2 hT (false, j) (false, k), H2 hT (false, j) (true, l), H2 hT (false, k) (true, l), H3 hT (false, i) (false, j) (false, k), H3 hT (false, i) (false, j) (true, l), H3 hT (false, i) (false, k) (true, l), H3 hT (false, j) (false, k) (true, l)]
  ring

set_option maxHeartbeats 4000000 in
theorem val_t4_aabb_eq (hT : IsExcitation T) (a b c d i j k l : ℕ) :
    val_t4_aabb (block ![false] ![false] (expAmp T)) (block ![true] ![true] (expAmp T)) (block ![false, false] ![false, false] (expAmp T)) (block ![false, true] ![false, true] (expAmp T)) (block ![true, true] ![true, true] (expAmp T)) (block ![false, false, true] ![false, false, true] (expAmp T)) (block ![false, true, true] ![false, true, true] (expAmp T)) a b c d i j k l
      (block ![false, false, true, true] ![false, false, true, true] (expAmp T) (![a, b, c, d], ![i, j, k, l])) =
      block ![false, false, true, true] ![false, false, true, true] T (![a, b, c, d], ![i, j, k, l]) := by
  simp [val_t4_aabb, block, exp1, exp2, exp3, expAmp, expAux, unshuffle, Z1 hT, Z2 hT, Z3 hT,
    P2 hT (false, a) (false, b), P2 hT (false, a) (true, c), P2 hT (false, a) (true, d), P2 hT (false, b) (true, c), P2 hT (false, b) (true, d), P2 hT (true, c) (true, d), P3 hT (false, a) (false, b) (true, c), P3 hT (false, a) (false, b) (true, d), P3 hT (false, a) (true, c) (true, d), P3 hT (false, b) (true, c) (true, d), H2 hT (false, i) (false, j), H2 hT (false, i) (true, k), H2 hT (false, i) (true, l), H2 hT (false, j) (true, k), H2 hT (false, j) (true, l), H2 hT (true, k) (true, l), H3 hT (false, i) (false, j) (true, k), H3 hT (false, i) (false, j) (true, l), H3 hT (false, i) (true, k) (true, l), H3 hT (false, j) (true, k) (true, l)]
  ring

set_option maxHeartbeats 4000000 in
theorem val_t4_abbb_eq (hT : IsExcitation T) (a b c d i j k l : ℕ) :
    val_t4_abbb (block ![false] ![false] (expAmp T)) (block ![true] ![true] (expAmp T)) (block ![false, true] ![false, true] (expAmp T)) (block ![true, true] ![true, true] (expAmp T)) (block ![false, true, true] ![false, true, true] (expAmp T)) (block ![true, true, true] ![true, true, true] (expAmp T)) a b c d i j k l
      (block ![false, true, true, true] ![false, true, true, true] (expAmp T) (![a, b, c, d], ![i, j, k, l])) =
      block ![false, true, true, true] ![false, true, true, true] T (![a, b, c, d], ![i, j, k, l]) := by
  simp [val_t4_abbb, block, exp1, exp2, exp3, expAmp, expAux, unshuffle, Z1 hT, Z2 hT, Z3 hT,
    P2 hT (false, a) (true, b), P2 hT (false, a) (true, c), P2 hT (false, a) (true, d), P2 hT (true, b) (true, c), P2 hT (true, b) (true, d), P2 hT (true, c) (true, d), P3 hT (false, a) (true, b) (true, c), P3 hT (false, a) (true, b) (true, d), P3 hT (false, a) (true, c) (true, d), P3 hT (true, b) (true, c) (true, d), H2 hT (false, i) (true, j), H2 hT (false, i) (true, k), H2 hT (false, i) (true, l), H2 hT (true, j) (true, k), H2 hT (true, j) (true, l), H2 hT (true, k) (true, l), H3 hT (false, i) (true, j) (true, k), H3 hT (false, i) (true, j) (true, l), H3 hT (false, i) (true, k) (true, l), H3 hT (true, j) (true, k) (true, l)]
  ring

set_option maxHeartbeats 4000000 in
theorem val_t4_bbbb_eq (hT : IsExcitation T) (a b c d i j k l : ℕ) :
    val_t4_bbbb (block ![true] ![true] (expAmp T)) (block ![true, true] ![true, true] (expAmp T)) (block ![true, true, true] ![true, true, true] (expAmp T)) a b c d i j k l
      (block ![true, true, true, true] ![true, true, true, true] (expAmp T) (![a, b, c, d], ![i, j, k, l])) =
      block ![true, true, true, true] ![true, true, true, true] T (![a, b, c, d], ![i, j, k, l]) := by
  simp [val_t4_bbbb, block, exp1, exp2, exp3, expAmp, expAux, unshuffle, Z1 hT, Z2 hT, Z3 hT,
    P2 hT (true, a) (true, b), P2 hT (true, a) (true, c), P2 hT (true, a) (true, d), P2 hT (true, b) (true, c), P2 hT (true, b) (true, d), P2 hT (true, c) (true, d), P3 hT (true, a) (true, b) (true, c), P3 hT (true, a) (true, b) (true, d), P3 hT (true, a) (true, c) (true, d), P3 hT (true, b) (true, c) (true, d), H2 hT (true, i) (true, j), H2 hT (true, i) (true, k), H2 hT (true, i) (true, l), H2 hT (true, j) (true, k), H2 hT (true, j) (true, l), H2 hT (true, k) (true, l), H3 hT (true, i) (true, j) (true, k), H3 hT (true, i) (true, j) (true, l), H3 hT (true, i) (true, k) (true, l), H3 hT (true, j) (true, k) (true, l)]
  ring

end Ccpy.ClusterAnalysis
