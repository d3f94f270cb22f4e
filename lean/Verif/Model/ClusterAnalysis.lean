import Verif.Model.UpdateKernels

/-! Model of the cluster analysis of CI wave functions,
`/repo/ccpy/lib/fortran/clusteranalysis.f90:7-803`.  Arrays are functions of 1-based indices, split in
particle and hole indices; output arrays start at zero.  `abs(c) > 0` is read as `c ≠ 0`. -/

namespace Ccpy.ClusterAnalysis
open Ccpy.Writes Ccpy.Fortran Ccpy.UpdateKernels

variable {R : Type*} [Field R] [DecidableEq R]

/-- Loop body: the amplitude is stored where the CI coefficient is present, zero elsewhere, and then
copied with signs, as in `/repo/ccpy/lib/fortran/clusteranalysis.f90:23-32`. -/
def storeCluster {K : Type*} [DecidableEq K] (rep : K) (c val : R) (copies : List (K × ℤ)) (t : K → R) : K → R :=
  copyFrom rep copies (Function.update t rep (if c ≠ 0 then val else 0))

/-- Copies of `t2a`; `/repo/ccpy/lib/fortran/clusteranalysis.f90:19-37`. -/
def copies_t2a (a b i j : ℕ) : List (Key2 × ℤ) :=
  [((![b, a], ![i, j]), -1),
   ((![a, b], ![j, i]), -1),
   ((![b, a], ![j, i]), 1)]

/-- Value of `t2a` at a present excitation; `/repo/ccpy/lib/fortran/clusteranalysis.f90:19-37`. -/
def val_t2a (c1a : Key1 → R) (c2a : Key2 → R) (a b i j : ℕ) : R :=
  c2a (![a, b], ![i, j])
  - c1a (![a], ![i]) * c1a (![b], ![j])
  + c1a (![a], ![j]) * c1a (![b], ![i])

/-- The `t2a` loop of `cluster_analysis_t2`, `/repo/ccpy/lib/fortran/clusteranalysis.f90:19-37`. -/
def t2a (noa nua : ℕ) (c1a : Key1 → R) (c2a : Key2 → R) : Key2 → R :=
  doLoop 1 nua (fun a =>
    doLoop (a + 1) nua (fun b =>
      doLoop 1 noa (fun i =>
        doLoop (i + 1) noa (fun j =>
          storeCluster (![a, b], ![i, j]) (c2a (![a, b], ![i, j])) (val_t2a c1a c2a a b i j) (copies_t2a a b i j))))) (fun _ => 0)

/-- Value of `t2b` at a present excitation; `/repo/ccpy/lib/fortran/clusteranalysis.f90:39-53`. -/
def val_t2b (c1a : Key1 → R) (c1b : Key1 → R) (c2b : Key2 → R) (a b i j : ℕ) : R :=
  c2b (![a, b], ![i, j])
  - c1a (![a], ![i]) * c1b (![b], ![j])

/-- The `t2b` loop of `cluster_analysis_t2`, `/repo/ccpy/lib/fortran/clusteranalysis.f90:39-53`. -/
def t2b (noa nua nob nub : ℕ) (c1a : Key1 → R) (c1b : Key1 → R) (c2b : Key2 → R) : Key2 → R :=
  doLoop 1 nua (fun a =>
    doLoop 1 nub (fun b =>
      doLoop 1 noa (fun i =>
        doLoop 1 nob (fun j =>
          storeCluster (![a, b], ![i, j]) (c2b (![a, b], ![i, j])) (val_t2b c1a c1b c2b a b i j) [])))) (fun _ => 0)

/-- Copies of `t2c`; `/repo/ccpy/lib/fortran/clusteranalysis.f90:55-73`. -/
def copies_t2c (a b i j : ℕ) : List (Key2 × ℤ) :=
  [((![b, a], ![i, j]), -1),
   ((![a, b], ![j, i]), -1),
   ((![b, a], ![j, i]), 1)]

/-- Value of `t2c` at a present excitation; `/repo/ccpy/lib/fortran/clusteranalysis.f90:55-73`. -/
def val_t2c (c1b : Key1 → R) (c2c : Key2 → R) (a b i j : ℕ) : R :=
  c2c (![a, b], ![i, j])
  - c1b (![a], ![i]) * c1b (![b], ![j])
  + c1b (![a], ![j]) * c1b (![b], ![i])

/-- The `t2c` loop of `cluster_analysis_t2`, `/repo/ccpy/lib/fortran/clusteranalysis.f90:55-73`. -/
def t2c (nob nub : ℕ) (c1b : Key1 → R) (c2c : Key2 → R) : Key2 → R :=
  doLoop 1 nub (fun a =>
    doLoop (a + 1) nub (fun b =>
      doLoop 1 nob (fun i =>
        doLoop (i + 1) nob (fun j =>
          storeCluster (![a, b], ![i, j]) (c2c (![a, b], ![i, j])) (val_t2c c1b c2c a b i j) (copies_t2c a b i j))))) (fun _ => 0)

/-- Copies of `t3a`; `/repo/ccpy/lib/fortran/clusteranalysis.f90:95-168`. -/
def copies_t3a (a b c i j k : ℕ) : List (Key3 × ℤ) :=
  [((![a, b, c], ![k, i, j]), 1),
   ((![a, b, c], ![j, k, i]), 1),
   ((![a, b, c], ![i, k, j]), -1),
   ((![a, b, c], ![j, i, k]), -1),
   ((![a, b, c], ![k, j, i]), -1),
   ((![b, a, c], ![i, j, k]), -1),
   ((![b, a, c], ![k, i, j]), -1),
   ((![b, a, c], ![j, k, i]), -1),
   ((![b, a, c], ![i, k, j]), 1),
   ((![b, a, c], ![j, i, k]), 1),
   ((![b, a, c], ![k, j, i]), 1),
   ((![a, c, b], ![i, j, k]), -1),
   ((![a, c, b], ![k, i, j]), -1),
   ((![a, c, b], ![j, k, i]), -1),
   ((![a, c, b], ![i, k, j]), 1),
   ((![a, c, b], ![j, i, k]), 1),
   ((![a, c, b], ![k, j, i]), 1),
   ((![c, b, a], ![i, j, k]), -1),
   ((![c, b, a], ![k, i, j]), -1),
   ((![c, b, a], ![j, k, i]), -1),
   ((![c, b, a], ![i, k, j]), 1),
   ((![c, b, a], ![j, i, k]), 1),
   ((![c, b, a], ![k, j, i]), 1),
   ((![b, c, a], ![i, j, k]), 1),
   ((![b, c, a], ![k, i, j]), 1),
   ((![b, c, a], ![j, k, i]), 1),
   ((![b, c, a], ![i, k, j]), -1),
   ((![b, c, a], ![j, i, k]), -1),
   ((![b, c, a], ![k, j, i]), -1),
   ((![c, a, b], ![i, j, k]), 1),
   ((![c, a, b], ![k, i, j]), 1),
   ((![c, a, b], ![j, k, i]), 1),
   ((![c, a, b], ![i, k, j]), -1),
   ((![c, a, b], ![j, i, k]), -1),
   ((![c, a, b], ![k, j, i]), -1)]

/-- Value of `t3a` at a present excitation; `/repo/ccpy/lib/fortran/clusteranalysis.f90:95-168`. -/
def val_t3a (c1a : Key1 → R) (c2a : Key2 → R) (c3a : Key3 → R) (a b c i j k : ℕ) : R :=
  (c3a (![a, b, c], ![i, j, k])
  - c1a (![a], ![i]) * c2a (![b, c], ![j, k])
  + c1a (![a], ![j]) * c2a (![b, c], ![i, k])
  + c1a (![a], ![k]) * c2a (![b, c], ![j, i])
  + c1a (![b], ![i]) * c2a (![a, c], ![j, k])
  + c1a (![c], ![i]) * c2a (![b, a], ![j, k])
  - c1a (![b], ![j]) * c2a (![a, c], ![i, k])
  - c1a (![c], ![j]) * c2a (![b, a], ![i, k])
  - c1a (![b], ![k]) * c2a (![a, c], ![j, i])
  - c1a (![c], ![k]) * c2a (![b, a], ![j, i])
  + 2 * (c1a (![a], ![i]) * c1a (![b], ![j]) * c1a (![c], ![k])
  - c1a (![a], ![j]) * c1a (![b], ![i]) * c1a (![c], ![k])
  - c1a (![a], ![k]) * c1a (![b], ![j]) * c1a (![c], ![i])
  - c1a (![a], ![i]) * c1a (![b], ![k]) * c1a (![c], ![j])
  + c1a (![a], ![j]) * c1a (![b], ![k]) * c1a (![c], ![i])
  + c1a (![a], ![k]) * c1a (![b], ![i]) * c1a (![c], ![j])))

/-- The `t3a` loop of `cluster_analysis_t3`, `/repo/ccpy/lib/fortran/clusteranalysis.f90:95-168`. -/
def t3a (noa nua : ℕ) (c1a : Key1 → R) (c2a : Key2 → R) (c3a : Key3 → R) : Key3 → R :=
  doLoop 1 nua (fun a =>
    doLoop (a + 1) nua (fun b =>
      doLoop (b + 1) nua (fun c =>
        doLoop 1 noa (fun i =>
          doLoop (i + 1) noa (fun j =>
            doLoop (j + 1) noa (fun k =>
              storeCluster (![a, b, c], ![i, j, k]) (c3a (![a, b, c], ![i, j, k])) (val_t3a c1a c2a c3a a b c i j k) (copies_t3a a b c i j k))))))) (fun _ => 0)

/-- Copies of `t3b`; `/repo/ccpy/lib/fortran/clusteranalysis.f90:170-198`. -/
def copies_t3b (a b c i j k : ℕ) : List (Key3 × ℤ) :=
  [((![b, a, c], ![i, j, k]), -1),
   ((![a, b, c], ![j, i, k]), -1),
   ((![b, a, c], ![j, i, k]), 1)]

/-- Value of `t3b` at a present excitation; `/repo/ccpy/lib/fortran/clusteranalysis.f90:170-198`. -/
def val_t3b (c1a : Key1 → R) (c1b : Key1 → R) (c2a : Key2 → R) (c2b : Key2 → R) (c3b : Key3 → R) (a b c i j k : ℕ) : R :=
  (c3b (![a, b, c], ![i, j, k])
  - c1a (![a], ![i]) * c2b (![b, c], ![j, k])
  + c1a (![a], ![j]) * c2b (![b, c], ![i, k])
  + c1a (![b], ![i]) * c2b (![a, c], ![j, k])
  - c1a (![b], ![j]) * c2b (![a, c], ![i, k])
  - c1b (![c], ![k]) * c2a (![a, b], ![i, j])
  + 2 * (c1a (![a], ![i]) * c1a (![b], ![j]) * c1b (![c], ![k])
  - c1a (![a], ![j]) * c1a (![b], ![i]) * c1b (![c], ![k])))

/-- The `t3b` loop of `cluster_analysis_t3`, `/repo/ccpy/lib/fortran/clusteranalysis.f90:170-198`. -/
def t3b (noa nua nob nub : ℕ) (c1a : Key1 → R) (c1b : Key1 → R) (c2a : Key2 → R) (c2b : Key2 → R) (c3b : Key3 → R) : Key3 → R :=
  doLoop 1 nua (fun a =>
    doLoop (a + 1) nua (fun b =>
      doLoop 1 nub (fun c =>
        doLoop 1 noa (fun i =>
          doLoop (i + 1) noa (fun j =>
            doLoop 1 nob (fun k =>
              storeCluster (![a, b, c], ![i, j, k]) (c3b (![a, b, c], ![i, j, k])) (val_t3b c1a c1b c2a c2b c3b a b c i j k) (copies_t3b a b c i j k))))))) (fun _ => 0)

/-- Copies of `t3c`; `/repo/ccpy/lib/fortran/clusteranalysis.f90:200-228`. -/
def copies_t3c (a b c i j k : ℕ) : List (Key3 × ℤ) :=
  [((![a, c, b], ![i, j, k]), -1),
   ((![a, b, c], ![i, k, j]), -1),
   ((![a, c, b], ![i, k, j]), 1)]

/-- Value of `t3c` at a present excitation; `/repo/ccpy/lib/fortran/clusteranalysis.f90:200-228`. -/
def val_t3c (c1a : Key1 → R) (c1b : Key1 → R) (c2b : Key2 → R) (c2c : Key2 → R) (c3c : Key3 → R) (a b c i j k : ℕ) : R :=
  (c3c (![a, b, c], ![i, j, k])
  - c1a (![a], ![i]) * c2c (![b, c], ![j, k])
  - c1b (![c], ![k]) * c2b (![a, b], ![i, j])
  + c1b (![c], ![j]) * c2b (![a, b], ![i, k])
  + c1b (![b], ![k]) * c2b (![a, c], ![i, j])
  - c1b (![b], ![j]) * c2b (![a, c], ![i, k])
  + 2 * (c1a (![a], ![i]) * c1b (![b], ![j]) * c1b (![c], ![k])
  - c1a (![a], ![i]) * c1b (![b], ![k]) * c1b (![c], ![j])))

/-- The `t3c` loop of `cluster_analysis_t3`, `/repo/ccpy/lib/fortran/clusteranalysis.f90:200-228`. -/
def t3c (noa nua nob nub : ℕ) (c1a : Key1 → R) (c1b : Key1 → R) (c2b : Key2 → R) (c2c : Key2 → R) (c3c : Key3 → R) : Key3 → R :=
  doLoop 1 nua (fun a =>
    doLoop 1 nub (fun b =>
      doLoop (b + 1) nub (fun c =>
        doLoop 1 noa (fun i =>
          doLoop 1 nob (fun j =>
            doLoop (j + 1) nob (fun k =>
              storeCluster (![a, b, c], ![i, j, k]) (c3c (![a, b, c], ![i, j, k])) (val_t3c c1a c1b c2b c2c c3c a b c i j k) (copies_t3c a b c i j k))))))) (fun _ => 0)

/-- Copies of `t3d`; `/repo/ccpy/lib/fortran/clusteranalysis.f90:230-303`. -/
def copies_t3d (a b c i j k : ℕ) : List (Key3 × ℤ) :=
  [((![a, b, c], ![k, i, j]), 1),
   ((![a, b, c], ![j, k, i]), 1),
   ((![a, b, c], ![i, k, j]), -1),
   ((![a, b, c], ![j, i, k]), -1),
   ((![a, b, c], ![k, j, i]), -1),
   ((![b, a, c], ![i, j, k]), -1),
   ((![b, a, c], ![k, i, j]), -1),
   ((![b, a, c], ![j, k, i]), -1),
   ((![b, a, c], ![i, k, j]), 1),
   ((![b, a, c], ![j, i, k]), 1),
   ((![b, a, c], ![k, j, i]), 1),
   ((![a, c, b], ![i, j, k]), -1),
   ((![a, c, b], ![k, i, j]), -1),
   ((![a, c, b], ![j, k, i]), -1),
   ((![a, c, b], ![i, k, j]), 1),
   ((![a, c, b], ![j, i, k]), 1),
   ((![a, c, b], ![k, j, i]), 1),
   ((![c, b, a], ![i, j, k]), -1),
   ((![c, b, a], ![k, i, j]), -1),
   ((![c, b, a], ![j, k, i]), -1),
   ((![c, b, a], ![i, k, j]), 1),
   ((![c, b, a], ![j, i, k]), 1),
   ((![c, b, a], ![k, j, i]), 1),
   ((![b, c, a], ![i, j, k]), 1),
   ((![b, c, a], ![k, i, j]), 1),
   ((![b, c, a], ![j, k, i]), 1),
   ((![b, c, a], ![i, k, j]), -1),
   ((![b, c, a], ![j, i, k]), -1),
   ((![b, c, a], ![k, j, i]), -1),
   ((![c, a, b], ![i, j, k]), 1),
   ((![c, a, b], ![k, i, j]), 1),
   ((![c, a, b], ![j, k, i]), 1),
   ((![c, a, b], ![i, k, j]), -1),
   ((![c, a, b], ![j, i, k]), -1),
   ((![c, a, b], ![k, j, i]), -1)]

/-- Value of `t3d` at a present excitation; `/repo/ccpy/lib/fortran/clusteranalysis.f90:230-303`. -/
def val_t3d (c1b : Key1 → R) (c2c : Key2 → R) (c3d : Key3 → R) (a b c i j k : ℕ) : R :=
  (c3d (![a, b, c], ![i, j, k])
  - c1b (![a], ![i]) * c2c (![b, c], ![j, k])
  + c1b (![a], ![j]) * c2c (![b, c], ![i, k])
  + c1b (![a], ![k]) * c2c (![b, c], ![j, i])
  + c1b (![b], ![i]) * c2c (![a, c], ![j, k])
  + c1b (![c], ![i]) * c2c (![b, a], ![j, k])
  - c1b (![b], ![j]) * c2c (![a, c], ![i, k])
  - c1b (![c], ![j]) * c2c (![b, a], ![i, k])
  - c1b (![b], ![k]) * c2c (![a, c], ![j, i])
  - c1b (![c], ![k]) * c2c (![b, a], ![j, i])
  + 2 * (c1b (![a], ![i]) * c1b (![b], ![j]) * c1b (![c], ![k])
  - c1b (![a], ![j]) * c1b (![b], ![i]) * c1b (![c], ![k])
  - c1b (![a], ![k]) * c1b (![b], ![j]) * c1b (![c], ![i])
  - c1b (![a], ![i]) * c1b (![b], ![k]) * c1b (![c], ![j])
  + c1b (![a], ![j]) * c1b (![b], ![k]) * c1b (![c], ![i])
  + c1b (![a], ![k]) * c1b (![b], ![i]) * c1b (![c], ![j])))

/-- The `t3d` loop of `cluster_analysis_t3`, `/repo/ccpy/lib/fortran/clusteranalysis.f90:230-303`. -/
def t3d (nob nub : ℕ) (c1b : Key1 → R) (c2c : Key2 → R) (c3d : Key3 → R) : Key3 → R :=
  doLoop 1 nub (fun a =>
    doLoop (a + 1) nub (fun b =>
      doLoop (b + 1) nub (fun c =>
        doLoop 1 nob (fun i =>
          doLoop (i + 1) nob (fun j =>
            doLoop (j + 1) nob (fun k =>
              storeCluster (![a, b, c], ![i, j, k]) (c3d (![a, b, c], ![i, j, k])) (val_t3d c1b c2c c3d a b c i j k) (copies_t3d a b c i j k))))))) (fun _ => 0)

/-- Quadruple amplitude of spin case `aaaa` at one listed determinant,
`/repo/ccpy/lib/fortran/clusteranalysis.f90:342-481`. -/
def val_t4_aaaa (c1_a : Key1 → R) (c2_aa : Key2 → R) (c3_aaa : Key3 → R) (a b c d i j k l : ℕ) (c4 : R) : R :=
  (c4
    - c1_a (![a], ![i]) * c3_aaa (![b, c, d], ![j, k, l])
    + c1_a (![a], ![j]) * c3_aaa (![b, c, d], ![i, k, l])
    + c1_a (![a], ![k]) * c3_aaa (![b, c, d], ![j, i, l])
    + c1_a (![a], ![l]) * c3_aaa (![b, c, d], ![j, k, i])
    + c1_a (![b], ![i]) * c3_aaa (![a, c, d], ![j, k, l])
    + c1_a (![c], ![i]) * c3_aaa (![b, a, d], ![j, k, l])
    + c1_a (![d], ![i]) * c3_aaa (![b, c, a], ![j, k, l])
    - c1_a (![b], ![j]) * c3_aaa (![a, c, d], ![i, k, l])
    - c1_a (![c], ![j]) * c3_aaa (![b, a, d], ![i, k, l])
    - c1_a (![d], ![j]) * c3_aaa (![b, c, a], ![i, k, l])
    - c1_a (![b], ![k]) * c3_aaa (![a, c, d], ![j, i, l])
    - c1_a (![c], ![k]) * c3_aaa (![b, a, d], ![j, i, l])
    - c1_a (![d], ![k]) * c3_aaa (![b, c, a], ![j, i, l])
    - c1_a (![b], ![l]) * c3_aaa (![a, c, d], ![j, k, i])
    - c1_a (![c], ![l]) * c3_aaa (![b, a, d], ![j, k, i])
    - c1_a (![d], ![l]) * c3_aaa (![b, c, a], ![j, k, i])
    + 2 * (c1_a (![a], ![i]) * c1_a (![b], ![j]) * c2_aa (![c, d], ![k, l])
    - c1_a (![a], ![k]) * c1_a (![b], ![j]) * c2_aa (![c, d], ![i, l])
    - c1_a (![a], ![l]) * c1_a (![b], ![j]) * c2_aa (![c, d], ![k, i])
    - c1_a (![a], ![j]) * c1_a (![b], ![i]) * c2_aa (![c, d], ![k, l])
    - c1_a (![a], ![i]) * c1_a (![b], ![k]) * c2_aa (![c, d], ![j, l])
    - c1_a (![a], ![i]) * c1_a (![b], ![l]) * c2_aa (![c, d], ![k, j])
    - c1_a (![c], ![i]) * c1_a (![b], ![j]) * c2_aa (![a, d], ![k, l])
    - c1_a (![d], ![i]) * c1_a (![b], ![j]) * c2_aa (![c, a], ![k, l])
    - c1_a (![a], ![i]) * c1_a (![c], ![j]) * c2_aa (![b, d], ![k, l])
    - c1_a (![a], ![i]) * c1_a (![d], ![j]) * c2_aa (![c, b], ![k, l])
    + c1_a (![c], ![i]) * c1_a (![d], ![j]) * c2_aa (![a, b], ![k, l])
    + c1_a (![c], ![k]) * c1_a (![b], ![j]) * c2_aa (![a, d], ![i, l])
    + c1_a (![d], ![k]) * c1_a (![b], ![j]) * c2_aa (![c, a], ![i, l])
    + c1_a (![a], ![k]) * c1_a (![c], ![j]) * c2_aa (![b, d], ![i, l])
    + c1_a (![a], ![k]) * c1_a (![d], ![j]) * c2_aa (![c, b], ![i, l])
    + c1_a (![c], ![l]) * c1_a (![b], ![j]) * c2_aa (![a, d], ![k, i])
    + c1_a (![d], ![l]) * c1_a (![b], ![j]) * c2_aa (![c, a], ![k, i])
    + c1_a (![a], ![l]) * c1_a (![c], ![j]) * c2_aa (![b, d], ![k, i])
    + c1_a (![a], ![l]) * c1_a (![d], ![j]) * c2_aa (![c, b], ![k, i])
    + c1_a (![c], ![j]) * c1_a (![b], ![i]) * c2_aa (![a, d], ![k, l])
    + c1_a (![d], ![j]) * c1_a (![b], ![i]) * c2_aa (![c, a], ![k, l])
    + c1_a (![a], ![j]) * c1_a (![c], ![i]) * c2_aa (![b, d], ![k, l])
    + c1_a (![a], ![j]) * c1_a (![d], ![i]) * c2_aa (![c, b], ![k, l])
    + c1_a (![c], ![i]) * c1_a (![b], ![k]) * c2_aa (![a, d], ![j, l])
    + c1_a (![d], ![i]) * c1_a (![b], ![k]) * c2_aa (![c, a], ![j, l])
    + c1_a (![a], ![i]) * c1_a (![c], ![k]) * c2_aa (![b, d], ![j, l])
    + c1_a (![a], ![i]) * c1_a (![d], ![k]) * c2_aa (![c, b], ![j, l])
    + c1_a (![c], ![i]) * c1_a (![b], ![l]) * c2_aa (![a, d], ![k, j])
    + c1_a (![d], ![i]) * c1_a (![b], ![l]) * c2_aa (![c, a], ![k, j])
    + c1_a (![a], ![i]) * c1_a (![c], ![l]) * c2_aa (![b, d], ![k, j])
    + c1_a (![a], ![i]) * c1_a (![d], ![l]) * c2_aa (![c, b], ![k, j])
    + c1_a (![a], ![j]) * c1_a (![b], ![k]) * c2_aa (![c, d], ![i, l])
    + c1_a (![a], ![k]) * c1_a (![b], ![i]) * c2_aa (![c, d], ![j, l])
    + c1_a (![a], ![j]) * c1_a (![b], ![l]) * c2_aa (![c, d], ![k, i])
    + c1_a (![a], ![l]) * c1_a (![b], ![i]) * c2_aa (![c, d], ![k, j])
    - c1_a (![a], ![l]) * c1_a (![b], ![k]) * c2_aa (![c, d], ![i, j])
    - c1_a (![c], ![k]) * c1_a (![d], ![j]) * c2_aa (![a, b], ![i, l])
    - c1_a (![c], ![l]) * c1_a (![d], ![j]) * c2_aa (![a, b], ![k, i])
    - c1_a (![c], ![j]) * c1_a (![d], ![i]) * c2_aa (![a, b], ![k, l])
    - c1_a (![c], ![i]) * c1_a (![d], ![k]) * c2_aa (![a, b], ![j, l])
    - c1_a (![c], ![i]) * c1_a (![d], ![l]) * c2_aa (![a, b], ![k, j])
    - c1_a (![c], ![j]) * c1_a (![b], ![k]) * c2_aa (![a, d], ![i, l])
    - c1_a (![d], ![j]) * c1_a (![b], ![k]) * c2_aa (![c, a], ![i, l])
    - c1_a (![a], ![j]) * c1_a (![c], ![k]) * c2_aa (![b, d], ![i, l])
    - c1_a (![a], ![j]) * c1_a (![d], ![k]) * c2_aa (![c, b], ![i, l])
    - c1_a (![c], ![k]) * c1_a (![b], ![i]) * c2_aa (![a, d], ![j, l])
    - c1_a (![d], ![k]) * c1_a (![b], ![i]) * c2_aa (![c, a], ![j, l])
    - c1_a (![a], ![k]) * c1_a (![c], ![i]) * c2_aa (![b, d], ![j, l])
    - c1_a (![a], ![k]) * c1_a (![d], ![i]) * c2_aa (![c, b], ![j, l])
    - c1_a (![c], ![j]) * c1_a (![b], ![l]) * c2_aa (![a, d], ![k, i])
    - c1_a (![d], ![j]) * c1_a (![b], ![l]) * c2_aa (![c, a], ![k, i])
    - c1_a (![a], ![j]) * c1_a (![c], ![l]) * c2_aa (![b, d], ![k, i])
    - c1_a (![a], ![j]) * c1_a (![d], ![l]) * c2_aa (![c, b], ![k, i])
    - c1_a (![c], ![l]) * c1_a (![b], ![i]) * c2_aa (![a, d], ![k, j])
    - c1_a (![d], ![l]) * c1_a (![b], ![i]) * c2_aa (![c, a], ![k, j])
    - c1_a (![a], ![l]) * c1_a (![c], ![i]) * c2_aa (![b, d], ![k, j])
    - c1_a (![a], ![l]) * c1_a (![d], ![i]) * c2_aa (![c, b], ![k, j])
    + c1_a (![c], ![j]) * c1_a (![d], ![k]) * c2_aa (![a, b], ![i, l])
    + c1_a (![c], ![k]) * c1_a (![d], ![i]) * c2_aa (![a, b], ![j, l])
    + c1_a (![c], ![j]) * c1_a (![d], ![l]) * c2_aa (![a, b], ![k, i])
    + c1_a (![c], ![l]) * c1_a (![d], ![i]) * c2_aa (![a, b], ![k, j])
    + c1_a (![c], ![l]) * c1_a (![b], ![k]) * c2_aa (![a, d], ![i, j])
    + c1_a (![d], ![l]) * c1_a (![b], ![k]) * c2_aa (![c, a], ![i, j])
    + c1_a (![a], ![l]) * c1_a (![c], ![k]) * c2_aa (![b, d], ![i, j])
    + c1_a (![a], ![l]) * c1_a (![d], ![k]) * c2_aa (![c, b], ![i, j])
    - c1_a (![c], ![l]) * c1_a (![d], ![k]) * c2_aa (![a, b], ![i, j])
    - c1_a (![c], ![k]) * c1_a (![b], ![l]) * c2_aa (![a, d], ![i, j])
    - c1_a (![d], ![k]) * c1_a (![b], ![l]) * c2_aa (![c, a], ![i, j])
    - c1_a (![a], ![k]) * c1_a (![c], ![l]) * c2_aa (![b, d], ![i, j])
    - c1_a (![a], ![k]) * c1_a (![d], ![l]) * c2_aa (![c, b], ![i, j])
    + c1_a (![c], ![k]) * c1_a (![d], ![l]) * c2_aa (![a, b], ![i, j])
    + c1_a (![a], ![k]) * c1_a (![b], ![l]) * c2_aa (![c, d], ![i, j]))
    - c2_aa (![a, b], ![i, j]) * c2_aa (![c, d], ![k, l])
    + c2_aa (![a, b], ![k, j]) * c2_aa (![c, d], ![i, l])
    + c2_aa (![a, b], ![l, j]) * c2_aa (![c, d], ![k, i])
    + c2_aa (![a, b], ![i, k]) * c2_aa (![c, d], ![j, l])
    + c2_aa (![a, b], ![i, l]) * c2_aa (![c, d], ![k, j])
    + c2_aa (![c, b], ![i, j]) * c2_aa (![a, d], ![k, l])
    + c2_aa (![d, b], ![i, j]) * c2_aa (![c, a], ![k, l])
    - c2_aa (![a, b], ![k, l]) * c2_aa (![c, d], ![i, j])
    - c2_aa (![c, b], ![k, j]) * c2_aa (![a, d], ![i, l])
    - c2_aa (![c, b], ![l, j]) * c2_aa (![a, d], ![k, i])
    - c2_aa (![c, b], ![i, k]) * c2_aa (![a, d], ![j, l])
    - c2_aa (![c, b], ![i, l]) * c2_aa (![a, d], ![k, j])
    - c2_aa (![d, b], ![k, j]) * c2_aa (![c, a], ![i, l])
    - c2_aa (![d, b], ![l, j]) * c2_aa (![c, a], ![k, i])
    - c2_aa (![d, b], ![i, k]) * c2_aa (![c, a], ![j, l])
    - c2_aa (![d, b], ![i, l]) * c2_aa (![c, a], ![k, j])
    + c2_aa (![c, b], ![k, l]) * c2_aa (![a, d], ![i, j])
    + c2_aa (![d, b], ![k, l]) * c2_aa (![c, a], ![i, j])
    - 6 * (c1_a (![a], ![i]) * c1_a (![b], ![j]) * c1_a (![c], ![k]) * c1_a (![d], ![l])
    - c1_a (![a], ![j]) * c1_a (![b], ![i]) * c1_a (![c], ![k]) * c1_a (![d], ![l])
    - c1_a (![a], ![k]) * c1_a (![b], ![j]) * c1_a (![c], ![i]) * c1_a (![d], ![l])
    - c1_a (![a], ![l]) * c1_a (![b], ![j]) * c1_a (![c], ![k]) * c1_a (![d], ![i])
    - c1_a (![a], ![i]) * c1_a (![b], ![k]) * c1_a (![c], ![j]) * c1_a (![d], ![l])
    - c1_a (![a], ![i]) * c1_a (![b], ![l]) * c1_a (![c], ![k]) * c1_a (![d], ![j])
    - c1_a (![a], ![i]) * c1_a (![b], ![j]) * c1_a (![c], ![l]) * c1_a (![d], ![k])
    + c1_a (![a], ![j]) * c1_a (![b], ![k]) * c1_a (![c], ![i]) * c1_a (![d], ![l])
    + c1_a (![a], ![k]) * c1_a (![b], ![i]) * c1_a (![c], ![j]) * c1_a (![d], ![l])
    + c1_a (![a], ![j]) * c1_a (![b], ![l]) * c1_a (![c], ![k]) * c1_a (![d], ![i])
    + c1_a (![a], ![l]) * c1_a (![b], ![i]) * c1_a (![c], ![k]) * c1_a (![d], ![j])
    + c1_a (![a], ![k]) * c1_a (![b], ![j]) * c1_a (![c], ![l]) * c1_a (![d], ![i])
    + c1_a (![a], ![l]) * c1_a (![b], ![j]) * c1_a (![c], ![i]) * c1_a (![d], ![k])
    + c1_a (![a], ![i]) * c1_a (![b], ![k]) * c1_a (![c], ![l]) * c1_a (![d], ![j])
    + c1_a (![a], ![i]) * c1_a (![b], ![l]) * c1_a (![c], ![j]) * c1_a (![d], ![k])
    + c1_a (![a], ![j]) * c1_a (![b], ![i]) * c1_a (![c], ![l]) * c1_a (![d], ![k])
    + c1_a (![a], ![k]) * c1_a (![b], ![l]) * c1_a (![c], ![i]) * c1_a (![d], ![j])
    + c1_a (![a], ![l]) * c1_a (![b], ![k]) * c1_a (![c], ![j]) * c1_a (![d], ![i])
    - c1_a (![a], ![j]) * c1_a (![b], ![k]) * c1_a (![c], ![l]) * c1_a (![d], ![i])
    - c1_a (![a], ![j]) * c1_a (![b], ![l]) * c1_a (![c], ![i]) * c1_a (![d], ![k])
    - c1_a (![a], ![k]) * c1_a (![b], ![l]) * c1_a (![c], ![j]) * c1_a (![d], ![i])
    - c1_a (![a], ![k]) * c1_a (![b], ![i]) * c1_a (![c], ![l]) * c1_a (![d], ![j])
    - c1_a (![a], ![l]) * c1_a (![b], ![i]) * c1_a (![c], ![j]) * c1_a (![d], ![k])
    - c1_a (![a], ![l]) * c1_a (![b], ![k]) * c1_a (![c], ![i]) * c1_a (![d], ![j])))

/-- The `aaaa` loop of `cluster_analysis_t4` over the listed determinants,
`/repo/ccpy/lib/fortran/clusteranalysis.f90:342-481`. -/
def t4_aaaa (c1_a : Key1 → R) (c2_aa : Key2 → R) (c3_aaa : Key3 → R) (rows : List (Fin 8 → ℕ)) (c4_amps : List R) : List R :=
  List.zipWith (fun r c4 => val_t4_aaaa c1_a c2_aa c3_aaa (r 0) (r 1) (r 2) (r 3) (r 4) (r 5) (r 6) (r 7) c4) rows c4_amps

/-- Quadruple amplitude of spin case `aaab` at one listed determinant,
`/repo/ccpy/lib/fortran/clusteranalysis.f90:484-543`. -/
def val_t4_aaab (c1_a : Key1 → R) (c1_b : Key1 → R) (c2_aa : Key2 → R) (c2_ab : Key2 → R) (c3_aaa : Key3 → R) (c3_aab : Key3 → R) (a b c d i j k l : ℕ) (c4 : R) : R :=
  (c4
    - c1_a (![a], ![i]) * c3_aab (![b, c, d], ![j, k, l])
    + c1_a (![a], ![j]) * c3_aab (![b, c, d], ![i, k, l])
    + c1_a (![a], ![k]) * c3_aab (![b, c, d], ![j, i, l])
    + c1_a (![b], ![i]) * c3_aab (![a, c, d], ![j, k, l])
    + c1_a (![c], ![i]) * c3_aab (![b, a, d], ![j, k, l])
    - c1_a (![b], ![j]) * c3_aab (![a, c, d], ![i, k, l])
    - c1_a (![c], ![j]) * c3_aab (![b, a, d], ![i, k, l])
    - c1_a (![b], ![k]) * c3_aab (![a, c, d], ![j, i, l])
    - c1_a (![c], ![k]) * c3_aab (![b, a, d], ![j, i, l])
    - c1_b (![d], ![l]) * c3_aaa (![a, b, c], ![i, j, k])
    + 2 * (c1_a (![a], ![i]) * c1_b (![d], ![l]) * c2_aa (![b, c], ![j, k])
    - c1_a (![a], ![j]) * c1_b (![d], ![l]) * c2_aa (![b, c], ![i, k])
    - c1_a (![a], ![k]) * c1_b (![d], ![l]) * c2_aa (![b, c], ![j, i])
    - c1_a (![b], ![i]) * c1_b (![d], ![l]) * c2_aa (![a, c], ![j, k])
    - c1_a (![c], ![i]) * c1_b (![d], ![l]) * c2_aa (![b, a], ![j, k])
    + c1_a (![b], ![j]) * c1_b (![d], ![l]) * c2_aa (![a, c], ![i, k])
    + c1_a (![c], ![j]) * c1_b (![d], ![l]) * c2_aa (![b, a], ![i, k])
    + c1_a (![b], ![k]) * c1_b (![d], ![l]) * c2_aa (![a, c], ![j, i])
    + c1_a (![c], ![k]) * c1_b (![d], ![l]) * c2_aa (![b, a], ![j, i])
    + c1_a (![a], ![i]) * c1_a (![b], ![j]) * c2_ab (![c, d], ![k, l])
    - c1_a (![a], ![j]) * c1_a (![b], ![i]) * c2_ab (![c, d], ![k, l])
    - c1_a (![a], ![k]) * c1_a (![b], ![j]) * c2_ab (![c, d], ![i, l])
    - c1_a (![a], ![i]) * c1_a (![b], ![k]) * c2_ab (![c, d], ![j, l])
    - c1_a (![c], ![i]) * c1_a (![b], ![j]) * c2_ab (![a, d], ![k, l])
    - c1_a (![a], ![i]) * c1_a (![c], ![j]) * c2_ab (![b, d], ![k, l])
    + c1_a (![a], ![j]) * c1_a (![b], ![k]) * c2_ab (![c, d], ![i, l])
    + c1_a (![a], ![k]) * c1_a (![b], ![i]) * c2_ab (![c, d], ![j, l])
    + c1_a (![c], ![j]) * c1_a (![b], ![i]) * c2_ab (![a, d], ![k, l])
    + c1_a (![a], ![j]) * c1_a (![c], ![i]) * c2_ab (![b, d], ![k, l])
    + c1_a (![c], ![k]) * c1_a (![b], ![j]) * c2_ab (![a, d], ![i, l])
    + c1_a (![a], ![k]) * c1_a (![c], ![j]) * c2_ab (![b, d], ![i, l])
    + c1_a (![c], ![i]) * c1_a (![b], ![k]) * c2_ab (![a, d], ![j, l])
    + c1_a (![a], ![i]) * c1_a (![c], ![k]) * c2_ab (![b, d], ![j, l])
    - c1_a (![c], ![j]) * c1_a (![b], ![k]) * c2_ab (![a, d], ![i, l])
    - c1_a (![a], ![j]) * c1_a (![c], ![k]) * c2_ab (![b, d], ![i, l])
    - c1_a (![c], ![k]) * c1_a (![b], ![i]) * c2_ab (![a, d], ![j, l])
    - c1_a (![a], ![k]) * c1_a (![c], ![i]) * c2_ab (![b, d], ![j, l]))
    - c2_aa (![a, b], ![i, j]) * c2_ab (![c, d], ![k, l])
    + c2_aa (![a, b], ![k, j]) * c2_ab (![c, d], ![i, l])
    + c2_aa (![a, b], ![i, k]) * c2_ab (![c, d], ![j, l])
    + c2_aa (![c, b], ![i, j]) * c2_ab (![a, d], ![k, l])
    + c2_aa (![a, c], ![i, j]) * c2_ab (![b, d], ![k, l])
    - c2_aa (![c, b], ![k, j]) * c2_ab (![a, d], ![i, l])
    - c2_aa (![a, c], ![k, j]) * c2_ab (![b, d], ![i, l])
    - c2_aa (![c, b], ![i, k]) * c2_ab (![a, d], ![j, l])
    - c2_aa (![a, c], ![i, k]) * c2_ab (![b, d], ![j, l])
    - 6 * (c1_a (![a], ![i]) * c1_a (![b], ![j]) * c1_a (![c], ![k]) * c1_b (![d], ![l])
    - c1_a (![a], ![j]) * c1_a (![b], ![i]) * c1_a (![c], ![k]) * c1_b (![d], ![l])
    - c1_a (![a], ![k]) * c1_a (![b], ![j]) * c1_a (![c], ![i]) * c1_b (![d], ![l])
    - c1_a (![a], ![i]) * c1_a (![b], ![k]) * c1_a (![c], ![j]) * c1_b (![d], ![l])
    + c1_a (![a], ![j]) * c1_a (![b], ![k]) * c1_a (![c], ![i]) * c1_b (![d], ![l])
    + c1_a (![a], ![k]) * c1_a (![b], ![i]) * c1_a (![c], ![j]) * c1_b (![d], ![l])))

/-- The `aaab` loop of `cluster_analysis_t4` over the listed determinants,
`/repo/ccpy/lib/fortran/clusteranalysis.f90:484-543`. -/
def t4_aaab (c1_a : Key1 → R) (c1_b : Key1 → R) (c2_aa : Key2 → R) (c2_ab : Key2 → R) (c3_aaa : Key3 → R) (c3_aab : Key3 → R) (rows : List (Fin 8 → ℕ)) (c4_amps : List R) : List R :=
  List.zipWith (fun r c4 => val_t4_aaab c1_a c1_b c2_aa c2_ab c3_aaa c3_aab (r 0) (r 1) (r 2) (r 3) (r 4) (r 5) (r 6) (r 7) c4) rows c4_amps

/-- Quadruple amplitude of spin case `aabb` at one listed determinant,
`/repo/ccpy/lib/fortran/clusteranalysis.f90:546-598`. -/
def val_t4_aabb (c1_a : Key1 → R) (c1_b : Key1 → R) (c2_aa : Key2 → R) (c2_ab : Key2 → R) (c2_bb : Key2 → R) (c3_aab : Key3 → R) (c3_abb : Key3 → R) (a b c d i j k l : ℕ) (c4 : R) : R :=
  let c1c3 := (-c1_a (![a], ![i]) * c3_abb (![b, c, d], ![j, k, l])
    + c1_a (![a], ![j]) * c3_abb (![b, c, d], ![i, k, l])
    + c1_a (![b], ![i]) * c3_abb (![a, c, d], ![j, k, l])
    - c1_a (![b], ![j]) * c3_abb (![a, c, d], ![i, k, l])
    - c1_b (![d], ![l]) * c3_aab (![a, b, c], ![i, j, k])
    + c1_b (![d], ![k]) * c3_aab (![a, b, c], ![i, j, l])
    + c1_b (![c], ![l]) * c3_aab (![a, b, d], ![i, j, k])
    - c1_b (![c], ![k]) * c3_aab (![a, b, d], ![i, j, l]))
  let c12c2 := 2 * (c1_a (![a], ![i]) * c1_a (![b], ![j]) * c2_bb (![c, d], ![k, l])
    - c1_a (![a], ![j]) * c1_a (![b], ![i]) * c2_bb (![c, d], ![k, l])
    + c1_a (![a], ![i]) * c1_b (![c], ![k]) * c2_ab (![b, d], ![j, l])
    - c1_a (![a], ![j]) * c1_b (![c], ![k]) * c2_ab (![b, d], ![i, l])
    - c1_a (![a], ![i]) * c1_b (![c], ![l]) * c2_ab (![b, d], ![j, k])
    - c1_a (![b], ![i]) * c1_b (![c], ![k]) * c2_ab (![a, d], ![j, l])
    - c1_a (![a], ![i]) * c1_b (![d], ![k]) * c2_ab (![b, c], ![j, l])
    + c1_a (![a], ![j]) * c1_b (![c], ![l]) * c2_ab (![b, d], ![i, k])
    + c1_a (![b], ![j]) * c1_b (![c], ![k]) * c2_ab (![a, d], ![i, l])
    + c1_a (![a], ![j]) * c1_b (![d], ![k]) * c2_ab (![b, c], ![i, l])
    + c1_a (![b], ![i]) * c1_b (![c], ![l]) * c2_ab (![a, d], ![j, k])
    + c1_a (![a], ![i]) * c1_b (![d], ![l]) * c2_ab (![b, c], ![j, k])
    + c1_a (![b], ![i]) * c1_b (![d], ![k]) * c2_ab (![a, c], ![j, l])
    - c1_a (![b], ![j]) * c1_b (![c], ![l]) * c2_ab (![a, d], ![i, k])
    - c1_a (![a], ![j]) * c1_b (![d], ![l]) * c2_ab (![b, c], ![i, k])
    - c1_a (![b], ![j]) * c1_b (![d], ![k]) * c2_ab (![a, c], ![i, l])
    - c1_a (![b], ![i]) * c1_b (![d], ![l]) * c2_ab (![a, c], ![j, k])
    + c1_a (![b], ![j]) * c1_b (![d], ![l]) * c2_ab (![a, c], ![i, k])
    + c1_b (![c], ![k]) * c1_b (![d], ![l]) * c2_aa (![a, b], ![i, j])
    - c1_b (![c], ![l]) * c1_b (![d], ![k]) * c2_aa (![a, b], ![i, j]))
  let c22 := (-c2_ab (![a, c], ![i, k]) * c2_ab (![b, d], ![j, l])
    + c2_ab (![a, c], ![j, k]) * c2_ab (![b, d], ![i, l])
    + c2_ab (![a, c], ![i, l]) * c2_ab (![b, d], ![j, k])
    + c2_ab (![b, c], ![i, k]) * c2_ab (![a, d], ![j, l])
    - c2_ab (![a, c], ![j, l]) * c2_ab (![b, d], ![i, k])
    - c2_ab (![b, c], ![j, k]) * c2_ab (![a, d], ![i, l])
    - c2_ab (![b, c], ![i, l]) * c2_ab (![a, d], ![j, k])
    + c2_ab (![b, c], ![j, l]) * c2_ab (![a, d], ![i, k])
    - c2_aa (![a, b], ![i, j]) * c2_bb (![c, d], ![k, l]))
  let c13 := (-6 * (c1_a (![a], ![i]) * c1_a (![b], ![j]) * c1_b (![c], ![k]) * c1_b (![d], ![l])
    - c1_a (![a], ![j]) * c1_a (![b], ![i]) * c1_b (![c], ![k]) * c1_b (![d], ![l])
    - c1_a (![a], ![i]) * c1_a (![b], ![j]) * c1_b (![c], ![l]) * c1_b (![d], ![k])
    + c1_a (![a], ![j]) * c1_a (![b], ![i]) * c1_b (![c], ![l]) * c1_b (![d], ![k])))
  c4 + c1c3 + c12c2 + c22 + c13

/-- The `aabb` loop of `cluster_analysis_t4` over the listed determinants,
`/repo/ccpy/lib/fortran/clusteranalysis.f90:546-598`. -/
def t4_aabb (c1_a : Key1 → R) (c1_b : Key1 → R) (c2_aa : Key2 → R) (c2_ab : Key2 → R) (c2_bb : Key2 → R) (c3_aab : Key3 → R) (c3_abb : Key3 → R) (rows : List (Fin 8 → ℕ)) (c4_amps : List R) : List R :=
  List.zipWith (fun r c4 => val_t4_aabb c1_a c1_b c2_aa c2_ab c2_bb c3_aab c3_abb (r 0) (r 1) (r 2) (r 3) (r 4) (r 5) (r 6) (r 7) c4) rows c4_amps

/-- Quadruple amplitude of spin case `abbb` at one listed determinant,
`/repo/ccpy/lib/fortran/clusteranalysis.f90:602-660`. -/
def val_t4_abbb (c1_a : Key1 → R) (c1_b : Key1 → R) (c2_ab : Key2 → R) (c2_bb : Key2 → R) (c3_abb : Key3 → R) (c3_bbb : Key3 → R) (a b c d i j k l : ℕ) (c4 : R) : R :=
  (c4
    - c1_a (![a], ![i]) * c3_bbb (![b, c, d], ![j, k, l])
    - c1_b (![d], ![l]) * c3_abb (![a, b, c], ![i, j, k])
    + c1_b (![d], ![j]) * c3_abb (![a, b, c], ![i, l, k])
    + c1_b (![d], ![k]) * c3_abb (![a, b, c], ![i, j, l])
    + c1_b (![b], ![l]) * c3_abb (![a, d, c], ![i, j, k])
    + c1_b (![c], ![l]) * c3_abb (![a, b, d], ![i, j, k])
    - c1_b (![b], ![j]) * c3_abb (![a, d, c], ![i, l, k])
    - c1_b (![c], ![j]) * c3_abb (![a, b, d], ![i, l, k])
    - c1_b (![b], ![k]) * c3_abb (![a, d, c], ![i, j, l])
    - c1_b (![c], ![k]) * c3_abb (![a, b, d], ![i, j, l])
    + 2 * (c1_b (![c], ![k]) * c1_b (![d], ![l]) * c2_ab (![a, b], ![i, j])
    - c1_b (![c], ![j]) * c1_b (![d], ![l]) * c2_ab (![a, b], ![i, k])
    - c1_b (![c], ![k]) * c1_b (![d], ![j]) * c2_ab (![a, b], ![i, l])
    - c1_b (![c], ![l]) * c1_b (![d], ![k]) * c2_ab (![a, b], ![i, j])
    - c1_b (![b], ![k]) * c1_b (![d], ![l]) * c2_ab (![a, c], ![i, j])
    - c1_b (![c], ![k]) * c1_b (![b], ![l]) * c2_ab (![a, d], ![i, j])
    + c1_b (![c], ![l]) * c1_b (![d], ![j]) * c2_ab (![a, b], ![i, k])
    + c1_b (![c], ![j]) * c1_b (![d], ![k]) * c2_ab (![a, b], ![i, l])
    + c1_b (![b], ![j]) * c1_b (![d], ![l]) * c2_ab (![a, c], ![i, k])
    + c1_b (![c], ![j]) * c1_b (![b], ![l]) * c2_ab (![a, d], ![i, k])
    + c1_b (![b], ![k]) * c1_b (![d], ![j]) * c2_ab (![a, c], ![i, l])
    + c1_b (![c], ![k]) * c1_b (![b], ![j]) * c2_ab (![a, d], ![i, l])
    + c1_b (![b], ![l]) * c1_b (![d], ![k]) * c2_ab (![a, c], ![i, j])
    + c1_b (![c], ![l]) * c1_b (![b], ![k]) * c2_ab (![a, d], ![i, j])
    - c1_b (![b], ![l]) * c1_b (![d], ![j]) * c2_ab (![a, c], ![i, k])
    - c1_b (![c], ![l]) * c1_b (![b], ![j]) * c2_ab (![a, d], ![i, k])
    - c1_b (![b], ![j]) * c1_b (![d], ![k]) * c2_ab (![a, c], ![i, l])
    - c1_b (![c], ![j]) * c1_b (![b], ![k]) * c2_ab (![a, d], ![i, l])
    + c1_a (![a], ![i]) * c1_b (![b], ![j]) * c2_bb (![c, d], ![k, l])
    - c1_a (![a], ![i]) * c1_b (![b], ![k]) * c2_bb (![c, d], ![j, l])
    - c1_a (![a], ![i]) * c1_b (![b], ![l]) * c2_bb (![c, d], ![k, j])
    - c1_a (![a], ![i]) * c1_b (![c], ![j]) * c2_bb (![b, d], ![k, l])
    - c1_a (![a], ![i]) * c1_b (![d], ![j]) * c2_bb (![c, b], ![k, l])
    + c1_a (![a], ![i]) * c1_b (![c], ![k]) * c2_bb (![b, d], ![j, l])
    + c1_a (![a], ![i]) * c1_b (![d], ![k]) * c2_bb (![c, b], ![j, l])
    + c1_a (![a], ![i]) * c1_b (![c], ![l]) * c2_bb (![b, d], ![k, j])
    + c1_a (![a], ![i]) * c1_b (![d], ![l]) * c2_bb (![c, b], ![k, j]))
    - c2_ab (![a, b], ![i, j]) * c2_bb (![c, d], ![k, l])
    + c2_ab (![a, b], ![i, k]) * c2_bb (![c, d], ![j, l])
    + c2_ab (![a, b], ![i, l]) * c2_bb (![c, d], ![k, j])
    + c2_ab (![a, c], ![i, j]) * c2_bb (![b, d], ![k, l])
    + c2_ab (![a, d], ![i, j]) * c2_bb (![c, b], ![k, l])
    - c2_ab (![a, c], ![i, k]) * c2_bb (![b, d], ![j, l])
    - c2_ab (![a, d], ![i, k]) * c2_bb (![c, b], ![j, l])
    - c2_ab (![a, c], ![i, l]) * c2_bb (![b, d], ![k, j])
    - c2_ab (![a, d], ![i, l]) * c2_bb (![c, b], ![k, j])
    - 6 * (c1_a (![a], ![i]) * c1_b (![b], ![j]) * c1_b (![c], ![k]) * c1_b (![d], ![l])
    - c1_a (![a], ![i]) * c1_b (![b], ![k]) * c1_b (![c], ![j]) * c1_b (![d], ![l])
    - c1_a (![a], ![i]) * c1_b (![b], ![l]) * c1_b (![c], ![k]) * c1_b (![d], ![j])
    - c1_a (![a], ![i]) * c1_b (![b], ![j]) * c1_b (![c], ![l]) * c1_b (![d], ![k])
    + c1_a (![a], ![i]) * c1_b (![b], ![k]) * c1_b (![c], ![l]) * c1_b (![d], ![j])
    + c1_a (![a], ![i]) * c1_b (![b], ![l]) * c1_b (![c], ![j]) * c1_b (![d], ![k])))

/-- The `abbb` loop of `cluster_analysis_t4` over the listed determinants,
`/repo/ccpy/lib/fortran/clusteranalysis.f90:602-660`. -/
def t4_abbb (c1_a : Key1 → R) (c1_b : Key1 → R) (c2_ab : Key2 → R) (c2_bb : Key2 → R) (c3_abb : Key3 → R) (c3_bbb : Key3 → R) (rows : List (Fin 8 → ℕ)) (c4_amps : List R) : List R :=
  List.zipWith (fun r c4 => val_t4_abbb c1_a c1_b c2_ab c2_bb c3_abb c3_bbb (r 0) (r 1) (r 2) (r 3) (r 4) (r 5) (r 6) (r 7) c4) rows c4_amps

/-- Quadruple amplitude of spin case `bbbb` at one listed determinant,
`/repo/ccpy/lib/fortran/clusteranalysis.f90:663-800`. -/
def val_t4_bbbb (c1_b : Key1 → R) (c2_bb : Key2 → R) (c3_bbb : Key3 → R) (a b c d i j k l : ℕ) (c4 : R) : R :=
  (c4
    - c1_b (![a], ![i]) * c3_bbb (![b, c, d], ![j, k, l])
    + c1_b (![a], ![j]) * c3_bbb (![b, c, d], ![i, k, l])
    + c1_b (![a], ![k]) * c3_bbb (![b, c, d], ![j, i, l])
    + c1_b (![a], ![l]) * c3_bbb (![b, c, d], ![j, k, i])
    + c1_b (![b], ![i]) * c3_bbb (![a, c, d], ![j, k, l])
    + c1_b (![c], ![i]) * c3_bbb (![b, a, d], ![j, k, l])
    + c1_b (![d], ![i]) * c3_bbb (![b, c, a], ![j, k, l])
    - c1_b (![b], ![j]) * c3_bbb (![a, c, d], ![i, k, l])
    - c1_b (![c], ![j]) * c3_bbb (![b, a, d], ![i, k, l])
    - c1_b (![d], ![j]) * c3_bbb (![b, c, a], ![i, k, l])
    - c1_b (![b], ![k]) * c3_bbb (![a, c, d], ![j, i, l])
    - c1_b (![c], ![k]) * c3_bbb (![b, a, d], ![j, i, l])
    - c1_b (![d], ![k]) * c3_bbb (![b, c, a], ![j, i, l])
    - c1_b (![b], ![l]) * c3_bbb (![a, c, d], ![j, k, i])
    - c1_b (![c], ![l]) * c3_bbb (![b, a, d], ![j, k, i])
    - c1_b (![d], ![l]) * c3_bbb (![b, c, a], ![j, k, i])
    + 2 * (c1_b (![a], ![i]) * c1_b (![b], ![j]) * c2_bb (![c, d], ![k, l])
    - c1_b (![a], ![k]) * c1_b (![b], ![j]) * c2_bb (![c, d], ![i, l])
    - c1_b (![a], ![l]) * c1_b (![b], ![j]) * c2_bb (![c, d], ![k, i])
    - c1_b (![a], ![j]) * c1_b (![b], ![i]) * c2_bb (![c, d], ![k, l])
    - c1_b (![a], ![i]) * c1_b (![b], ![k]) * c2_bb (![c, d], ![j, l])
    - c1_b (![a], ![i]) * c1_b (![b], ![l]) * c2_bb (![c, d], ![k, j])
    - c1_b (![c], ![i]) * c1_b (![b], ![j]) * c2_bb (![a, d], ![k, l])
    - c1_b (![d], ![i]) * c1_b (![b], ![j]) * c2_bb (![c, a], ![k, l])
    - c1_b (![a], ![i]) * c1_b (![c], ![j]) * c2_bb (![b, d], ![k, l])
    - c1_b (![a], ![i]) * c1_b (![d], ![j]) * c2_bb (![c, b], ![k, l])
    + c1_b (![c], ![i]) * c1_b (![d], ![j]) * c2_bb (![a, b], ![k, l])
    + c1_b (![c], ![k]) * c1_b (![b], ![j]) * c2_bb (![a, d], ![i, l])
    + c1_b (![d], ![k]) * c1_b (![b], ![j]) * c2_bb (![c, a], ![i, l])
    + c1_b (![a], ![k]) * c1_b (![c], ![j]) * c2_bb (![b, d], ![i, l])
    + c1_b (![a], ![k]) * c1_b (![d], ![j]) * c2_bb (![c, b], ![i, l])
    + c1_b (![c], ![l]) * c1_b (![b], ![j]) * c2_bb (![a, d], ![k, i])
    + c1_b (![d], ![l]) * c1_b (![b], ![j]) * c2_bb (![c, a], ![k, i])
    + c1_b (![a], ![l]) * c1_b (![c], ![j]) * c2_bb (![b, d], ![k, i])
    + c1_b (![a], ![l]) * c1_b (![d], ![j]) * c2_bb (![c, b], ![k, i])
    + c1_b (![c], ![j]) * c1_b (![b], ![i]) * c2_bb (![a, d], ![k, l])
    + c1_b (![d], ![j]) * c1_b (![b], ![i]) * c2_bb (![c, a], ![k, l])
    + c1_b (![a], ![j]) * c1_b (![c], ![i]) * c2_bb (![b, d], ![k, l])
    + c1_b (![a], ![j]) * c1_b (![d], ![i]) * c2_bb (![c, b], ![k, l])
    + c1_b (![c], ![i]) * c1_b (![b], ![k]) * c2_bb (![a, d], ![j, l])
    + c1_b (![d], ![i]) * c1_b (![b], ![k]) * c2_bb (![c, a], ![j, l])
    + c1_b (![a], ![i]) * c1_b (![c], ![k]) * c2_bb (![b, d], ![j, l])
    + c1_b (![a], ![i]) * c1_b (![d], ![k]) * c2_bb (![c, b], ![j, l])
    + c1_b (![c], ![i]) * c1_b (![b], ![l]) * c2_bb (![a, d], ![k, j])
    + c1_b (![d], ![i]) * c1_b (![b], ![l]) * c2_bb (![c, a], ![k, j])
    + c1_b (![a], ![i]) * c1_b (![c], ![l]) * c2_bb (![b, d], ![k, j])
    + c1_b (![a], ![i]) * c1_b (![d], ![l]) * c2_bb (![c, b], ![k, j])
    + c1_b (![a], ![j]) * c1_b (![b], ![k]) * c2_bb (![c, d], ![i, l])
    + c1_b (![a], ![k]) * c1_b (![b], ![i]) * c2_bb (![c, d], ![j, l])
    + c1_b (![a], ![j]) * c1_b (![b], ![l]) * c2_bb (![c, d], ![k, i])
    + c1_b (![a], ![l]) * c1_b (![b], ![i]) * c2_bb (![c, d], ![k, j])
    - c1_b (![a], ![l]) * c1_b (![b], ![k]) * c2_bb (![c, d], ![i, j])
    - c1_b (![c], ![k]) * c1_b (![d], ![j]) * c2_bb (![a, b], ![i, l])
    - c1_b (![c], ![l]) * c1_b (![d], ![j]) * c2_bb (![a, b], ![k, i])
    - c1_b (![c], ![j]) * c1_b (![d], ![i]) * c2_bb (![a, b], ![k, l])
    - c1_b (![c], ![i]) * c1_b (![d], ![k]) * c2_bb (![a, b], ![j, l])
    - c1_b (![c], ![i]) * c1_b (![d], ![l]) * c2_bb (![a, b], ![k, j])
    - c1_b (![c], ![j]) * c1_b (![b], ![k]) * c2_bb (![a, d], ![i, l])
    - c1_b (![d], ![j]) * c1_b (![b], ![k]) * c2_bb (![c, a], ![i, l])
    - c1_b (![a], ![j]) * c1_b (![c], ![k]) * c2_bb (![b, d], ![i, l])
    - c1_b (![a], ![j]) * c1_b (![d], ![k]) * c2_bb (![c, b], ![i, l])
    - c1_b (![c], ![k]) * c1_b (![b], ![i]) * c2_bb (![a, d], ![j, l])
    - c1_b (![d], ![k]) * c1_b (![b], ![i]) * c2_bb (![c, a], ![j, l])
    - c1_b (![a], ![k]) * c1_b (![c], ![i]) * c2_bb (![b, d], ![j, l])
    - c1_b (![a], ![k]) * c1_b (![d], ![i]) * c2_bb (![c, b], ![j, l])
    - c1_b (![c], ![j]) * c1_b (![b], ![l]) * c2_bb (![a, d], ![k, i])
    - c1_b (![d], ![j]) * c1_b (![b], ![l]) * c2_bb (![c, a], ![k, i])
    - c1_b (![a], ![j]) * c1_b (![c], ![l]) * c2_bb (![b, d], ![k, i])
    - c1_b (![a], ![j]) * c1_b (![d], ![l]) * c2_bb (![c, b], ![k, i])
    - c1_b (![c], ![l]) * c1_b (![b], ![i]) * c2_bb (![a, d], ![k, j])
    - c1_b (![d], ![l]) * c1_b (![b], ![i]) * c2_bb (![c, a], ![k, j])
    - c1_b (![a], ![l]) * c1_b (![c], ![i]) * c2_bb (![b, d], ![k, j])
    - c1_b (![a], ![l]) * c1_b (![d], ![i]) * c2_bb (![c, b], ![k, j])
    + c1_b (![c], ![j]) * c1_b (![d], ![k]) * c2_bb (![a, b], ![i, l])
    + c1_b (![c], ![k]) * c1_b (![d], ![i]) * c2_bb (![a, b], ![j, l])
    + c1_b (![c], ![j]) * c1_b (![d], ![l]) * c2_bb (![a, b], ![k, i])
    + c1_b (![c], ![l]) * c1_b (![d], ![i]) * c2_bb (![a, b], ![k, j])
    + c1_b (![c], ![l]) * c1_b (![b], ![k]) * c2_bb (![a, d], ![i, j])
    + c1_b (![d], ![l]) * c1_b (![b], ![k]) * c2_bb (![c, a], ![i, j])
    + c1_b (![a], ![l]) * c1_b (![c], ![k]) * c2_bb (![b, d], ![i, j])
    + c1_b (![a], ![l]) * c1_b (![d], ![k]) * c2_bb (![c, b], ![i, j])
    - c1_b (![c], ![l]) * c1_b (![d], ![k]) * c2_bb (![a, b], ![i, j])
    - c1_b (![c], ![k]) * c1_b (![b], ![l]) * c2_bb (![a, d], ![i, j])
    - c1_b (![d], ![k]) * c1_b (![b], ![l]) * c2_bb (![c, a], ![i, j])
    - c1_b (![a], ![k]) * c1_b (![c], ![l]) * c2_bb (![b, d], ![i, j])
    - c1_b (![a], ![k]) * c1_b (![d], ![l]) * c2_bb (![c, b], ![i, j])
    + c1_b (![c], ![k]) * c1_b (![d], ![l]) * c2_bb (![a, b], ![i, j])
    + c1_b (![a], ![k]) * c1_b (![b], ![l]) * c2_bb (![c, d], ![i, j]))
    - c2_bb (![a, b], ![i, j]) * c2_bb (![c, d], ![k, l])
    + c2_bb (![a, b], ![k, j]) * c2_bb (![c, d], ![i, l])
    + c2_bb (![a, b], ![l, j]) * c2_bb (![c, d], ![k, i])
    + c2_bb (![a, b], ![i, k]) * c2_bb (![c, d], ![j, l])
    + c2_bb (![a, b], ![i, l]) * c2_bb (![c, d], ![k, j])
    + c2_bb (![c, b], ![i, j]) * c2_bb (![a, d], ![k, l])
    + c2_bb (![d, b], ![i, j]) * c2_bb (![c, a], ![k, l])
    - c2_bb (![a, b], ![k, l]) * c2_bb (![c, d], ![i, j])
    - c2_bb (![c, b], ![k, j]) * c2_bb (![a, d], ![i, l])
    - c2_bb (![c, b], ![l, j]) * c2_bb (![a, d], ![k, i])
    - c2_bb (![c, b], ![i, k]) * c2_bb (![a, d], ![j, l])
    - c2_bb (![c, b], ![i, l]) * c2_bb (![a, d], ![k, j])
    - c2_bb (![d, b], ![k, j]) * c2_bb (![c, a], ![i, l])
    - c2_bb (![d, b], ![l, j]) * c2_bb (![c, a], ![k, i])
    - c2_bb (![d, b], ![i, k]) * c2_bb (![c, a], ![j, l])
    - c2_bb (![d, b], ![i, l]) * c2_bb (![c, a], ![k, j])
    + c2_bb (![c, b], ![k, l]) * c2_bb (![a, d], ![i, j])
    + c2_bb (![d, b], ![k, l]) * c2_bb (![c, a], ![i, j])
    - 6 * (c1_b (![a], ![i]) * c1_b (![b], ![j]) * c1_b (![c], ![k]) * c1_b (![d], ![l])
    - c1_b (![a], ![j]) * c1_b (![b], ![i]) * c1_b (![c], ![k]) * c1_b (![d], ![l])
    - c1_b (![a], ![k]) * c1_b (![b], ![j]) * c1_b (![c], ![i]) * c1_b (![d], ![l])
    - c1_b (![a], ![l]) * c1_b (![b], ![j]) * c1_b (![c], ![k]) * c1_b (![d], ![i])
    - c1_b (![a], ![i]) * c1_b (![b], ![k]) * c1_b (![c], ![j]) * c1_b (![d], ![l])
    - c1_b (![a], ![i]) * c1_b (![b], ![l]) * c1_b (![c], ![k]) * c1_b (![d], ![j])
    - c1_b (![a], ![i]) * c1_b (![b], ![j]) * c1_b (![c], ![l]) * c1_b (![d], ![k])
    + c1_b (![a], ![j]) * c1_b (![b], ![k]) * c1_b (![c], ![i]) * c1_b (![d], ![l])
    + c1_b (![a], ![k]) * c1_b (![b], ![i]) * c1_b (![c], ![j]) * c1_b (![d], ![l])
    + c1_b (![a], ![j]) * c1_b (![b], ![l]) * c1_b (![c], ![k]) * c1_b (![d], ![i])
    + c1_b (![a], ![l]) * c1_b (![b], ![i]) * c1_b (![c], ![k]) * c1_b (![d], ![j])
    + c1_b (![a], ![k]) * c1_b (![b], ![j]) * c1_b (![c], ![l]) * c1_b (![d], ![i])
    + c1_b (![a], ![l]) * c1_b (![b], ![j]) * c1_b (![c], ![i]) * c1_b (![d], ![k])
    + c1_b (![a], ![i]) * c1_b (![b], ![k]) * c1_b (![c], ![l]) * c1_b (![d], ![j])
    + c1_b (![a], ![i]) * c1_b (![b], ![l]) * c1_b (![c], ![j]) * c1_b (![d], ![k])
    + c1_b (![a], ![j]) * c1_b (![b], ![i]) * c1_b (![c], ![l]) * c1_b (![d], ![k])
    + c1_b (![a], ![k]) * c1_b (![b], ![l]) * c1_b (![c], ![i]) * c1_b (![d], ![j])
    + c1_b (![a], ![l]) * c1_b (![b], ![k]) * c1_b (![c], ![j]) * c1_b (![d], ![i])
    - c1_b (![a], ![j]) * c1_b (![b], ![k]) * c1_b (![c], ![l]) * c1_b (![d], ![i])
    - c1_b (![a], ![j]) * c1_b (![b], ![l]) * c1_b (![c], ![i]) * c1_b (![d], ![k])
    - c1_b (![a], ![k]) * c1_b (![b], ![l]) * c1_b (![c], ![j]) * c1_b (![d], ![i])
    - c1_b (![a], ![k]) * c1_b (![b], ![i]) * c1_b (![c], ![l]) * c1_b (![d], ![j])
    - c1_b (![a], ![l]) * c1_b (![b], ![i]) * c1_b (![c], ![j]) * c1_b (![d], ![k])
    - c1_b (![a], ![l]) * c1_b (![b], ![k]) * c1_b (![c], ![i]) * c1_b (![d], ![j])))

/-- The `bbbb` loop of `cluster_analysis_t4` over the listed determinants,
`/repo/ccpy/lib/fortran/clusteranalysis.f90:663-800`. -/
def t4_bbbb (c1_b : Key1 → R) (c2_bb : Key2 → R) (c3_bbb : Key3 → R) (rows : List (Fin 8 → ℕ)) (c4_amps : List R) : List R :=
  List.zipWith (fun r c4 => val_t4_bbbb c1_b c2_bb c3_bbb (r 0) (r 1) (r 2) (r 3) (r 4) (r 5) (r 6) (r 7) c4) rows c4_amps

end Ccpy.ClusterAnalysis
