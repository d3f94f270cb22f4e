import Verif.Model.Ccsdt
import Verif.Model.Rdm1
import Verif.Spec.Density
import Mathlib.Tactic.Ring

/-! The density matrices as tensor programs: helper for the comparison with expectation values.  The model is
`Model/Rdm1.lean`; the programs below have the same values. -/

namespace Ccpy.Rdm
open Ccpy.Tensor Ccpy.Ccsdt Ccpy.Fock Ccpy.Amplitudes

def deltaa : Ex := transpose [1, 0] (.arr 0 [0, 0])
def deltab : Ex := transpose [1, 0] (.arr 0 [2, 2])
def scale (n d : ℕ) (x : Ex) : Ex := .smul false n d x

def prog_a_oo (T L : Amps3) : Ex :=
  (-(es% "ei,ej->ij" L.a, T.a) - half (es% "efin,efjn->ij" L.aa, T.aa) - (es% "efin,efjn->ij" L.ab, T.ab)) + (deltaa)
def prog_b_oo (T L : Amps3) : Ex :=
  (-(es% "ei,ej->ij" L.b, T.b) - half (es% "efin,efjn->ij" L.bb, T.bb) - (es% "feni,fenj->ij" L.ab, T.ab)) + (deltab)
def prog_a_vv (T L : Amps3) : Ex :=
  (es% "bm,am->ab" L.a, T.a) + half (es% "bfmn,afmn->ab" L.aa, T.aa) + (es% "bfmn,afmn->ab" L.ab, T.ab)
def prog_b_vv (T L : Amps3) : Ex :=
  (es% "bm,am->ab" L.b, T.b) + half (es% "bfmn,afmn->ab" L.bb, T.bb) + (es% "fbnm,fanm->ab" L.ab, T.ab)
def prog_a_ov (_T L : Amps3) : Ex :=
  transpose [1, 0] L.a
def prog_b_ov (_T L : Amps3) : Ex :=
  transpose [1, 0] L.b
def prog_a_vo (T L : Amps3) : Ex :=
  ((es% "em,aeim->ai" L.a, T.aa) + (es% "em,aeim->ai" L.b, T.ab) - (es% "em,ei,am->ai" L.a, T.a, T.a)
      - half (es% "efmn,afmn,ei->ai" L.aa, T.aa, T.a) - (es% "efmn,afmn,ei->ai" L.ab, T.ab, T.a)
      - half (es% "efmn,efin,am->ai" L.aa, T.aa, T.a) - (es% "efmn,efin,am->ai" L.ab, T.ab, T.a)) + (T.a)
def prog_b_vo (T L : Amps3) : Ex :=
  ((es% "em,aeim->ai" L.b, T.bb) + (es% "em,eami->ai" L.a, T.ab) - (es% "em,ei,am->ai" L.b, T.b, T.b)
      - half (es% "efmn,afmn,ei->ai" L.bb, T.bb, T.b) - (es% "fenm,fanm,ei->ai" L.ab, T.ab, T.b)
      - half (es% "efmn,efin,am->ai" L.bb, T.bb, T.b) - (es% "fenm,feni,am->ai" L.ab, T.ab, T.b)) + (T.b)
def progTriples_a_oo (T L : Amps3) : Ex :=
  -scale 1 12 (es% "efgino,efgjno->ij" L.aaa, T.aaa) - half (es% "efgino,efgjno->ij" L.aab, T.aab)
      - quarter (es% "efgino,efgjno->ij" L.abb, T.abb)
def progTriples_b_oo (T L : Amps3) : Ex :=
  -scale 1 12 (es% "efgoni,efgonj->ij" L.bbb, T.bbb) - half (es% "efgoni,efgonj->ij" L.abb, T.abb)
      - quarter (es% "efgoni,efgonj->ij" L.aab, T.aab)
def progTriples_a_vv (T L : Amps3) : Ex :=
  scale 1 12 (es% "bfgmno,afgmno->ab" L.aaa, T.aaa) + half (es% "bfgmno,afgmno->ab" L.aab, T.aab)
      + quarter (es% "bfgmno,afgmno->ab" L.abb, T.abb)
def progTriples_b_vv (T L : Amps3) : Ex :=
  scale 1 12 (es% "gfbmno,gfamno->ab" L.bbb, T.bbb) + half (es% "gfbmno,gfamno->ab" L.abb, T.abb)
      + quarter (es% "gfbmno,gfamno->ab" L.aab, T.aab)
def progTriples_a_vo (T L : Amps3) : Ex :=
  quarter (es% "efmn,aefimn->ai" L.aa, T.aaa) + (es% "efmn,aefimn->ai" L.ab, T.aab)
      + quarter (es% "efmn,aefimn->ai" L.bb, T.abb) - quarter (es% "efgmno,agmo,efin->ai" L.aaa, T.aa, T.aa)
      - half (es% "efgmno,agmo,efin->ai" L.aab, T.ab, T.aa) - half (es% "egfmon,agmo,efin->ai" L.aab, T.aa, T.ab)
      - (es% "efgmno,agmo,efin->ai" L.abb, T.ab, T.ab) - scale 1 12 (es% "efgmno,afgmno,ei->ai" L.aaa, T.aaa, T.a)
      - half (es% "efgmno,afgmno,ei->ai" L.aab, T.aab, T.a)
      - quarter (es% "efgmno,afgmno,ei->ai" L.abb, T.abb, T.a)
      - scale 1 12 (es% "efgmno,efgino,am->ai" L.aaa, T.aaa, T.a)
      - half (es% "efgmno,efgino,am->ai" L.aab, T.aab, T.a) - quarter (es% "efgmno,efgino,am->ai" L.abb, T.abb, T.a)
def progTriples_b_vo (T L : Amps3) : Ex :=
  quarter (es% "efmn,aefimn->ai" L.bb, T.bbb) + (es% "efmn,efamni->ai" L.ab, T.abb)
      + quarter (es% "efmn,efamni->ai" L.aa, T.aab) - quarter (es% "efgmno,agmo,efin->ai" L.bbb, T.bb, T.bb)
      - half (es% "fegnmo,agmo,feni->ai" L.abb, T.bb, T.ab) - half (es% "gefomn,gaom,efin->ai" L.abb, T.ab, T.bb)
      - (es% "fgenom,gaom,feni->ai" L.aab, T.ab, T.ab) - scale 1 12 (es% "efgmno,afgmno,ei->ai" L.bbb, T.bbb, T.b)
      - half (es% "fgenom,fganom,ei->ai" L.abb, T.abb, T.b)
      - quarter (es% "fgenom,fganom,ei->ai" L.aab, T.aab, T.b)
      - scale 1 12 (es% "efgmno,efgino,am->ai" L.bbb, T.bbb, T.b)
      - half (es% "fgenom,fgenoi,am->ai" L.abb, T.abb, T.b) - quarter (es% "fgenom,fgenoi,am->ai" L.aab, T.aab, T.b)

/-- The arrays of the left state: 11 to 15 and 110 to 113. -/
def amplitudesL3 : Amps3 where
  a := .arr 11 [1, 0]
  b := .arr 12 [3, 2]
  aa := .arr 13 [1, 1, 0, 0]
  ab := .arr 14 [1, 3, 0, 2]
  bb := .arr 15 [3, 3, 2, 2]
  aaa := .arr 110 [1, 1, 1, 0, 0, 0]
  aab := .arr 111 [1, 1, 3, 0, 0, 2]
  abb := .arr 112 [1, 3, 3, 0, 2, 2]
  bbb := .arr 113 [3, 3, 3, 2, 2, 2]

def cluster (T : Amplitudes ℚ) : Cluster := ⟨T.a, T.b, T.aa, T.ab, T.bb⟩
def triples (T : Amplitudes ℚ) : Triples := ⟨T.aaa, T.aab, T.abb, T.bbb⟩
def dimsOf {ι : Type*} (S : Orbitals ι) : Dims := ⟨S.na, S.nb, S.ua, S.ub⟩

variable {ι : Type*}

section
variable {dim : ℕ → ℕ} {I : ℕ → List (ℕ × ℕ) → ℚ} {x y : Ex} {l : List ℕ}
theorem denote_add : (x + y).denote dim I l = x.denote dim I l + y.denote dim I l := rfl
theorem denote_sub : (x - y).denote dim I l = x.denote dim I l - y.denote dim I l := by
  show _ + (-1 : ℚ) * (((1 : ℕ) : ℚ) / ((1 : ℕ) : ℚ)) * _ = _
  simp; ring
theorem denote_neg : (-x).denote dim I l = -x.denote dim I l := by
  show (-1 : ℚ) * (((1 : ℕ) : ℚ) / ((1 : ℕ) : ℚ)) * _ = _
  simp
theorem denote_half : (half x).denote dim I l = 1 / 2 * x.denote dim I l := by
  show (1 : ℚ) * (((1 : ℕ) : ℚ) / ((2 : ℕ) : ℚ)) * _ = _
  simp
theorem denote_quarter : (quarter x).denote dim I l = 1 / 4 * x.denote dim I l := by
  show (1 : ℚ) * (((1 : ℕ) : ℚ) / ((4 : ℕ) : ℚ)) * _ = _
  simp
theorem denote_scale {n d : ℕ} : (scale n d x).denote dim I l = n / d * x.denote dim I l := by
  show (1 : ℚ) * ((n : ℚ) / (d : ℚ)) * _ = _
  simp
end

set_option linter.unusedSimpArgs false

theorem bridge_a_oo (S : Orbitals ι) (Z : Fock.Integrals) (T L : Amplitudes ℚ) (i j : ℕ) :
    value S Z (store3 [cluster T, cluster L] [triples T, triples L]) (prog_a_oo amplitudes3 amplitudesL3 + progTriples_a_oo amplitudes3 amplitudesL3) [i, j] = rdm_a_oo (dimsOf S) T L i j + rdmTriples_a_oo (dimsOf S) T L i j := by
  unfold rdm_a_oo rdmTriples_a_oo value prog_a_oo progTriples_a_oo
  rw [show (if i = j then (1 : ℚ) else 0) = if j = i then 1 else 0 by simp only [eq_comm]]
  simp (config := { maxSteps := 2000000 }) [denote_add, denote_sub, denote_neg, denote_half, denote_quarter, denote_scale, Ex.denote, Body.letters, Ex.axes,
    summed, sumLetters, amplitudes3, amplitudesL3, amplitudes, Body.denote, look, elements, mul_assoc, deltaa, deltab, transpose,
    List.range, List.range.loop]
  rfl

theorem bridge_b_oo (S : Orbitals ι) (Z : Fock.Integrals) (T L : Amplitudes ℚ) (i j : ℕ) :
    value S Z (store3 [cluster T, cluster L] [triples T, triples L]) (prog_b_oo amplitudes3 amplitudesL3 + progTriples_b_oo amplitudes3 amplitudesL3) [i, j] = rdm_b_oo (dimsOf S) T L i j + rdmTriples_b_oo (dimsOf S) T L i j := by
  unfold rdm_b_oo rdmTriples_b_oo value prog_b_oo progTriples_b_oo
  rw [show (if i = j then (1 : ℚ) else 0) = if j = i then 1 else 0 by simp only [eq_comm]]
  simp (config := { maxSteps := 2000000 }) [denote_add, denote_sub, denote_neg, denote_half, denote_quarter, denote_scale, Ex.denote, Body.letters, Ex.axes,
    summed, sumLetters, amplitudes3, amplitudesL3, amplitudes, Body.denote, look, elements, mul_assoc, deltaa, deltab, transpose,
    List.range, List.range.loop]
  rfl

theorem bridge_a_vv (S : Orbitals ι) (Z : Fock.Integrals) (T L : Amplitudes ℚ) (i j : ℕ) :
    value S Z (store3 [cluster T, cluster L] [triples T, triples L]) (prog_a_vv amplitudes3 amplitudesL3 + progTriples_a_vv amplitudes3 amplitudesL3) [i, j] = rdm_a_vv (dimsOf S) T L i j + rdmTriples_a_vv (dimsOf S) T L i j := by
  unfold rdm_a_vv rdmTriples_a_vv value prog_a_vv progTriples_a_vv
  simp (config := { maxSteps := 2000000 }) [denote_add, denote_sub, denote_neg, denote_half, denote_quarter, denote_scale, Ex.denote, Body.letters, Ex.axes,
    summed, sumLetters, amplitudes3, amplitudesL3, amplitudes, Body.denote, look, elements, mul_assoc, deltaa, deltab, transpose,
    List.range, List.range.loop]
  rfl

theorem bridge_b_vv (S : Orbitals ι) (Z : Fock.Integrals) (T L : Amplitudes ℚ) (i j : ℕ) :
    value S Z (store3 [cluster T, cluster L] [triples T, triples L]) (prog_b_vv amplitudes3 amplitudesL3 + progTriples_b_vv amplitudes3 amplitudesL3) [i, j] = rdm_b_vv (dimsOf S) T L i j + rdmTriples_b_vv (dimsOf S) T L i j := by
  unfold rdm_b_vv rdmTriples_b_vv value prog_b_vv progTriples_b_vv
  simp (config := { maxSteps := 2000000 }) [denote_add, denote_sub, denote_neg, denote_half, denote_quarter, denote_scale, Ex.denote, Body.letters, Ex.axes,
    summed, sumLetters, amplitudes3, amplitudesL3, amplitudes, Body.denote, look, elements, mul_assoc, deltaa, deltab, transpose,
    List.range, List.range.loop]
  rfl

set_option maxHeartbeats 2000000 in
theorem bridge_a_vo (S : Orbitals ι) (Z : Fock.Integrals) (T L : Amplitudes ℚ) (i j : ℕ) :
    value S Z (store3 [cluster T, cluster L] [triples T, triples L]) (prog_a_vo amplitudes3 amplitudesL3 + progTriples_a_vo amplitudes3 amplitudesL3) [i, j] = rdm_a_vo (dimsOf S) T L i j + rdmTriples_a_vo (dimsOf S) T L i j := by
  unfold rdm_a_vo rdmTriples_a_vo value prog_a_vo progTriples_a_vo
  simp (config := { maxSteps := 2000000 }) [denote_add, denote_sub, denote_neg, denote_half, denote_quarter, denote_scale, Ex.denote, Body.letters, Ex.axes,
    summed, sumLetters, amplitudes3, amplitudesL3, amplitudes, Body.denote, look, elements, mul_assoc, deltaa, deltab, transpose,
    List.range, List.range.loop]
  rfl

set_option maxHeartbeats 2000000 in
theorem bridge_b_vo (S : Orbitals ι) (Z : Fock.Integrals) (T L : Amplitudes ℚ) (i j : ℕ) :
    value S Z (store3 [cluster T, cluster L] [triples T, triples L]) (prog_b_vo amplitudes3 amplitudesL3 + progTriples_b_vo amplitudes3 amplitudesL3) [i, j] = rdm_b_vo (dimsOf S) T L i j + rdmTriples_b_vo (dimsOf S) T L i j := by
  unfold rdm_b_vo rdmTriples_b_vo value prog_b_vo progTriples_b_vo
  simp (config := { maxSteps := 2000000 }) [denote_add, denote_sub, denote_neg, denote_half, denote_quarter, denote_scale, Ex.denote, Body.letters, Ex.axes,
    summed, sumLetters, amplitudes3, amplitudesL3, amplitudes, Body.denote, look, elements, mul_assoc, deltaa, deltab, transpose,
    List.range, List.range.loop]
  rfl

theorem bridge_a_ov (S : Orbitals ι) (Z : Fock.Integrals) (T L : Amplitudes ℚ) (i j : ℕ) :
    value S Z (store3 [cluster T, cluster L] [triples T, triples L]) (prog_a_ov amplitudes3 amplitudesL3) [i, j] = rdm_a_ov (dimsOf S) T L i j := by
  unfold rdm_a_ov value prog_a_ov
  simp (config := { maxSteps := 2000000 }) [denote_add, denote_sub, denote_neg, denote_half, denote_quarter, denote_scale, Ex.denote, Body.letters, Ex.axes,
    summed, sumLetters, amplitudes3, amplitudesL3, amplitudes, Body.denote, look, elements, mul_assoc, deltaa, deltab, transpose,
    List.range, List.range.loop]
  rfl

theorem bridge_b_ov (S : Orbitals ι) (Z : Fock.Integrals) (T L : Amplitudes ℚ) (i j : ℕ) :
    value S Z (store3 [cluster T, cluster L] [triples T, triples L]) (prog_b_ov amplitudes3 amplitudesL3) [i, j] = rdm_b_ov (dimsOf S) T L i j := by
  unfold rdm_b_ov value prog_b_ov
  simp (config := { maxSteps := 2000000 }) [denote_add, denote_sub, denote_neg, denote_half, denote_quarter, denote_scale, Ex.denote, Body.letters, Ex.axes,
    summed, sumLetters, amplitudes3, amplitudesL3, amplitudes, Body.denote, look, elements, mul_assoc, deltaa, deltab, transpose,
    List.range, List.range.loop]
  rfl

end Ccpy.Rdm
