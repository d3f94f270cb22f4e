import Verif.Lemmas.ExternalCorrection
import Verif.Lemmas.InsertCi
import Mathlib.Tactic.NormNum

/-!
C03 (excitation extraction), C04 (phases of CI coefficients), C05 (storing CI amplitudes).
Specifications: `Ccpy.Spec.excite` (second quantisation), `Ccpy.Spec.StoresAmplitude`.
-/

namespace Ccpy.Determinants
open Ccpy.Determinants

/-- C03: the holes come from the reference, the particles do not, and exchanging them turns the
reference into the determinant; the rank is the number of particles, and of holes when both have
the same number of electrons; the symmetric difference counts both. -/
theorem C03_excitation_extraction (D D0 : List ℕ) :
    getExcitsFrom D D0 ⊆ D0.toFinset ∧
    Disjoint (getExcitsTo D D0) D0.toFinset ∧
    (D0.toFinset \ getExcitsFrom D D0) ∪ getExcitsTo D D0 = D.toFinset ∧
    getExcitRank D D0 = (getExcitsTo D D0).card ∧
    (D.Nodup → D0.Nodup → D.length = D0.length →
      (getExcitsFrom D D0).card = getExcitRank D D0 ∧
      getNumberDifference D D0 = 2 * getExcitRank D D0) := by
  refine ⟨Finset.sdiff_subset, Finset.sdiff_disjoint, ?_, rfl, ?_⟩
  · ext x
    simp only [getExcitsFrom, getExcitsTo, Finset.mem_union, Finset.mem_sdiff, List.mem_toFinset]
    tauto
  · intro h1 h2 h3
    have c : D.toFinset.card = D0.toFinset.card := by
      rw [List.toFinset_card_of_nodup h1, List.toFinset_card_of_nodup h2, h3]
    have e1 := Finset.card_sdiff_add_card_inter D.toFinset D0.toFinset
    have e2 := Finset.card_sdiff_add_card_inter D0.toFinset D.toFinset
    rw [Finset.inter_comm] at e2
    refine ⟨by unfold getExcitsFrom getExcitRank; omega, ?_⟩
    unfold getNumberDifference getExcitRank
    rw [symmDiff, Finset.sup_eq_union, Finset.card_union_of_disjoint]
    · omega
    · exact disjoint_sdiff_sdiff

example : [1, 2, 5, 8].Nodup ∧ [1, 2, 3, 4].Nodup ∧ [1, 2, 5, 8].length = [1, 2, 3, 4].length ∧
    getExcitsFrom [1, 2, 5, 8] [1, 2, 3, 4] = {3, 4} := by decide

/-- C03: the spin case is returned exactly for spin-conserving excitations of equal size, and then
has one `a` per alpha and one `b` per beta electron moved, alphas first. -/
theorem C03_spincase (f t : List ℕ) :
    getSpincase f t =
      if f.length = t.length ∧ f.countP (fun i => i % 2 = 1) = t.countP (fun i => i % 2 = 1) then
        some (List.replicate (f.countP (fun i => i % 2 = 1)) 'a' ++
              List.replicate (f.countP (fun i => i % 2 = 0)) 'b')
      else none := by
  unfold getSpincase
  simp only [ExternalCorrection.sum_mod2]
  have h : f.length - f.countP (fun i => i % 2 = 1) = f.countP (fun i => i % 2 = 0) := by
    rw [List.length_eq_countP_add_countP (p := fun i => decide (i % 2 = 1)) (l := f)]
    rw [Nat.add_sub_cancel_left]
    apply List.countP_congr
    intro x _
    simp
  rw [h]
  by_cases h1 : f.length = t.length <;>
    by_cases h2 : f.countP (fun i => i % 2 = 1) = t.countP (fun i => i % 2 = 1) <;>
    simp [h1, h2]

example : getSpincase [3, 4] [5, 8] = some ['a', 'b'] ∧ getSpincase [3, 4] [5, 7] = none := by
  decide

/-- C03: spin-orbital numbering (alpha `2p-1`, beta `2p`) is inverted by `spatial_orb_idx`
together with the parity. -/
theorem C03_spatial_index (p : ℕ) (hp : 1 ≤ p) :
    spatialOrbIdx (2 * p - 1) = p ∧ spatialOrbIdx (2 * p) = p ∧
    ∀ x y, x % 2 = y % 2 → spatialOrbIdx x = spatialOrbIdx y → x = y := by
  unfold spatialOrbIdx
  refine ⟨?_, ?_, ?_⟩
  · rw [if_pos (by omega)]; omega
  · rw [if_neg (by omega)]; omega
  · intro x y h1 h2
    split at h2 <;> split at h2 <;> omega

example : spatialOrbIdx 5 = 3 ∧ spatialOrbIdx 6 = 3 := by decide

end Ccpy.Determinants

namespace Ccpy.ExternalCorrection
open Ccpy.Spec Ccpy.Writes Ccpy.Determinants Ccpy.Phases Equiv

/-- The particles of a determinant relative to a reference, alphas ascending, then betas. -/
def particles (D ref : Finset ℕ) : List ℕ :=
  ((D \ ref).filter (fun i => i % 2 = 1)).sort (· ≤ ·) ++
  ((D \ ref).filter (fun i => i % 2 = 0)).sort (· ≤ ·)

/-- The holes, in the same order. -/
def holes (D ref : Finset ℕ) : List ℕ := particles ref D

theorem store_phase (N noa nob nub : ℕ) (hHF : (hfDet noa nob).toFinset = Finset.Icc 1 N)
    (chf coeff : ℚ) (det : List ℕ) (sc : List Char)
    (e : List ℤ) (c : ℚ) (hpos : ∀ x ∈ det, 1 ≤ x)
    (h : parseLine noa nob nub chf det coeff = .store sc e c) :
    ∃ phase : ℤ,
      excite (particles det.toFinset (Finset.Icc 1 N)) (holes det.toFinset (Finset.Icc 1 N))
        (Finset.Icc 1 N) = some (phase, det.toFinset) ∧
      signFix sc c = (-1) ^ (sc.length * N) * (coeff / chf) * phase := by
  obtain ⟨_, h2, h3, h4, _⟩ := parseLine_store h
  obtain ⟨hA, hB, hsc⟩ := spincase_some h3
  set occ := getExcitsFrom det (hfDet noa nob) with hocc
  set unocc := getExcitsTo det (hfDet noa nob) with hunocc
  have o1 : occ = Finset.Icc 1 N \ det.toFinset := by rw [hocc, ← hHF]; rfl
  have u1 : unocc = det.toFinset \ Finset.Icc 1 N := by rw [hunocc, ← hHF]; rfl
  have ph := phase_contiguous N (Finset.Icc 1 N) occ unocc rfl
    (by rw [o1]; exact Finset.sdiff_subset)
    (by
      intro u hu
      rw [u1, Finset.mem_sdiff, Finset.mem_Icc, List.mem_toFinset] at hu
      have := hpos u hu.1
      omega) hA hB
  have hset : (Finset.Icc 1 N \ occ) ∪ unocc = det.toFinset := by
    rw [o1, u1]
    ext x
    simp only [Finset.mem_union, Finset.mem_sdiff]
    tauto
  rw [hset] at ph
  refine ⟨(-1) ^ ((betaSorted occ).length * (1 + (alphaSorted occ).length) + occ.card * N) *
    permParity (alphaSorted unocc) (betaSorted unocc) (alphaSorted occ) (betaSorted occ), ?_, ?_⟩
  · have e1 : particles det.toFinset (Finset.Icc 1 N) = alphaSorted unocc ++ betaSorted unocc := by
      rw [u1, alphaSorted_eq, betaSorted_eq]; rfl
    have e2 : holes det.toFinset (Finset.Icc 1 N) = alphaSorted occ ++ betaSorted occ := by
      rw [o1, alphaSorted_eq, betaSorted_eq]; rfl
    rw [e1, e2]; exact ph
  · have hocccard : (alphaSorted occ).length + (betaSorted occ).length = occ.card :=
      alpha_add_beta_length occ
    have hlen : sc.length = occ.card := by rw [hsc]; simp [hocccard]
    have hcard4 : (alphaSorted occ).length + (betaSorted occ).length ≤ 4 := by
      have := alpha_add_beta_length unocc
      omega
    rw [hlen, h4]
    rw [hsc, signFix_eq _ _ hcard4]
    push_cast
    rw [pow_add]
    have hsq : ((-1 : ℚ) ^ (occ.card * N)) * ((-1 : ℚ) ^ (occ.card * N)) = 1 := by
      rw [← mul_pow]; simp
    linear_combination -(coeff / chf * (permParity (alphaSorted unocc) (betaSorted unocc)
      (alphaSorted occ) (betaSorted occ) : ℚ) *
      (-1 : ℚ) ^ ((betaSorted occ).length * (1 + (alphaSorted occ).length))) * hsq

/-- C04: the amplitude is stored under the (1-based) spatial particle and hole indices of the
excitation, particles counted from the first unoccupied orbital, alphas before betas. -/
theorem C04_stored_index (m nub : ℕ) (chf coeff : ℚ) (det : List ℕ) (sc : List Char)
    (e : List ℤ) (c : ℚ) (h : parseLine m m nub chf det coeff = .store sc e c) :
    e = (particles det.toFinset (Finset.Icc 1 (2 * m))).map (fun u : ℕ => ((u : ℤ) + 1) / 2 - m) ++
        (holes det.toFinset (Finset.Icc 1 (2 * m))).map (fun o : ℕ => ((o : ℤ) + 1) / 2) := by
  obtain ⟨_, _, h3, _, h5⟩ := parseLine_store h
  obtain ⟨hA, hB, hsc⟩ := spincase_some h3
  have o1 : getExcitsFrom det (hfDet m m) = Finset.Icc 1 (2 * m) \ det.toFinset := by
    unfold getExcitsFrom; rw [hfDet_closed]
  have u1 : getExcitsTo det (hfDet m m) = det.toFinset \ Finset.Icc 1 (2 * m) := by
    unfold getExcitsTo; rw [hfDet_closed]
  rw [o1, u1] at h5 hA hB
  rw [o1] at hsc
  have hs : ∀ x : ℕ, (spatialOrbIdx x : ℤ) = ((x : ℤ) + 1) / 2 := by
    intro x; unfold spatialOrbIdx; split <;> omega
  have hz : ∀ (l : List ℕ) (k : List Char), l.length = k.length →
      List.zipWith (fun (x s : ℤ) => x - s) (l.map (fun x => (spatialOrbIdx x : ℤ)))
        (k.map (orbTable m m)) = l.map (fun u : ℕ => ((u : ℤ) + 1) / 2 - m) := by
    intro l
    induction l with
    | nil => intro k _; simp
    | cons x l ih =>
      intro k hk
      cases k with
      | nil => simp at hk
      | cons ch k =>
        have ht : orbTable m m ch = m := by unfold orbTable; split <;> rfl
        simp only [List.map_cons, List.zipWith_cons_cons, ht, hs]
        rw [← ih k (by simpa using hk)]
        simp only [hs]
  rw [h5, hz _ _ (by rw [hsc]; simp [hA, hB])]
  simp only [particles, holes, alphaSorted_eq, betaSorted_eq, hs]

/-- C04 (closed-shell references, all spin cases through quadruples): the amplitude that ends up in
the CI operator is `coefficient / c_ref` times the sign with which the excitation operator
`a†_{a} a†_{b} ... a_{j} a_{i}` carries the reference into that determinant.
Partial: for open-shell references the claim fails, see `C04_phase_open_shell_fails`. -/
theorem C04_phase_closed_shell_partial (m nub : ℕ) (chf coeff : ℚ) (det : List ℕ) (sc : List Char)
    (e : List ℤ) (c : ℚ) (hpos : ∀ x ∈ det, 1 ≤ x)
    (h : parseLine m m nub chf det coeff = .store sc e c) :
    ∃ phase : ℤ,
      excite (particles det.toFinset (Finset.Icc 1 (2 * m)))
        (holes det.toFinset (Finset.Icc 1 (2 * m))) (Finset.Icc 1 (2 * m)) =
        some (phase, det.toFinset) ∧
      signFix sc c = coeff / chf * phase := by
  obtain ⟨phase, h1, h2⟩ := store_phase (2 * m) m m nub (hfDet_closed m) chf coeff det sc e c hpos h
  refine ⟨phase, h1, ?_⟩
  rw [h2, show sc.length * (2 * m) = 2 * (sc.length * m) by ring, pow_mul]
  simp

example : (∀ x ∈ [1, 2, 6, 7, 8, 9], 1 ≤ x) ∧
    parseLine 3 3 3 2 [1, 2, 6, 7, 8, 9] 1 =
      .store ['a', 'a', 'b'] [1, 2, 1, 2, 3, 2] (1 / 2) := by decide +kernel

/-- C04: for doublet references (one more alpha than beta electron) every odd-rank amplitude is
stored with the opposite of the true sign, every even-rank one with the right sign. -/
theorem C04_phase_doublet (m nub : ℕ) (chf coeff : ℚ) (det : List ℕ) (sc : List Char)
    (e : List ℤ) (c : ℚ) (hpos : ∀ x ∈ det, 1 ≤ x)
    (h : parseLine (m + 1) m nub chf det coeff = .store sc e c) :
    ∃ phase : ℤ,
      excite (particles det.toFinset (Finset.Icc 1 (2 * m + 1)))
        (holes det.toFinset (Finset.Icc 1 (2 * m + 1))) (Finset.Icc 1 (2 * m + 1)) =
        some (phase, det.toFinset) ∧
      signFix sc c = (-1) ^ sc.length * (coeff / chf) * phase := by
  obtain ⟨phase, h1, h2⟩ :=
    store_phase (2 * m + 1) (m + 1) m nub (hfDet_doublet m) chf coeff det sc e c hpos h
  refine ⟨phase, h1, ?_⟩
  rw [h2, show sc.length * (2 * m + 1) = 2 * (sc.length * m) + sc.length by ring, pow_add, pow_mul]
  simp

example : (∀ x ∈ [2, 3, 5], 1 ≤ x) ∧
    parseLine 2 1 3 1 [2, 3, 5] 1 = .store ['a'] [1, 1] (-1) := by decide +kernel

/-- C04, the disagreement: with one alpha electron in orbital 1, the determinant `[3]` of
coefficient 1 is `a†_3 a_1 |ref>` with sign `+1`, but the code stores `-1`. -/
theorem C04_phase_open_shell_fails :
    ¬ (∀ (noa nob nub : ℕ) (chf coeff : ℚ) (det : List ℕ) (sc : List Char) (e : List ℤ) (c : ℚ),
      (∀ x ∈ det, 1 ≤ x) → parseLine noa nob nub chf det coeff = .store sc e c →
      ∃ phase : ℤ,
        excite (particles det.toFinset (hfDet noa nob).toFinset)
          (holes det.toFinset (hfDet noa nob).toFinset) (hfDet noa nob).toFinset =
          some (phase, det.toFinset) ∧
        signFix sc c = coeff / chf * phase) := by
  intro h
  obtain ⟨ph, h1, h2⟩ := h 1 0 2 1 1 [3] ['a'] [1, 1] (-1) (by decide) (by decide +kernel)
  have h3 : excite (particles [3].toFinset (hfDet 1 0).toFinset)
      (holes [3].toFinset (hfDet 1 0).toFinset) (hfDet 1 0).toFinset = some (1, [3].toFinset) := by
    simp only [holes, particles, ← fsort_eq]
    decide +kernel
  rw [h3] at h1
  simp only [Option.some.injEq, Prod.mk.injEq, and_true] at h1
  subst h1
  have : signFix ['a'] (-1) = -1 := by decide +kernel
  rw [this] at h2
  norm_num at h2

/-- C04, completeness: a spin-conserving determinant of rank one to four inside the orbital range
of a closed-shell system is never skipped and never ends the reading. -/
theorem C04_stored (m nub : ℕ) (chf coeff : ℚ) (det : List ℕ)
    (hpos : ∀ x ∈ det, 1 ≤ x ∧ x ≤ 2 * (m + nub)) (hne : det ≠ hfDet m m)
    (hrank : (det.toFinset \ Finset.Icc 1 (2 * m)).card ≤ 4)
    (hA : (det.toFinset.filter (fun i => i % 2 = 1)).card = m)
    (hB : (det.toFinset.filter (fun i => i % 2 = 0)).card = m) :
    ∃ sc e c, parseLine m m nub chf det coeff = .store sc e c := by
  have o1 : getExcitsFrom det (hfDet m m) = Finset.Icc 1 (2 * m) \ det.toFinset := by
    unfold getExcitsFrom; rw [hfDet_closed]
  have u1 : getExcitsTo det (hfDet m m) = det.toFinset \ Finset.Icc 1 (2 * m) := by
    unfold getExcitsTo; rw [hfDet_closed]
  -- spin balance
  have card_odd : ((Finset.Icc 1 (2 * m)).filter (fun i => i % 2 = 1)).card = m ∧
      ((Finset.Icc 1 (2 * m)).filter (fun i => i % 2 = 0)).card = m := by
    constructor
    · have : (Finset.Icc 1 (2 * m)).filter (fun i => i % 2 = 1) =
          (Finset.range m).image (fun i => 2 * i + 1) := by
        ext x
        simp only [Finset.mem_filter, Finset.mem_Icc, Finset.mem_image, Finset.mem_range]
        constructor
        · rintro ⟨⟨h1, h2⟩, h3⟩; exact ⟨x / 2, by omega, by omega⟩
        · rintro ⟨i, hi, rfl⟩; omega
      rw [this, Finset.card_image_of_injective _ (fun a b h => by simpa using h)]; simp
    · have : (Finset.Icc 1 (2 * m)).filter (fun i => i % 2 = 0) =
          (Finset.range m).image (fun i => 2 * i + 2) := by
        ext x
        simp only [Finset.mem_filter, Finset.mem_Icc, Finset.mem_image, Finset.mem_range]
        constructor
        · rintro ⟨⟨h1, h2⟩, h3⟩; exact ⟨x / 2 - 1, by omega, by omega⟩
        · rintro ⟨i, hi, rfl⟩; omega
      rw [this, Finset.card_image_of_injective _ (fun a b h => by simpa using h)]; simp
  have bal : ∀ r : ℕ, (det.toFinset.filter (fun i => i % 2 = r)).card = m →
      ((Finset.Icc 1 (2 * m)).filter (fun i => i % 2 = r)).card = m →
      ((Finset.Icc 1 (2 * m) \ det.toFinset).filter (fun i => i % 2 = r)).card =
      ((det.toFinset \ Finset.Icc 1 (2 * m)).filter (fun i => i % 2 = r)).card := by
    intro r h1 h2
    have e1 := Finset.card_sdiff_add_card_inter (det.toFinset.filter (fun i => i % 2 = r))
      ((Finset.Icc 1 (2 * m)).filter (fun i => i % 2 = r))
    have e2 := Finset.card_sdiff_add_card_inter ((Finset.Icc 1 (2 * m)).filter (fun i => i % 2 = r))
      (det.toFinset.filter (fun i => i % 2 = r))
    rw [Finset.inter_comm] at e2
    have s1 : (Finset.Icc 1 (2 * m) \ det.toFinset).filter (fun i => i % 2 = r) =
        ((Finset.Icc 1 (2 * m)).filter (fun i => i % 2 = r)) \
          (det.toFinset.filter (fun i => i % 2 = r)) := by
      ext x; simp only [Finset.mem_filter, Finset.mem_sdiff]; tauto
    have s2 : (det.toFinset \ Finset.Icc 1 (2 * m)).filter (fun i => i % 2 = r) =
        (det.toFinset.filter (fun i => i % 2 = r)) \
          ((Finset.Icc 1 (2 * m)).filter (fun i => i % 2 = r)) := by
      ext x; simp only [Finset.mem_filter, Finset.mem_sdiff]; tauto
    rw [s1, s2]; omega
  have b1 := bal 1 hA card_odd.1
  have b0 := bal 0 hB card_odd.2
  unfold parseLine
  simp only
  rw [if_neg hne, if_neg (by
    have h9 : getExcitRank det (hfDet m m) = (det.toFinset \ Finset.Icc 1 (2 * m)).card := by
      unfold getExcitRank; rw [hfDet_closed]
    omega)]
  rw [o1, u1]
  set occ := Finset.Icc 1 (2 * m) \ det.toFinset
  set unocc := det.toFinset \ Finset.Icc 1 (2 * m)
  have lA : (alphaSorted occ).length = (alphaSorted unocc).length := by
    simpa [alphaSorted_eq] using b1
  have lB : (betaSorted occ).length = (betaSorted unocc).length := by
    simpa [betaSorted_eq] using b0
  have hocc : occ.card = unocc.card := by
    rw [← alpha_add_beta_length occ, ← alpha_add_beta_length unocc, lA, lB]
  have hsc : ∃ sc, getSpincase (occ.sort (· ≤ ·)) (unocc.sort (· ≤ ·)) = some sc := by
    unfold getSpincase
    rw [← alphaSorted_length, ← alphaSorted_length]
    simp only [Finset.length_sort]
    rw [if_pos hocc, if_pos lA]
    exact ⟨_, rfl⟩
  obtain ⟨sc, hsc⟩ := hsc
  rw [fsort_eq, fsort_eq, hsc]
  simp only
  obtain ⟨_, _, hsc'⟩ := spincase_some hsc
  have memo : ∀ o ∈ alphaSorted occ ++ betaSorted occ, 1 ≤ o ∧ o ≤ 2 * m := by
    intro o ho
    have : o ∈ occ := by rw [← toFinset_alpha_beta occ]; simpa using ho
    have := (Finset.mem_sdiff.mp this).1
    simpa using this
  have memu : ∀ o ∈ alphaSorted unocc ++ betaSorted unocc, 2 * m < o ∧ o ≤ 2 * (m + nub) := by
    intro o ho
    have : o ∈ unocc := by rw [← toFinset_alpha_beta unocc]; simpa using ho
    obtain ⟨h1, h2⟩ := Finset.mem_sdiff.mp this
    have := hpos o (by simpa using h1)
    rw [Finset.mem_Icc] at h2
    omega
  rw [if_neg, if_neg]
  · exact ⟨_, _, _, rfl⟩
  · have hz : ∀ z ∈ List.zipWith (fun (x s : ℤ) => x - s)
        ((alphaSorted unocc ++ betaSorted unocc).map (fun x => (spatialOrbIdx x : ℤ)))
        (sc.map (orbTable m m)), 1 ≤ z ∧ z ≤ nub := by
      intro z hz
      have : ∃ x ∈ (alphaSorted unocc ++ betaSorted unocc).map (fun x => (spatialOrbIdx x : ℤ)),
          ∃ s ∈ sc.map (orbTable m m), z = x - s := by
        have key : ∀ (l : List ℤ) (k : List ℤ), z ∈ List.zipWith (fun (x s : ℤ) => x - s) l k →
            ∃ x ∈ l, ∃ s ∈ k, z = x - s := by
          intro l
          induction l with
          | nil => intro k h; simp at h
          | cons x l ih =>
            intro k h
            cases k with
            | nil => simp at h
            | cons s k =>
              rw [List.zipWith_cons_cons, List.mem_cons] at h
              rcases h with h | h
              · exact ⟨x, by simp, s, by simp, h⟩
              · obtain ⟨x', hx', s', hs', e⟩ := ih k h
                exact ⟨x', by simp [hx'], s', by simp [hs'], e⟩
        exact key _ _ hz
      obtain ⟨x, hx, s, hs, hzz⟩ := this
      obtain ⟨u, hu, rfl⟩ := List.mem_map.mp hx
      obtain ⟨ch, _, rfl⟩ := List.mem_map.mp hs
      have := memu u hu
      have ht : orbTable m m ch = m := by unfold orbTable; split <;> rfl
      rw [hzz, ht]
      unfold spatialOrbIdx
      split <;> omega
    simp only [Bool.or_eq_true, List.any_eq_true, decide_eq_true_eq, not_or, not_exists, not_and]
    exact ⟨fun z hz' => by have := hz z hz'; omega, fun z hz' => by have := hz z hz'; omega⟩
  · simp only [Bool.or_eq_true, List.any_eq_true, decide_eq_true_eq, not_or, not_exists, not_and]
    constructor
    · intro z hz
      obtain ⟨o, ho, rfl⟩ := List.mem_map.mp hz
      have := memo o ho
      unfold spatialOrbIdx
      split <;> omega
    · intro z hz
      obtain ⟨o, ho, rfl⟩ := List.mem_map.mp hz
      have := memo o ho
      unfold spatialOrbIdx
      split <;> omega

example : [1, 2, 3, 8] ≠ hfDet 2 2 ∧ ([1, 2, 3, 8].toFinset \ Finset.Icc 1 4).card ≤ 4 ∧
    ([1, 2, 3, 8].toFinset.filter (fun i => i % 2 = 1)).card = 2 ∧
    ([1, 2, 3, 8].toFinset.filter (fun i => i % 2 = 0)).card = 2 := by decide +kernel

/-- C04, the whole file: when every determinant has `m` alpha and `m` beta electrons in the orbital
range, the reading succeeds, and the records it makes are, in file order and one for one, those of
the lines that are not the reference and are excited at most four times. -/
theorem C04_file (m nub : ℕ) (chf : ℚ) (lines : List (List ℕ × ℚ))
    (hdet : ∀ l ∈ lines, (∀ x ∈ l.1, 1 ≤ x ∧ x ≤ 2 * (m + nub)) ∧
      (l.1.toFinset.filter (fun i => i % 2 = 1)).card = m ∧
      (l.1.toFinset.filter (fun i => i % 2 = 0)).card = m) :
    ∃ out, parseLoop m m nub chf lines = some out ∧
      List.Forall₂ (fun l r => parseLine m m nub chf l.1 l.2 = .store r.1 r.2.1 r.2.2)
        (lines.filter fun l => l.1 ≠ hfDet m m ∧
          (l.1.toFinset \ Finset.Icc 1 (2 * m)).card ≤ 4) out := by
  induction lines with
  | nil => exact ⟨[], rfl, List.Forall₂.nil⟩
  | cons l lines ih =>
    obtain ⟨out, h1, h2⟩ := ih fun l hl => hdet l (by simp [hl])
    have hl := hdet l (by simp)
    by_cases hc : l.1 ≠ hfDet m m ∧ (l.1.toFinset \ Finset.Icc 1 (2 * m)).card ≤ 4
    · obtain ⟨sc, e, c, hs⟩ := C04_stored m nub chf l.2 l.1 hl.1 hc.1 hc.2 hl.2.1 hl.2.2
      refine ⟨(sc, e, c) :: out, by simp [parseLoop, hs, h1], ?_⟩
      rw [List.filter_cons_of_pos (by simpa using hc)]
      exact List.Forall₂.cons hs h2
    · refine ⟨out, ?_, by rw [List.filter_cons_of_neg (by simpa using hc)]; exact h2⟩
      have hsk : parseLine m m nub chf l.1 l.2 = .skip := by
        unfold parseLine
        simp only
        by_cases hr : l.1 = hfDet m m
        · rw [if_pos hr]
        · have h9 : getExcitRank l.1 (hfDet m m) = (l.1.toFinset \ Finset.Icc 1 (2 * m)).card := by
            unfold getExcitRank; rw [hfDet_closed]
          have h4 : getExcitRank l.1 (hfDet m m) > 4 := by
            rw [h9]; by_contra h; exact hc ⟨hr, by omega⟩
          rw [if_neg hr, if_pos h4]
      simp [parseLoop, hsk, h1]

example : ∀ l ∈ [([1, 2, 3, 4], (9 / 10 : ℚ)), ([1, 2, 5, 8], 1 / 5), ([5, 6, 7, 8], -1 / 7)],
    (∀ x ∈ l.1, 1 ≤ x ∧ x ≤ 2 * (2 + 2)) ∧ (l.1.toFinset.filter (fun i => i % 2 = 1)).card = 2 ∧
      (l.1.toFinset.filter (fun i => i % 2 = 0)).card = 2 := by decide +kernel

/-- C04, the disagreement about files with orbitals outside the correlated range (for example a CI
expansion with more virtual orbitals than the coupled-cluster calculation): the first such
determinant ends the reading with a printed message, and all later determinants are lost, although
they are inside the range. -/
theorem C04_out_of_range_fails :
    ∃ lines : List (List ℕ × ℚ), ([1, 4], 1 / 5) ∈ lines ∧
      (∃ sc e c, parseLine 1 1 1 1 [1, 4] (1 / 5) = .store sc e c) ∧
      parseLoop 1 1 1 1 lines = some [] :=
  ⟨[([1, 2], 1), ([1, 6], 1 / 9), ([1, 4], 1 / 5)], by simp,
    ⟨['b'], [1, 1], -1 / 5, by decide +kernel⟩, by decide +kernel⟩
/-! ### C05 -/

variable {R : Type*} [AddCommGroup R]

/-- C05, like-spin triples. -/
theorem C05_insert_aaa (C : CIOperator R) (a b c i j k : ℕ) (x : R)
    (h1 : a ≠ b) (h2 : a ≠ c) (h3 : b ≠ c) (h4 : i ≠ j) (h5 : i ≠ k) (h6 : j ≠ k) :
    ∃ T', insertCiAmplitude C [a, b, c, i, j, k] x ['a', 'a', 'a'] = some { C with aaa := T' } ∧
      StoresAmplitude (likeSpin 3) ![a, b, c] ![i, j, k] x C.aaa T' :=
  ⟨_, rfl, covers_stores (isGroup_likeSpin 3) (covers_ciWritesAaa a b c i j k x)
    (free_likeSpin _ _ (injective_vec3 h1 h2 h3) (injective_vec3 h4 h5 h6)) _⟩

/-- C05, like-spin triples of beta spin. -/
theorem C05_insert_bbb (C : CIOperator R) (a b c i j k : ℕ) (x : R)
    (h1 : a ≠ b) (h2 : a ≠ c) (h3 : b ≠ c) (h4 : i ≠ j) (h5 : i ≠ k) (h6 : j ≠ k) :
    ∃ T', insertCiAmplitude C [a, b, c, i, j, k] x ['b', 'b', 'b'] = some { C with bbb := T' } ∧
      StoresAmplitude (likeSpin 3) ![a, b, c] ![i, j, k] x C.bbb T' :=
  ⟨_, rfl, covers_stores (isGroup_likeSpin 3) (covers_ciWritesBbb a b c i j k x)
    (free_likeSpin _ _ (injective_vec3 h1 h2 h3) (injective_vec3 h4 h5 h6)) _⟩

/-- C05, two alpha electrons and one beta electron. -/
theorem C05_insert_aab (C : CIOperator R) (a b c i j k : ℕ) (x : R) (h1 : a ≠ b) (h4 : i ≠ j) :
    ∃ T', insertCiAmplitude C [a, b, c, i, j, k] x ['a', 'a', 'b'] = some { C with aab := T' } ∧
      StoresAmplitude spinAab ![a, b, c] ![i, j, k] x C.aab T' :=
  ⟨_, rfl, covers_stores isGroup_aab (covers_ciWritesAab a b c i j k x)
    (free_aab _ _ (by simpa using h1) (by simpa using h4)) _⟩

/-- C05, one alpha electron and two beta electrons. -/
theorem C05_insert_abb (C : CIOperator R) (a b c i j k : ℕ) (x : R) (h1 : b ≠ c) (h4 : j ≠ k) :
    ∃ T', insertCiAmplitude C [a, b, c, i, j, k] x ['a', 'b', 'b'] = some { C with abb := T' } ∧
      StoresAmplitude spinAbb ![a, b, c] ![i, j, k] x C.abb T' :=
  ⟨_, rfl, covers_stores isGroup_abb (covers_ciWritesAbb a b c i j k x)
    (free_abb _ _ (by simpa using h1) (by simpa using h4)) _⟩

/-- C05, doubles of all spin cases. -/
theorem C05_insert_doubles (C : CIOperator R) (a b i j : ℕ) (x : R) :
    (a ≠ b → i ≠ j → ∃ T', insertCiAmplitude C [a, b, i, j] x ['a', 'a'] = some { C with aa := T' } ∧
      StoresAmplitude (likeSpin 2) ![a, b] ![i, j] x C.aa T') ∧
    (∃ T', insertCiAmplitude C [a, b, i, j] x ['a', 'b'] = some { C with ab := T' } ∧
      StoresAmplitude (distinctSpin 2) ![a, b] ![i, j] x C.ab T') ∧
    (a ≠ b → i ≠ j → ∃ T', insertCiAmplitude C [a, b, i, j] x ['b', 'b'] = some { C with bb := T' } ∧
      StoresAmplitude (likeSpin 2) ![a, b] ![i, j] x C.bb T') :=
  ⟨fun h1 h2 => ⟨_, rfl, covers_stores (isGroup_likeSpin 2) (covers_ciWritesAa a b i j x)
      (free_likeSpin _ _ (injective_vec2 h1) (injective_vec2 h2)) _⟩,
   ⟨_, rfl, covers_stores (isGroup_distinct 2) (covers_ciWritesAb a b i j x) (free_distinct _ _) _⟩,
   fun h1 h2 => ⟨_, rfl, covers_stores (isGroup_likeSpin 2) (covers_ciWritesBb a b i j x)
      (free_likeSpin _ _ (injective_vec2 h1) (injective_vec2 h2)) _⟩⟩

/-- C05, singles: exactly one element changes. -/
theorem C05_insert_singles (C : CIOperator R) (a i : ℕ) (x : R) :
    ∃ Ta Tb, insertCiAmplitude C [a, i] x ['a'] = some { C with a := Ta } ∧
      insertCiAmplitude C [a, i] x ['b'] = some { C with b := Tb } ∧
      Ta (a, i) = x ∧ Tb (a, i) = x ∧
      ∀ q, q ≠ (a, i) → Ta q = C.a q ∧ Tb q = C.b q :=
  ⟨_, _, rfl, rfl, Function.update_self .., Function.update_self ..,
    fun q hq => ⟨Function.update_of_ne hq .., Function.update_of_ne hq ..⟩⟩

/-- C05, error branch: an excitation whose length does not fit the spin case raises. -/
theorem C05_insert_wrong_length (C : CIOperator R) (exc : List ℕ) (x : R) (sc : List Char)
    (hsc : sc ∈ [['a'], ['b'], ['a', 'a'], ['a', 'b'], ['b', 'b'], ['a', 'a', 'a'],
      ['a', 'a', 'b'], ['a', 'b', 'b'], ['b', 'b', 'b']])
    (hlen : exc.length ≠ 2 * sc.length) : insertCiAmplitude C exc x sc = none := by
  simp only [List.mem_cons, List.not_mem_nil, or_false] at hsc
  rcases hsc with rfl | rfl | rfl | rfl | rfl | rfl | rfl | rfl | rfl <;>
    simp only [insertCiAmplitude, List.cons.injEq, reduceCtorEq, and_false, and_true, if_true, if_false,
      Char.reduceEq] <;>
    split <;> first | rfl | (exfalso; apply hlen; rfl)

example : (0 : ℕ) ≠ 1 ∧ (0 : ℕ) ≠ 2 ∧ (1 : ℕ) ≠ 2 := by decide
example : [1, 2, 3].length ≠ 2 * ['a', 'b'].length := by decide

end Ccpy.ExternalCorrection
