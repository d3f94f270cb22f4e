import Verif.Lemmas.SelfEnergy

/-! C90: the self-energy of second order and the ionisation energies of the Dyson equation.  `P.sigma` and `P.iterate` are in
`Verif/Spec/SelfEnergy.lean`; a division by zero gives zero here, in the program and in the specification alike. -/

namespace Ccpy.SelfEnergy
open Ccpy.Spec

/-- The problem of the examples: closed shells, real orbitals, with integrals `(pr|qs) = g_pr g_qs`. -/
def exProblem (noa nob : ℕ) : Problem where
  no s := if s then nob else noa
  nu s := if s then 4 - nob else 4 - noa
  fA p q := if p = q then 2 * p - 4 else 0
  fB p q := if p = q then 2 * p - 4 else 0
  vAA p q r s := exG p r * exG q s - exG p s * exG q r
  vAB p q r s := exG p r * exG q s
  vBB p q r s := exG p r * exG q s - exG p s * exG q r
where exG (p r : ℕ) : ℚ := (((p : ℚ) - r) ^ 2 + 1) / 10

theorem exProblem_antisymmetric (noa nob : ℕ) : (exProblem noa nob).Antisymmetric :=
  ⟨fun p q r s => by simp only [exProblem]; ring, fun p q r s => by simp only [exProblem]; ring,
    fun p q r s => by simp only [exProblem]; ring, fun p q r s => by simp only [exProblem]; ring⟩

/-- C90.  The elements between occupied orbitals of spin alpha that the compiled routine returns are those of the self-energy of second
order.  Missing: the elements with an unoccupied orbital (see `C90_unoccupied_fails`). -/
theorem C90_compiled_alpha_partial (P : Problem) (h : P.Antisymmetric) (ω : ℚ) (p q : ℕ) (hp : p < P.no false) (hq : q < P.no false) :
    (callSigma ω (slices P)).1.get p q = some (P.sigma ω (false, p) (false, q)) := by
  rw [sigma_alpha P h]
  exact (if_pos ⟨Nat.lt_add_right _ hp, Nat.lt_add_right _ hq⟩).trans (congrArg some ((fortran_alpha P ω p q).trans (if_pos ⟨hp, hq⟩)))

example : (exProblem 2 1).Antisymmetric ∧ (exProblem 2 1).sigma (-3) (false, 0) (false, 1) ≠ 0 :=
  ⟨exProblem_antisymmetric 2 1, by
    rw [sigma_alpha _ (exProblem_antisymmetric 2 1)]
    decide +kernel⟩

/-- C90.  The python routine returns the same elements for spin alpha, when it returns.  Missing: the elements with an unoccupied
orbital. -/
theorem C90_python_alpha_partial (P : Problem) (h : P.Antisymmetric) (ω : ℚ) (a b : Arr2) (he : calcMp2Selfenergy ω (slices P) = some (a, b))
    (p q : ℕ) (hp : p < P.no false) (hq : q < P.no false) : a p q = P.sigma ω (false, p) (false, q) := by
  unfold calcMp2Selfenergy at he
  rw [python_alpha] at he
  simp only [Option.bind_eq_bind, Option.bind_some, Option.bind_eq_some_iff, Option.some.injEq, Prod.mk.injEq] at he
  obtain ⟨b', _, ha, _⟩ := he
  rw [← ha, sigma_alpha P h]
  exact if_pos ⟨hp, hq⟩

example : (calcMp2Selfenergy (-3) (slices (exProblem 2 2))).map (fun r => decide (r.1 0 1 ≠ 0)) = some true := by decide +kernel

/-- C90.  For equal numbers of alpha and beta electrons the python routine returns, and the diagonal elements between occupied orbitals of
spin beta are those of the self-energy.  Missing: the other elements (see `C90_python_beta_fails`) and other numbers of electrons (see
`C90_open_shell_fails`). -/
theorem C90_python_beta_partial (P : Problem) (h : P.Antisymmetric) (ω : ℚ) (ho : P.no false = P.no true) (hu : P.nu false = P.nu true) :
    ∃ a b, calcMp2Selfenergy ω (slices P) = some (a, b) ∧ ∀ p, p < P.no true → b p p = P.sigma ω (true, p) (true, p) := by
  refine ⟨_, _, python_both P ho hu ω, fun p hp => ?_⟩
  rw [sigma_beta P h]
  exact if_pos ⟨hp, hp⟩

example : (exProblem 2 2).Antisymmetric ∧ (exProblem 2 2).no false = (exProblem 2 2).no true ∧
    (exProblem 2 2).nu false = (exProblem 2 2).nu true ∧ (exProblem 2 2).sigma (-3) (true, 0) (true, 0) ≠ 0 :=
  ⟨exProblem_antisymmetric 2 2, rfl, rfl, by
    rw [sigma_beta _ (exProblem_antisymmetric 2 2)]
    decide +kernel⟩

/-- C90.  For equal numbers of alpha and beta electrons, what the elements between occupied orbitals of spin beta have in excess of the
self-energy.  Missing: this excess should be zero, and it is on the diagonal. -/
theorem C90_python_beta_excess_partial (P : Problem) (h : P.Antisymmetric) (ω : ℚ) (ho : P.no false = P.no true)
    (hu : P.nu false = P.nu true) : ∃ a b, calcMp2Selfenergy ω (slices P) = some (a, b) ∧ ∀ p q, p < P.no true → q < P.no true →
      b p q = P.sigma ω (true, p) (true, q) + ∑ n ∈ Finset.range (P.no true), ∑ f ∈ Finset.range (P.nu true),
        ∑ e ∈ Finset.Ico (f + 1) (P.nu true), P.v (true, q) (true, n) (true, P.no true + e) (true, P.no true + f) *
          (P.v (true, P.no true + e) (true, P.no true + f) (true, q) (true, n)
            - P.v (true, P.no true + e) (true, P.no true + f) (true, p) (true, n)) /
          (ω + P.energy (true, n) - P.energy (true, P.no true + e) - P.energy (true, P.no true + f)) := by
  refine ⟨_, _, python_both P ho hu ω, fun p q hp hq => ?_⟩
  rw [sigma_beta P h, add_assoc]
  refine (if_pos ⟨hp, hq⟩).trans ?_
  congr 1
  unfold likePart likeTerm
  simp only [← Finset.sum_add_distrib]
  refine Finset.sum_congr rfl fun n _ => Finset.sum_congr rfl fun f _ => ?_
  rw [add_assoc, ← Finset.sum_add_distrib]
  congr 1
  refine Finset.sum_congr rfl fun e _ => ?_
  simp only [Problem.v, Problem.energy, spinOrbital4, spinOrbital2]
  rw [show ω + P.fB n n - P.fB (P.no true + e) (P.no true + e) - P.fB (P.no true + f) (P.no true + f) =
    P.fB n n - P.fB (P.no true + f) (P.no true + f) - P.fB (P.no true + e) (P.no true + e) + ω by ring]
  rw [← add_div]
  congr 1
  ring

/-- C90 fails for the other elements of spin beta: line 108 of mbgf.py reads `vvoo[e, f, j, n]` where `vvoo[e, f, i, n]` is meant, so the
matrix of spin beta differs from that of spin alpha even for closed shells, where the comment on line 33 says that they are the same. -/
theorem C90_python_beta_fails : ∃ (P : Problem) (ω : ℚ) (a b : Arr2), P.Antisymmetric ∧ P.no false = P.no true ∧ P.nu false = P.nu true ∧
    calcMp2Selfenergy ω (slices P) = some (a, b) ∧ b 0 1 ≠ P.sigma ω (true, 0) (true, 1) ∧ b 0 1 ≠ a 0 1 := by
  refine ⟨exProblem 2 2, -3, _, _, exProblem_antisymmetric 2 2, rfl, rfl, python_both _ rfl rfl _, ?_, ?_⟩
  · rw [sigma_beta _ (exProblem_antisymmetric 2 2)]
    decide +kernel
  · decide +kernel

/-- C90 fails for open shells: the loops over orbitals of spin beta on lines 83 and 89 of mbgf.py run over the numbers of alpha orbitals,
so the python routine raises an `IndexError` whenever there are more occupied, or more unoccupied, orbitals of spin alpha. -/
theorem C90_open_shell_fails (P : Problem) (ω : ℚ) (hoa : 0 < P.no false) (hob : 0 < P.no true) (hua : 0 < P.nu false)
    (h : P.no true < P.no false ∨ P.nu true < P.nu false) : calcMp2Selfenergy ω (slices P) = none := by
  unfold calcMp2Selfenergy
  rw [python_alpha]
  suffices hb : pythonB ω (slices P) = none by rw [hb]; rfl
  have hole : ∀ M : Arr2, ((slices P).fA_oo.get 0 0).bind (fun x => ((slices P).fA_vv.get 0 0).bind fun y =>
      (forRange 0 (slices P).noa (fun m M => ((slices P).fB_oo.get m m).bind fun z => ((slices P).vB_oovo.get 0 m 0 0).bind fun u =>
        ((slices P).vB_vooo.get 0 0 0 m).bind fun w => some (bump 0 0 (-(u * w / (z + (x - y) - ω))) M)) M).bind fun M =>
      forRange 0 (slices P).nua (fun e M => ((slices P).fB_vv.get e e).bind fun z => ((slices P).vB_oovv.get 0 0 0 e).bind fun u =>
        ((slices P).vB_vvoo.get 0 e 0 0).bind fun w => some (bump 0 0 (u * w / (x - y - z + ω)) M)) M) = none := by
    intro M
    simp only [slices, get2 hoa hoa, get2 hua hua, Option.bind_some]
    rcases h with h | h
    · rw [forRange_none (k := P.no true) (Nat.zero_le _) h fun s => by simp [Nd2.get]]
      rfl
    · rw [Option.bind_eq_none_iff]
      intro M _
      exact forRange_none (k := P.nu true) (Nat.zero_le _) h (fun s => by simp [Nd2.get]) M
  unfold pythonB
  refine forRange_none (k := 0) (le_refl 0) hob (fun s => forRange_none (k := 0) (le_refl 0) hob (fun s => ?_) s) _
  refine Option.bind_eq_none_iff.mpr fun M hM => absurd hM ?_
  rw [forRange_none (hi := (slices P).noa) (k := 0) (le_refl 0) hoa
    (fun s => forRange_none (hi := (slices P).nua) (k := 0) (le_refl 0) hua (fun s => hole s) s)]
  simp

example : 0 < (exProblem 2 1).no false ∧ 0 < (exProblem 2 1).no true ∧ 0 < (exProblem 2 1).nu false ∧
    (exProblem 2 1).no true < (exProblem 2 1).no false := by decide

/-- C90 fails for the compiled routine and spin beta: it returns the zero matrix. -/
theorem C90_compiled_beta_fails : (∀ (P : Problem) (ω : ℚ) (p q : ℕ), (callSigma ω (slices P)).2.at' p q = 0) ∧
    ∃ (P : Problem) (ω : ℚ), P.Antisymmetric ∧ 0 < P.no true ∧ P.sigma ω (true, 0) (true, 0) ≠ 0 := by
  refine ⟨fun P ω p q => rfl, exProblem 2 2, -3, exProblem_antisymmetric 2 2, by decide, ?_⟩
  rw [sigma_beta _ (exProblem_antisymmetric 2 2)]
  decide +kernel

/-- C90 fails for unoccupied orbitals: both routines allocate the matrix of all orbitals, and the documentation promises "all p,q", but the
elements with an unoccupied orbital stay zero. -/
theorem C90_unoccupied_fails : (∀ (P : Problem) (ω : ℚ) (p q : ℕ), P.no false ≤ p → (callSigma ω (slices P)).1.at' p q = 0) ∧
    ∃ (P : Problem) (ω : ℚ) (p : ℕ), P.Antisymmetric ∧ P.no false ≤ p ∧ p < P.no false + P.nu false ∧
      P.sigma ω (false, p) (false, p) ≠ 0 := by
  refine ⟨fun P ω p q hp => (fortran_alpha P ω p q).trans (if_neg (by omega)), exProblem 2 2, -3, 3, exProblem_antisymmetric 2 2,
    by decide, by decide, ?_⟩
  rw [sigma_alpha _ (exProblem_antisymmetric 2 2)]
  decide +kernel

/-- C90.  For as many roots as there are occupied orbitals of spin alpha, or fewer, the solver returns: root `k` belongs to the orbital `k`
places below the highest occupied one.  The energies start from the orbital energy and follow `x (n + 1) = ε_p + Σ_pp(x n)`.  A root is marked
as converged exactly when two consecutive energies within the allowed number of iterations differ by less than the threshold; its ionisation
energy is then minus the later energy of the first such pair, and it is zero otherwise. -/
theorem C90_roots (P : Problem) (h : P.Antisymmetric) (nroot maxit : ℕ) (hn : nroot ≤ P.no false) (tol : ℚ) :
    ∃ w c, gf2Ip nroot (slices P) maxit tol = some (w, c) ∧ ∀ k, k < nroot →
      let x := P.iterate (P.no false - 1 - k)
      (c k = true ↔ ∃ n, n < maxit ∧ |x (n + 1) - x n| < tol) ∧
      (c k = true → ∃ n, n < maxit ∧ w k = -x (n + 1) ∧ |x (n + 1) - x n| < tol ∧ ∀ l, l < n → tol ≤ |x (l + 1) - x l|) ∧
      (c k = false → w k = 0) := by
  obtain ⟨w, c, h1, h2, _⟩ := roots_found P h nroot maxit hn tol
  refine ⟨w, c, h1, fun k hk => ?_⟩
  obtain ⟨hf, hz⟩ := h2 k hk
  simp only
  cases hc : c k with
  | false =>
    rw [hc] at hf
    refine ⟨⟨fun h => absurd h (by decide), fun ⟨n, hn, hl⟩ => ?_⟩, fun h => absurd h (by decide), fun _ => hz hc⟩
    exact absurd (hf n (Nat.zero_le n) hn) (not_le.mpr hl)
  | true =>
    rw [hc] at hf
    obtain ⟨n, _, h2, h3, h4, h5⟩ := hf
    exact ⟨⟨fun _ => ⟨n, h2, h4⟩, fun _ => rfl⟩, fun _ => ⟨n, h2, h3, h4, fun l hl => h5 l (Nat.zero_le l) hl⟩,
      fun h => absurd h (by decide)⟩

/-- With a coarse threshold both roots of the example converge in the second iteration, the higher one to 2.04 instead of the 2 of
Koopmans; they do not in the first. -/
example : (exProblem 2 2).Antisymmetric ∧ 2 ≤ (exProblem 2 2).no false ∧
    (gf2Ip 2 (slices (exProblem 2 2)) 2 (1 / 100)).map (fun r => (r.2 0, r.2 1, decide (203 / 100 < r.1 0 ∧ r.1 0 < 204 / 100))) =
      some (true, true, true) ∧
    (gf2Ip 2 (slices (exProblem 2 2)) 1 (1 / 100)).map (fun r => (r.2 0, r.2 1)) = some (false, false) :=
  ⟨exProblem_antisymmetric 2 2, by decide, by decide +kernel, by decide +kernel⟩

/-- C90 fails for more roots than there are occupied orbitals: the index of the orbital becomes negative and counts from the end, so that the
"root" is the energy of the highest occupied orbital with the element of the highest unoccupied orbital of the self-energy, which is zero; it
is reported as converged with the estimate of Koopmans. -/
theorem C90_roots_fails : ∃ (P : Problem) (w : ℕ → ℚ) (c : ℕ → Bool), P.Antisymmetric ∧
    gf2Ip (P.no false + 1) (slices P) 2 (1 / 100000000) = some (w, c) ∧ c (P.no false) = true ∧
    w (P.no false) = -P.fA (P.no false - 1) (P.no false - 1) := by
  have e : (gf2Ip 3 (slices (exProblem 2 2)) 2 (1 / 100000000)).map (fun r => (r.2 2, r.1 2)) = some (true, 2) := by decide +kernel
  obtain ⟨⟨w, c⟩, h1, h2⟩ := Option.map_eq_some_iff.mp e
  simp only [Prod.mk.injEq] at h2
  exact ⟨exProblem 2 2, w, c, exProblem_antisymmetric 2 2, h1, h2.1, h2.2.trans (by decide +kernel)⟩

end Ccpy.SelfEnergy
