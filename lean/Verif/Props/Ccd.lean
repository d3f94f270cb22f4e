import Verif.Lemmas.Ccd
import Verif.Props.ClosedShell

/-! **C79** CCD: the residuals are the projections of `e^{-T₂} H e^{T₂} |Φ⟩` on the doubly excited determinants, and the amplitudes
that one iteration leaves unchanged are exactly the solutions of the CCD equations, for both settings of `flag_RHF`.

The program is `/repo/ccpy/cc/ccd.py`; the equations are those of `Spec/ApproximateCC.lean`. -/

namespace Ccpy.Ccd
open Ccpy.Fock Ccpy.Tensor Ccpy.Engine
open Ccpy.Ccsd (denote_anti setup store_new store_old)

variable {ι : Type*} [LinearOrder ι]

section
variable {S : Orbitals ι} (h : S.Proper) {Z : Fock.Integrals} (hZ : Z.Antisym) {T : Cluster} (hT : T.Antisym) (shift : ℚ)
include h hZ hT

/-- For equal spins the sum over exchanges that the kernel forms is the projection. -/
theorem C79_t2a {a b i j : ℕ} (ha : a < S.ua) (hb : b < S.ua) (hi : i < S.na) (hj : j < S.na) :
    let R := (setup S Z shift).eval T.amp (residualT2a amplitudes stored)
    R [a, b, i, j] - R [b, a, i, j] - R [a, b, j, i] + R [b, a, j, i]
      = S.element (S.doubleAA a b i j) (transformed S Z T.doubles) :=
  (denote_anti _ _ _ a b i j).symm.trans (value_t2a h hZ hT (fun _ _ _ => rfl) ha hb hi hj)

theorem C79_t2b {a b i j : ℕ} (ha : a < S.ua) (hb : b < S.ub) (hi : i < S.na) (hj : j < S.nb) :
    (setup S Z shift).eval T.amp (residualT2b amplitudes stored) [a, b, i, j]
      = S.element (S.doubleAB a b i j) (transformed S Z T.doubles) :=
  value_t2b h hZ hT (fun _ _ _ => rfl) ha hb hi hj

theorem C79_t2c {a b i j : ℕ} (ha : a < S.ub) (hb : b < S.ub) (hi : i < S.nb) (hj : j < S.nb) :
    let R := (setup S Z shift).eval T.amp (residualT2c amplitudes stored)
    R [a, b, i, j] - R [b, a, i, j] - R [a, b, j, i] + R [b, a, j, i]
      = S.element (S.doubleBB a b i j) (transformed S Z T.doubles) :=
  (denote_anti _ _ _ a b i j).symm.trans (value_t2c h hZ hT (fun _ _ _ => rfl) ha hb hi hj)
end

/-- All contractions join axes of the same orbital space and all sums have equal shapes, so `numpy` raises no error. -/
theorem C79_shapes :
    ((residualT2a amplitudes stored).ok = true ∧ (residualT2a amplitudes stored).axes = [1, 1, 0, 0])
    ∧ ((residualT2b amplitudes stored).ok = true ∧ (residualT2b amplitudes stored).axes = [1, 3, 0, 2])
    ∧ ((residualT2c amplitudes stored).ok = true ∧ (residualT2c amplitudes stored).axes = [3, 3, 2, 2]) := by
  refine ⟨⟨?_, ?_⟩, ⟨?_, ?_⟩, ⟨?_, ?_⟩⟩ <;> rfl

/-- The shifted energy denominators that the kernels divide by are not zero. -/
structure Denominators (s : Setup) : Prop where
  aa : ∀ a b i j, a < s.n - s.na → b < s.n - s.na → i < s.na → j < s.na → s.dAA a b i j ≠ 0
  ab : ∀ a b i j, a < s.n - s.na → b < s.n - s.nb → i < s.na → j < s.nb → s.dAB a b i j ≠ 0
  bb : ∀ a b i j, a < s.n - s.nb → b < s.n - s.nb → i < s.nb → j < s.nb → s.dBB a b i j ≠ 0

section
variable {S : Orbitals ι} (h : S.Proper) {Z : Fock.Integrals} (hZ : Z.Antisym) {T : Cluster} (hT : T.Antisym) (shift : ℚ)
  (hd : Denominators (setup S Z shift))
include h hZ hT hd

theorem stage_t2a : m₁ (setup S Z shift) T.amp 13 = T.amp 8 ↔ ∀ a b i j, a < S.ua → b < S.ua → i < S.na → j < S.na →
    S.element (S.doubleAA a b i j) (transformed S Z T.doubles) = 0 := by
  rw [m₁, store_new, (calledT2a _ _ _ hT.aa (fun _ _ _ _ => rfl) hd.aa).fixed_iff hd.aa]
  exact forall₄_congr fun a b i j => forall₄_congr fun ha hb hi hj => by
    rw [← C79_t2a h hZ hT shift ha hb hi hj]; rfl

theorem stage_t2b (g : m₁ (setup S Z shift) T.amp 13 = T.amp 8) : m₂ (setup S Z shift) T.amp 14 = T.amp 9 ↔
    ∀ a b i j, a < S.ua → b < S.ub → i < S.na → j < S.nb →
    S.element (S.doubleAB a b i j) (transformed S Z T.doubles) = 0 := by
  have e₁ : ∀ n, 6 ≤ n → n ≤ 10 → m₁ (setup S Z shift) T.amp n = T.amp n := fun n h₁ h₂ => store_old _ _ _ (by omega) (by omega)
  rw [m₂, store_new, eval_back' _ _ (by rw [g, e₁ 8 (by decide) (by decide)]), rename_t2b', e₁ 9 (by decide) (by decide),
    (calledT2b _ _ _ hd.ab).fixed_iff hd.ab]
  exact forall₄_congr fun a b i j => forall₄_congr fun ha hb hi hj => by
    rw [← value_t2b h hZ hT e₁ ha hb hi hj]; rfl

/-- The amplitude arrays 13 to 15 after the iteration are equal to the arrays 8 to 10 before it if and only if the amplitudes
satisfy the CCD equations, although the program uses amplitudes that are already updated. -/
theorem C79_fixed_point : (∀ k, 8 ≤ k → k ≤ 10 → update (setup S Z shift) T.amp (k + 5) = T.amp k) ↔ SolvesCCD S Z T := by
  set s := setup S Z shift with hs
  have e₁ : ∀ n, 6 ≤ n → n ≤ 10 → m₁ s T.amp n = T.amp n := fun n h₁ h₂ => store_old _ _ _ (by omega) (by omega)
  have e₂ : ∀ n, 6 ≤ n → n ≤ 13 → m₂ s T.amp n = m₁ s T.amp n := fun n h₁ h₂ => store_old _ _ _ (by omega) (by omega)
  have f₂ : ∀ n, 6 ≤ n → n ≤ 10 → m₂ s T.amp n = T.amp n := fun n h₁ h₂ => by rw [e₂ n h₁ (by omega), e₁ n h₁ h₂]
  have e₃ : ∀ n, 6 ≤ n → n ≤ 14 → update s T.amp n = m₂ s T.amp n := fun n h₁ h₂ => store_old _ _ _ (by omega) (by omega)
  have i₁ := stage_t2a h hZ hT shift hd
  have i₂ := stage_t2b h hZ hT shift hd
  have i₃ : m₁ s T.amp 13 = T.amp 8 → m₂ s T.amp 14 = T.amp 9 → (update s T.amp 15 = T.amp 10 ↔ ∀ a b i j, a < S.ub → b < S.ub →
      i < S.nb → j < S.nb → S.element (S.doubleBB a b i j) (transformed S Z T.doubles) = 0) := by
    intro g₁ g₂
    rw [update_eq, store_new, eval_back s _ (by rw [e₂ 13 (by decide) (by decide), g₁, f₂ 8 (by decide) (by decide)])
      (by rw [g₂, f₂ 9 (by decide) (by decide)]), rename_t2c, f₂ 10 (by decide) (by decide),
      (calledT2c s _ _ hT.bb (fun _ _ _ _ => rfl) hd.bb).fixed_iff hd.bb]
    exact forall₄_congr fun a b i j => forall₄_congr fun ha hb hi hj => by
      rw [← value_t2c h hZ hT f₂ ha hb hi hj, value, denote_anti]; rfl
  have u₁ : update s T.amp 13 = m₁ s T.amp 13 := by rw [e₃ _ (by omega) (by omega), e₂ _ (by omega) (by omega)]
  have u₂ : update s T.amp 14 = m₂ s T.amp 14 := e₃ _ (by omega) (by omega)
  constructor
  · intro g
    have g₁ := u₁.symm.trans (g 8 (by omega) (by omega))
    have g₂ := u₂.symm.trans (g 9 (by omega) (by omega))
    exact ⟨i₁.1 g₁, (i₂ g₁).1 g₂, (i₃ g₁ g₂).1 (g 10 (by omega) (by omega))⟩
  · intro g
    have g₁ := i₁.2 g.aa
    have g₂ := (i₂ g₁).2 g.ab
    intro k h₁ h₂
    obtain rfl | rfl | rfl : k = 8 ∨ k = 9 ∨ k = 10 := by omega
    · exact u₁.trans g₁
    · exact u₂.trans g₂
    · exact (i₃ g₁ g₂).2 g.bb

/-- The same for the restricted iteration of closed shells, which computes two of the three arrays. -/
theorem C79_fixed_point_rhf (hC : ClosedShell S Z) (hs : T.Symmetric) :
    (∀ k, 8 ≤ k → k ≤ 10 → updateRhf (setup S Z shift) T.amp (k + 5) = T.amp k) ↔ SolvesCCD S Z T := by
  set s := setup S Z shift with hs'
  have hu : S.ub = S.ua := by unfold Orbitals.ub Orbitals.ua; rw [hC.electrons]
  have e₂ : ∀ n, 6 ≤ n → n ≤ 13 → m₂ s T.amp n = m₁ s T.amp n := fun n h₁ h₂ => store_old _ _ _ (by omega) (by omega)
  have e₃ : ∀ n, 6 ≤ n → n ≤ 14 → updateRhf s T.amp n = m₂ s T.amp n := fun n h₁ h₂ => store_old _ _ _ (by omega) (by omega)
  have i₁ := stage_t2a h hZ hT shift hd
  have i₂ := stage_t2b h hZ hT shift hd
  have u₁ : updateRhf s T.amp 13 = m₁ s T.amp 13 := by rw [e₃ _ (by omega) (by omega), e₂ _ (by omega) (by omega)]
  have u₂ : updateRhf s T.amp 14 = m₂ s T.amp 14 := e₃ _ (by omega) (by omega)
  have u₃ : updateRhf s T.amp 15 = m₁ s T.amp 13 := by
    rw [updateRhf_eq, store_new]; exact e₂ 13 (by omega) (by omega)
  constructor
  · intro g
    have g₁ := u₁.symm.trans (g 8 (by omega) (by omega))
    have g₂ := u₂.symm.trans (g 9 (by omega) (by omega))
    refine ⟨i₁.1 g₁, (i₂ g₁).1 g₂, fun a b i j ha hb hi hj => ?_⟩
    rw [hu] at ha hb
    rw [hC.electrons] at hi hj
    rw [Ccsd.reversed_t2 hC hZ (doubles_antisym hT) ⟨rfl, hs.aa, hs.ab⟩ h ha hb hi hj]
    exact i₁.1 g₁ a b i j ha hb hi hj
  · intro g
    have g₁ := i₁.2 g.aa
    have g₂ := (i₂ g₁).2 g.ab
    intro k h₁ h₂
    obtain rfl | rfl | rfl : k = 8 ∨ k = 9 ∨ k = 10 := by omega
    · exact u₁.trans g₁
    · exact u₂.trans g₂
    · exact u₃.trans (g₁.trans (Ccsd.copied_t2 hs))
end

/-- The arrays 18 to 20, whose norm decides on convergence, are the differences of new and old amplitudes. -/
theorem C79_increments (s : Setup) (hd : Denominators s) {T : Cluster} (hT : T.Antisym) :
    ∀ k, k = 8 ∨ k = 9 ∨ k = 10 → ∀ a b i j,
      update s T.amp (k + 10) [a, b, i, j] = update s T.amp (k + 5) [a, b, i, j] - T.amp k [a, b, i, j] := by
  intro k hk a b i j
  rcases hk with rfl | rfl | rfl
  · exact (calledT2a s _ _ hT.aa (fun _ _ _ _ => rfl) hd.aa).change a b i j
  · exact (calledT2b s _ _ hd.ab).change a b i j
  · exact (calledT2c s _ _ hT.bb (fun _ _ _ _ => rfl) hd.bb).change a b i j

theorem C79_increments_rhf (s : Setup) (hd : Denominators s) {T : Cluster} (hT : T.Antisym) (hs : T.Symmetric) :
    ∀ k, k = 8 ∨ k = 9 ∨ k = 10 → ∀ a b i j,
      updateRhf s T.amp (k + 10) [a, b, i, j] = updateRhf s T.amp (k + 5) [a, b, i, j] - T.amp k [a, b, i, j] := by
  intro k hk a b i j
  rcases hk with rfl | rfl | rfl
  · exact (calledT2a s _ _ hT.aa (fun _ _ _ _ => rfl) hd.aa).change a b i j
  · exact (calledT2b s _ _ hd.ab).change a b i j
  · rw [← Ccsd.copied_t2 hs]
    exact (calledT2a s _ _ hT.aa (fun _ _ _ _ => rfl) hd.aa).change a b i j

/-! ### Examples -/

/-- The hypotheses hold, and the projections are not zero. -/
example : Ccsd.exampleOrbitals.element (Ccsd.exampleOrbitals.doubleAB 0 1 0 0)
    (transformed Ccsd.exampleOrbitals Ccsd.exampleIntegrals Ccsd.exampleCluster.doubles) ≠ 0 := by
  rw [← C79_t2b Ccsd.exampleOrbitals_proper Ccsd.exampleIntegrals_antisym Ccsd.exampleCluster_antisym 0 (by decide) (by decide)
    (by decide) (by decide)]
  decide +kernel

/-- Two electrons in two orbitals with one non-zero repulsion integral that excites both of them: `2 + 2 t = 0`. -/
def pairIntegrals : Fock.Integrals :=
  let z (p q : ℕ) : ℚ := if p = 1 ∧ q = 1 then 1 else 0
  ⟨z, z, fun _ _ _ _ => 0, fun p q r s => if p = 1 ∧ q = 1 ∧ r = 0 ∧ s = 0 then 2 else 0, fun _ _ _ _ => 0⟩
def pairCluster : Cluster := ⟨fun _ _ => 5, fun _ _ => 5, fun _ _ _ _ => 0, fun _ _ _ _ => -1, fun _ _ _ _ => 0⟩

theorem pairIntegrals_antisym : pairIntegrals.Antisym := by
  constructor <;> intro p q r s <;> constructor <;> rfl
theorem pairCluster_antisym : pairCluster.Antisym := by
  constructor <;> intro p q r s <;> constructor <;> rfl
theorem pair_shell : ClosedShell Ccsd.pairOrbitals pairIntegrals := by
  refine ⟨rfl, rfl, rfl, fun p q r s => ?_⟩
  simp only [pairIntegrals]
  exact if_congr (by tauto) rfl rfl
theorem pairCluster_symmetric : pairCluster.Symmetric := ⟨rfl, rfl, fun _ _ _ _ => rfl⟩

theorem pair_denominators : Denominators (setup Ccsd.pairOrbitals pairIntegrals 0) := by
  constructor
  · intro a b i j h₁ h₂ h₃ h₄
    rw [Ccsd.below_one h₁, Ccsd.below_one h₂, Ccsd.below_one h₃, Ccsd.below_one h₄]; decide +kernel
  · intro a b i j h₁ h₂ h₃ h₄
    rw [Ccsd.below_one h₁, Ccsd.below_one h₂, Ccsd.below_one h₃, Ccsd.below_one h₄]; decide +kernel
  · intro a b i j h₁ h₂ h₃ h₄
    rw [Ccsd.below_one h₁, Ccsd.below_one h₂, Ccsd.below_one h₃, Ccsd.below_one h₄]; decide +kernel

theorem pair_solved : SolvesCCD Ccsd.pairOrbitals pairIntegrals pairCluster := by
  constructor
  · intro a b i j h₁ h₂ h₃ h₄
    rw [← C79_t2a Ccsd.pairOrbitals_proper pairIntegrals_antisym pairCluster_antisym 0 h₁ h₂ h₃ h₄, Ccsd.below_one h₁,
      Ccsd.below_one h₂, Ccsd.below_one h₃, Ccsd.below_one h₄]
    decide +kernel
  · intro a b i j h₁ h₂ h₃ h₄
    rw [← C79_t2b Ccsd.pairOrbitals_proper pairIntegrals_antisym pairCluster_antisym 0 h₁ h₂ h₃ h₄, Ccsd.below_one h₁,
      Ccsd.below_one h₂, Ccsd.below_one h₃, Ccsd.below_one h₄]
    decide +kernel
  · intro a b i j h₁ h₂ h₃ h₄
    rw [← C79_t2c Ccsd.pairOrbitals_proper pairIntegrals_antisym pairCluster_antisym 0 h₁ h₂ h₃ h₄, Ccsd.below_one h₁,
      Ccsd.below_one h₂, Ccsd.below_one h₃, Ccsd.below_one h₄]
    decide +kernel

/-- Both iterations keep these amplitudes. -/
example : ∀ k, 8 ≤ k → k ≤ 10 → update (setup Ccsd.pairOrbitals pairIntegrals 0) pairCluster.amp (k + 5) = pairCluster.amp k :=
  (C79_fixed_point Ccsd.pairOrbitals_proper pairIntegrals_antisym pairCluster_antisym 0 pair_denominators).2 pair_solved
example : ∀ k, 8 ≤ k → k ≤ 10 → updateRhf (setup Ccsd.pairOrbitals pairIntegrals 0) pairCluster.amp (k + 5) = pairCluster.amp k :=
  (C79_fixed_point_rhf Ccsd.pairOrbitals_proper pairIntegrals_antisym pairCluster_antisym 0 pair_denominators pair_shell
    pairCluster_symmetric).2 pair_solved

end Ccpy.Ccd
