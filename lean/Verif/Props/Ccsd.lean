import Verif.Lemmas.CcsdUpdate

/-! **C61** The arrays that the CCSD program calls residuals are the projections of `e^{-T} H e^{T} |Φ⟩` on the excited
determinants.  **C62** The amplitudes that one iteration of the program leaves unchanged are exactly the solutions of the
CCSD equations.

The programs are `/repo/ccpy/cc/ccsd.py` and `/repo/ccpy/hbar/hbar_ccs.py` (branch `flag_RHF=False`), the operators are those
of `Spec/CoupledCluster.lean`. -/

namespace Ccpy.Ccsd
open Ccpy.Fock Ccpy.Tensor Ccpy.HbarCcs

variable {ι : Type*} [LinearOrder ι]

/-- The data of a calculation with the Hamiltonian `Z`: Fock matrices and antisymmetrised integrals. -/
def setup (S : Orbitals ι) (Z : Fock.Integrals) (shift : ℚ) : Setup :=
  ⟨S.n, S.na, S.nb, ⟨fockA S Z, fockB S Z⟩, ⟨Z.vAA, Z.vAB, Z.vBB⟩, shift⟩

/-! ### Residuals.  `X` are the intermediates that the iteration starts from. -/

section
variable {S : Orbitals ι} (h : S.Proper) {Z : Fock.Integrals} (hZ : Z.Antisym) {T : Cluster} (hT : T.Antisym) (shift : ℚ)
  (X : Ints)
include h hZ hT

theorem C61_t1a {a i : ℕ} (ha : a < S.ua) (hi : i < S.na) :
    (setup S Z shift).eval T.amp (residualT1a amplitudes (getPreCcsIntermediates X amplitudes stored false) stored) [a, i]
      = S.element (S.singleA a i) (transformed S Z T) :=
  value_t1a h hZ hT (fun _ _ _ => rfl) ha hi

theorem C61_t1b {a i : ℕ} (ha : a < S.ub) (hi : i < S.nb) :
    (setup S Z shift).eval T.amp (residualT1b amplitudes (getPreCcsIntermediates X amplitudes stored false) stored) [a, i]
      = S.element (S.singleB a i) (transformed S Z T) :=
  value_t1b h hZ hT (fun _ _ _ => rfl) ha hi

/-- For equal spins the sum over exchanges that the kernel forms is the projection. -/
theorem C61_t2a {a b i j : ℕ} (ha : a < S.ua) (hb : b < S.ua) (hi : i < S.na) (hj : j < S.na) :
    let R := (setup S Z shift).eval T.amp (residualT2a amplitudes
      (getCcsIntermediatesOpt (getPreCcsIntermediates X amplitudes stored false) amplitudes stored false) stored)
    R [a, b, i, j] - R [b, a, i, j] - R [a, b, j, i] + R [b, a, j, i] = S.element (S.doubleAA a b i j) (transformed S Z T) :=
  (denote_anti _ _ _ a b i j).symm.trans (value_t2a h hZ hT (fun _ _ _ => rfl) ha hb hi hj)

theorem C61_t2b {a b i j : ℕ} (ha : a < S.ua) (hb : b < S.ub) (hi : i < S.na) (hj : j < S.nb) :
    (setup S Z shift).eval T.amp (residualT2b amplitudes
      (getCcsIntermediatesOpt (getPreCcsIntermediates X amplitudes stored false) amplitudes stored false) stored) [a, b, i, j]
      = S.element (S.doubleAB a b i j) (transformed S Z T) :=
  value_t2b h hZ hT (fun _ _ _ => rfl) ha hb hi hj

theorem C61_t2c {a b i j : ℕ} (ha : a < S.ub) (hb : b < S.ub) (hi : i < S.nb) (hj : j < S.nb) :
    let R := (setup S Z shift).eval T.amp (residualT2c amplitudes
      (getCcsIntermediatesOpt (getPreCcsIntermediates X amplitudes stored false) amplitudes stored false) stored)
    R [a, b, i, j] - R [b, a, i, j] - R [a, b, j, i] + R [b, a, j, i] = S.element (S.doubleBB a b i j) (transformed S Z T) :=
  (denote_anti _ _ _ a b i j).symm.trans (value_t2c h hZ hT (fun _ _ _ => rfl) ha hb hi hj)
end

/-- All contractions join axes of the same orbital space and all sums have equal shapes, so `numpy` raises no error. -/
theorem C61_shapes (X : Ints) :
    let P := getPreCcsIntermediates X amplitudes stored false
    let H := getCcsIntermediatesOpt P amplitudes stored false
    ((residualT1a amplitudes P stored).ok = true ∧ (residualT1a amplitudes P stored).axes = [1, 0])
    ∧ ((residualT1b amplitudes P stored).ok = true ∧ (residualT1b amplitudes P stored).axes = [3, 2])
    ∧ ((residualT2a amplitudes H stored).ok = true ∧ (residualT2a amplitudes H stored).axes = [1, 1, 0, 0])
    ∧ ((residualT2b amplitudes H stored).ok = true ∧ (residualT2b amplitudes H stored).axes = [1, 3, 0, 2])
    ∧ ((residualT2c amplitudes H stored).ok = true ∧ (residualT2c amplitudes H stored).axes = [3, 3, 2, 2]) := by
  refine ⟨⟨?_, ?_⟩, ⟨?_, ?_⟩, ⟨?_, ?_⟩, ⟨?_, ?_⟩, ⟨?_, ?_⟩⟩ <;> rfl

/-! ### Fixed points of the iteration -/

/-- The shifted energy denominators that the kernels divide by are not zero. -/
structure Denominators (s : Setup) : Prop where
  a : ∀ a i, a < s.n - s.na → i < s.na → s.dA a i ≠ 0
  b : ∀ a i, a < s.n - s.nb → i < s.nb → s.dB a i ≠ 0
  aa : ∀ a b i j, a < s.n - s.na → b < s.n - s.na → i < s.na → j < s.na → s.dAA a b i j ≠ 0
  ab : ∀ a b i j, a < s.n - s.na → b < s.n - s.nb → i < s.na → j < s.nb → s.dAB a b i j ≠ 0
  bb : ∀ a b i j, a < s.n - s.nb → b < s.n - s.nb → i < s.nb → j < s.nb → s.dBB a b i j ≠ 0

/-- The amplitude arrays 11 to 15 after the iteration are equal to the arrays 6 to 10 before it if and only if the amplitudes
satisfy the CCSD equations, although the program uses amplitudes that are already updated. -/
theorem C62_fixed_point {S : Orbitals ι} (h : S.Proper) {Z : Fock.Integrals} (hZ : Z.Antisym) {T : Cluster} (hT : T.Antisym)
    (shift : ℚ) (hd : Denominators (setup S Z shift)) (X : Ints) :
    (∀ k, 6 ≤ k → k ≤ 10 → update (setup S Z shift) X T.amp (k + 5) = T.amp k) ↔ SolvesCCSD S Z T := by
  set s := setup S Z shift with hs
  have e₁ : ∀ n, 6 ≤ n → n ≤ 10 → m₁ s X T.amp n = T.amp n := fun n h₁ h₂ => store_old _ _ _ (by omega) (by omega)
  have e₂ : ∀ n, 6 ≤ n → n ≤ 11 → m₂ s X T.amp n = m₁ s X T.amp n := fun n h₁ h₂ => store_old _ _ _ (by omega) (by omega)
  have e₃ : ∀ n, 6 ≤ n → n ≤ 12 → m₃ s X T.amp n = m₂ s X T.amp n := fun n h₁ h₂ => store_old _ _ _ (by omega) (by omega)
  have e₄ : ∀ n, 6 ≤ n → n ≤ 13 → m₄ s X T.amp n = m₃ s X T.amp n := fun n h₁ h₂ => store_old _ _ _ (by omega) (by omega)
  have e₅ : ∀ n, 6 ≤ n → n ≤ 14 → update s X T.amp n = m₄ s X T.amp n := fun n h₁ h₂ =>
    store_old _ _ _ (by omega) (by omega)
  have f₂ : ∀ n, 6 ≤ n → n ≤ 10 → m₂ s X T.amp n = T.amp n := fun n h₁ h₂ => by
    rw [e₂ n h₁ (by omega), e₁ n h₁ h₂]
  have f₃ : ∀ n, 6 ≤ n → n ≤ 10 → m₃ s X T.amp n = T.amp n := fun n h₁ h₂ => by
    rw [e₃ n h₁ (by omega), f₂ n h₁ h₂]
  have f₄ : ∀ n, 6 ≤ n → n ≤ 10 → m₄ s X T.amp n = T.amp n := fun n h₁ h₂ => by
    rw [e₄ n h₁ (by omega), f₃ n h₁ h₂]
  -- stage by stage
  have i₁ : m₁ s X T.amp 11 = T.amp 6 ↔ ∀ a i, a < S.ua → i < S.na → S.element (S.singleA a i) (transformed S Z T) = 0 := by
    rw [m₁, store_new, (calledT1a s _ _ hd.a).fixed_iff hd.a]
    exact forall₄_congr fun a i ha hi => by
      rw [← C61_t1a h hZ hT shift X ha hi]
  have i₂ : m₁ s X T.amp 11 = T.amp 6 → (m₂ s X T.amp 12 = T.amp 7
      ↔ ∀ a i, a < S.ub → i < S.nb → S.element (S.singleB a i) (transformed S Z T) = 0) := by
    intro g
    rw [m₂, store_new, eval_back s _ (k := 1) (fun n h₁ h₂ => by
      obtain rfl : n = 11 := by omega
      rw [g, e₁ _ (by omega) (by omega)]), rename_t1b, e₁ 7 (by omega) (by omega),
      (calledT1b s _ _ hd.b).fixed_iff hd.b]
    exact forall₄_congr fun a i ha hi => by rw [← value_t1b h hZ hT e₁ ha hi]; rfl
  have i₃ : m₁ s X T.amp 11 = T.amp 6 → m₂ s X T.amp 12 = T.amp 7 → (m₃ s X T.amp 13 = T.amp 8
      ↔ ∀ a b i j, a < S.ua → b < S.ua → i < S.na → j < S.na → S.element (S.doubleAA a b i j) (transformed S Z T) = 0) := by
    intro g₁ g₂
    rw [m₃, store_new, eval_back s _ (k := 2) (fun n h₁ h₂ => by
      obtain rfl | rfl : n = 11 ∨ n = 12 := by omega
      · rw [e₂ _ (by omega) (by omega), g₁, f₂ _ (by omega) (by omega)]
      · rw [g₂, f₂ _ (by omega) (by omega)]), rename_t2a, f₂ 8 (by omega) (by omega),
      (calledT2a s _ _ hT.aa (fun _ _ _ _ => rfl) hd.aa).fixed_iff hd.aa]
    exact forall₄_congr fun a b i j => forall₄_congr fun ha hb hi hj => by
      rw [← value_t2a h hZ hT f₂ ha hb hi hj, value, denote_anti]; rfl
  have i₄ : m₁ s X T.amp 11 = T.amp 6 → m₂ s X T.amp 12 = T.amp 7 → m₃ s X T.amp 13 = T.amp 8 → (m₄ s X T.amp 14 = T.amp 9
      ↔ ∀ a b i j, a < S.ua → b < S.ub → i < S.na → j < S.nb → S.element (S.doubleAB a b i j) (transformed S Z T) = 0) := by
    intro g₁ g₂ g₃
    rw [m₄, store_new, eval_back s _ (k := 3) (fun n h₁ h₂ => by
      obtain rfl | rfl | rfl : n = 11 ∨ n = 12 ∨ n = 13 := by omega
      · rw [e₃ _ (by omega) (by omega), e₂ _ (by omega) (by omega), g₁, f₃ _ (by omega) (by omega)]
      · rw [e₃ _ (by omega) (by omega), g₂, f₃ _ (by omega) (by omega)]
      · rw [g₃, f₃ _ (by omega) (by omega)]), rename_t2b, f₃ 9 (by omega) (by omega),
      (calledT2b s _ _ hd.ab).fixed_iff hd.ab]
    exact forall₄_congr fun a b i j => forall₄_congr fun ha hb hi hj => by
      rw [← value_t2b h hZ hT f₃ ha hb hi hj]; rfl
  have i₅ : m₁ s X T.amp 11 = T.amp 6 → m₂ s X T.amp 12 = T.amp 7 → m₃ s X T.amp 13 = T.amp 8 → m₄ s X T.amp 14 = T.amp 9 →
      (update s X T.amp 15 = T.amp 10
      ↔ ∀ a b i j, a < S.ub → b < S.ub → i < S.nb → j < S.nb → S.element (S.doubleBB a b i j) (transformed S Z T) = 0) := by
    intro g₁ g₂ g₃ g₄
    rw [update_eq, store_new, eval_back s _ (k := 4) (fun n h₁ h₂ => by
      obtain rfl | rfl | rfl | rfl : n = 11 ∨ n = 12 ∨ n = 13 ∨ n = 14 := by omega
      · rw [e₄ _ (by omega) (by omega), e₃ _ (by omega) (by omega), e₂ _ (by omega) (by omega), g₁, f₄ _ (by omega) (by omega)]
      · rw [e₄ _ (by omega) (by omega), e₃ _ (by omega) (by omega), g₂, f₄ _ (by omega) (by omega)]
      · rw [e₄ _ (by omega) (by omega), g₃, f₄ _ (by omega) (by omega)]
      · rw [g₄, f₄ _ (by omega) (by omega)]), rename_t2c, f₄ 10 (by omega) (by omega),
      (calledT2c s _ _ hT.bb (fun _ _ _ _ => rfl) hd.bb).fixed_iff hd.bb]
    exact forall₄_congr fun a b i j => forall₄_congr fun ha hb hi hj => by
      rw [← value_t2c h hZ hT f₄ ha hb hi hj, value, denote_anti]; rfl
  have u₁ : update s X T.amp 11 = m₁ s X T.amp 11 := by
    rw [e₅ _ (by omega) (by omega), e₄ _ (by omega) (by omega), e₃ _ (by omega) (by omega), e₂ _ (by omega) (by omega)]
  have u₂ : update s X T.amp 12 = m₂ s X T.amp 12 := by
    rw [e₅ _ (by omega) (by omega), e₄ _ (by omega) (by omega), e₃ _ (by omega) (by omega)]
  have u₃ : update s X T.amp 13 = m₃ s X T.amp 13 := by rw [e₅ _ (by omega) (by omega), e₄ _ (by omega) (by omega)]
  have u₄ : update s X T.amp 14 = m₄ s X T.amp 14 := by rw [e₅ _ (by omega) (by omega)]
  constructor
  · intro g
    have g₁ := g 6 (by omega) (by omega)
    have g₂ := g 7 (by omega) (by omega)
    have g₃ := g 8 (by omega) (by omega)
    have g₄ := g 9 (by omega) (by omega)
    have g₅ := g 10 (by omega) (by omega)
    simp only [Nat.reduceAdd] at g₁ g₂ g₃ g₄ g₅
    rw [u₁] at g₁
    rw [u₂] at g₂
    rw [u₃] at g₃
    rw [u₄] at g₄
    exact ⟨i₁.1 g₁, (i₂ g₁).1 g₂, (i₃ g₁ g₂).1 g₃, (i₄ g₁ g₂ g₃).1 g₄, (i₅ g₁ g₂ g₃ g₄).1 g₅⟩
  · intro g
    have g₁ := i₁.2 g.a
    have g₂ := (i₂ g₁).2 g.b
    have g₃ := (i₃ g₁ g₂).2 g.aa
    have g₄ := (i₄ g₁ g₂ g₃).2 g.ab
    have g₅ := (i₅ g₁ g₂ g₃ g₄).2 g.bb
    intro k h₁ h₂
    obtain rfl | rfl | rfl | rfl | rfl : k = 6 ∨ k = 7 ∨ k = 8 ∨ k = 9 ∨ k = 10 := by omega
    · exact u₁.trans g₁
    · exact u₂.trans g₂
    · exact u₃.trans g₃
    · exact u₄.trans g₄
    · exact g₅

/-- The arrays 16 to 20, whose norm decides on convergence, are the differences of new and old amplitudes. -/
theorem C62_increments (s : Setup) (hd : Denominators s) {T : Cluster} (hT : T.Antisym) (X : Ints) :
    let m := update s X T.amp
    (∀ k, k = 6 ∨ k = 7 → ∀ a i, m (k + 10) [a, i] = m (k + 5) [a, i] - T.amp k [a, i])
    ∧ (∀ k, k = 8 ∨ k = 9 ∨ k = 10 → ∀ a b i j,
        m (k + 10) [a, b, i, j] = m (k + 5) [a, b, i, j] - T.amp k [a, b, i, j]) := by
  refine ⟨fun k hk a i => ?_, fun k hk a b i j => ?_⟩
  · rcases hk with rfl | rfl
    · exact (calledT1a s _ _ hd.a).change a i
    · exact (calledT1b s _ _ hd.b).change a i
  · rcases hk with rfl | rfl | rfl
    · exact (calledT2a s _ _ hT.aa (fun _ _ _ _ => rfl) hd.aa).change a b i j
    · exact (calledT2b s _ _ hd.ab).change a b i j
    · exact (calledT2c s _ _ hT.bb (fun _ _ _ _ => rfl) hd.bb).change a b i j

/-! ### Examples -/

/-- Four orbitals, three electrons; integrals and amplitudes without zeros by accident. -/
def exampleOrbitals : Orbitals ℕ := ⟨4, 2, 1, fun p => 2 * p, fun p => 2 * p + 1⟩
def exampleIntegrals : Fock.Integrals :=
  let v (p q r s : ℕ) : ℚ := ((p : ℚ) - q) * ((r : ℚ) - s) * (1 + p * q + 2 * (r * s))
  ⟨fun p q => p * 10 + q + 1, fun p q => p * 10 - q + 2, v, fun p q r s => p + 2 * q - r + 3 * s * p + 1, v⟩
def exampleCluster : Cluster :=
  let t (p q r s : ℕ) : ℚ := ((p : ℚ) - q) * ((r : ℚ) - s) * (2 + p * q + r * s)
  ⟨fun a i => a + 2 * i + 1, fun a i => 3 * a - i + 1, t, fun a b i j => a - 2 * b + i * j + 1, t⟩

theorem exampleOrbitals_proper : exampleOrbitals.Proper where
  up_inj := fun p q h => by simp only [exampleOrbitals] at h; omega
  down_inj := fun p q h => by simp only [exampleOrbitals] at h; omega
  ne := fun p q h => by simp only [exampleOrbitals] at h; omega
  ha := by decide
  hb := by decide

theorem exampleIntegrals_antisym : exampleIntegrals.Antisym := by
  constructor <;> intro p q r s <;> constructor <;> simp only [exampleIntegrals] <;> ring

theorem exampleCluster_antisym : exampleCluster.Antisym := by
  constructor <;> intro p q r s <;> constructor <;> simp only [exampleCluster] <;> ring

/-- The hypotheses of C61 hold, and the projections are not zero. -/
example : exampleOrbitals.element (exampleOrbitals.doubleAA 0 1 0 1) (transformed exampleOrbitals exampleIntegrals exampleCluster) ≠ 0 := by
  rw [← C61_t2a exampleOrbitals_proper exampleIntegrals_antisym exampleCluster_antisym 0 stored (by decide) (by decide) (by decide)
    (by decide)]
  decide +kernel

/-- One electron in two orbitals, `2 + t - t² = 0`. -/
def solvedOrbitals : Orbitals ℕ := ⟨2, 1, 0, fun p => 2 * p, fun p => 2 * p + 1⟩
def solvedIntegrals : Fock.Integrals :=
  ⟨fun p q => if p = 1 ∧ q = 0 then 2 else if p = 0 ∧ q = 0 then 0 else 1, fun _ _ => 0, fun _ _ _ _ => 0, fun _ _ _ _ => 0,
    fun _ _ _ _ => 0⟩
def solvedCluster : Cluster := ⟨fun _ _ => 2, fun _ _ => 0, fun _ _ _ _ => 0, fun _ _ _ _ => 0, fun _ _ _ _ => 0⟩

theorem solvedOrbitals_proper : solvedOrbitals.Proper where
  up_inj := fun p q h => by simp only [solvedOrbitals] at h; omega
  down_inj := fun p q h => by simp only [solvedOrbitals] at h; omega
  ne := fun p q h => by simp only [solvedOrbitals] at h; omega
  ha := by decide
  hb := by decide

theorem solvedIntegrals_antisym : solvedIntegrals.Antisym := by
  constructor <;> intro p q r s <;> constructor <;> rfl
theorem solvedCluster_antisym : solvedCluster.Antisym := by
  constructor <;> intro p q r s <;> constructor <;> rfl

theorem solved_denominators : Denominators (setup solvedOrbitals solvedIntegrals 0) := by
  constructor
  · intro a i h₁ h₂
    obtain rfl : a = 0 := by have : a < 1 := h₁; omega
    obtain rfl : i = 0 := by have : i < 1 := h₂; omega
    decide +kernel
  · intro a i h₁ h₂
    exact absurd h₂ (Nat.not_lt_zero _)
  · intro a b i j h₁ h₂ h₃ h₄
    obtain rfl : a = 0 := by have : a < 1 := h₁; omega
    obtain rfl : b = 0 := by have : b < 1 := h₂; omega
    obtain rfl : i = 0 := by have : i < 1 := h₃; omega
    obtain rfl : j = 0 := by have : j < 1 := h₄; omega
    decide +kernel
  · intro a b i j h₁ h₂ h₃ h₄
    exact absurd h₄ (Nat.not_lt_zero _)
  · intro a b i j h₁ h₂ h₃ h₄
    exact absurd h₄ (Nat.not_lt_zero _)

/-- A case in which the equations hold with non-zero amplitudes: the iteration keeps these amplitudes. -/
example : ∀ k, 6 ≤ k → k ≤ 10 →
    update (setup solvedOrbitals solvedIntegrals 0) stored solvedCluster.amp (k + 5) = solvedCluster.amp k := by
  rw [C62_fixed_point solvedOrbitals_proper solvedIntegrals_antisym solvedCluster_antisym 0 solved_denominators]
  constructor
  · intro a i h₁ h₂
    rw [← C61_t1a solvedOrbitals_proper solvedIntegrals_antisym solvedCluster_antisym 0 stored h₁ h₂]
    obtain rfl : a = 0 := by have : a < 1 := h₁; omega
    obtain rfl : i = 0 := by have : i < 1 := h₂; omega
    decide +kernel
  · intro a i h₁ h₂
    exact absurd h₂ (Nat.not_lt_zero _)
  · intro a b i j h₁ h₂ h₃ h₄
    rw [← C61_t2a solvedOrbitals_proper solvedIntegrals_antisym solvedCluster_antisym 0 stored h₁ h₂ h₃ h₄]
    obtain rfl : a = 0 := by have : a < 1 := h₁; omega
    obtain rfl : b = 0 := by have : b < 1 := h₂; omega
    obtain rfl : i = 0 := by have : i < 1 := h₃; omega
    obtain rfl : j = 0 := by have : j < 1 := h₄; omega
    decide +kernel
  · intro a b i j h₁ h₂ h₃ h₄
    exact absurd h₄ (Nat.not_lt_zero _)
  · intro a b i j h₁ h₂ h₃ h₄
    exact absurd h₄ (Nat.not_lt_zero _)

end Ccpy.Ccsd
