import Verif.Lemmas.CcsdtStages

/-! **C66** The arrays that the CCSDT program calls residuals are, after the antisymmetrisation of the update kernels, the
projections of `e^{-T} H e^{T} |Φ⟩` with `T = T₁ + T₂ + T₃` on the excited determinants.  **C67** The amplitudes that one
iteration of the program leaves unchanged are exactly the solutions of the CCSDT equations.

The programs are `/repo/ccpy/cc/ccsdt.py`, `/repo/ccpy/hbar/hbar_ccs.py` and `/repo/ccpy/hbar/hbar_ccsd.py`
(`get_ccsd_intermediates`, branch `flag_RHF=False`); the operators are those of `Spec/Triples.lean`. -/

namespace Ccpy.Ccsdt
open Ccpy.Fock Ccpy.Tensor Ccpy.HbarCcs Ccpy.Spec Ccpy.Ccsd

variable {ι : Type*} [LinearOrder ι]

/-- The intermediates at the three points of the program: before the single, double and triple excitations.  `X` are the
intermediates that the iteration starts from. -/
def atSingles (X : Ints) : Ints := getPreCcsIntermediates X amplitudes3.toAmps stored false
def atDoubles (X : Ints) : Ints := getCcsIntermediatesOpt (atSingles X) amplitudes3.toAmps stored false
def atTriples (X : Ints) : Ints := HbarCcsd.getCcsdIntermediates amplitudes3.toAmps (atDoubles X) stored false

section
variable {S : Orbitals ι} (h : S.Proper) {Z : Fock.Integrals} (hZ : Z.Antisym) {T : Cluster} (hT : T.Antisym)
  {T₃ : Triples} (hT₃ : T₃.Antisym) (shift : ℚ) (X : Ints)
include h hZ hT hT₃

theorem C66_t1a {a i : ℕ} (ha : a < S.ua) (hi : i < S.na) :
    (setup S Z shift).eval (store3 [T] [T₃]) (residualT1a amplitudes3 (atSingles X) stored) [a, i]
      = S.element (S.singleA a i) (transformed3 S Z T T₃) :=
  (antisymmetrize_one _ _ _).symm.trans (value_t1a h hZ hT hT₃ ha hi)

theorem C66_t1b {a i : ℕ} (ha : a < S.ub) (hi : i < S.nb) :
    (setup S Z shift).eval (store3 [T] [T₃]) (residualT1b amplitudes3 (atSingles X) stored) [a, i]
      = S.element (S.singleB a i) (transformed3 S Z T T₃) :=
  (antisymmetrize_one _ _ _).symm.trans (value_t1b h hZ hT hT₃ ha hi)

theorem C66_t2a {a b i j : ℕ} (ha : a < S.ua) (hb : b < S.ua) (hi : i < S.na) (hj : j < S.na) :
    let R := (setup S Z shift).eval (store3 [T] [T₃]) (residualT2a amplitudes3 (atDoubles X) stored)
    R [a, b, i, j] - R [b, a, i, j] - R [a, b, j, i] + R [b, a, j, i] = S.element (S.doubleAA a b i j) (transformed3 S Z T T₃) :=
  (antisymmetrize_two _ _ _ _ _ _).symm.trans (value_t2a h hZ hT hT₃ ha hb hi hj)

theorem C66_t2b {a b i j : ℕ} (ha : a < S.ua) (hb : b < S.ub) (hi : i < S.na) (hj : j < S.nb) :
    (setup S Z shift).eval (store3 [T] [T₃]) (residualT2b amplitudes3 (atDoubles X) stored) [a, b, i, j]
      = S.element (S.doubleAB a b i j) (transformed3 S Z T T₃) :=
  (antisymmetrize_ab _ _).symm.trans (value_t2b h hZ hT hT₃ ha hb hi hj)

theorem C66_t2c {a b i j : ℕ} (ha : a < S.ub) (hb : b < S.ub) (hi : i < S.nb) (hj : j < S.nb) :
    let R := (setup S Z shift).eval (store3 [T] [T₃]) (residualT2c amplitudes3 (atDoubles X) stored)
    R [a, b, i, j] - R [b, a, i, j] - R [a, b, j, i] + R [b, a, j, i] = S.element (S.doubleBB a b i j) (transformed3 S Z T T₃) :=
  (antisymmetrize_two _ _ _ _ _ _).symm.trans (value_t2c h hZ hT hT₃ ha hb hi hj)

theorem C66_t3a {a b c i j k : ℕ} (ha : a < S.ua) (hb : b < S.ua) (hc : c < S.ua) (hi : i < S.na) (hj : j < S.na) (hk : k < S.na) :
    antisymmetrize ![false, false, false] ![false, false, false] (fun k =>
      (setup S Z shift).eval (store3 [T] [T₃]) (residualT3a amplitudes3 (atTriples X) stored) (listed k))
      (![a, b, c], ![i, j, k]) = S.element (S.tripleAAA a b c i j k) (transformed3 S Z T T₃) :=
  value_t3a h hZ hT hT₃ ha hb hc hi hj hk

theorem C66_t3b {a b c i j k : ℕ} (ha : a < S.ua) (hb : b < S.ua) (hc : c < S.ub) (hi : i < S.na) (hj : j < S.na) (hk : k < S.nb) :
    antisymmetrize ![false, false, true] ![false, false, true] (fun k =>
      (setup S Z shift).eval (store3 [T] [T₃]) (residualT3b amplitudes3 (atTriples X) stored) (listed k))
      (![a, b, c], ![i, j, k]) = S.element (S.tripleAAB a b c i j k) (transformed3 S Z T T₃) :=
  value_t3b h hZ hT hT₃ ha hb hc hi hj hk

theorem C66_t3c {a b c i j k : ℕ} (ha : a < S.ua) (hb : b < S.ub) (hc : c < S.ub) (hi : i < S.na) (hj : j < S.nb) (hk : k < S.nb) :
    antisymmetrize ![false, true, true] ![false, true, true] (fun k =>
      (setup S Z shift).eval (store3 [T] [T₃]) (residualT3c amplitudes3 (atTriples X) stored) (listed k))
      (![a, b, c], ![i, j, k]) = S.element (S.tripleABB a b c i j k) (transformed3 S Z T T₃) :=
  value_t3c h hZ hT hT₃ ha hb hc hi hj hk

theorem C66_t3d {a b c i j k : ℕ} (ha : a < S.ub) (hb : b < S.ub) (hc : c < S.ub) (hi : i < S.nb) (hj : j < S.nb) (hk : k < S.nb) :
    antisymmetrize ![true, true, true] ![true, true, true] (fun k =>
      (setup S Z shift).eval (store3 [T] [T₃]) (residualT3d amplitudes3 (atTriples X) stored) (listed k))
      (![a, b, c], ![i, j, k]) = S.element (S.tripleBBB a b c i j k) (transformed3 S Z T T₃) :=
  value_t3d h hZ hT hT₃ ha hb hc hi hj hk

end

/-- All contractions join axes of the same orbital space and all sums have equal shapes, so `numpy` raises no error. -/
theorem C66_shapes (X : Ints) :
    ((residualT1a amplitudes3 (atSingles X) stored).ok = true ∧ (residualT1a amplitudes3 (atSingles X) stored).axes = [1, 0])
    ∧ ((residualT1b amplitudes3 (atSingles X) stored).ok = true ∧ (residualT1b amplitudes3 (atSingles X) stored).axes = [3, 2])
    ∧ ((residualT2a amplitudes3 (atDoubles X) stored).ok = true ∧ (residualT2a amplitudes3 (atDoubles X) stored).axes = [1, 1, 0, 0])
    ∧ ((residualT2b amplitudes3 (atDoubles X) stored).ok = true ∧ (residualT2b amplitudes3 (atDoubles X) stored).axes = [1, 3, 0, 2])
    ∧ ((residualT2c amplitudes3 (atDoubles X) stored).ok = true ∧ (residualT2c amplitudes3 (atDoubles X) stored).axes = [3, 3, 2, 2])
    ∧ ((residualT3a amplitudes3 (atTriples X) stored).ok = true ∧ (residualT3a amplitudes3 (atTriples X) stored).axes = [1, 1, 1, 0, 0, 0])
    ∧ ((residualT3b amplitudes3 (atTriples X) stored).ok = true ∧ (residualT3b amplitudes3 (atTriples X) stored).axes = [1, 1, 3, 0, 0, 2])
    ∧ ((residualT3c amplitudes3 (atTriples X) stored).ok = true ∧ (residualT3c amplitudes3 (atTriples X) stored).axes = [1, 3, 3, 0, 2, 2])
    ∧ ((residualT3d amplitudes3 (atTriples X) stored).ok = true ∧ (residualT3d amplitudes3 (atTriples X) stored).axes = [3, 3, 3, 2, 2, 2]) := by
  have t1a : residualT1a amplitudes3 (atSingles X) stored = residualT1a amplitudes3 pre stored := rfl
  have t1b : residualT1b amplitudes3 (atSingles X) stored = residualT1b amplitudes3 pre stored := rfl
  have t2a : residualT2a amplitudes3 (atDoubles X) stored = residualT2a amplitudes3 hbar1 stored := rfl
  have t2b : residualT2b amplitudes3 (atDoubles X) stored = residualT2b amplitudes3 hbar1 stored := rfl
  have t2c : residualT2c amplitudes3 (atDoubles X) stored = residualT2c amplitudes3 hbar1 stored := rfl
  have t3a : residualT3a amplitudes3 (atTriples X) stored = residualT3a amplitudes3 hbar2 stored := rfl
  have t3b : residualT3b amplitudes3 (atTriples X) stored = residualT3b amplitudes3 hbar2 stored := rfl
  have t3c : residualT3c amplitudes3 (atTriples X) stored = residualT3c amplitudes3 hbar2 stored := rfl
  have t3d : residualT3d amplitudes3 (atTriples X) stored = residualT3d amplitudes3 hbar2 stored := rfl
  rw [t1a, t1b, t2a, t2b, t2c, t3a, t3b, t3c, t3d]
  decide +kernel

/-! ### Fixed points of the iteration -/

/-- The amplitude arrays 11 to 15 and 110 to 113 after the iteration are equal to the arrays 6 to 10 and 106 to 109 before it if
and only if the amplitudes satisfy the CCSDT equations, although the program uses amplitudes that are already updated. -/
theorem C67_fixed_point {S : Orbitals ι} (h : S.Proper) {Z : Fock.Integrals} (hZ : Z.Antisym) {T : Cluster} (hT : T.Antisym)
    {T₃ : Triples} (hT₃ : T₃.Antisym) (shift : ℚ) (hd : Denominators3 (setup S Z shift)) (X : Ints) :
    (let m := update (setup S Z shift) X (store3 [T] [T₃])
    (∀ k, 6 ≤ k → k ≤ 10 → m (k + 5) = T.amp k) ∧ ∀ k, 106 ≤ k → k ≤ 109 → m (k + 4) = T₃.amp k)
      ↔ SolvesCCSDT S Z T T₃ := by
  let Q : ℕ → Prop := fun n => match n with
    | 1 => ∀ a i, a < S.ua → i < S.na →
        S.element (S.singleA a i) (transformed3 S Z T T₃) = 0
    | 2 => ∀ a i, a < S.ub → i < S.nb →
        S.element (S.singleB a i) (transformed3 S Z T T₃) = 0
    | 3 => ∀ a b i j, a < S.ua → b < S.ua → i < S.na → j < S.na →
        S.element (S.doubleAA a b i j) (transformed3 S Z T T₃) = 0
    | 4 => ∀ a b i j, a < S.ua → b < S.ub → i < S.na → j < S.nb →
        S.element (S.doubleAB a b i j) (transformed3 S Z T T₃) = 0
    | 5 => ∀ a b i j, a < S.ub → b < S.ub → i < S.nb → j < S.nb →
        S.element (S.doubleBB a b i j) (transformed3 S Z T T₃) = 0
    | 6 => ∀ a b c i j k, a < S.ua → b < S.ua → c < S.ua → i < S.na → j < S.na → k < S.na →
        S.element (S.tripleAAA a b c i j k) (transformed3 S Z T T₃) = 0
    | 7 => ∀ a b c i j k, a < S.ua → b < S.ua → c < S.ub → i < S.na → j < S.na → k < S.nb →
        S.element (S.tripleAAB a b c i j k) (transformed3 S Z T T₃) = 0
    | 8 => ∀ a b c i j k, a < S.ua → b < S.ub → c < S.ub → i < S.na → j < S.nb → k < S.nb →
        S.element (S.tripleABB a b c i j k) (transformed3 S Z T T₃) = 0
    | 9 => ∀ a b c i j k, a < S.ub → b < S.ub → c < S.ub → i < S.nb → j < S.nb → k < S.nb →
        S.element (S.tripleBBB a b c i j k) (transformed3 S Z T T₃) = 0
    | _ => True
  have main := stages_fixed (m₀ := store3 [T] [T₃]) (Q := Q) (program (setup S Z shift) X) (store3 [T] [T₃]) (k := 1) le_rfl
    (show 1 + 9 ≤ 10 by omega) (fun _ _ => rfl) (fun n => by
      have : backName (1 - 1) n = n := by unfold backName; split_ifs <;> omega
      rw [this]) (fun j hj m' hm hs => by
    have hj : j < 9 := hj
    interval_cases j
    · exact rest_t1a h hZ hT hT₃ hd X hm hs
    · exact rest_t1b h hZ hT hT₃ hd X hm hs
    · exact rest_t2a h hZ hT hT₃ hd X hm hs
    · exact rest_t2b h hZ hT hT₃ hd X hm hs
    · exact rest_t2c h hZ hT hT₃ hd X hm hs
    · exact rest_t3a h hZ hT hT₃ hd X hm hs
    · exact rest_t3b h hZ hT hT₃ hd X hm hs
    · exact rest_t3c h hZ hT hT₃ hd X hm hs
    · exact rest_t3d h hZ hT hT₃ hd X hm hs
    )
  rw [← update_eq] at main
  have hlen : (program (setup S Z shift) X).length = 9 := rfl
  rw [hlen] at main
  refine Iff.trans ⟨fun g j hj => ?_, fun g => ⟨fun k h₁ h₂ => ?_, fun k h₁ h₂ => ?_⟩⟩ (main.trans ⟨fun g => ?_, fun g j hj => ?_⟩)
  · interval_cases j
    · exact (g.1 6 (by omega) (by omega)).trans rfl
    · exact (g.1 7 (by omega) (by omega)).trans rfl
    · exact (g.1 8 (by omega) (by omega)).trans rfl
    · exact (g.1 9 (by omega) (by omega)).trans rfl
    · exact (g.1 10 (by omega) (by omega)).trans rfl
    · exact (g.2 106 (by omega) (by omega)).trans rfl
    · exact (g.2 107 (by omega) (by omega)).trans rfl
    · exact (g.2 108 (by omega) (by omega)).trans rfl
    · exact (g.2 109 (by omega) (by omega)).trans rfl
  · interval_cases k
    · exact (g 0 (by omega)).trans rfl
    · exact (g 1 (by omega)).trans rfl
    · exact (g 2 (by omega)).trans rfl
    · exact (g 3 (by omega)).trans rfl
    · exact (g 4 (by omega)).trans rfl
  · interval_cases k
    · exact (g 5 (by omega)).trans rfl
    · exact (g 6 (by omega)).trans rfl
    · exact (g 7 (by omega)).trans rfl
    · exact (g 8 (by omega)).trans rfl
  · exact ⟨g 0 (by omega), g 1 (by omega), g 2 (by omega), g 3 (by omega), g 4 (by omega), g 5 (by omega), g 6 (by omega), g 7 (by omega), g 8 (by omega)⟩
  · interval_cases j
    · exact g.a
    · exact g.b
    · exact g.aa
    · exact g.ab
    · exact g.bb
    · exact g.aaa
    · exact g.aab
    · exact g.abb
    · exact g.bbb

/-- The arrays 16 to 20 and 114 to 117, whose norm decides on convergence, are the differences of new and old amplitudes. -/
theorem C67_increments (s : Setup) (hd : Denominators3 s) {T : Cluster} (hT : T.Antisym) {T₃ : Triples} (hT₃ : T₃.Antisym)
    (X : Ints) :
    let m := update s X (store3 [T] [T₃])
    (∀ k, k = 6 ∨ k = 7 → ∀ a i, m (k + 10) [a, i] = m (k + 5) [a, i] - T.amp k [a, i])
    ∧ (∀ k, k = 8 ∨ k = 9 ∨ k = 10 → ∀ a b i j,
        m (k + 10) [a, b, i, j] = m (k + 5) [a, b, i, j] - T.amp k [a, b, i, j])
    ∧ ∀ k, 106 ≤ k → k ≤ 109 → ∀ a b c i j l,
        m (k + 8) [a, b, c, i, j, l] = m (k + 4) [a, b, c, i, j, l] - T₃.amp k [a, b, c, i, j, l] := by
  have g := stages_get (program s X) (store3 [T] [T₃]) (k := 1) le_rfl (show 1 + 9 ≤ 10 by omega)
  rw [← update_eq] at g
  refine ⟨fun k hk a i => ?_, fun k hk a b i j => ?_, fun k h₁ h₂ a b c i j l => ?_⟩
  · rcases hk with rfl | rfl
    · obtain ⟨m', e, e₁, e₂⟩ := g 0 (show 0 < 9 by omega)
      have e₀ : m' 6 = store3 [T] [T₃] 6 := e _ (by unfold Reserved; omega)
      have hc := calledT1a s (s.eval m' (residualT1a amplitudes3 (ints1 X) stored)) (m' 6) hd.a
      exact (congrFun e₂ _).trans ((hc.change a i).trans
        (congrArg₂ (· - ·) (congrFun e₁ _).symm ((congrFun e₀ _).trans rfl)))
    · obtain ⟨m', e, e₁, e₂⟩ := g 1 (show 1 < 9 by omega)
      have e₀ : m' 7 = store3 [T] [T₃] 7 := e _ (by unfold Reserved; omega)
      have hc := calledT1b s (s.eval m' (residualT1b stage1 (ints1 X) stored)) (m' 7) hd.b
      exact (congrFun e₂ _).trans ((hc.change a i).trans
        (congrArg₂ (· - ·) (congrFun e₁ _).symm ((congrFun e₀ _).trans rfl)))
  · rcases hk with rfl | rfl | rfl
    · obtain ⟨m', e, e₁, e₂⟩ := g 2 (show 2 < 9 by omega)
      have e₀ : m' 8 = store3 [T] [T₃] 8 := e _ (by unfold Reserved; omega)
      have hc := calledT2a s (s.eval m' (residualT2a stage2 (ints2 X) stored)) (m' 8) hT.aa (fun _ _ _ _ => by rw [e₀]; rfl) hd.aa
      exact (congrFun e₂ _).trans ((hc.change a b i j).trans
        (congrArg₂ (· - ·) (congrFun e₁ _).symm ((congrFun e₀ _).trans rfl)))
    · obtain ⟨m', e, e₁, e₂⟩ := g 3 (show 3 < 9 by omega)
      have e₀ : m' 9 = store3 [T] [T₃] 9 := e _ (by unfold Reserved; omega)
      have hc := calledT2b s (s.eval m' (residualT2b stage3 (ints2 X) stored)) (m' 9) hd.ab
      exact (congrFun e₂ _).trans ((hc.change a b i j).trans
        (congrArg₂ (· - ·) (congrFun e₁ _).symm ((congrFun e₀ _).trans rfl)))
    · obtain ⟨m', e, e₁, e₂⟩ := g 4 (show 4 < 9 by omega)
      have e₀ : m' 10 = store3 [T] [T₃] 10 := e _ (by unfold Reserved; omega)
      have hc := calledT2c s (s.eval m' (residualT2c stage4 (ints2 X) stored)) (m' 10) hT.bb (fun _ _ _ _ => by rw [e₀]; rfl) hd.bb
      exact (congrFun e₂ _).trans ((hc.change a b i j).trans
        (congrArg₂ (· - ·) (congrFun e₁ _).symm ((congrFun e₀ _).trans rfl)))
  · interval_cases k
    · obtain ⟨m', e, e₁, e₂⟩ := g 5 (show 5 < 9 by omega)
      have e₀ : m' 106 = store3 [T] [T₃] 106 := e _ (by unfold Reserved; omega)
      have hc := calledT3a (X := s.eval m' (residualT3a stage5 (ints3 X) stored)) (t := m' 106) s
        (antisym_aaa (fun _ _ _ _ _ _ => by rw [e₀]; rfl) hT₃.aaa) hd.aaa
      exact (congrFun e₂ _).trans ((hc.change (![a, b, c], ![i, j, l])).trans
        (congrArg₂ (· - ·) (congrFun e₁ _).symm ((congrFun e₀ _).trans rfl)))
    · obtain ⟨m', e, e₁, e₂⟩ := g 6 (show 6 < 9 by omega)
      have e₀ : m' 107 = store3 [T] [T₃] 107 := e _ (by unfold Reserved; omega)
      have hc := calledT3b (X := s.eval m' (residualT3b stage6 (ints3 X) stored)) (t := m' 107) s
        (antisym_aab (fun _ _ _ _ _ _ => by rw [e₀]; rfl) hT₃.aab) hd.aab
      exact (congrFun e₂ _).trans ((hc.change (![a, b, c], ![i, j, l])).trans
        (congrArg₂ (· - ·) (congrFun e₁ _).symm ((congrFun e₀ _).trans rfl)))
    · obtain ⟨m', e, e₁, e₂⟩ := g 7 (show 7 < 9 by omega)
      have e₀ : m' 108 = store3 [T] [T₃] 108 := e _ (by unfold Reserved; omega)
      have hc := calledT3c (X := s.eval m' (residualT3c stage7 (ints3 X) stored)) (t := m' 108) s
        (antisym_abb (fun _ _ _ _ _ _ => by rw [e₀]; rfl) hT₃.abb) hd.abb
      exact (congrFun e₂ _).trans ((hc.change (![a, b, c], ![i, j, l])).trans
        (congrArg₂ (· - ·) (congrFun e₁ _).symm ((congrFun e₀ _).trans rfl)))
    · obtain ⟨m', e, e₁, e₂⟩ := g 8 (show 8 < 9 by omega)
      have e₀ : m' 109 = store3 [T] [T₃] 109 := e _ (by unfold Reserved; omega)
      have hc := calledT3d (X := s.eval m' (residualT3d stage8 (ints3 X) stored)) (t := m' 109) s
        (antisym_aaa (fun _ _ _ _ _ _ => by rw [e₀]; rfl) hT₃.bbb) hd.bbb
      exact (congrFun e₂ _).trans ((hc.change (![a, b, c], ![i, j, l])).trans
        (congrArg₂ (· - ·) (congrFun e₁ _).symm ((congrFun e₀ _).trans rfl)))

/-! ### Examples -/

def exampleTriples : Triples :=
  let t (p q r : ℕ) : ℚ := ((p : ℚ) - q) * ((p : ℚ) - r) * ((q : ℚ) - r)
  let d (p q : ℕ) : ℚ := (p : ℚ) - q
  ⟨fun a b c i j k => t a b c * t i j k, fun a b c i j k => d a b * d i j * (c + 2 * k + 1),
    fun a b c i j k => d b c * d j k * (a - 3 * i + 2), fun a b c i j k => 2 * t a b c * t i j k⟩

theorem exampleTriples_antisym : exampleTriples.Antisym := by
  constructor <;> intro a b c i j k <;> refine ⟨?_, ?_⟩ <;> (try refine ⟨?_, ?_, ?_⟩) <;> simp only [exampleTriples] <;> ring

/-- The hypotheses of C66 hold, and the projections are not zero. -/
example : exampleOrbitals.element (exampleOrbitals.doubleAB 0 1 0 0)
    (transformed3 exampleOrbitals exampleIntegrals exampleCluster exampleTriples) ≠ 0 := by
  rw [← C66_t2b exampleOrbitals_proper exampleIntegrals_antisym exampleCluster_antisym exampleTriples_antisym 0 stored (by decide)
    (by decide) (by decide) (by decide)]
  decide +kernel

theorem cre_twice (x : ι) (v : Vec ι) : cre x (cre x v) = 0 := self_eq_neg.1 (cre_cre_apply x x v)
theorem zero_of_lt_one {a : ℕ} (h : a < 1) : a = 0 := by omega
theorem triples_zero : Triples.zero.Antisym := by constructor <;> intros <;> simp [Triples.zero]

theorem solved_denominators3 : Denominators3 (setup solvedOrbitals solvedIntegrals 0) := by
  refine ⟨solved_denominators, ?_, ?_, ?_, ?_⟩
  · rintro ⟨P, H⟩ ⟨h₁, h₂⟩
    have e₁ : P = fun _ => 0 := funext fun x => zero_of_lt_one (by have := h₁ x; fin_cases x <;> exact this)
    have e₂ : H = fun _ => 0 := funext fun x => zero_of_lt_one (by have := h₂ x; fin_cases x <;> exact this)
    rw [e₁, e₂]
    decide +kernel
  · exact fun k hk => absurd (hk.2 2) (Nat.not_lt_zero _)
  · exact fun k hk => absurd (hk.2 2) (Nat.not_lt_zero _)
  · exact fun k hk => absurd (hk.2 2) (Nat.not_lt_zero _)

/-- A case in which the equations hold with non-zero amplitudes: the iteration keeps these amplitudes. -/
example :
    let m := update (setup solvedOrbitals solvedIntegrals 0) stored (store3 [solvedCluster] [Triples.zero])
    (∀ k, 6 ≤ k → k ≤ 10 → m (k + 5) = solvedCluster.amp k) ∧ ∀ k, 106 ≤ k → k ≤ 109 → m (k + 4) = Triples.zero.amp k := by
  rw [C67_fixed_point solvedOrbitals_proper solvedIntegrals_antisym solvedCluster_antisym triples_zero 0 solved_denominators3]
  constructor
  · intro a i h₁ h₂
    rw [← C66_t1a solvedOrbitals_proper solvedIntegrals_antisym solvedCluster_antisym triples_zero 0 stored h₁ h₂,
      zero_of_lt_one h₁, zero_of_lt_one h₂]
    decide +kernel
  · exact fun a i h₁ h₂ => absurd h₂ (Nat.not_lt_zero _)
  · intro a b i j h₁ h₂ h₃ h₄
    rw [← C66_t2a solvedOrbitals_proper solvedIntegrals_antisym solvedCluster_antisym triples_zero 0 stored h₁ h₂ h₃ h₄,
      zero_of_lt_one h₁, zero_of_lt_one h₂, zero_of_lt_one h₃, zero_of_lt_one h₄]
    decide +kernel
  · exact fun a b i j h₁ h₂ h₃ h₄ => absurd h₄ (Nat.not_lt_zero _)
  · exact fun a b i j h₁ h₂ h₃ h₄ => absurd h₄ (Nat.not_lt_zero _)
  · intro a b c i j k h₁ h₂ h₃ h₄ h₅ h₆
    rw [zero_of_lt_one h₁, zero_of_lt_one h₂]
    show inner (cre _ (cre _ _)) _ = 0
    rw [cre_twice, inner_zero_left]
  · exact fun a b c i j k h₁ h₂ h₃ h₄ h₅ h₆ => absurd h₆ (Nat.not_lt_zero _)
  · exact fun a b c i j k h₁ h₂ h₃ h₄ h₅ h₆ => absurd h₆ (Nat.not_lt_zero _)
  · exact fun a b c i j k h₁ h₂ h₃ h₄ h₅ h₆ => absurd h₆ (Nat.not_lt_zero _)

end Ccpy.Ccsdt
