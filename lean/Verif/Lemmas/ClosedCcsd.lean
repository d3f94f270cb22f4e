import Verif.Lemmas.FlipBasic
import Verif.Lemmas.ClosedChecks
import Verif.Lemmas.CcsdUpdate
import Verif.Lemmas.Ccsdt
import Verif.Props.Ccsd

/-! The restricted CCSD program for closed shells. -/

namespace Ccpy.Ccsd
open Ccpy.Fock Ccpy.Tensor Ccpy.Engine Ccpy.HbarCcs
open Ccpy.Ccsdt (mem_one clean eval_clean')

variable {ι : Type*} [LinearOrder ι]

theorem no_triples {p : Triples → Prop} : ∀ t ∈ ([] : List Triples), p t := fun _ h => absurd h List.not_mem_nil

theorem store3_amp (T : Cluster) (n : ℕ) (h₁ : 6 ≤ n) (h₂ : n ≤ 10) : store3 [T] [] n = T.amp n := by
  interval_cases n <;> rfl

section
variable {S : Orbitals ι} {Z : Fock.Integrals} (hC : ClosedShell S Z) (hZ : Z.Antisym) {T : Cluster} (hT : T.Antisym)
  (hs : T.Symmetric)
include hC hZ hT hs

theorem closed_t1a (a i : ℕ) : value S Z (store3 [T] []) (residualT1a amplitudes preR stored) [a, i]
    = value S Z (store3 [T] []) (residualT1a amplitudes pre stored) [a, i] :=
  equalC_sound hC hZ (mem_one hT) (mem_one hs) no_triples no_triples equal_t1a (env [1, 4] [a, i])

theorem closed_t2a (a b i j : ℕ) : value S Z (store3 [T] []) (residualT2a amplitudes hbarR stored) [a, b, i, j]
    = value S Z (store3 [T] []) (residualT2a amplitudes hbar stored) [a, b, i, j] :=
  equalC_sound hC hZ (mem_one hT) (mem_one hs) no_triples no_triples equal_t2a (env [1, 5, 8, 12] [a, b, i, j])

theorem closed_t2b (a b i j : ℕ) : value S Z (store3 [T] []) (residualT2b amplitudes hbarR stored) [a, b, i, j]
    = value S Z (store3 [T] []) (residualT2b amplitudes hbar stored) [a, b, i, j] :=
  equalC_sound hC hZ (mem_one hT) (mem_one hs) no_triples no_triples equal_t2b (env [1, 5, 8, 12] [a, b, i, j])

theorem reversed_t1 (h : S.Proper) {a i : ℕ} (ha : a < S.ua) (hi : i < S.na) :
    S.element (S.singleB a i) (transformed S Z T) = S.element (S.singleA a i) (transformed S Z T) := by
  have hu : S.ub = S.ua := by unfold Orbitals.ub Orbitals.ua; rw [hC.electrons]
  have e := value_t1a (S.flip_proper h) hZ hT (store3_amp T) (a := a) (i := i) (show a < S.ub from hu ▸ ha) (show i < S.nb from hC.electrons ▸ hi)
  rw [flip_value hC, value_t1a h hZ hT (store3_amp T) ha hi, flip_element, flip_transformed hC hs] at e
  rw [e, Orbitals.singleA, S.flip_ref]
  rfl

theorem reversed_t2 (h : S.Proper) {a b i j : ℕ} (ha : a < S.ua) (hb : b < S.ua) (hi : i < S.na) (hj : j < S.na) :
    S.element (S.doubleBB a b i j) (transformed S Z T) = S.element (S.doubleAA a b i j) (transformed S Z T) := by
  have hu : S.ub = S.ua := by unfold Orbitals.ub Orbitals.ua; rw [hC.electrons]
  have e := value_t2a (S.flip_proper h) hZ hT (store3_amp T) (a := a) (b := b) (i := i) (j := j) (show a < S.ub from hu ▸ ha)
    (show b < S.ub from hu ▸ hb) (show i < S.nb from hC.electrons ▸ hi) (show j < S.nb from hC.electrons ▸ hj)
  rw [flip_value hC, value_t2a h hZ hT (store3_amp T) ha hb hi hj, flip_element, flip_transformed hC hs] at e
  rw [e, Orbitals.doubleAA, S.flip_ref]
  rfl

end

/-! ### Stages -/

section
variable (X : Ints)
def ints1R : Ints := getPreCcsIntermediates X amplitudes stored true
def ints2R : Ints := getCcsIntermediatesOpt (ints1R X) T₂ stored true

set_option maxRecDepth 100000
theorem renameR_t1a : (residualT1a amplitudes (ints1R X) stored).rename (backName 0) = residualT1a amplitudes preR stored := by rfl
theorem cleanR_t1a : (residualT1a amplitudes preR stored).rename clean = residualT1a amplitudes preR stored := by rfl
theorem renameR_t2a : (residualT2a T₂ (ints2R X) stored).rename (backName 2) = residualT2a amplitudes hbarR stored := by rfl
theorem cleanR_t2a : (residualT2a amplitudes hbarR stored).rename clean = residualT2a amplitudes hbarR stored := by rfl
theorem renameR_t2b : (residualT2b T₃ (ints2R X) stored).rename (backName 3) = residualT2b amplitudes hbarR stored := by rfl
theorem cleanR_t2b : (residualT2b amplitudes hbarR stored).rename clean = residualT2b amplitudes hbarR stored := by rfl
end

/-- The stages of the restricted iteration. -/
def programR (s : Setup) (X : Ints) : List (Memory → (List ℕ → ℚ) × (List ℕ → ℚ)) :=
  [fun m => callT1a s (s.eval m (residualT1a amplitudes (ints1R X) stored)) (m 6),
   fun m => (m 11, m 16),
   fun m => callT2a s (s.eval m (residualT2a T₂ (ints2R X) stored)) (m 8),
   fun m => callT2b s (s.eval m (residualT2b T₃ (ints2R X) stored)) (m 9),
   fun m => (m 13, m 18)]

theorem updateRhf_eq (s : Setup) (X : Ints) (m : Memory) : updateRhf s X m = stages m (programR s X) 1 := by
  delta updateRhf
  extract_lets T X₁ m₁ T₁ m₂ T₂ X₂ m₃ T₃ m₄
  have e₁ : stages m (programR s X) 1 = stages m₁ ((programR s X).drop 1) 2 := rfl
  have e₂ : stages m₁ ((programR s X).drop 1) 2 = stages m₂ ((programR s X).drop 2) 3 := rfl
  have e₃ : stages m₂ ((programR s X).drop 2) 3 = stages m₃ ((programR s X).drop 3) 4 := rfl
  have e₄ : stages m₃ ((programR s X).drop 3) 4 = stages m₄ ((programR s X).drop 4) 5 := rfl
  rw [e₁, e₂, e₃, e₄]
  rfl

theorem copied_t1 {T : Cluster} (hs : T.Symmetric) : T.amp 6 = T.amp 7 := by
  funext l
  match l with
  | [] | [_] | _ :: _ :: _ :: _ => rfl
  | [a, i] => exact (congrFun (congrFun hs.a a) i).symm

theorem copied_t2 {T : Cluster} (hs : T.Symmetric) : T.amp 8 = T.amp 10 := by
  funext l
  match l with
  | [] | [_] | [_, _] | [_, _, _] | _ :: _ :: _ :: _ :: _ :: _ => rfl
  | [a, b, i, j] => exact (congrFun (congrFun (congrFun (congrFun hs.aa a) b) i) j).symm

theorem clean_amp {m : Memory} {T : Cluster} (hm : ∀ n, ¬ Reserved n → m n = T.amp n) (n : ℕ) (h₁ : 6 ≤ n)
    (h₂ : n ≤ 10 ∨ 106 ≤ n ∧ n ≤ 109) : m n = store3 [T] [] n := by
  rw [hm n (by unfold Reserved; omega)]
  rcases h₂ with h₂ | h₂
  · exact (store3_amp T n h₁ h₂).symm
  · obtain ⟨h₂, h₃⟩ := h₂
    have e : ∀ k l, (Triples.zero).amp k l = 0 := fun k l => by unfold Triples.amp; split <;> rfl
    funext idx
    unfold store3
    rw [if_neg (by omega)]
    have e' : (([] : List Triples).getD ((n - 106) / 4) Triples.zero) = Triples.zero := rfl
    rw [e', e]
    unfold Cluster.amp
    split <;> first | rfl | omega

section
variable {S : Orbitals ι} (h : S.Proper) {Z : Fock.Integrals} (hC : ClosedShell S Z) (hZ : Z.Antisym) {T : Cluster} (hT : T.Antisym)
  (hs : T.Symmetric) {shift : ℚ} (hd : Denominators (setup S Z shift)) (X : Ints) {m : Memory}
  (hm : ∀ n, ¬ Reserved n → m n = T.amp n)
include h hC hZ hT hs hd hm

theorem restR_t1a (hk : ∀ n, m n = m (backName 0 n)) :
    (callT1a (setup S Z shift) ((setup S Z shift).eval m (residualT1a amplitudes (ints1R X) stored)) (m 6)).1
      = T.amp 6 ↔ ∀ a i, a < S.ua → i < S.na → S.element (S.singleA a i) (transformed S Z T) = 0 := by
  have e : (setup S Z shift).eval m (residualT1a amplitudes preR stored) = value S Z (store3 [T] []) (residualT1a amplitudes preR stored) :=
    eval_clean' (clean_amp hm) cleanR_t1a
  rw [eval_backName _ hk, renameR_t1a, e, hm 6 (by unfold Reserved; omega), (calledT1a _ _ _ hd.a).fixed_iff hd.a]
  exact forall₄_congr fun a i ha hi => by
    rw [← value_t1a h hZ hT (store3_amp T) ha hi, closed_t1a hC hZ hT hs]

theorem restR_t2a (hk : ∀ n, m n = m (backName 2 n)) :
    (callT2a (setup S Z shift) ((setup S Z shift).eval m (residualT2a T₂ (ints2R X) stored)) (m 8)).1
      = T.amp 8 ↔ ∀ a b i j, a < S.ua → b < S.ua → i < S.na → j < S.na →
        S.element (S.doubleAA a b i j) (transformed S Z T) = 0 := by
  have e : (setup S Z shift).eval m (residualT2a amplitudes hbarR stored) = value S Z (store3 [T] []) (residualT2a amplitudes hbarR stored) :=
    eval_clean' (clean_amp hm) cleanR_t2a
  rw [eval_backName _ hk, renameR_t2a, e, hm 8 (by unfold Reserved; omega),
    (calledT2a _ _ _ hT.aa (fun _ _ _ _ => rfl) hd.aa).fixed_iff hd.aa]
  exact forall₄_congr fun a b i j => forall₄_congr fun ha hb hi hj => by
    rw [← value_t2a h hZ hT (store3_amp T) ha hb hi hj, value, denote_anti]
    unfold exchange
    simp only [closed_t2a hC hZ hT hs]
    rfl

theorem restR_t2b (hk : ∀ n, m n = m (backName 3 n)) :
    (callT2b (setup S Z shift) ((setup S Z shift).eval m (residualT2b T₃ (ints2R X) stored)) (m 9)).1
      = T.amp 9 ↔ ∀ a b i j, a < S.ua → b < S.ub → i < S.na → j < S.nb →
        S.element (S.doubleAB a b i j) (transformed S Z T) = 0 := by
  have e : (setup S Z shift).eval m (residualT2b amplitudes hbarR stored) = value S Z (store3 [T] []) (residualT2b amplitudes hbarR stored) :=
    eval_clean' (clean_amp hm) cleanR_t2b
  rw [eval_backName _ hk, renameR_t2b, e, hm 9 (by unfold Reserved; omega), (calledT2b _ _ _ hd.ab).fixed_iff hd.ab]
  exact forall₄_congr fun a b i j => forall₄_congr fun ha hb hi hj => by
    rw [← value_t2b h hZ hT (store3_amp T) ha hb hi hj, ← closed_t2b hC hZ hT hs]; rfl

end

end Ccpy.Ccsd
