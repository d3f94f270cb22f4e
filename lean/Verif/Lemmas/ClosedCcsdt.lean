import Verif.Lemmas.FlipBasic
import Verif.Lemmas.ClosedChecks
import Verif.Lemmas.CcsdUpdate
import Verif.Lemmas.Ccsdt
import Verif.Lemmas.CcsdtStages

/-! The restricted CCSDT program for closed shells. -/

namespace Ccpy.Ccsdt
open Ccpy.Fock Ccpy.Tensor Ccpy.Engine Ccpy.HbarCcs Ccpy.UpdateKernels Ccpy.Spec Ccpy.Writes Ccpy.Ccsd

variable {ι : Type*} [LinearOrder ι]

section
variable {S : Orbitals ι} {Z : Fock.Integrals} (hC : ClosedShell S Z) (hZ : Z.Antisym) {T : Cluster} (hT : T.Antisym)
  (hs : T.Symmetric) {T₃ : Triples} (hT₃ : T₃.Antisym) (hs₃ : T₃.Symmetric)
include hC hZ hT hs hT₃ hs₃

theorem closed_t1a (a i : ℕ) : value S Z (store3 [T] [T₃]) (residualT1a amplitudes3 preR stored) [a, i]
    = value S Z (store3 [T] [T₃]) (residualT1a amplitudes3 pre stored) [a, i] :=
  equalC_sound hC hZ (mem_one hT) (mem_one hs) (mem_one hT₃) (mem_one hs₃) equal_t1a (env [1, 4] [a, i])

theorem closed_t2a (a b i j : ℕ) : value S Z (store3 [T] [T₃]) (residualT2a amplitudes3 hbar1R stored) [a, b, i, j]
    = value S Z (store3 [T] [T₃]) (residualT2a amplitudes3 hbar1 stored) [a, b, i, j] :=
  equalC_sound hC hZ (mem_one hT) (mem_one hs) (mem_one hT₃) (mem_one hs₃) equal_t2a (env [1, 5, 8, 12] [a, b, i, j])

theorem closed_t2b (a b i j : ℕ) : value S Z (store3 [T] [T₃]) (residualT2b amplitudes3 hbar1R stored) [a, b, i, j]
    = value S Z (store3 [T] [T₃]) (residualT2b amplitudes3 hbar1 stored) [a, b, i, j] :=
  equalC_sound hC hZ (mem_one hT) (mem_one hs) (mem_one hT₃) (mem_one hs₃) equal_t2b (env [1, 5, 8, 12] [a, b, i, j])

theorem closed_t3a (a b c i j k : ℕ) : value S Z (store3 [T] [T₃]) (residualT3a amplitudes3 hbar2R stored) [a, b, c, i, j, k]
    = value S Z (store3 [T] [T₃]) (residualT3a amplitudes3 hbar2 stored) [a, b, c, i, j, k] :=
  equalC_sound hC hZ (mem_one hT) (mem_one hs) (mem_one hT₃) (mem_one hs₃) equal_t3a (env [1, 5, 9, 12, 16, 20] [a, b, c, i, j, k])

theorem closed_t3b (a b c i j k : ℕ) : value S Z (store3 [T] [T₃]) (residualT3b amplitudes3 hbar2R stored) [a, b, c, i, j, k]
    = value S Z (store3 [T] [T₃]) (residualT3b amplitudes3 hbar2 stored) [a, b, c, i, j, k] :=
  equalC_sound hC hZ (mem_one hT) (mem_one hs) (mem_one hT₃) (mem_one hs₃) equal_t3b (env [1, 5, 9, 12, 16, 20] [a, b, c, i, j, k])

theorem reversed_t1 (h : S.Proper) {a i : ℕ} (ha : a < S.ua) (hi : i < S.na) :
    S.element (S.singleB a i) (transformed3 S Z T T₃) = S.element (S.singleA a i) (transformed3 S Z T T₃) := by
  have hu : S.ub = S.ua := by unfold Orbitals.ub Orbitals.ua; rw [hC.electrons]
  have e := value_t1a (S.flip_proper h) hZ hT hT₃ (a := a) (i := i) (show a < S.ub from hu ▸ ha) (show i < S.nb from hC.electrons ▸ hi)
  simp only [flip_value hC] at e
  rw [value_t1a h hZ hT hT₃ ha hi, flip_element, flip_transformed3 hC hs hs₃] at e
  rw [e, Orbitals.singleA, S.flip_ref]
  rfl

theorem reversed_t2 (h : S.Proper) {a b i j : ℕ} (ha : a < S.ua) (hb : b < S.ua) (hi : i < S.na) (hj : j < S.na) :
    S.element (S.doubleBB a b i j) (transformed3 S Z T T₃) = S.element (S.doubleAA a b i j) (transformed3 S Z T T₃) := by
  have hu : S.ub = S.ua := by unfold Orbitals.ub Orbitals.ua; rw [hC.electrons]
  have e := value_t2a (S.flip_proper h) hZ hT hT₃ (a := a) (b := b) (i := i) (j := j) (show a < S.ub from hu ▸ ha)
    (show b < S.ub from hu ▸ hb) (show i < S.nb from hC.electrons ▸ hi) (show j < S.nb from hC.electrons ▸ hj)
  simp only [flip_value hC] at e
  rw [value_t2a h hZ hT hT₃ ha hb hi hj, flip_element, flip_transformed3 hC hs hs₃] at e
  rw [e, Orbitals.doubleAA, S.flip_ref]
  rfl

theorem reversed_t3 (h : S.Proper) {a b c i j k : ℕ} (ha : a < S.ua) (hb : b < S.ua) (hc : c < S.ua) (hi : i < S.na) (hj : j < S.na)
    (hk : k < S.na) :
    S.element (S.tripleBBB a b c i j k) (transformed3 S Z T T₃) = S.element (S.tripleAAA a b c i j k) (transformed3 S Z T T₃) := by
  have hu : S.ub = S.ua := by unfold Orbitals.ub Orbitals.ua; rw [hC.electrons]
  have e := value_t3a (S.flip_proper h) hZ hT hT₃ (a := a) (b := b) (c := c) (i := i) (j := j) (k := k)
    (show a < S.ub from hu ▸ ha) (show b < S.ub from hu ▸ hb) (show c < S.ub from hu ▸ hc) (show i < S.nb from hC.electrons ▸ hi)
    (show j < S.nb from hC.electrons ▸ hj) (show k < S.nb from hC.electrons ▸ hk)
  simp only [flip_value hC] at e
  rw [value_t3a h hZ hT hT₃ ha hb hc hi hj hk, flip_element, flip_transformed3 hC hs hs₃] at e
  rw [e, Orbitals.tripleAAA, S.flip_ref]
  rfl

theorem reversed_t3' (h : S.Proper) {a b c i j k : ℕ} (ha : a < S.ua) (hb : b < S.ub) (hc : c < S.ub) (hi : i < S.na) (hj : j < S.nb)
    (hk : k < S.nb) :
    S.element (S.tripleABB a b c i j k) (transformed3 S Z T T₃) = S.element (S.tripleAAB b c a j k i) (transformed3 S Z T T₃) := by
  have hu : S.ub = S.ua := by unfold Orbitals.ub Orbitals.ua; rw [hC.electrons]
  have e := value_t3b (S.flip_proper h) hZ hT hT₃ (a := b) (b := c) (c := a) (i := j) (j := k) (k := i) hb hc ha hj hk hi
  simp only [flip_value hC] at e
  rw [value_t3b h hZ hT hT₃ (hu ▸ hb) (hu ▸ hc) (hu.symm ▸ ha) (hC.electrons ▸ hj) (hC.electrons ▸ hk) (hC.electrons.symm ▸ hi),
    flip_element, flip_transformed3 hC hs hs₃] at e
  rw [e, Orbitals.tripleAAB, S.flip_ref]
  refine congrArg (fun D => S.element D _) ?_
  exact (LinearMap.congr_fun (exchange_triples (S.virB b) (S.virB c) (S.virA a) (S.occA i) (S.occB k) (S.occB j)) S.ref).symm

end

/-! ### Stages -/

section
variable (X : Ints)
def ints1R : Ints := getPreCcsIntermediates X amplitudes3.toAmps stored true
def ints2R : Ints := getCcsIntermediatesOpt (ints1R X) stage2.toAmps stored true
def ints3R : Ints := HbarCcsd.getCcsdIntermediates stage5.toAmps (ints2R X) stored true

set_option maxRecDepth 100000
theorem renameR_t1a : (residualT1a amplitudes3 (ints1R X) stored).rename (backName 0) = residualT1a amplitudes3 preR stored := by rfl
theorem cleanR_t1a : (residualT1a amplitudes3 preR stored).rename clean = residualT1a amplitudes3 preR stored := by rfl
theorem renameR_t2a : (residualT2a stage2 (ints2R X) stored).rename (backName 2) = residualT2a amplitudes3 hbar1R stored := by rfl
theorem cleanR_t2a : (residualT2a amplitudes3 hbar1R stored).rename clean = residualT2a amplitudes3 hbar1R stored := by rfl
theorem renameR_t2b : (residualT2b stage3 (ints2R X) stored).rename (backName 3) = residualT2b amplitudes3 hbar1R stored := by rfl
theorem cleanR_t2b : (residualT2b amplitudes3 hbar1R stored).rename clean = residualT2b amplitudes3 hbar1R stored := by rfl
theorem renameR_t3a : (residualT3a stage5 (ints3R X) stored).rename (backName 5) = residualT3a amplitudes3 hbar2R stored := by rfl
theorem cleanR_t3a : (residualT3a amplitudes3 hbar2R stored).rename clean = residualT3a amplitudes3 hbar2R stored := by rfl
theorem renameR_t3b : (residualT3b stage6 (ints3R X) stored).rename (backName 6) = residualT3b amplitudes3 hbar2R stored := by rfl
theorem cleanR_t3b : (residualT3b amplitudes3 hbar2R stored).rename clean = residualT3b amplitudes3 hbar2R stored := by rfl
end

theorem copied_t3a {T : Cluster} {T₃ : Triples} (hs₃ : T₃.Symmetric) : store3 [T] [T₃] 106 = store3 [T] [T₃] 109 := by
  funext l
  show T₃.amp 106 l = T₃.amp 109 l
  match l with
  | [] | [_] | [_, _] | [_, _, _] | [_, _, _, _] | [_, _, _, _, _] | _ :: _ :: _ :: _ :: _ :: _ :: _ :: _ => rfl
  | [a, b, c, i, j, k] => exact congrArg (fun f => f a b c i j k) hs₃.aaa.symm

theorem copied_t3b {T : Cluster} {T₃ : Triples} (hT₃ : T₃.Antisym) (hs₃ : T₃.Symmetric) :
    reversed (store3 [T] [T₃] 107) = store3 [T] [T₃] 108 := by
  funext l
  match l with
  | [] | [_] | [_, _] | [_, _, _] | [_, _, _, _] | [_, _, _, _, _] | _ :: _ :: _ :: _ :: _ :: _ :: _ :: _ => rfl
  | [a, b, c, i, j, k] =>
    show T₃.tAAB c b a k j i = T₃.tABB a b c i j k
    rw [hs₃.aab, (hT₃.aab b c a k j i).1, (hT₃.aab b c a j k i).2, neg_neg]

/-- The stages of the restricted iteration. -/
def programR (s : Setup) (X : Ints) : List (Memory → (List ℕ → ℚ) × (List ℕ → ℚ)) :=
  [fun m => callT1a s (s.eval m (residualT1a amplitudes3 (ints1R X) stored)) (m 6),
   fun m => (m 11, m 16),
   fun m => callT2a s (s.eval m (residualT2a stage2 (ints2R X) stored)) (m 8),
   fun m => callT2b s (s.eval m (residualT2b stage3 (ints2R X) stored)) (m 9),
   fun m => (m 13, m 18),
   fun m => callT3a s (s.eval m (residualT3a stage5 (ints3R X) stored)) (m 106),
   fun m => callT3b s (s.eval m (residualT3b stage6 (ints3R X) stored)) (m 107),
   fun m => (reversed (m 111), reversed (m 115)),
   fun m => (m 110, m 114)]

theorem updateRhf_eq (s : Setup) (X : Ints) (m : Memory) : updateRhf s X m = stages m (programR s X) 1 := by
  delta updateRhf
  extract_lets T X₁ m₁ T₁ m₂ T₂ X₂ m₃ T₃ m₄ T₄ m₅ T₅ X₃ m₆ T₆ m₇ m₈
  have e₁ : stages m (programR s X) 1 = stages m₁ ((programR s X).drop 1) 2 := rfl
  have e₂ : stages m₁ ((programR s X).drop 1) 2 = stages m₂ ((programR s X).drop 2) 3 := rfl
  have e₃ : stages m₂ ((programR s X).drop 2) 3 = stages m₃ ((programR s X).drop 3) 4 := rfl
  have e₄ : stages m₃ ((programR s X).drop 3) 4 = stages m₄ ((programR s X).drop 4) 5 := rfl
  have e₅ : stages m₄ ((programR s X).drop 4) 5 = stages m₅ ((programR s X).drop 5) 6 := rfl
  have e₆ : stages m₅ ((programR s X).drop 5) 6 = stages m₆ ((programR s X).drop 6) 7 := rfl
  have e₇ : stages m₆ ((programR s X).drop 6) 7 = stages m₇ ((programR s X).drop 7) 8 := rfl
  have e₈ : stages m₇ ((programR s X).drop 7) 8 = stages m₈ ((programR s X).drop 8) 9 := rfl
  rw [e₁, e₂, e₃, e₄, e₅, e₆, e₇, e₈]
  rfl

section
variable {S : Orbitals ι} (h : S.Proper) {Z : Fock.Integrals} (hC : ClosedShell S Z) (hZ : Z.Antisym) {T : Cluster} (hT : T.Antisym)
  (hs : T.Symmetric) {T₃ : Triples} (hT₃ : T₃.Antisym) (hs₃ : T₃.Symmetric) {shift : ℚ} (hd : Denominators3 (setup S Z shift))
  (X : Ints) {m : Memory} (hm : ∀ n, ¬ Reserved n → m n = store3 [T] [T₃] n)
include h hC hZ hT hs hT₃ hs₃ hd hm

theorem restR_t1a (hk : ∀ n, m n = m (backName 0 n)) :
    (callT1a (setup S Z shift) ((setup S Z shift).eval m (residualT1a amplitudes3 (ints1R X) stored)) (m 6)).1
      = store3 [T] [T₃] 6 ↔ ∀ a i, a < S.ua → i < S.na →
        S.element (S.singleA a i) (transformed3 S Z T T₃) = 0 := by
  have e : (setup S Z shift).eval m (residualT1a amplitudes3 preR stored)
      = value S Z (store3 [T] [T₃]) (residualT1a amplitudes3 preR stored) := eval_clean hm cleanR_t1a
  have c := closed_t1a hC hZ hT hs hT₃ hs₃
  rw [eval_backName _ hk, renameR_t1a, e, hm 6 (by unfold Reserved; omega), (calledT1a _ _ _ hd.a).fixed_iff hd.a]
  exact forall₄_congr fun a i ha hi => by
    rw [← value_t1a h hZ hT hT₃ ha hi, antisymmetrize_one, c]; rfl

theorem restR_t2a (hk : ∀ n, m n = m (backName 2 n)) :
    (callT2a (setup S Z shift) ((setup S Z shift).eval m (residualT2a stage2 (ints2R X) stored)) (m 8)).1
      = store3 [T] [T₃] 8 ↔ ∀ a b i j, a < S.ua → b < S.ua → i < S.na → j < S.na →
        S.element (S.doubleAA a b i j) (transformed3 S Z T T₃) = 0 := by
  have e : (setup S Z shift).eval m (residualT2a amplitudes3 hbar1R stored)
      = value S Z (store3 [T] [T₃]) (residualT2a amplitudes3 hbar1R stored) := eval_clean hm cleanR_t2a
  have c := closed_t2a hC hZ hT hs hT₃ hs₃
  rw [eval_backName _ hk, renameR_t2a, e, hm 8 (by unfold Reserved; omega), (calledT2a _ _ _ hT.aa (fun _ _ _ _ => rfl) hd.aa).fixed_iff hd.aa]
  exact forall₄_congr fun a b i j => forall₄_congr fun ha hb hi hj => by
    rw [← value_t2a h hZ hT hT₃ ha hb hi hj, antisymmetrize_two]
    unfold exchange
    simp only [c]
    rfl

theorem restR_t2b (hk : ∀ n, m n = m (backName 3 n)) :
    (callT2b (setup S Z shift) ((setup S Z shift).eval m (residualT2b stage3 (ints2R X) stored)) (m 9)).1
      = store3 [T] [T₃] 9 ↔ ∀ a b i j, a < S.ua → b < S.ub → i < S.na → j < S.nb →
        S.element (S.doubleAB a b i j) (transformed3 S Z T T₃) = 0 := by
  have e : (setup S Z shift).eval m (residualT2b amplitudes3 hbar1R stored)
      = value S Z (store3 [T] [T₃]) (residualT2b amplitudes3 hbar1R stored) := eval_clean hm cleanR_t2b
  have c := closed_t2b hC hZ hT hs hT₃ hs₃
  rw [eval_backName _ hk, renameR_t2b, e, hm 9 (by unfold Reserved; omega), (calledT2b _ _ _ hd.ab).fixed_iff hd.ab]
  exact forall₄_congr fun a b i j => forall₄_congr fun ha hb hi hj => by
    rw [← value_t2b h hZ hT hT₃ ha hb hi hj, antisymmetrize_ab]
    unfold noExchange
    rw [c]
    rfl

theorem restR_t3a (hk : ∀ n, m n = m (backName 5 n)) :
    (callT3a (setup S Z shift) ((setup S Z shift).eval m (residualT3a stage5 (ints3R X) stored)) (m 106)).1
      = store3 [T] [T₃] 106 ↔ ∀ a b c i j k, a < S.ua → b < S.ua → c < S.ua → i < S.na → j < S.na → k < S.na →
        S.element (S.tripleAAA a b c i j k) (transformed3 S Z T T₃) = 0 := by
  have e : (setup S Z shift).eval m (residualT3a amplitudes3 hbar2R stored)
      = value S Z (store3 [T] [T₃]) (residualT3a amplitudes3 hbar2R stored) := eval_clean hm cleanR_t3a
  have c := closed_t3a hC hZ hT hs hT₃ hs₃
  rw [eval_backName _ hk, renameR_t3a, e, hm 106 (by unfold Reserved; omega), (calledT3a _ (antisym_aaa (fun _ _ _ _ _ _ => rfl) hT₃.aaa) hd.aaa).fixed_iff hd.aaa]
  have c' : (fun x : (Fin 3 → ℕ) × (Fin 3 → ℕ) => value S Z (store3 [T] [T₃]) (residualT3a amplitudes3 hbar2R stored) (listed x))
      = fun x => value S Z (store3 [T] [T₃]) (residualT3a amplitudes3 hbar2 stored) (listed x) := by
    funext x
    exact c (x.1 0) (x.1 1) (x.1 2) (x.2 0) (x.2 1) (x.2 2)
  rw [c']
  constructor
  · intro g a b c i j k ha hb hc hi hj hk
    rw [← value_t3a h hZ hT hT₃ ha hb hc hi hj hk]
    exact g (![a, b, c], ![i, j, k]) ⟨fun x => by fin_cases x <;> assumption, fun x => by fin_cases x <;> assumption⟩
  · rintro g ⟨P, H⟩ hk
    obtain ⟨a, b, c, rfl⟩ : ∃ a b c, P = ![a, b, c] := ⟨P 0, P 1, P 2, by funext x; fin_cases x <;> rfl⟩
    obtain ⟨i, j, k, rfl⟩ : ∃ i j k, H = ![i, j, k] := ⟨H 0, H 1, H 2, by funext x; fin_cases x <;> rfl⟩
    have e := g a b c i j k (hk.1 0) (hk.1 1) (hk.1 2) (hk.2 0) (hk.2 1) (hk.2 2)
    exact (value_t3a (a := a) (b := b) (c := c) (i := i) (j := j) (k := k) h hZ hT hT₃ (hk.1 0) (hk.1 1) (hk.1 2) (hk.2 0)
      (hk.2 1) (hk.2 2)).trans e

theorem restR_t3b (hk : ∀ n, m n = m (backName 6 n)) :
    (callT3b (setup S Z shift) ((setup S Z shift).eval m (residualT3b stage6 (ints3R X) stored)) (m 107)).1
      = store3 [T] [T₃] 107 ↔ ∀ a b c i j k, a < S.ua → b < S.ua → c < S.ub → i < S.na → j < S.na → k < S.nb →
        S.element (S.tripleAAB a b c i j k) (transformed3 S Z T T₃) = 0 := by
  have e : (setup S Z shift).eval m (residualT3b amplitudes3 hbar2R stored)
      = value S Z (store3 [T] [T₃]) (residualT3b amplitudes3 hbar2R stored) := eval_clean hm cleanR_t3b
  have c := closed_t3b hC hZ hT hs hT₃ hs₃
  rw [eval_backName _ hk, renameR_t3b, e, hm 107 (by unfold Reserved; omega), (calledT3b _ (antisym_aab (fun _ _ _ _ _ _ => rfl) hT₃.aab) hd.aab).fixed_iff hd.aab]
  have c' : (fun x : (Fin 3 → ℕ) × (Fin 3 → ℕ) => value S Z (store3 [T] [T₃]) (residualT3b amplitudes3 hbar2R stored) (listed x))
      = fun x => value S Z (store3 [T] [T₃]) (residualT3b amplitudes3 hbar2 stored) (listed x) := by
    funext x
    exact c (x.1 0) (x.1 1) (x.1 2) (x.2 0) (x.2 1) (x.2 2)
  rw [c']
  constructor
  · intro g a b c i j k ha hb hc hi hj hk
    rw [← value_t3b h hZ hT hT₃ ha hb hc hi hj hk]
    exact g (![a, b, c], ![i, j, k]) ⟨fun x => by fin_cases x <;> assumption, fun x => by fin_cases x <;> assumption⟩
  · rintro g ⟨P, H⟩ hk
    obtain ⟨a, b, c, rfl⟩ : ∃ a b c, P = ![a, b, c] := ⟨P 0, P 1, P 2, by funext x; fin_cases x <;> rfl⟩
    obtain ⟨i, j, k, rfl⟩ : ∃ i j k, H = ![i, j, k] := ⟨H 0, H 1, H 2, by funext x; fin_cases x <;> rfl⟩
    have e := g a b c i j k (hk.1 0) (hk.1 1) (hk.1 2) (hk.2 0) (hk.2 1) (hk.2 2)
    exact (value_t3b (a := a) (b := b) (c := c) (i := i) (j := j) (k := k) h hZ hT hT₃ (hk.1 0) (hk.1 1) (hk.1 2) (hk.2 0)
      (hk.2 1) (hk.2 2)).trans e

end

end Ccpy.Ccsdt
