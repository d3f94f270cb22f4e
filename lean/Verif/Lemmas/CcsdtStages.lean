import Verif.Lemmas.Ccsdt
import Verif.Props.Ccsd

/-! The stages of a CCSDT iteration are at rest exactly when the projections vanish. -/

namespace Ccpy.Tensor

/-- A stage stores what it computes from a memory in which the old amplitudes are unchanged. -/
theorem stages_get : ∀ (Fs : List (Memory → (List ℕ → ℚ) × (List ℕ → ℚ))) (m : Memory) {k : ℕ}, 1 ≤ k → k + Fs.length ≤ 10 →
    ∀ (j : ℕ) (hj : j < Fs.length), ∃ m' : Memory, (∀ n, ¬ Reserved n → m' n = m n)
      ∧ stages m Fs k (newName (k + j)) = (Fs[j] m').1 ∧ stages m Fs k (incName (k + j)) = (Fs[j] m').2
  | F :: Fs, m, k, h₁, h₂, 0, hj => by
    rw [List.length_cons] at h₂
    obtain ⟨e₁, e₂⟩ := stages_keep Fs (put m k (F m)) (k := k + 1) (j := k) h₁ (by omega) (by omega)
    refine ⟨m, fun _ _ => rfl, e₁.trans (put_new m h₁ (by omega) _), e₂.trans ?_⟩
    unfold put
    rw [Function.update_self]
    rfl
  | F :: Fs, m, k, h₁, h₂, j + 1, hj => by
    rw [List.length_cons] at h₂ hj
    obtain ⟨m', e₁, e₂⟩ := stages_get Fs (put m k (F m)) (k := k + 1) (by omega) (by omega) j (by omega)
    refine ⟨m', fun n hn => (e₁ n hn).trans (put_old m h₁ (by omega) _ hn), ?_⟩
    rw [show k + (j + 1) = k + 1 + j by omega]
    exact e₂

end Ccpy.Tensor

namespace Ccpy.Ccsdt
open Ccpy.Fock Ccpy.Tensor Ccpy.Engine Ccpy.HbarCcs Ccpy.UpdateKernels Ccpy.Spec Ccpy.Writes Ccpy.Ccsd

/-- The shifted energy denominators that the kernels divide by are not zero. -/
structure Denominators3 (s : Setup) : Prop extends Denominators s where
  aaa : ∀ k, s.Fits ![false, false, false] ![false, false, false] k →
    energyDifference ![false, false, false] ![false, false, false] s.eo s.ev k - s.shift ≠ 0
  aab : ∀ k, s.Fits ![false, false, true] ![false, false, true] k →
    energyDifference ![false, false, true] ![false, false, true] s.eo s.ev k - s.shift ≠ 0
  abb : ∀ k, s.Fits ![false, true, true] ![false, true, true] k →
    energyDifference ![false, true, true] ![false, true, true] s.eo s.ev k - s.shift ≠ 0
  bbb : ∀ k, s.Fits ![true, true, true] ![true, true, true] k →
    energyDifference ![true, true, true] ![true, true, true] s.eo s.ev k - s.shift ≠ 0

variable {ι : Type*} [LinearOrder ι]

section
variable {S : Orbitals ι} (h : S.Proper) {Z : Fock.Integrals} (hZ : Z.Antisym) {T : Cluster} (hT : T.Antisym)
  {T₃ : Triples} (hT₃ : T₃.Antisym) {shift : ℚ} (hd : Denominators3 (setup S Z shift)) (X : Ints) {m : Memory}
  (hm : ∀ n, ¬ Reserved n → m n = store3 [T] [T₃] n)
include h hZ hT hT₃ hd hm

theorem rest_t1a (hs : ∀ n, m n = m (backName 0 n)) :
    (callT1a (setup S Z shift) ((setup S Z shift).eval m (residualT1a amplitudes3 (ints1 X) stored)) (m 6)).1
      = store3 [T] [T₃] 6 ↔ ∀ a i, a < S.ua → i < S.na →
        S.element (S.singleA a i) (transformed3 S Z T T₃) = 0 := by
  have e : (setup S Z shift).eval m (residualT1a amplitudes3 pre stored) = value S Z (store3 [T] [T₃]) (residualT1a amplitudes3 pre stored) :=
    eval_clean hm clean_t1a
  rw [eval_backName _ hs, rename_t1a, e, hm 6 (by unfold Reserved; omega), (calledT1a _ _ _ hd.a).fixed_iff hd.a]
  exact forall₄_congr fun a i ha hi => by
    rw [← value_t1a h hZ hT hT₃ ha hi, antisymmetrize_one]; rfl

theorem rest_t1b (hs : ∀ n, m n = m (backName 1 n)) :
    (callT1b (setup S Z shift) ((setup S Z shift).eval m (residualT1b stage1 (ints1 X) stored)) (m 7)).1
      = store3 [T] [T₃] 7 ↔ ∀ a i, a < S.ub → i < S.nb →
        S.element (S.singleB a i) (transformed3 S Z T T₃) = 0 := by
  have e : (setup S Z shift).eval m (residualT1b amplitudes3 pre stored) = value S Z (store3 [T] [T₃]) (residualT1b amplitudes3 pre stored) :=
    eval_clean hm clean_t1b
  rw [eval_backName _ hs, rename_t1b, e, hm 7 (by unfold Reserved; omega), (calledT1b _ _ _ hd.b).fixed_iff hd.b]
  exact forall₄_congr fun a i ha hi => by
    rw [← value_t1b h hZ hT hT₃ ha hi, antisymmetrize_one]; rfl

theorem rest_t2a (hs : ∀ n, m n = m (backName 2 n)) :
    (callT2a (setup S Z shift) ((setup S Z shift).eval m (residualT2a stage2 (ints2 X) stored)) (m 8)).1
      = store3 [T] [T₃] 8 ↔ ∀ a b i j, a < S.ua → b < S.ua → i < S.na → j < S.na →
        S.element (S.doubleAA a b i j) (transformed3 S Z T T₃) = 0 := by
  have e : (setup S Z shift).eval m (residualT2a amplitudes3 hbar1 stored) = value S Z (store3 [T] [T₃]) (residualT2a amplitudes3 hbar1 stored) :=
    eval_clean hm clean_t2a
  rw [eval_backName _ hs, rename_t2a, e, hm 8 (by unfold Reserved; omega), (calledT2a _ _ _ hT.aa (fun _ _ _ _ => rfl) hd.aa).fixed_iff hd.aa]
  exact forall₄_congr fun a b i j => forall₄_congr fun ha hb hi hj => by
    rw [← value_t2a h hZ hT hT₃ ha hb hi hj, antisymmetrize_two]; rfl

theorem rest_t2b (hs : ∀ n, m n = m (backName 3 n)) :
    (callT2b (setup S Z shift) ((setup S Z shift).eval m (residualT2b stage3 (ints2 X) stored)) (m 9)).1
      = store3 [T] [T₃] 9 ↔ ∀ a b i j, a < S.ua → b < S.ub → i < S.na → j < S.nb →
        S.element (S.doubleAB a b i j) (transformed3 S Z T T₃) = 0 := by
  have e : (setup S Z shift).eval m (residualT2b amplitudes3 hbar1 stored) = value S Z (store3 [T] [T₃]) (residualT2b amplitudes3 hbar1 stored) :=
    eval_clean hm clean_t2b
  rw [eval_backName _ hs, rename_t2b, e, hm 9 (by unfold Reserved; omega), (calledT2b _ _ _ hd.ab).fixed_iff hd.ab]
  exact forall₄_congr fun a b i j => forall₄_congr fun ha hb hi hj => by
    rw [← value_t2b h hZ hT hT₃ ha hb hi hj, antisymmetrize_ab]; rfl

theorem rest_t2c (hs : ∀ n, m n = m (backName 4 n)) :
    (callT2c (setup S Z shift) ((setup S Z shift).eval m (residualT2c stage4 (ints2 X) stored)) (m 10)).1
      = store3 [T] [T₃] 10 ↔ ∀ a b i j, a < S.ub → b < S.ub → i < S.nb → j < S.nb →
        S.element (S.doubleBB a b i j) (transformed3 S Z T T₃) = 0 := by
  have e : (setup S Z shift).eval m (residualT2c amplitudes3 hbar1 stored) = value S Z (store3 [T] [T₃]) (residualT2c amplitudes3 hbar1 stored) :=
    eval_clean hm clean_t2c
  rw [eval_backName _ hs, rename_t2c, e, hm 10 (by unfold Reserved; omega), (calledT2c _ _ _ hT.bb (fun _ _ _ _ => rfl) hd.bb).fixed_iff hd.bb]
  exact forall₄_congr fun a b i j => forall₄_congr fun ha hb hi hj => by
    rw [← value_t2c h hZ hT hT₃ ha hb hi hj, antisymmetrize_two]; rfl

theorem rest_t3a (hs : ∀ n, m n = m (backName 5 n)) :
    (callT3a (setup S Z shift) ((setup S Z shift).eval m (residualT3a stage5 (ints3 X) stored)) (m 106)).1
      = store3 [T] [T₃] 106 ↔ ∀ a b c i j k, a < S.ua → b < S.ua → c < S.ua → i < S.na → j < S.na → k < S.na →
        S.element (S.tripleAAA a b c i j k) (transformed3 S Z T T₃) = 0 := by
  have e : (setup S Z shift).eval m (residualT3a amplitudes3 hbar2 stored) = value S Z (store3 [T] [T₃]) (residualT3a amplitudes3 hbar2 stored) :=
    eval_clean hm clean_t3a
  rw [eval_backName _ hs, rename_t3a, e, hm 106 (by unfold Reserved; omega), (calledT3a _ (antisym_aaa (fun _ _ _ _ _ _ => rfl) hT₃.aaa) hd.aaa).fixed_iff hd.aaa]
  constructor
  · intro g a b c i j k ha hb hc hi hj hk
    rw [← value_t3a h hZ hT hT₃ ha hb hc hi hj hk]
    exact g (![a, b, c], ![i, j, k]) ⟨fun x => by fin_cases x <;> assumption, fun x => by fin_cases x <;> assumption⟩
  · rintro g ⟨P, H⟩ hk
    obtain ⟨a, b, c, rfl⟩ : ∃ a b c, P = ![a, b, c] := ⟨P 0, P 1, P 2, by funext x; fin_cases x <;> rfl⟩
    obtain ⟨i, j, k, rfl⟩ : ∃ i j k, H = ![i, j, k] := ⟨H 0, H 1, H 2, by funext x; fin_cases x <;> rfl⟩
    have e := g a b c i j k (hk.1 0) (hk.1 1) (hk.1 2) (hk.2 0) (hk.2 1) (hk.2 2)
    exact (value_t3a (a := a) (b := b) (c := c) (i := i) (j := j) (k := k) h hZ hT hT₃ (hk.1 0) (hk.1 1) (hk.1 2) (hk.2 0)
      (hk.2 1) (hk.2 2)).trans e

theorem rest_t3b (hs : ∀ n, m n = m (backName 6 n)) :
    (callT3b (setup S Z shift) ((setup S Z shift).eval m (residualT3b stage6 (ints3 X) stored)) (m 107)).1
      = store3 [T] [T₃] 107 ↔ ∀ a b c i j k, a < S.ua → b < S.ua → c < S.ub → i < S.na → j < S.na → k < S.nb →
        S.element (S.tripleAAB a b c i j k) (transformed3 S Z T T₃) = 0 := by
  have e : (setup S Z shift).eval m (residualT3b amplitudes3 hbar2 stored) = value S Z (store3 [T] [T₃]) (residualT3b amplitudes3 hbar2 stored) :=
    eval_clean hm clean_t3b
  rw [eval_backName _ hs, rename_t3b, e, hm 107 (by unfold Reserved; omega), (calledT3b _ (antisym_aab (fun _ _ _ _ _ _ => rfl) hT₃.aab) hd.aab).fixed_iff hd.aab]
  constructor
  · intro g a b c i j k ha hb hc hi hj hk
    rw [← value_t3b h hZ hT hT₃ ha hb hc hi hj hk]
    exact g (![a, b, c], ![i, j, k]) ⟨fun x => by fin_cases x <;> assumption, fun x => by fin_cases x <;> assumption⟩
  · rintro g ⟨P, H⟩ hk
    obtain ⟨a, b, c, rfl⟩ : ∃ a b c, P = ![a, b, c] := ⟨P 0, P 1, P 2, by funext x; fin_cases x <;> rfl⟩
    obtain ⟨i, j, k, rfl⟩ : ∃ i j k, H = ![i, j, k] := ⟨H 0, H 1, H 2, by funext x; fin_cases x <;> rfl⟩
    have e := g a b c i j k (hk.1 0) (hk.1 1) (hk.1 2) (hk.2 0) (hk.2 1) (hk.2 2)
    exact (value_t3b (a := a) (b := b) (c := c) (i := i) (j := j) (k := k) h hZ hT hT₃ (hk.1 0) (hk.1 1) (hk.1 2) (hk.2 0)
      (hk.2 1) (hk.2 2)).trans e

theorem rest_t3c (hs : ∀ n, m n = m (backName 7 n)) :
    (callT3c (setup S Z shift) ((setup S Z shift).eval m (residualT3c stage7 (ints3 X) stored)) (m 108)).1
      = store3 [T] [T₃] 108 ↔ ∀ a b c i j k, a < S.ua → b < S.ub → c < S.ub → i < S.na → j < S.nb → k < S.nb →
        S.element (S.tripleABB a b c i j k) (transformed3 S Z T T₃) = 0 := by
  have e : (setup S Z shift).eval m (residualT3c amplitudes3 hbar2 stored) = value S Z (store3 [T] [T₃]) (residualT3c amplitudes3 hbar2 stored) :=
    eval_clean hm clean_t3c
  rw [eval_backName _ hs, rename_t3c, e, hm 108 (by unfold Reserved; omega), (calledT3c _ (antisym_abb (fun _ _ _ _ _ _ => rfl) hT₃.abb) hd.abb).fixed_iff hd.abb]
  constructor
  · intro g a b c i j k ha hb hc hi hj hk
    rw [← value_t3c h hZ hT hT₃ ha hb hc hi hj hk]
    exact g (![a, b, c], ![i, j, k]) ⟨fun x => by fin_cases x <;> assumption, fun x => by fin_cases x <;> assumption⟩
  · rintro g ⟨P, H⟩ hk
    obtain ⟨a, b, c, rfl⟩ : ∃ a b c, P = ![a, b, c] := ⟨P 0, P 1, P 2, by funext x; fin_cases x <;> rfl⟩
    obtain ⟨i, j, k, rfl⟩ : ∃ i j k, H = ![i, j, k] := ⟨H 0, H 1, H 2, by funext x; fin_cases x <;> rfl⟩
    have e := g a b c i j k (hk.1 0) (hk.1 1) (hk.1 2) (hk.2 0) (hk.2 1) (hk.2 2)
    exact (value_t3c (a := a) (b := b) (c := c) (i := i) (j := j) (k := k) h hZ hT hT₃ (hk.1 0) (hk.1 1) (hk.1 2) (hk.2 0)
      (hk.2 1) (hk.2 2)).trans e

theorem rest_t3d (hs : ∀ n, m n = m (backName 8 n)) :
    (callT3d (setup S Z shift) ((setup S Z shift).eval m (residualT3d stage8 (ints3 X) stored)) (m 109)).1
      = store3 [T] [T₃] 109 ↔ ∀ a b c i j k, a < S.ub → b < S.ub → c < S.ub → i < S.nb → j < S.nb → k < S.nb →
        S.element (S.tripleBBB a b c i j k) (transformed3 S Z T T₃) = 0 := by
  have e : (setup S Z shift).eval m (residualT3d amplitudes3 hbar2 stored) = value S Z (store3 [T] [T₃]) (residualT3d amplitudes3 hbar2 stored) :=
    eval_clean hm clean_t3d
  rw [eval_backName _ hs, rename_t3d, e, hm 109 (by unfold Reserved; omega), (calledT3d _ (antisym_aaa (fun _ _ _ _ _ _ => rfl) hT₃.bbb) hd.bbb).fixed_iff hd.bbb]
  constructor
  · intro g a b c i j k ha hb hc hi hj hk
    rw [← value_t3d h hZ hT hT₃ ha hb hc hi hj hk]
    exact g (![a, b, c], ![i, j, k]) ⟨fun x => by fin_cases x <;> assumption, fun x => by fin_cases x <;> assumption⟩
  · rintro g ⟨P, H⟩ hk
    obtain ⟨a, b, c, rfl⟩ : ∃ a b c, P = ![a, b, c] := ⟨P 0, P 1, P 2, by funext x; fin_cases x <;> rfl⟩
    obtain ⟨i, j, k, rfl⟩ : ∃ i j k, H = ![i, j, k] := ⟨H 0, H 1, H 2, by funext x; fin_cases x <;> rfl⟩
    have e := g a b c i j k (hk.1 0) (hk.1 1) (hk.1 2) (hk.2 0) (hk.2 1) (hk.2 2)
    exact (value_t3d (a := a) (b := b) (c := c) (i := i) (j := j) (k := k) h hZ hT hT₃ (hk.1 0) (hk.1 1) (hk.1 2) (hk.2 0)
      (hk.2 1) (hk.2 2)).trans e

end

end Ccpy.Ccsdt
