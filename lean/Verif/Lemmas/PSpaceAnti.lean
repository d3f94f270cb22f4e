import Verif.Lemmas.PSpaceInter

/-! Antisymmetry of the arrays and of the listed triple excitations. -/

namespace Ccpy.PSpace
open Ccpy.Fock
open Finset (range)

/-- The arrays change sign with the exchange of two orbitals of equal spin. -/
structure Dressed.Anti (X : Dressed) : Prop where
  aa_t_v : ∀ a b i j, X.t_aa b a i j = -X.t_aa a b i j
  aa_t_o : ∀ a b i j, X.t_aa a b j i = -X.t_aa a b i j
  aa_oovv_o : ∀ m n e f, X.aa_oovv n m e f = -X.aa_oovv m n e f
  aa_oovv_v : ∀ m n e f, X.aa_oovv m n f e = -X.aa_oovv m n e f
  aa_vooo : ∀ a m i j, X.aa_vooo a m j i = -X.aa_vooo a m i j
  aa_vvov : ∀ a b i e, X.aa_vvov b a i e = -X.aa_vvov a b i e
  aa_oooo_l : ∀ m n i j, X.aa_oooo n m i j = -X.aa_oooo m n i j
  aa_oooo_r : ∀ m n i j, X.aa_oooo m n j i = -X.aa_oooo m n i j
  aa_vvvv_l : ∀ m n i j, X.aa_vvvv n m i j = -X.aa_vvvv m n i j
  aa_vvvv_r : ∀ m n i j, X.aa_vvvv m n j i = -X.aa_vvvv m n i j
  bb_t_v : ∀ a b i j, X.t_bb b a i j = -X.t_bb a b i j
  bb_t_o : ∀ a b i j, X.t_bb a b j i = -X.t_bb a b i j
  bb_oovv_o : ∀ m n e f, X.bb_oovv n m e f = -X.bb_oovv m n e f
  bb_oovv_v : ∀ m n e f, X.bb_oovv m n f e = -X.bb_oovv m n e f
  bb_vooo : ∀ a m i j, X.bb_vooo a m j i = -X.bb_vooo a m i j
  bb_vvov : ∀ a b i e, X.bb_vvov b a i e = -X.bb_vvov a b i e
  bb_oooo_l : ∀ m n i j, X.bb_oooo n m i j = -X.bb_oooo m n i j
  bb_oooo_r : ∀ m n i j, X.bb_oooo m n j i = -X.bb_oooo m n i j
  bb_vvvv_l : ∀ m n i j, X.bb_vvvv n m i j = -X.bb_vvvv m n i j
  bb_vvvv_r : ∀ m n i j, X.bb_vvvv m n j i = -X.bb_vvvv m n i j

theorem atRow_row (f : Tens) (a b c i j k : ℕ) : atRow f [a + 1, b + 1, c + 1, i + 1, j + 1, k + 1] = f a b c i j k := rfl

theorem Buffer.Usable.mono {t : Buffer} {P Q : List ℕ → Prop} (h : t.Usable P) (hPQ : ∀ q, P q → Q q) : t.Usable Q :=
  ⟨h.length, h.rows.imp_right fun x => ⟨x.1, x.2.1, fun q hq => hPQ q (x.2.2 q hq)⟩⟩

theorem fits_of_rows {l : List (List ℕ)} {m : List ℚ} {P : List ℕ → Prop} (h : ∀ q ∈ l, P q) : Fits (l.zip m) P :=
  fun x hx => Or.inl (h x.1 (List.of_mem_zip hx).1)

theorem Buffer.Usable.fits {t : Buffer} {P : List ℕ → Prop} (h : t.Usable P) : Fits t.list P := by
  rcases h.rows with ⟨h₁, h₂⟩ | ⟨_, _, h₃⟩
  · intro x hx
    rw [Buffer.list, h₂] at hx
    have := (List.of_mem_zip hx).2
    right; simpa using this
  · exact fits_of_rows h₃

theorem zip_zero_records {l : List (List ℕ)} : ∀ {m : List ℚ}, m.length = l.length →
    l.zip (m.zip (l.map fun _ => (0 : ℚ))) = (l.zip m).map fun x => (x.1, x.2, 0) := by
  induction l with
  | nil => intros; rfl
  | cons x l ih =>
    rintro (_ | ⟨y, m⟩) h
    · simp at h
    · simp only [List.map_cons, List.zip_cons_cons]
      rw [ih (by simpa using h)]

theorem sumTo_eq (n : ℕ) (f : ℕ → ℚ) : sumTo n f = ∑ m ∈ range n, f (m + 1) := by
  rw [sumTo, Finset.sum_range, ← List.sum_ofFn]
  congr 1
  apply List.ext_getElem <;> simp

theorem over_neg (t : List (List ℕ × ℚ)) (f : List ℕ → ℚ) : over t (fun q => -f q) = -over t f := by
  induction t with
  | nil => simp [over]
  | cons x t ih =>
    simp only [over, List.map_cons, List.sum_cons] at ih ⊢
    rw [ih]; ring

theorem ofThree_anti (t : TripleList) (a b c i j k : ℕ) : t.ofThree b a c i j k = -t.ofThree a b c i j k
    ∧ t.ofThree a c b i j k = -t.ofThree a b c i j k ∧ t.ofThree a b c j i k = -t.ofThree a b c i j k
    ∧ t.ofThree a b c i k j = -t.ofThree a b c i j k := by
  simp only [ofThree_eq, ← over_neg]
  refine ⟨?_, ?_, ?_, ?_⟩ <;> refine congrArg (over t) (funext fun q => ?_) <;> simp only [unit3]
  · rw [alternating3_swap]; ring
  · rw [alternating3_swap']; ring
  · rw [alternating3_swap (i + 1)]; ring
  · rw [alternating3_swap' (i + 1)]; ring

theorem ofTwoOne_anti (t : TripleList) (a b c i j k : ℕ) : t.ofTwoOne b a c i j k = -t.ofTwoOne a b c i j k
    ∧ t.ofTwoOne a b c j i k = -t.ofTwoOne a b c i j k := by
  simp only [ofTwoOne_eq, ← over_neg]
  refine ⟨?_, ?_⟩ <;> refine congrArg (over t) (funext fun q => ?_) <;> simp only [unit21]
  · rw [alternating2_swap (a + 1)]; ring
  · rw [alternating2_swap (i + 1)]; ring

theorem ofOneTwo_anti (t : TripleList) (a b c i j k : ℕ) : t.ofOneTwo a c b i j k = -t.ofOneTwo a b c i j k
    ∧ t.ofOneTwo a b c i k j = -t.ofOneTwo a b c i j k := by
  simp only [ofOneTwo_eq, ← over_neg]
  refine ⟨?_, ?_⟩ <;> refine congrArg (over t) (funext fun q => ?_) <;> simp only [unit12]
  · rw [alternating2_swap (b + 1)]; ring
  · rw [alternating2_swap (j + 1)]; ring

/-- The triple excitations of four lists are antisymmetric. -/
theorem listed3_antisym (aaa aab abb bbb : TripleList) : (listed3 aaa aab abb bbb).Antisym :=
  ⟨ofThree_anti aaa, ofTwoOne_anti aab, ofOneTwo_anti abb, ofThree_anti bbb⟩

section
variable {X : Dressed} (hX : X.Anti) (d : Dims) {T : Triples} (hT : T.Antisym)
include hX hT

theorem vooA_anti (a m i j : ℕ) : vooA X d T.tAAA T.tAAB a m j i = -vooA X d T.tAAA T.tAAB a m i j := by
  have h₁ : ∀ e f n, T.tAAA a e f j i n = -T.tAAA a e f i j n := fun e f n => (hT.aaa a e f i j n).2.2.1
  have h₂ : ∀ e f n, T.tAAB a e f j i n = -T.tAAB a e f i j n := fun e f n => (hT.aab a e f i j n).2
  simp only [vooA, vooA_t3a, vooA_t3b, hX.aa_vooo a m i j, h₁, h₂, mul_neg, Finset.sum_neg_distrib]
  ring
theorem vvoA_anti (a b i e : ℕ) : vvoA X d T.tAAA T.tAAB b a i e = -vvoA X d T.tAAA T.tAAB a b i e := by
  have h₁ : ∀ f m n, T.tAAA b a f i m n = -T.tAAA a b f i m n := fun f m n => (hT.aaa a b f i m n).1
  have h₂ : ∀ f m n, T.tAAB b a f i m n = -T.tAAB a b f i m n := fun f m n => (hT.aab a b f i m n).1
  simp only [vvoA, vvoA_t3a, vvoA_t3b, hX.aa_vvov a b i e, h₁, h₂, mul_neg, Finset.sum_neg_distrib]
  ring
theorem vooC_anti (a m i j : ℕ) : vooC X d T.tBBB T.tABB a m j i = -vooC X d T.tBBB T.tABB a m i j := by
  have h₁ : ∀ e f n, T.tBBB a e f j i n = -T.tBBB a e f i j n := fun e f n => (hT.bbb a e f i j n).2.2.1
  have h₂ : ∀ f e n, T.tABB f a e n j i = -T.tABB f a e n i j := fun f e n => (hT.abb f a e n i j).2
  simp only [vooC, vooC_t3d, vooC_t3c, hX.bb_vooo a m i j, h₁, h₂, mul_neg, Finset.sum_neg_distrib]
  ring
theorem vvoC_anti (a b i e : ℕ) : vvoC X d T.tBBB T.tABB b a i e = -vvoC X d T.tBBB T.tABB a b i e := by
  have h₁ : ∀ f m n, T.tBBB b a f i m n = -T.tBBB a b f i m n := fun f m n => (hT.bbb a b f i m n).1
  have h₂ : ∀ f n m, T.tABB f b a n i m = -T.tABB f a b n i m := fun f n m => (hT.abb f a b n i m).1
  simp only [vvoC, vvoC_t3d, vvoC_t3c, hX.bb_vvov a b i e, h₁, h₂, mul_neg, Finset.sum_neg_distrib]
  ring

end

end Ccpy.PSpace
