import Verif.Model.GramSchmidt
import Mathlib.LinearAlgebra.Dimension.Constructions
import Mathlib.LinearAlgebra.Dimension.Finite
import Mathlib.LinearAlgebra.Dimension.OrzechProperty
import Mathlib.LinearAlgebra.FiniteDimensional.Basic
import Mathlib.LinearAlgebra.FiniteDimensional.Lemmas
import Mathlib.Tactic.FinCases
import Mathlib.Tactic.NormNum
import Mathlib.Tactic.FieldSimp

/-! C26: Gram–Schmidt orthonormalisation. -/

namespace Ccpy.GramSchmidt

variable {N : ℕ}

/-- Unit columns, orthogonal to each other. -/
def Orthonormal (Q : List (Column N)) : Prop :=
  (Q.Pairwise fun p q => p ⬝ᵥ q = 0) ∧ ∀ q ∈ Q, q ⬝ᵥ q = 1

/-- Linear span of a list of columns. -/
def span (A : List (Column N)) : Submodule ℝ (Column N) := Submodule.span ℝ {x | x ∈ A}

/-- The columns are linearly independent. -/
def Independent (A : List (Column N)) : Prop := LinearIndependent ℝ fun i : Fin A.length => A.get i

theorem project_sub_mem (Q : List (Column N)) (v : Column N) : v - project Q v ∈ span Q := by
  unfold project
  induction Q generalizing v with
  | nil => simp
  | cons q Q ih =>
    rw [List.foldl_cons]
    have hmono : span Q ≤ span (q :: Q) := Submodule.span_mono fun x hx => List.mem_cons_of_mem _ hx
    have h1 := hmono (ih (v - (q ⬝ᵥ v) • q))
    have h2 : (q ⬝ᵥ v) • q ∈ span (q :: Q) :=
      Submodule.smul_mem _ _ (Submodule.subset_span List.mem_cons_self)
    have := Submodule.add_mem _ h1 h2
    convert this using 1
    abel

/-- Projections on columns orthogonal to `q` leave the component along `q` alone. -/
theorem project_dot (Q : List (Column N)) (q v : Column N) (h : ∀ p ∈ Q, q ⬝ᵥ p = 0) :
    q ⬝ᵥ project Q v = q ⬝ᵥ v := by
  unfold project
  induction Q generalizing v with
  | nil => rfl
  | cons p Q ih =>
    rw [List.foldl_cons, ih _ fun x hx => h x (List.mem_cons_of_mem _ hx), dotProduct_sub, dotProduct_smul,
      h p List.mem_cons_self, smul_zero, sub_zero]

theorem project_orthogonal (Q : List (Column N)) (hQ : Orthonormal Q) (v : Column N) :
    ∀ q ∈ Q, q ⬝ᵥ project Q v = 0 := by
  induction Q generalizing v with
  | nil => simp
  | cons p Q ih =>
    have hQ' : Orthonormal Q := ⟨hQ.1.of_cons, fun q hq => hQ.2 q (List.mem_cons_of_mem _ hq)⟩
    intro q hq
    rw [show project (p :: Q) v = project Q (v - (p ⬝ᵥ v) • p) from rfl]
    rcases List.mem_cons.mp hq with rfl | hq
    · rw [project_dot Q q _ (fun x hx => List.rel_of_pairwise_cons hQ.1 hx), dotProduct_sub, dotProduct_smul,
        hQ.2 q List.mem_cons_self, smul_eq_mul, mul_one, sub_self]
    · exact ih hQ' _ q hq

theorem norm_eq_zero {v : Column N} : norm v = 0 ↔ v = 0 := by
  unfold norm
  rw [Real.sqrt_eq_zero (show 0 ≤ v ⬝ᵥ v from Finset.sum_nonneg fun i _ => mul_self_nonneg _)]
  unfold dotProduct
  rw [Finset.sum_eq_zero_iff_of_nonneg fun i _ => mul_self_nonneg _]
  constructor
  · intro h
    funext i
    exact mul_self_eq_zero.mp (h i (Finset.mem_univ i))
  · rintro rfl i _
    simp

theorem norm_mul_self (v : Column N) : norm v * norm v = v ⬝ᵥ v :=
  Real.mul_self_sqrt (Finset.sum_nonneg fun i _ => mul_self_nonneg _)

theorem scaled (w : Column N) : (fun i => w i / norm w) = (norm w)⁻¹ • w := by
  funext i
  rw [Pi.smul_apply, smul_eq_mul, div_eq_inv_mul]

theorem span_append (A B : List (Column N)) : span (A ++ B) = span A ⊔ span B := by
  unfold span
  rw [← Submodule.span_union]
  congr 1
  ext x
  simp

theorem orthonormal_step {Q : List (Column N)} (hQ : Orthonormal Q) {v : Column N} (h : norm (project Q v) ≠ 0) :
    Orthonormal (Q ++ [fun i => project Q v i / norm (project Q v)]) := by
  rw [scaled]
  refine ⟨List.pairwise_append.mpr ⟨hQ.1, List.pairwise_singleton _ _, ?_⟩, ?_⟩
  · intro q hq x hx
    rw [List.mem_singleton.mp hx, dotProduct_smul, project_orthogonal Q hQ v q hq, smul_zero]
  · intro q hq
    rcases List.mem_append.mp hq with hq | hq
    · exact hQ.2 q hq
    · rw [List.mem_singleton.mp hq, dotProduct_smul, smul_dotProduct, ← norm_mul_self, smul_eq_mul, smul_eq_mul]
      field_simp

theorem span_step {Q A : List (Column N)} (hs : span Q = span A) {v : Column N} (h : norm (project Q v) ≠ 0) :
    span (Q ++ [fun i => project Q v i / norm (project Q v)]) = span (A ++ [v]) := by
  rw [scaled, span_append, span_append, ← hs]
  have hm := project_sub_mem Q v
  have single : ∀ x : Column N, span [x] = Submodule.span ℝ {x} := fun x => by
    unfold span; congr 1; ext y; simp
  rw [single, single]
  apply le_antisymm
  · refine sup_le le_sup_left ?_
    rw [Submodule.span_singleton_le_iff_mem]
    refine Submodule.smul_mem _ _ ?_
    have e : project Q v = v - (v - project Q v) := by abel
    rw [e]
    exact Submodule.sub_mem _ (Submodule.mem_sup_right (Submodule.mem_span_singleton_self v))
      (Submodule.mem_sup_left hm)
  · refine sup_le le_sup_left ?_
    rw [Submodule.span_singleton_le_iff_mem]
    have e : v = (v - project Q v) + norm (project Q v) • ((norm (project Q v))⁻¹ • project Q v) := by
      rw [smul_smul, mul_inv_cancel₀ h, one_smul]; abel
    have h2 := Submodule.add_mem _ (Submodule.mem_sup_left (T := Submodule.span ℝ {(norm (project Q v))⁻¹ • project Q v}) hm)
      (Submodule.smul_mem _ (norm (project Q v)) (Submodule.mem_sup_right (S := span Q)
        (Submodule.mem_span_singleton_self ((norm (project Q v))⁻¹ • project Q v))))
    rwa [← e] at h2

/-- Result of the loop: what has been done before stays, and every prefix has the span of the input. -/
theorem loop_spec (rest : List (Column N)) : ∀ (Q A : List (Column N)), Orthonormal Q → Q.length = A.length →
    (∀ k ≤ A.length, span (Q.take k) = span (A.take k)) → ∀ R, loop Q rest = some R →
      Orthonormal R ∧ R.length = (A ++ rest).length ∧
        ∀ k ≤ (A ++ rest).length, span (R.take k) = span ((A ++ rest).take k) := by
  induction rest with
  | nil =>
    intro Q A hQ hl hs R hR
    cases hR
    rw [List.append_nil]
    exact ⟨hQ, hl, hs⟩
  | cons v rest ih =>
    intro Q A hQ hl hs R hR
    simp only [loop] at hR
    split_ifs at hR with h0
    have := ih _ (A ++ [v]) (orthonormal_step hQ h0) (by simp [hl]) ?_ R hR
    · rwa [List.append_assoc, List.singleton_append] at this
    · intro k hk
      rw [List.length_append, List.length_singleton] at hk
      rcases Nat.lt_or_ge A.length k with hlt | hge
      · rw [List.take_of_length_le (by simp [hl]; omega), List.take_of_length_le (by simp; omega)]
        have hfull := hs A.length le_rfl
        rw [List.take_length, ← hl, List.take_length] at hfull
        exact span_step hfull h0
      · rw [List.take_append_of_le_length (by omega), List.take_append_of_le_length (by omega)]
        exact hs k hge

theorem loop_isSome (rest : List (Column N)) : ∀ (Q A : List (Column N)), Orthonormal Q → span Q = span A →
    (∀ k, ∀ v, rest[k]? = some v → v ∉ span (A ++ rest.take k)) → ∃ R, loop Q rest = some R := by
  induction rest with
  | nil => exact fun Q A _ _ _ => ⟨Q, rfl⟩
  | cons v rest ih =>
    intro Q A hQ hs hi
    have h0 : norm (project Q v) ≠ 0 := by
      rw [Ne, norm_eq_zero]
      intro h
      have := project_sub_mem Q v
      rw [h, sub_zero, hs] at this
      exact hi 0 v rfl (by simpa using this)
    simp only [loop, if_neg h0]
    refine ih _ (A ++ [v]) (orthonormal_step hQ h0) (span_step hs h0) fun k w hw => ?_
    have := hi (k + 1) w (by simpa using hw)
    rwa [List.take_succ_cons, ← List.singleton_append, ← List.append_assoc] at this

theorem notMem_of_independent {A : List (Column N)} (h : Independent A) (k : ℕ) (v : Column N)
    (hv : A[k]? = some v) : v ∉ span (A.take k) := by
  obtain ⟨hk, rfl⟩ := List.getElem?_eq_some_iff.mp hv
  have := LinearIndependent.notMem_span_image (s := {i : Fin A.length | i.1 < k}) (x := ⟨k, hk⟩) h (by simp)
  intro hmem
  refine this (Submodule.span_mono ?_ hmem)
  intro x hx
  obtain ⟨i, hi, rfl⟩ := List.mem_take_iff_getElem.mp hx
  exact ⟨⟨i, by omega⟩, by simpa using (by omega : i < k), rfl⟩

theorem orthonormal_independent {Q : List (Column N)} (hQ : Orthonormal Q) : Independent Q := by
  unfold Independent
  rw [Fintype.linearIndependent_iff]
  intro g hg i
  have h := congrArg (fun x => Q.get i ⬝ᵥ x) hg
  simp only [dotProduct_zero, dotProduct_sum, dotProduct_smul] at h
  rw [Finset.sum_eq_single i] at h
  · rwa [hQ.2 _ (List.get_mem _ _), smul_eq_mul, mul_one] at h
  · intro j _ hj
    have : Q.get i ⬝ᵥ Q.get j = 0 := by
      rcases lt_or_gt_of_ne hj with hlt | hgt
      · rw [dotProduct_comm]
        exact List.pairwise_iff_get.mp hQ.1 j i hlt
      · exact List.pairwise_iff_get.mp hQ.1 i j hgt
    rw [this, smul_zero]
  · simp

theorem range_get (A : List (Column N)) : Submodule.span ℝ (Set.range fun i : Fin A.length => A.get i) = span A := by
  unfold span
  congr 1
  ext x
  simp only [Set.mem_range, Set.mem_ofPred_eq, List.mem_iff_get]

/-- C26.  For linearly independent columns `gramschmidt` returns as many columns, orthonormal, and the
first `k` of them span the same space as the first `k` columns of the input, for every `k`. -/
theorem C26_orthonormal (A : List (Column N)) (h : Independent A) :
    ∃ Q, gramschmidt A = some Q ∧ Orthonormal Q ∧ Q.length = A.length ∧
      ∀ k ≤ A.length, span (Q.take k) = span (A.take k) := by
  obtain ⟨Q, hQ⟩ := loop_isSome A [] [] ⟨List.Pairwise.nil, by simp⟩ rfl fun k v hv => by
    rw [List.nil_append]
    exact notMem_of_independent h k v hv
  have := loop_spec A [] [] ⟨List.Pairwise.nil, by simp⟩ rfl (fun k _ => by simp) Q hQ
  exact ⟨Q, hQ, this⟩

/-- C26.  For dependent columns a zero vector is normalised: the result contains NaN. -/
theorem C26_dependent (A : List (Column N)) (h : ¬ Independent A) : gramschmidt A = none := by
  rcases hR : gramschmidt A with _ | Q
  · rfl
  · exfalso
    apply h
    obtain ⟨hQ, hl, hs⟩ := loop_spec A [] [] ⟨List.Pairwise.nil, by simp⟩ rfl (fun k _ => by simp) Q hR
    rw [List.nil_append] at hl hs
    have hfull := hs A.length le_rfl
    rw [List.take_length, ← hl, List.take_length] at hfull
    have h1 := linearIndependent_iff_card_eq_finrank_span.mp (orthonormal_independent hQ)
    unfold Independent
    rw [linearIndependent_iff_card_eq_finrank_span]
    unfold Set.finrank at h1 ⊢
    rw [range_get] at h1 ⊢
    rw [← hfull, ← h1]
    simp [hl]

-- two columns that are neither orthogonal nor normalised
example : Independent (N := 2) [![3, 4], ![1, 0]] := by
  unfold Independent
  rw [Fintype.linearIndependent_iff]
  intro g hg
  change Fin 2 → ℝ at g
  have h : ∑ i : Fin 2, g i • (![![3, 4], ![1, 0]] : Fin 2 → Fin 2 → ℝ) i = 0 := by
    rw [← hg]
    refine Finset.sum_congr rfl fun i _ => ?_
    fin_cases i <;> rfl
  have h1 := congrFun h 1
  have h0 := congrFun h 0
  simp [Fin.sum_univ_two] at h0 h1
  intro i
  change Fin 2 at i
  fin_cases i
  · exact h1
  · simpa [h1] using h0

-- the second column is a multiple of the first
example : gramschmidt (N := 2) [![3, 4], ![6, 8]] = none := by
  refine C26_dependent _ fun h => ?_
  have := notMem_of_independent h 1 ![6, 8] rfl
  apply this
  have e : (![6, 8] : Column 2) = (2 : ℝ) • ![3, 4] := by
    funext i
    fin_cases i <;> norm_num
  rw [e]
  exact Submodule.smul_mem _ _ (Submodule.subset_span (by simp))

end Ccpy.GramSchmidt
