import Verif.Engine.Clusters
import Verif.Spec.LeftStates

/-! De-excitation operators and commutators with excitations of given orbitals. -/

namespace Ccpy.Engine
open Ccpy.Fock Ccpy.Tensor

variable {ι : Type*} [LinearOrder ι]

noncomputable section

/-- The de-excitation operator with the amplitudes `6 + o, …, 10 + o` and the variables of the identifiers `n, …, n + 3`. -/
def listL (o n : ℕ) : List Piece :=
  [⟨⟨false, 1, 1⟩, [4 * (n + 2) + 1, 4 * n], [(o + 6, [4 * (n + 2) + 1, 4 * n])], [(true, 4 * n), (false, 4 * (n + 2) + 1)]⟩,
   ⟨⟨false, 1, 1⟩, [4 * (n + 2) + 3, 4 * n + 2], [(o + 7, [4 * (n + 2) + 3, 4 * n + 2])],
    [(true, 4 * n + 2), (false, 4 * (n + 2) + 3)]⟩,
   ⟨⟨false, 1, 4⟩, [4 * (n + 2) + 1, 4 * (n + 3) + 1, 4 * n, 4 * (n + 1)],
    [(o + 8, [4 * (n + 2) + 1, 4 * (n + 3) + 1, 4 * n, 4 * (n + 1)])],
    [(true, 4 * n), (true, 4 * (n + 1)), (false, 4 * (n + 3) + 1), (false, 4 * (n + 2) + 1)]⟩,
   ⟨⟨false, 1, 1⟩, [4 * (n + 2) + 1, 4 * (n + 3) + 3, 4 * n, 4 * (n + 1) + 2],
    [(o + 9, [4 * (n + 2) + 1, 4 * (n + 3) + 3, 4 * n, 4 * (n + 1) + 2])],
    [(true, 4 * n), (true, 4 * (n + 1) + 2), (false, 4 * (n + 3) + 3), (false, 4 * (n + 2) + 1)]⟩,
   ⟨⟨false, 1, 4⟩, [4 * (n + 2) + 3, 4 * (n + 3) + 3, 4 * n + 2, 4 * (n + 1) + 2],
    [(o + 10, [4 * (n + 2) + 3, 4 * (n + 3) + 3, 4 * n + 2, 4 * (n + 1) + 2])],
    [(true, 4 * n + 2), (true, 4 * (n + 1) + 2), (false, 4 * (n + 3) + 3), (false, 4 * (n + 2) + 3)]⟩]

/-- `L [e^{-T} H e^{T}, τ]` for the operators `τ` of external variables. -/
def leftR (τ : List Op) : List Dterm := [⟨false, false, [listL 5 15], fun _ => slot τ, fun _ => []⟩]
/-- `[e^{-T} H e^{T}, τ]` -/
def bareR (τ : List Op) : List Dterm := [⟨false, false, [], fun _ => slot τ, fun _ => []⟩]

end

theorem evalP_two' {c : Coef} {A : Type*} [Ring A] [Algebra ℚ A] {I : ℕ → List (ℕ × ℕ) → ℚ} {X : Bool → ℕ × ℕ → A}
    {dim : ℕ → ℕ} {k v w : ℕ} {b b' : Bool} (h : v ≠ w) (ρ : Env) :
    evalP I X dim ⟨c, [v, w], [(k, [v, w])], [(b, w), (b', v)]⟩ ρ = c.val • ∑ i ∈ Finset.range (dim (v % 4)),
      ∑ j ∈ Finset.range (dim (w % 4)), I k [(v % 4, i), (w % 4, j)] • (X b (w % 4, j) * X b' (v % 4, i)) := by
  simp [evalP, sumV, evalFs, evalF, evalO, val, Function.update_of_ne h]

theorem evalP_four' {c : Coef} {A : Type*} [Ring A] [Algebra ℚ A] {I : ℕ → List (ℕ × ℕ) → ℚ} {X : Bool → ℕ × ℕ → A}
    {dim : ℕ → ℕ} {k v w x y : ℕ} {b₁ b₂ b₃ b₄ : Bool} (h : [v, w, x, y].Nodup) (ρ : Env) :
    evalP I X dim ⟨c, [v, w, x, y], [(k, [v, w, x, y])], [(b₁, x), (b₂, y), (b₃, w), (b₄, v)]⟩ ρ
      = c.val • ∑ i ∈ Finset.range (dim (v % 4)), ∑ j ∈ Finset.range (dim (w % 4)), ∑ l ∈ Finset.range (dim (x % 4)),
        ∑ m ∈ Finset.range (dim (y % 4)), I k [(v % 4, i), (w % 4, j), (x % 4, l), (y % 4, m)]
        • (X b₁ (x % 4, l) * X b₂ (y % 4, m) * X b₃ (w % 4, j) * X b₄ (v % 4, i)) := by
  simp only [List.nodup_cons, List.mem_cons, List.not_mem_nil, or_false, not_or] at h
  obtain ⟨⟨h1, h2, h3⟩, ⟨h4, h5⟩, h6, _⟩ := h
  simp [evalP, sumV, evalFs, evalF, evalO, val, Function.update_of_ne h1, Function.update_of_ne h2, Function.update_of_ne h3,
    Function.update_of_ne h4, Function.update_of_ne h5, Function.update_of_ne h6, mul_assoc]

theorem evalS_listL (S : Orbitals ι) (T : Cluster) {f v} {amp : ℕ → List ℕ → ℚ} {o : ℕ} (hT : Holds T fun name => amp (o + name))
    (n : ℕ) (ρ : Env) : evalS (elements S.na S.nb f v amp) (opX S) (dimS S) (listL o n) ρ = deexcitation S T := by
  have m1 : ∀ k, (4 * k + 1) % 4 = 1 := fun k => by omega
  have m2 : ∀ k, (4 * k + 2) % 4 = 2 := fun k => by omega
  have m3 : ∀ k, (4 * k + 3) % 4 = 3 := fun k => by omega
  have m0 : ∀ k, (4 * k) % 4 = 0 := fun k => by omega
  unfold listL
  rw [evalS_cons, evalS_cons, evalS_cons, evalS_cons, evalS_cons, evalP_two' (by omega), evalP_two' (by omega),
    evalP_four' (by simp; omega), evalP_four' (by simp; omega), evalP_four' (by simp; omega)]
  simp only [m0, m1, m2, m3]
  have c1 : (⟨false, 1, 1⟩ : Coef).val = 1 := by simp [Coef.val]
  have c4 : (⟨false, 1, 4⟩ : Coef).val = 1 / 4 := by simp [Coef.val]
  rw [c1, c4, one_smul, one_smul, one_smul]
  have e6 : ∀ x i, elements S.na S.nb f v amp (o + 6) [(1, x), (0, i)] = T.tA x i := fun x i => hT.a x i
  have e7 : ∀ x i, elements S.na S.nb f v amp (o + 7) [(3, x), (2, i)] = T.tB x i := fun x i => hT.b x i
  have e8 : ∀ x y i j, elements S.na S.nb f v amp (o + 8) [(1, x), (1, y), (0, i), (0, j)] = T.tAA x y i j := fun x y i j => hT.aa x y i j
  have e9 : ∀ x y i j, elements S.na S.nb f v amp (o + 9) [(1, x), (3, y), (0, i), (2, j)] = T.tAB x y i j := fun x y i j => hT.ab x y i j
  have e10 : ∀ x y i j, elements S.na S.nb f v amp (o + 10) [(3, x), (3, y), (2, i), (2, j)] = T.tBB x y i j := fun x y i j => hT.bb x y i j
  simp only [e6, e7, e8, e9, e10]
  have hnil : evalS (elements S.na S.nb f v amp) (opX S) (dimS S) [] ρ = 0 := rfl
  rw [hnil, add_zero]
  unfold deexcitation
  simp only [add_assoc]
  rfl

section
variable {S : Orbitals ι} (h : S.Proper) {Z : Fock.Integrals} (hZ : Z.Antisym) {T L : Cluster} (hT : T.Antisym)
  (hL : L.Antisym) {x : Ex} {ext : List ℕ} {τ : List Op} (hb : ∀ o ∈ τ, o.2 ∈ ext)
include h hZ hT hL hb

theorem value_leftR (hx : dcheck (groups tableC) (listC 0) listH x ext [] true (leftR τ) = true) {ρ : Env}
    (hρ : ExtOk (dimS S) ext ρ) : value S Z (Cluster.store [T, L]) x (ext.map ρ)
      = leftElement S Z T (deexcitation S L) (evalO (opX S) ρ τ) := by
  have hall : ∀ C ∈ [T, L], C.Antisym := fun C hC => by
    simp only [List.mem_cons, List.not_mem_nil, or_false] at hC
    rcases hC with rfl | rfl <;> assumption
  have h0 := store_holds [T, L] 0
  have h1 := store_holds [T, L] 1
  rw [dcheck_sound h (antiSym_C hZ hall) (fun m ρ => evalS_listC S T h0 m ρ) (cluster_nilpotent h T) hx
    (evalS_listH h Z _ ρ) hρ .nil (ws := [(deexcitation S L, evalO (opX S) ρ τ, 1)])
    (.cons ⟨fun ρ' hr => ?_, fun m ρ' hr => evalS_slot hr hb, fun ρ' m hr => rfl⟩ .nil)]
  · simp [leftR, sg, leftElement, transformed, Orbitals.element, expect]
  · simp only [leftR, List.map_cons, List.map_nil, List.prod_cons, List.prod_nil, mul_one]
    exact evalS_listL S L h1 15 ρ'

theorem value_bareR (hx : dcheck (groups tableC) (listC 0) listH x ext [] true (bareR τ) = true) {ρ : Env}
    (hρ : ExtOk (dimS S) ext ρ) : value S Z (Cluster.store [T, L]) x (ext.map ρ)
      = leftElement S Z T 1 (evalO (opX S) ρ τ) := by
  have hall : ∀ C ∈ [T, L], C.Antisym := fun C hC => by
    simp only [List.mem_cons, List.not_mem_nil, or_false] at hC
    rcases hC with rfl | rfl <;> assumption
  have h0 := store_holds [T, L] 0
  rw [dcheck_sound h (antiSym_C hZ hall) (fun m ρ => evalS_listC S T h0 m ρ) (cluster_nilpotent h T) hx
    (evalS_listH h Z _ ρ) hρ .nil (ws := [(1, evalO (opX S) ρ τ, 1)])
    (.cons ⟨fun ρ' hr => rfl, fun m ρ' hr => evalS_slot hr hb, fun ρ' m hr => rfl⟩ .nil)]
  simp [bareR, sg, leftElement, transformed, Orbitals.element, expect]
end

end Ccpy.Engine
