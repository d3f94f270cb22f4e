import Verif.Engine.Derivation
import Verif.Spec.EquationOfMotion

/-! Several sets of amplitudes in the same comparison. -/

namespace Ccpy.Engine
open Ccpy.Fock Ccpy.Tensor

variable {ι : Type*} [LinearOrder ι]

noncomputable section

/-- The cluster operator with the amplitudes `6 + o, …, 10 + o` and the variables of the identifiers `n, …, n + 3`. -/
def listC (o n : ℕ) : List Piece :=
  [⟨⟨false, 1, 1⟩, [4 * (n + 2) + 1, 4 * n], [(o + 6, [4 * (n + 2) + 1, 4 * n])], [(true, 4 * (n + 2) + 1), (false, 4 * n)]⟩,
   ⟨⟨false, 1, 1⟩, [4 * (n + 2) + 3, 4 * n + 2], [(o + 7, [4 * (n + 2) + 3, 4 * n + 2])],
    [(true, 4 * (n + 2) + 3), (false, 4 * n + 2)]⟩,
   ⟨⟨false, 1, 4⟩, [4 * (n + 2) + 1, 4 * (n + 3) + 1, 4 * n, 4 * (n + 1)],
    [(o + 8, [4 * (n + 2) + 1, 4 * (n + 3) + 1, 4 * n, 4 * (n + 1)])],
    [(true, 4 * (n + 2) + 1), (true, 4 * (n + 3) + 1), (false, 4 * (n + 1)), (false, 4 * n)]⟩,
   ⟨⟨false, 1, 1⟩, [4 * (n + 2) + 1, 4 * (n + 3) + 3, 4 * n, 4 * (n + 1) + 2],
    [(o + 9, [4 * (n + 2) + 1, 4 * (n + 3) + 3, 4 * n, 4 * (n + 1) + 2])],
    [(true, 4 * (n + 2) + 1), (true, 4 * (n + 3) + 3), (false, 4 * (n + 1) + 2), (false, 4 * n)]⟩,
   ⟨⟨false, 1, 4⟩, [4 * (n + 2) + 3, 4 * (n + 3) + 3, 4 * n + 2, 4 * (n + 1) + 2],
    [(o + 10, [4 * (n + 2) + 3, 4 * (n + 3) + 3, 4 * n + 2, 4 * (n + 1) + 2])],
    [(true, 4 * (n + 2) + 3), (true, 4 * (n + 3) + 3), (false, 4 * (n + 1) + 2), (false, 4 * n + 2)]⟩]

end

theorem evalS_listC (S : Orbitals ι) (T : Cluster) {f v} {amp : ℕ → List ℕ → ℚ} {o : ℕ} (hT : Holds T fun name => amp (o + name))
    (n : ℕ) (ρ : Env) : evalS (elements S.na S.nb f v amp) (opX S) (dimS S) (listC o n) ρ = clusterOperator S T := by
  have m1 : ∀ k, (4 * k + 1) % 4 = 1 := fun k => by omega
  have m2 : ∀ k, (4 * k + 2) % 4 = 2 := fun k => by omega
  have m3 : ∀ k, (4 * k + 3) % 4 = 3 := fun k => by omega
  have m0 : ∀ k, (4 * k) % 4 = 0 := fun k => by omega
  unfold listC
  rw [evalS_cons, evalS_cons, evalS_cons, evalS_cons, evalS_cons, evalP_two (by omega), evalP_two (by omega),
    evalP_four (by simp; omega), evalP_four (by simp; omega), evalP_four (by simp; omega)]
  simp only [m0, m1, m2, m3]
  have c1 : (⟨false, 1, 1⟩ : Coef).val = 1 := by simp [Coef.val]
  have c4 : (⟨false, 1, 4⟩ : Coef).val = 1 / 4 := by simp [Coef.val]
  rw [c1, c4, one_smul, one_smul, one_smul]
  have e6 : ∀ x i, elements S.na S.nb f v amp (o + 6) [(1, x), (0, i)] = T.tA x i := fun x i => hT.a x i
  have e7 : ∀ x i, elements S.na S.nb f v amp (o + 7) [(3, x), (2, i)] = T.tB x i := fun x i => hT.b x i
  have e8 : ∀ x y i j, elements S.na S.nb f v amp (o + 8) [(1, x), (1, y), (0, i), (0, j)] = T.tAA x y i j := fun x y i j => hT.aa x y i j
  have e9 : ∀ x y i j, elements S.na S.nb f v amp (o + 9) [(1, x), (3, y), (0, i), (2, j)] = T.tAB x y i j := fun x y i j => hT.ab x y i j
  have e10 : ∀ x y i j, elements S.na S.nb f v amp (o + 10) [(3, x), (3, y), (2, i), (2, j)] = T.tBB x y i j := fun x y i j => hT.bb x y i j
  simp only [e6, e7, e8, e9, e10]
  have hnil : evalS (elements S.na S.nb f v amp) (opX S) (dimS S) [] ρ = 0 := rfl
  rw [hnil, add_zero]
  unfold clusterOperator
  simp only [add_assoc]
  rfl

/-- The arrays of the `k`-th set. -/
theorem store_holds (l : List Cluster) (k : ℕ) : Holds (l.getD k Cluster.zero) fun name => Cluster.store l (5 * k + name) := by
  have e : ∀ name, 6 ≤ name → name ≤ 10 → Cluster.store l (5 * k + name) = (l.getD k Cluster.zero).amp name := by
    intro name h₁ h₂
    funext idx
    unfold Cluster.store
    have e₁ : (5 * k + name - 6) / 5 = k := by omega
    have e₂ : 6 + (5 * k + name - 6) % 5 = name := by omega
    rw [e₁, e₂]
  exact ⟨fun _ _ => congrFun (e 6 (by decide) (by decide)) _, fun _ _ => congrFun (e 7 (by decide) (by decide)) _,
    fun _ _ _ _ => congrFun (e 8 (by decide) (by decide)) _, fun _ _ _ _ => congrFun (e 9 (by decide) (by decide)) _,
    fun _ _ _ _ => congrFun (e 10 (by decide) (by decide)) _⟩

theorem store_anti {na nb : ℕ} {f : Integrals.OneBody ℚ} {v : Integrals.TwoBody ℚ} {l : List Cluster} (k : ℕ)
    (h : (l.getD k Cluster.zero).Antisym) : Anti [2, 2] (elements na nb f v (Cluster.store l) (5 * k + 8)) ∧
      Anti [2, 2] (elements na nb f v (Cluster.store l) (5 * k + 10)) := by
  have e : ∀ name, 6 ≤ name → name ≤ 10 → Cluster.store l (5 * k + name) = (l.getD k Cluster.zero).amp name := by
    intro name h₁ h₂
    funext idx
    unfold Cluster.store
    have e₁ : (5 * k + name - 6) / 5 = k := by omega
    have e₂ : 6 + (5 * k + name - 6) % 5 = name := by omega
    rw [e₁, e₂]
  have hz : ∀ (T : Cluster) (l : List ℕ), l.length ≠ 4 → T.amp 8 l = 0 ∧ T.amp 10 l = 0 := fun T l hl => by
    match l, hl with
    | [], _ | [_], _ | [_, _], _ | [_, _, _], _ | _ :: _ :: _ :: _ :: _ :: _, _ => exact ⟨rfl, rfl⟩
    | [_, _, _, _], h => exact absurd rfl h
  constructor
  · refine anti_amp (n := 5 * k + 2) h.aa (fun a b i j => ?_) fun l' hl => ?_
    · rw [Nat.add_assoc, e _ (by decide) (by decide)]; rfl
    · rw [Nat.add_assoc, e _ (by decide) (by decide)]; exact (hz _ _ hl).1
  · refine anti_amp (n := 5 * k + 4) h.bb (fun a b i j => ?_) fun l' hl => ?_
    · rw [Nat.add_assoc, e _ (by decide) (by decide)]; rfl
    · rw [Nat.add_assoc, e _ (by decide) (by decide)]; exact (hz _ _ hl).2

/-- The antisymmetric arrays of the Hamiltonian and of three sets of amplitudes. -/
def tableC : List (ℕ × List ℕ) :=
  [(3, [2, 2]), (5, [2, 2]), (8, [2, 2]), (10, [2, 2]), (13, [2, 2]), (15, [2, 2]), (18, [2, 2]), (20, [2, 2])]

theorem zero_antisym : Cluster.zero.Antisym := ⟨fun _ _ _ _ => ⟨rfl, rfl⟩, fun _ _ _ _ => ⟨rfl, rfl⟩⟩

theorem antiSym_C {na nb : ℕ} {f : Integrals.OneBody ℚ} {Z : Fock.Integrals} {l : List Cluster} (hZ : Z.Antisym)
    (hl : ∀ T ∈ l, T.Antisym) : AntiSym (groups tableC) (elements na nb f (stV Z) (Cluster.store l)) := by
  have hk : ∀ k, (l.getD k Cluster.zero).Antisym := fun k => by
    by_cases h : k < l.length
    · rw [List.getD_eq_getElem?_getD, List.getElem?_eq_getElem h]; exact hl _ (List.getElem_mem h)
    · rw [List.getD_eq_getElem?_getD, List.getElem?_eq_none (Nat.le_of_not_lt h)]; exact zero_antisym
  refine antiSym_groups fun e he => ?_
  simp only [tableC, List.mem_cons, List.not_mem_nil, or_false] at he
  rcases he with rfl | rfl | rfl | rfl | rfl | rfl | rfl | rfl
  · exact anti_aa hZ.aa
  · exact anti_bb hZ.bb
  · exact (store_anti 0 (hk 0)).1
  · exact (store_anti 0 (hk 0)).2
  · exact (store_anti 1 (hk 1)).1
  · exact (store_anti 1 (hk 1)).2
  · exact (store_anti 2 (hk 2)).1
  · exact (store_anti 2 (hk 2)).2

/-- The commutator with the second set. -/
noncomputable def commR (bra : List Op) : List Dterm := [⟨false, false, [slot bra], listC 5, fun _ => []⟩]

/-- A projection of the commutator of the transformed Hamiltonian with an excitation operator. -/
theorem value_commR {S : Orbitals ι} (h : S.Proper) {Z : Fock.Integrals} (hZ : Z.Antisym) {T R : Cluster} (hT : T.Antisym)
    (hR : R.Antisym) {x : Ex} {ext : List ℕ} {bra : List Op} (hb : ∀ o ∈ bra, o.2 ∈ ext)
    (hx : dcheck (groups tableC) (listC 0) listH x ext [] false (commR bra) = true) {ρ : Env} (hρ : ExtOk (dimS S) ext ρ) :
    value S Z (Cluster.store [T, R]) x (ext.map ρ) = expect S (evalO (opX S) ρ bra * commutatorR S Z T R) := by
  have hall : ∀ C ∈ [T, R], C.Antisym := fun C hC => by
    simp only [List.mem_cons, List.not_mem_nil, or_false] at hC
    rcases hC with rfl | rfl <;> assumption
  have h0 := store_holds [T, R] 0
  have h1 := store_holds [T, R] 1
  rw [dcheck_sound h (antiSym_C hZ hall) (fun m ρ => evalS_listC S T h0 m ρ) (cluster_nilpotent h T) hx
    (evalS_listH h Z _ ρ) hρ .nil (ws := [(evalO (opX S) ρ bra, clusterOperator S R, 1)])
    (.cons ⟨fun ρ' hr => ?_, fun m ρ' _ => evalS_listC S R h1 m ρ', fun ρ' m hr => rfl⟩ .nil)]
  · simp [commR, sg, commutatorR, transformed]
  · simp only [commR, List.map_cons, List.map_nil, List.prod_cons, List.prod_nil, mul_one]
    exact evalS_slot hr hb

end Ccpy.Engine
