import Verif.Engine.Clusters
import Verif.Spec.ApproximateCC

/-! Singles only, doubles only, and the Fock operator in the comparisons. -/

namespace Ccpy.Engine
open Ccpy.Fock Ccpy.Tensor

variable {ι : Type*} [LinearOrder ι]

noncomputable section

/-- The single excitations of `listC`. -/
def listSingles (o n : ℕ) : List Piece := (listC o n).take 2
/-- The double excitations of `listC`. -/
def listDoubles (o n : ℕ) : List Piece := (listC o n).drop 2
/-- The Fock operator. -/
def listFock : List Piece := app (listF 1 0 ⟨false, 1, 1⟩) (listF 2 2 ⟨false, 1, 1⟩)
/-- No cluster operator. -/
def noT (_ : ℕ) : List Piece := []

end

theorem evalS_listSingles (S : Orbitals ι) (T : Cluster) {f v} {amp : ℕ → List ℕ → ℚ} {o : ℕ} (hT : Holds T fun name => amp (o + name))
    (n : ℕ) (ρ : Env) : evalS (elements S.na S.nb f v amp) (opX S) (dimS S) (listSingles o n) ρ = clusterOperator S T.singles := by
  have m1 : ∀ k, (4 * k + 1) % 4 = 1 := fun k => by omega
  have m2 : ∀ k, (4 * k + 2) % 4 = 2 := fun k => by omega
  have m3 : ∀ k, (4 * k + 3) % 4 = 3 := fun k => by omega
  have m0 : ∀ k, (4 * k) % 4 = 0 := fun k => by omega
  unfold listSingles listC
  rw [List.take_succ_cons, List.take_succ_cons, List.take_zero, evalS_cons, evalS_cons, evalP_two (by omega), evalP_two (by omega)]
  simp only [m0, m1, m2, m3]
  have c1 : (⟨false, 1, 1⟩ : Coef).val = 1 := by simp [Coef.val]
  rw [c1, one_smul, one_smul]
  have e6 : ∀ x i, elements S.na S.nb f v amp (o + 6) [(1, x), (0, i)] = T.tA x i := fun x i => hT.a x i
  have e7 : ∀ x i, elements S.na S.nb f v amp (o + 7) [(3, x), (2, i)] = T.tB x i := fun x i => hT.b x i
  simp only [e6, e7]
  have hnil : evalS (elements S.na S.nb f v amp) (opX S) (dimS S) [] ρ = 0 := rfl
  rw [hnil, add_zero]
  unfold clusterOperator Cluster.singles
  simp only [zero_smul, Finset.sum_const_zero, smul_zero, add_zero]
  rfl

theorem evalS_listDoubles (S : Orbitals ι) (T : Cluster) {f v} {amp : ℕ → List ℕ → ℚ} {o : ℕ} (hT : Holds T fun name => amp (o + name))
    (n : ℕ) (ρ : Env) : evalS (elements S.na S.nb f v amp) (opX S) (dimS S) (listDoubles o n) ρ = clusterOperator S T.doubles := by
  have m1 : ∀ k, (4 * k + 1) % 4 = 1 := fun k => by omega
  have m2 : ∀ k, (4 * k + 2) % 4 = 2 := fun k => by omega
  have m3 : ∀ k, (4 * k + 3) % 4 = 3 := fun k => by omega
  have m0 : ∀ k, (4 * k) % 4 = 0 := fun k => by omega
  unfold listDoubles listC
  rw [List.drop_succ_cons, List.drop_succ_cons, List.drop_zero, evalS_cons, evalS_cons, evalS_cons,
    evalP_four (by simp; omega), evalP_four (by simp; omega), evalP_four (by simp; omega)]
  simp only [m0, m1, m2, m3]
  have c1 : (⟨false, 1, 1⟩ : Coef).val = 1 := by simp [Coef.val]
  have c4 : (⟨false, 1, 4⟩ : Coef).val = 1 / 4 := by simp [Coef.val]
  rw [c1, c4, one_smul]
  have e8 : ∀ x y i j, elements S.na S.nb f v amp (o + 8) [(1, x), (1, y), (0, i), (0, j)] = T.tAA x y i j := fun x y i j => hT.aa x y i j
  have e9 : ∀ x y i j, elements S.na S.nb f v amp (o + 9) [(1, x), (3, y), (0, i), (2, j)] = T.tAB x y i j := fun x y i j => hT.ab x y i j
  have e10 : ∀ x y i j, elements S.na S.nb f v amp (o + 10) [(3, x), (3, y), (2, i), (2, j)] = T.tBB x y i j := fun x y i j => hT.bb x y i j
  simp only [e8, e9, e10]
  have hnil : evalS (elements S.na S.nb f v amp) (opX S) (dimS S) [] ρ = 0 := rfl
  rw [hnil, add_zero]
  unfold clusterOperator Cluster.doubles
  simp only [zero_smul, Finset.sum_const_zero, zero_add, add_assoc]
  rfl

theorem evalS_listFock {S : Orbitals ι} (h : S.Proper) (Z : Fock.Integrals) (amp : ℕ → List ℕ → ℚ) (ρ : Env) :
    evalS (elements S.na S.nb (stF S Z) (stV Z) amp) (opX S) (dimS S) listFock ρ = fockOperator S Z := by
  unfold listFock
  rw [app_eq, evalS_append, evalS_F1 h, evalS_F2 h]
  rfl

theorem evalS_noT {A : Type*} [Ring A] [Algebra ℚ A] {I : ℕ → List (ℕ × ℕ) → ℚ} {X : Bool → ℕ × ℕ → A} {dim : ℕ → ℕ} (m : ℕ)
    (ρ : Env) : evalS I X dim (noT m) ρ = 0 := rfl

/-- A projection of the commutator of the Fock operator with double excitations. -/
theorem value_commF {S : Orbitals ι} (h : S.Proper) {Z : Fock.Integrals} {R : Cluster} {amp : ℕ → List ℕ → ℚ} {G : ℕ → List ℕ}
    (hG : AntiSym G (elements S.na S.nb (stF S Z) (stV Z) amp)) {o : ℕ} (hR : Holds R fun name => amp (o + name))
    {x : Ex} {ext : List ℕ} {bra : List Op} (hb : ∀ o ∈ bra, o.2 ∈ ext)
    (hx : dcheck G noT listFock x ext [] false [⟨false, false, [slot bra], listDoubles o, fun _ => []⟩] = true) {ρ : Env}
    (hρ : ExtOk (dimS S) ext ρ) :
    value S Z amp x (ext.map ρ) = expect S (evalO (opX S) ρ bra * (fockOperator S Z * clusterOperator S R.doubles
      - clusterOperator S R.doubles * fockOperator S Z)) := by
  rw [dcheck_sound h hG (fun m ρ => evalS_noT m ρ) IsNilpotent.zero hx
    (evalS_listFock h Z _ ρ) hρ .nil (ws := [(evalO (opX S) ρ bra, clusterOperator S R.doubles, 1)])
    (.cons ⟨fun ρ' hr => ?_, fun m ρ' _ => evalS_listDoubles S R hR m ρ', fun ρ' m hr => rfl⟩ .nil)]
  · simp [sg]
  · simp only [List.map_cons, List.map_nil, List.prod_cons, List.prod_nil, mul_one]
    exact evalS_slot hr hb

theorem singles_antisym (T : Cluster) : T.singles.Antisym := ⟨fun _ _ _ _ => ⟨neg_zero.symm, neg_zero.symm⟩,
  fun _ _ _ _ => ⟨neg_zero.symm, neg_zero.symm⟩⟩
theorem doubles_antisym {T : Cluster} (h : T.Antisym) : T.doubles.Antisym := ⟨h.aa, h.bb⟩

end Ccpy.Engine
