import Verif.Spec.ClosedShell
import Verif.Spec.LeftStates
import Verif.Lemmas.FockSpace
import Verif.Spec.StoredArrays

/-! Exchange of the names of the two spins. -/

namespace Ccpy.Fock

variable {ι : Type*} [LinearOrder ι]

/-- The orbitals with the names of the spins exchanged. -/
def Orbitals.flip (S : Orbitals ι) : Orbitals ι := ⟨S.n, S.nb, S.na, S.down, S.up⟩

theorem Orbitals.flip_proper {S : Orbitals ι} (h : S.Proper) : S.flip.Proper :=
  ⟨h.down_inj, h.up_inj, fun p q e => h.ne q p e.symm, h.hb, h.ha⟩

theorem Orbitals.flip_ref (S : Orbitals ι) : S.flip.ref = S.ref := by
  unfold Orbitals.ref reference
  rw [Finset.union_comm]; rfl

/-- Two creators and two annihilators may both be exchanged. -/
theorem exchange_pairs (w x y z : ι) : cre x * cre w * ann z * ann y = cre w * cre x * ann y * ann z := by
  refine LinearMap.ext fun v => ?_
  simp only [Module.End.mul_apply]
  rw [cre_cre_apply, ann_ann_apply]
  simp only [map_neg, neg_neg]

section
variable {S : Orbitals ι} {Z : Integrals} (hC : ClosedShell S Z) {T L : Cluster} (hs : T.Symmetric) (hl : L.Symmetric)

theorem flip_sum {n m k l : ℕ} (f g : ℕ → ℕ → ℕ → ℕ → Operator ι) (h : ∀ p q r s, f p q r s = g q p s r) :
    ∑ p ∈ Finset.range n, ∑ q ∈ Finset.range m, ∑ r ∈ Finset.range k, ∑ s ∈ Finset.range l, f p q r s
      = ∑ p ∈ Finset.range m, ∑ q ∈ Finset.range n, ∑ r ∈ Finset.range l, ∑ s ∈ Finset.range k, g p q r s := by
  rw [Finset.sum_comm]
  refine Finset.sum_congr rfl fun q _ => Finset.sum_congr rfl fun p _ => ?_
  rw [Finset.sum_comm]
  exact Finset.sum_congr rfl fun s _ => Finset.sum_congr rfl fun r _ => h p q r s

include hC in
theorem flip_hamiltonian : hamiltonian S.flip Z = hamiltonian S Z := by
  unfold hamiltonian
  have e := flip_sum (n := S.n) (m := S.n) (k := S.n) (l := S.n)
    (fun p q r s => Z.vAB p q r s • (cre (S.down p) * cre (S.up q) * ann (S.up s) * ann (S.down r)))
    (fun p q r s => Z.vAB p q r s • (cre (S.up p) * cre (S.down q) * ann (S.down s) * ann (S.up r)))
    (fun p q r s => by rw [hC.mixed, exchange_pairs])
  simp only [Orbitals.flip]
  rw [e, hC.z, hC.same]
  abel

include hs in
theorem flip_cluster : clusterOperator S.flip T = clusterOperator S T := by
  unfold clusterOperator
  have e := flip_sum (n := S.ub) (m := S.ua) (k := S.nb) (l := S.na)
    (fun a b i j => T.tAB a b i j • (cre (S.virB a) * cre (S.virA b) * ann (S.occA j) * ann (S.occB i)))
    (fun a b i j => T.tAB a b i j • (cre (S.virA a) * cre (S.virB b) * ann (S.occB j) * ann (S.occA i)))
    (fun a b i j => by rw [hs.ab, exchange_pairs])
  change ∑ a ∈ Finset.range S.ub, ∑ i ∈ Finset.range S.nb, T.tA a i • (cre (S.virB a) * ann (S.occB i))
    + ∑ a ∈ Finset.range S.ua, ∑ i ∈ Finset.range S.na, T.tB a i • (cre (S.virA a) * ann (S.occA i))
    + (1 / 4 : ℚ) • ∑ a ∈ Finset.range S.ub, ∑ b ∈ Finset.range S.ub, ∑ i ∈ Finset.range S.nb, ∑ j ∈ Finset.range S.nb,
      T.tAA a b i j • (cre (S.virB a) * cre (S.virB b) * ann (S.occB j) * ann (S.occB i))
    + ∑ a ∈ Finset.range S.ub, ∑ b ∈ Finset.range S.ua, ∑ i ∈ Finset.range S.nb, ∑ j ∈ Finset.range S.na,
      T.tAB a b i j • (cre (S.virB a) * cre (S.virA b) * ann (S.occA j) * ann (S.occB i))
    + (1 / 4 : ℚ) • ∑ a ∈ Finset.range S.ua, ∑ b ∈ Finset.range S.ua, ∑ i ∈ Finset.range S.na, ∑ j ∈ Finset.range S.na,
      T.tBB a b i j • (cre (S.virA a) * cre (S.virA b) * ann (S.occA j) * ann (S.occA i)) = _
  rw [e, hs.a, hs.aa]
  abel

include hl in
theorem flip_deexcitation : deexcitation S.flip L = deexcitation S L := by
  unfold deexcitation
  have e := flip_sum (n := S.ub) (m := S.ua) (k := S.nb) (l := S.na)
    (fun a b i j => L.tAB a b i j • (cre (S.occB i) * cre (S.occA j) * ann (S.virA b) * ann (S.virB a)))
    (fun a b i j => L.tAB a b i j • (cre (S.occA i) * cre (S.occB j) * ann (S.virB b) * ann (S.virA a)))
    (fun a b i j => by rw [hl.ab, exchange_pairs])
  change ∑ a ∈ Finset.range S.ub, ∑ i ∈ Finset.range S.nb, L.tA a i • (cre (S.occB i) * ann (S.virB a))
    + ∑ a ∈ Finset.range S.ua, ∑ i ∈ Finset.range S.na, L.tB a i • (cre (S.occA i) * ann (S.virA a))
    + (1 / 4 : ℚ) • ∑ a ∈ Finset.range S.ub, ∑ b ∈ Finset.range S.ub, ∑ i ∈ Finset.range S.nb, ∑ j ∈ Finset.range S.nb,
      L.tAA a b i j • (cre (S.occB i) * cre (S.occB j) * ann (S.virB b) * ann (S.virB a))
    + ∑ a ∈ Finset.range S.ub, ∑ b ∈ Finset.range S.ua, ∑ i ∈ Finset.range S.nb, ∑ j ∈ Finset.range S.na,
      L.tAB a b i j • (cre (S.occB i) * cre (S.occA j) * ann (S.virA b) * ann (S.virB a))
    + (1 / 4 : ℚ) • ∑ a ∈ Finset.range S.ua, ∑ b ∈ Finset.range S.ua, ∑ i ∈ Finset.range S.na, ∑ j ∈ Finset.range S.na,
      L.tBB a b i j • (cre (S.occA i) * cre (S.occA j) * ann (S.virA b) * ann (S.virA a)) = _
  rw [e, hl.a, hl.aa]
  abel

include hC hs in
theorem flip_transformed : transformed S.flip Z T = transformed S Z T := by
  unfold transformed
  rw [flip_cluster hs, flip_hamiltonian hC]

theorem flip_element (D : Vec ι) (A : Operator ι) : S.flip.element D A = S.element D A := by
  unfold Orbitals.element
  rw [S.flip_ref]

theorem flip_fock (hC : ClosedShell S Z) : fockA S.flip Z = fockA S Z ∧ fockB S.flip Z = fockB S Z := by
  constructor <;> funext p q <;> simp only [fockA, fockB, Orbitals.flip, hC.electrons]

theorem closed_fock (hC : ClosedShell S Z) : fockB S Z = fockA S Z := by
  funext p q
  unfold fockA fockB
  rw [hC.z, hC.same, hC.electrons]
  simp only [hC.mixed]

theorem flip_singleA (a i : ℕ) : S.flip.singleA a i = S.singleB a i := by
  rw [Orbitals.singleA, S.flip_ref]; rfl
theorem flip_doubleAA (a b i j : ℕ) : S.flip.doubleAA a b i j = S.doubleBB a b i j := by
  rw [Orbitals.doubleAA, S.flip_ref]; rfl

theorem flip_closed (hC : ClosedShell S Z) : ClosedShell S.flip Z := ⟨hC.electrons.symm, hC.z, hC.same, hC.mixed⟩

/-- With as many `α` as `β` electrons the arrays do not know the names of the spins. -/
theorem flip_value (hC : ClosedShell S Z) (amp : ℕ → List ℕ → ℚ) (x : Tensor.Ex) (idx : List ℕ) :
    value S.flip Z amp x idx = value S Z amp x idx := by
  unfold value
  rw [(flip_fock hC).1, (flip_fock hC).2]
  simp only [Orbitals.flip, hC.electrons]

/-- Three creators and three annihilators, one of each of the other spin. -/
theorem exchange_triples (u v w x y z : ι) : cre u * cre v * cre w * ann x * ann y * ann z
    = cre w * cre u * cre v * ann y * ann z * ann x := by
  refine LinearMap.ext fun t => ?_
  simp only [Module.End.mul_apply]
  rw [cre_cre_apply v w, map_neg, cre_cre_apply u w, neg_neg, ann_ann_apply x y, ann_ann_apply x z]
  simp only [map_neg, neg_neg]

theorem turn_sum {n m k l : ℕ} (f g : ℕ → ℕ → ℕ → ℕ → ℕ → ℕ → Operator ι) (h : ∀ a b c i j k, f a b c i j k = g c a b k i j) :
    ∑ a ∈ Finset.range n, ∑ b ∈ Finset.range n, ∑ c ∈ Finset.range m, ∑ i ∈ Finset.range k, ∑ j ∈ Finset.range k,
      ∑ q ∈ Finset.range l, f a b c i j q
      = ∑ a ∈ Finset.range m, ∑ b ∈ Finset.range n, ∑ c ∈ Finset.range n, ∑ i ∈ Finset.range l, ∑ j ∈ Finset.range k,
        ∑ q ∈ Finset.range k, g a b c i j q := by
  have r : ∀ (n m : ℕ) (G : ℕ → ℕ → ℕ → Operator ι), ∑ a ∈ Finset.range n, ∑ b ∈ Finset.range n, ∑ c ∈ Finset.range m, G a b c
      = ∑ c ∈ Finset.range m, ∑ a ∈ Finset.range n, ∑ b ∈ Finset.range n, G a b c := fun n m G => by
    rw [Finset.sum_comm (s := Finset.range m) (t := Finset.range n) (f := fun c a => ∑ b ∈ Finset.range n, G a b c)]
    exact Finset.sum_congr rfl fun a _ => Finset.sum_comm
  rw [r]
  refine Finset.sum_congr rfl fun _ _ => Finset.sum_congr rfl fun _ _ => Finset.sum_congr rfl fun _ _ => ?_
  rw [r]
  exact Finset.sum_congr rfl fun _ _ => Finset.sum_congr rfl fun _ _ => Finset.sum_congr rfl fun _ _ => h _ _ _ _ _ _

theorem flip_triples {T₃ : Triples} (hs : T₃.Symmetric) : triplesOperator S.flip T₃ = triplesOperator S T₃ := by
  unfold triplesOperator
  have e₁ := turn_sum (n := S.ub) (m := S.ua) (k := S.nb) (l := S.na)
    (fun a b c i j k => T₃.tAAB a b c i j k
      • (cre (S.virB a) * cre (S.virB b) * cre (S.virA c) * ann (S.occA k) * ann (S.occB j) * ann (S.occB i)))
    (fun a b c i j k => T₃.tABB a b c i j k
      • (cre (S.virA a) * cre (S.virB b) * cre (S.virB c) * ann (S.occB k) * ann (S.occB j) * ann (S.occA i)))
    (fun a b c i j k => by rw [hs.aab, exchange_triples])
  have e₂ := turn_sum (n := S.ua) (m := S.ub) (k := S.na) (l := S.nb)
    (fun a b c i j k => T₃.tAAB a b c i j k
      • (cre (S.virA a) * cre (S.virA b) * cre (S.virB c) * ann (S.occB k) * ann (S.occA j) * ann (S.occA i)))
    (fun a b c i j k => T₃.tABB a b c i j k
      • (cre (S.virB a) * cre (S.virA b) * cre (S.virA c) * ann (S.occA k) * ann (S.occA j) * ann (S.occB i)))
    (fun a b c i j k => by rw [hs.aab, exchange_triples])
  rw [e₂, ← e₁, hs.aaa]
  have l₁ : S.flip.ua = S.ub := rfl
  have l₂ : S.flip.ub = S.ua := rfl
  have l₃ : S.flip.na = S.nb := rfl
  have l₄ : S.flip.nb = S.na := rfl
  have l₅ : S.flip.virA = S.virB := rfl
  have l₆ : S.flip.virB = S.virA := rfl
  have l₇ : S.flip.occA = S.occB := rfl
  have l₈ : S.flip.occB = S.occA := rfl
  rw [l₁, l₂, l₃, l₄, l₅, l₆, l₇, l₈]
  abel

theorem flip_transformed3 (hC : ClosedShell S Z) (hs : T.Symmetric) {T₃ : Triples} (hs₃ : T₃.Symmetric) :
    transformed3 S.flip Z T T₃ = transformed3 S Z T T₃ := by
  unfold transformed3 clusterOperator3
  rw [flip_cluster hs, flip_hamiltonian hC, flip_triples hs₃]

end

end Ccpy.Fock
