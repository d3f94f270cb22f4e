import Verif.Lemmas.Density
import Verif.Props.Ccsdt

/-! **C68** `calc_rdm1` returns the one-particle density matrices of the coupled-cluster state: the expectation values of
`q† p` between `⟨Φ| (1 + L) e^{-T}` and `e^{T} |Φ⟩`, for operators `T` and `L` with single and double or with single, double
and triple excitations. -/

namespace Ccpy.Amplitudes
open Ccpy.Fock Ccpy.Engine Ccpy.Rdm

variable {ι : Type*} [LinearOrder ι]

/-- The amplitudes of a state as the arrays of a `ClusterOperator`. -/
def ofState (T : State) : Amplitudes ℚ :=
  ⟨T.one.tA, T.one.tB, T.one.tAA, T.one.tAB, T.one.tBB, T.three.tAAA, T.three.tAAB, T.three.tABB, T.three.tBBB⟩

/-- The numbers of occupied and unoccupied orbitals. -/
def ofOrbitals (S : Orbitals ι) : Dims := ⟨S.na, S.nb, S.ua, S.ub⟩

/-- Both density matrices of a state, as blocks. -/
structure IsDensityPair (S : Orbitals ι) (T L : State) (g : DensityBlocks ℚ × DensityBlocks ℚ) : Prop where
  a : IsDensity S T L S.na S.ua S.occA S.virA g.1.oo g.1.ov g.1.vo g.1.vv
  b : IsDensity S T L S.nb S.ub S.occB S.virB g.2.oo g.2.ov g.2.vo g.2.vv

private def noIntegrals : Fock.Integrals :=
  ⟨fun _ _ => 0, fun _ _ => 0, fun _ _ _ _ => 0, fun _ _ _ _ => 0, fun _ _ _ _ => 0⟩

private theorem noIntegrals_antisym : noIntegrals.Antisym :=
  ⟨fun _ _ _ _ => ⟨rfl, rfl⟩, fun _ _ _ _ => ⟨rfl, rfl⟩⟩

/-- The indices `i`, `j` of two variables. -/
private def two (q i j : ℕ) (v : ℕ) : ℕ := if v = q then j else i

theorem C68_triples {S : Orbitals ι} (h : S.Proper) {T L : State} (hT : T.Antisym) (hL : L.Antisym) :
    IsDensityPair S T L (calcRdm1 (ofOrbitals S) 3 3 (ofState T) (ofState L)) := by
  have key := fun {x p q} (hx : dcheckD x p q = true) {ρ} => density_eq h noIntegrals_antisym hT hL hx (ρ := ρ)
  refine ⟨⟨?_, ?_, ?_, ?_⟩, ⟨?_, ?_, ?_, ?_⟩⟩
  · intro i j hi hj
    exact (bridge_a_oo S noIntegrals (ofState T) (ofState L) i j).symm.trans (key check_a_oo (ρ := two 4 i j) hi hj)
  · intro i j hi hj
    exact (bridge_a_ov S noIntegrals (ofState T) (ofState L) i j).symm.trans (key check_a_ov (ρ := two 5 i j) hi hj)
  · intro i j hi hj
    exact (bridge_a_vo S noIntegrals (ofState T) (ofState L) i j).symm.trans (key check_a_vo (ρ := two 4 i j) hi hj)
  · intro i j hi hj
    exact (bridge_a_vv S noIntegrals (ofState T) (ofState L) i j).symm.trans (key check_a_vv (ρ := two 5 i j) hi hj)
  · intro i j hi hj
    exact (bridge_b_oo S noIntegrals (ofState T) (ofState L) i j).symm.trans (key check_b_oo (ρ := two 6 i j) hi hj)
  · intro i j hi hj
    exact (bridge_b_ov S noIntegrals (ofState T) (ofState L) i j).symm.trans (key check_b_ov (ρ := two 7 i j) hi hj)
  · intro i j hi hj
    exact (bridge_b_vo S noIntegrals (ofState T) (ofState L) i j).symm.trans (key check_b_vo (ρ := two 6 i j) hi hj)
  · intro i j hi hj
    exact (bridge_b_vv S noIntegrals (ofState T) (ofState L) i j).symm.trans (key check_b_vv (ρ := two 7 i j) hi hj)

/-- Operators of another order have no triple excitations; whatever the arrays of the triple excitations contain is not
used. -/
theorem C68_doubles {S : Orbitals ι} (h : S.Proper) {T L : Cluster} (hT : T.Antisym) (hL : L.Antisym) {orderT orderL : ℕ}
    (ho : ¬ (orderT = 3 ∧ orderL = 3)) (X Y : Triples) :
    IsDensityPair S ⟨T, Triples.zero⟩ ⟨L, Triples.zero⟩
      (calcRdm1 (ofOrbitals S) orderT orderL (ofState ⟨T, X⟩) (ofState ⟨L, Y⟩)) := by
  have e : calcRdm1 (ofOrbitals S) orderT orderL (ofState ⟨T, X⟩) (ofState ⟨L, Y⟩)
      = calcRdm1 (ofOrbitals S) 3 3 (ofState ⟨T, Triples.zero⟩) (ofState ⟨L, Triples.zero⟩) := by
    unfold calcRdm1
    simp only [if_neg ho, add_zero]
    refine Prod.ext ?_ ?_
    · refine (DensityBlocks.mk.injEq ..).mpr ⟨?_, ?_, ?_, ?_⟩
      · funext i j; simp [rdmTriples_a_oo, ofState, Triples.zero]; rfl
      · rfl
      · funext i j; simp [rdmTriples_a_vo, ofState, Triples.zero]; rfl
      · funext i j; simp [rdmTriples_a_vv, ofState, Triples.zero]; rfl
    · refine (DensityBlocks.mk.injEq ..).mpr ⟨?_, ?_, ?_, ?_⟩
      · funext i j; simp [rdmTriples_b_oo, ofState, Triples.zero]; rfl
      · rfl
      · funext i j; simp [rdmTriples_b_vo, ofState, Triples.zero]; rfl
      · funext i j; simp [rdmTriples_b_vv, ofState, Triples.zero]; rfl
  rw [e]
  exact C68_triples h ⟨hT, triples_zero_antisym⟩ ⟨hL, triples_zero_antisym⟩

/-! ### A concrete case -/

open Ccpy.Ccsd Ccpy.Ccsdt

def exampleLeft : Cluster :=
  let t (p q r s : ℕ) : ℚ := ((p : ℚ) - q) * ((r : ℚ) - s) * (1 - p * q + 2 * (r * s))
  ⟨fun a i => 2 * a - i + 1, fun a i => a + 3 * i - 2, t, fun a b i j => a + b - 2 * i + j + 1, t⟩

theorem exampleLeft_antisym : exampleLeft.Antisym := by
  constructor <;> intro a b i j <;> refine ⟨?_, ?_⟩ <;> simp only [exampleLeft] <;> ring

/-- The hypotheses of C68 hold, and the triple excitations contribute to the density. -/
example : density exampleOrbitals ⟨exampleCluster, exampleTriples⟩ ⟨exampleLeft, exampleTriples⟩ (exampleOrbitals.virA 1)
      (exampleOrbitals.occA 1)
    ≠ density exampleOrbitals ⟨exampleCluster, Triples.zero⟩ ⟨exampleLeft, Triples.zero⟩ (exampleOrbitals.virA 1)
      (exampleOrbitals.occA 1) := by
  rw [← (C68_triples exampleOrbitals_proper (T := ⟨exampleCluster, exampleTriples⟩)
      (L := ⟨exampleLeft, exampleTriples⟩) ⟨exampleCluster_antisym, exampleTriples_antisym⟩
      ⟨exampleLeft_antisym, exampleTriples_antisym⟩).a.vo 1 1 (by decide) (by decide),
    ← (C68_doubles exampleOrbitals_proper exampleCluster_antisym exampleLeft_antisym (orderT := 2) (orderL := 2) (by decide)
      exampleTriples exampleTriples).a.vo 1 1 (by decide) (by decide)]
  decide +kernel

end Ccpy.Amplitudes
