import Verif.Lemmas.PSpaceClosed
import Verif.Props.ClosedShell
import Verif.Props.CcsdtPIteration

/-! C83, closed shells: the restricted branch (`flag_RHF=True`) of the CCSDT(P) program. -/

namespace Ccpy.PSpace
open Ccpy.Tensor Ccpy.Fock Ccpy.Ccsdt Ccpy.Engine Ccpy.Ccsd

variable {ι : Type*} [LinearOrder ι]

/-- A restricted iteration keeps the amplitudes and, up to the order, the lists exactly at the solutions of the equations of CCSDT(P)
for all spins. -/
theorem C83_closed_fixed_point {S : Orbitals ι} (h : S.Proper) {Z : Fock.Integrals} (hC : ClosedShell S Z) (hZ : Z.Antisym) {T : Cluster}
    (hT : T.Antisym) (hs : T.Symmetric) (shift : ℚ) (hd : Denominators (setup S Z shift)) {L : Lists}
    (hd₃ : ListedDenominators S Z shift L.aaa.buffer L.aab.buffer L.abb.buffer L.bbb.buffer)
    (hL : ProperLists S L.aaa.buffer L.aab.buffer L.abb.buffer L.bbb.buffer)
    (hM : MirroredLists L.aaa.buffer.list L.aab.buffer.list L.abb.buffer.list L.bbb.buffer.list) (X : Ints) {m : Memory}
    (hm : ∀ n, 6 ≤ n → n ≤ 10 → m n = T.amp n) :
    (∃ m' L', updateRhf (setup S Z shift) X m L = some (m', L') ∧ (∀ k, 6 ≤ k → k ≤ 10 → m' (k + 5) = T.amp k)
        ∧ L'.aaa.buffer.list.Perm L.aaa.buffer.list ∧ L'.aab.buffer.list.Perm L.aab.buffer.list
        ∧ L'.abb.buffer.list.Perm L.abb.buffer.list ∧ L'.bbb.buffer.list.Perm L.bbb.buffer.list)
      ↔ SolvesCCSDTP S Z T L.aaa.buffer L.aab.buffer L.abb.buffer L.bbb.buffer := by
  obtain ⟨fa, ha, ha'⟩ := flag_of hL.aaa (not_aaa _ _)
  obtain ⟨fb, hb, hb'⟩ := flag_of hL.aab (not_aab _ _ _ _)
  obtain ⟨fc, hc, -⟩ := flag_of hL.abb (not_abb _ _ _ _)
  obtain ⟨fd, hd', -⟩ := flag_of hL.bbb (not_aaa _ _)
  rw [updateRhf_flags _ X m ha hb hc hd']
  have low := low_restR h hC hZ hT hs shift hL hM X hm hd
  have hu : S.ub = S.ua := by unfold Orbitals.ub Orbitals.ua; rw [hC.electrons]
  have hn := hC.electrons
  have hT₃ := listed3_antisym L.aaa.buffer.list L.aab.buffer.list L.abb.buffer.list L.bbb.buffer.list
  have hs₃ := mirrored_symmetric hM
  constructor
  · rintro ⟨m', L', e, g, r₁, r₂, r₃, r₄⟩
    obtain ⟨L'', e, e'⟩ := Option.map_eq_some_iff.mp e
    cases e'
    have g₂ := (list_rest_afterR h hC hZ hT hs shift hL hM X hm hd₃ ha' hb' g).mp ⟨_, e, r₁, r₂, r₃, r₄⟩
    obtain ⟨l₁, l₂, l₃⟩ := low.mp g
    exact ⟨l₁, fun a i ha hi => (reversed_t1 hC hZ hT hs hT₃ hs₃ h (hu ▸ ha) (hn ▸ hi)).trans (l₁ a i (hu ▸ ha) (hn ▸ hi)),
      l₂, l₃, fun a b i j ha hb hi hj => (reversed_t2 hC hZ hT hs hT₃ hs₃ h (hu ▸ ha) (hu ▸ hb) (hn ▸ hi) (hn ▸ hj)).trans
        (l₂ a b i j (hu ▸ ha) (hu ▸ hb) (hn ▸ hi) (hn ▸ hj)),
      g₂.1, g₂.2, mirror_abb h hC hZ hT hs hL hM g₂.2, mirror_bbb h hC hZ hT hs hL hM g₂.1⟩
  · intro q
    have g := low.mpr ⟨q.a, q.aa, q.ab⟩
    obtain ⟨L', e, r⟩ := (list_rest_afterR h hC hZ hT hs shift hL hM X hm hd₃ ha' hb' g).mpr ⟨q.aaa, q.aab⟩
    exact ⟨_, L', by rw [e]; rfl, g, r.aaa, r.aab, r.abb, r.bbb⟩

/-- A restricted iteration never fails, whatever the values are.  Afterwards the lists hold the same excitations as before and the
lists of the other spins are copies. -/
theorem C83_closed_runs (s : Setup) (hn : s.nb = s.na) (X : Ints) (m : Memory) {L : Lists}
    (ua : L.aaa.buffer.Usable (ListedAAA (s.n - s.na) s.na)) (ub : L.aab.buffer.Usable (ListedAAB (s.n - s.na) (s.n - s.nb) s.na s.nb))
    (uc : L.abb.buffer.Usable (ListedABB (s.n - s.na) (s.n - s.nb) s.na s.nb)) (ud : L.bbb.buffer.Usable (ListedAAA (s.n - s.nb) s.nb)) :
    ∃ m' L', updateRhf s X m L = some (m', L')
      ∧ L'.aaa.buffer.Usable (ListedAAA (s.n - s.na) s.na) ∧ L'.aab.buffer.Usable (ListedAAB (s.n - s.na) (s.n - s.nb) s.na s.nb)
      ∧ L'.aaa.excits.Perm L.aaa.excits ∧ L'.aab.excits.Perm L.aab.excits
      ∧ MirroredLists L'.aaa.buffer.list L'.aab.buffer.list L'.abb.buffer.list L'.bbb.buffer.list := by
  obtain ⟨fa, ha, ha'⟩ := flag_of ua (not_aaa _ _)
  obtain ⟨fb, hb, hb'⟩ := flag_of ub (not_aab _ _ _ _)
  obtain ⟨fc, hc, hc'⟩ := flag_of uc (not_abb _ _ _ _)
  obtain ⟨fd, hd, hd'⟩ := flag_of ud (not_aaa _ _)
  rw [updateRhf_flags _ X m ha hb hc hd]
  generalize dressed s (stages m (lowProgramR s X L) 1) stage5.toAmps _ = D
  have n : Same (dimsOf s) L L := ⟨ua, ub, uc, ud, .refl _, .refl _, .refl _, .refl _⟩
  obtain ⟨L₁, e₁, n₁⟩ := sameA (d := dimsOf s) D ha' n
  obtain ⟨L₂, e₂, n₂⟩ := sameB (d := dimsOf s) hn.le D hb' n₁
  refine ⟨stages m (lowProgramR s X L) 1, L₂.mirror, ?_, n₂.ua, n₂.ub, n₂.aaa, n₂.aab, ?_, .refl _⟩
  · simp only [listUpdateR, e₁, e₂, Option.bind_eq_bind, Option.bind_some, Option.map_some]
  · rw [mirror_list]
    exact .refl _

section Examples

def mirrorC : Buffer := ⟨listB.excits.map mirrorRow, listB.amps⟩
def mirrorStates : Lists := ⟨⟨listA.excits, listA.amps, []⟩, ⟨listB.excits, listB.amps, []⟩, ⟨mirrorC.excits, mirrorC.amps, []⟩,
  ⟨listA.excits, listA.amps, []⟩⟩

theorem mirrorC_usable : mirrorC.Usable (ListedABB 4 4 3 3) := by
  refine ⟨rfl, Or.inr ⟨by decide, by decide, fun q hq => ?_⟩⟩
  simp only [mirrorC, listB, mirrorRow, List.map_cons, List.map_nil, List.getD_cons_zero, List.getD_cons_succ, List.mem_cons,
    List.not_mem_nil, or_false] at hq
  rcases hq with rfl | rfl | rfl
  exacts [⟨3, 0, 1, 1, 0, 2, rfl, by decide⟩, ⟨0, 2, 3, 2, 1, 2, rfl, by decide⟩, ⟨1, 0, 1, 1, 0, 2, rfl, by decide⟩]

theorem mirror_proper : ProperLists listOrbitals listA listB mirrorC listA :=
  ⟨listA_usable, listB_usable, mirrorC_usable, listA_usable, by decide, by decide, by decide, by decide⟩

theorem listShell : ClosedShell listOrbitals closedIntegrals := ⟨rfl, closed_shell.z, closed_shell.same, closed_shell.mixed⟩

theorem mirror_lists : MirroredLists listA.list listB.list mirrorC.list listA.list := ⟨.refl _, .refl _⟩

theorem mirror_denominators : Denominators (setup listOrbitals closedIntegrals (1 / 7)) where
  a := fun a i ha hi => (by decide +kernel : ∀ a < 4, ∀ i < 3, (setup listOrbitals closedIntegrals (1 / 7)).dA a i ≠ 0) a ha i hi
  b := fun a i ha hi => (by decide +kernel : ∀ a < 4, ∀ i < 3, (setup listOrbitals closedIntegrals (1 / 7)).dB a i ≠ 0) a ha i hi
  aa := fun a b i j ha hb hi hj => (by decide +kernel : ∀ a < 4, ∀ b < 4, ∀ i < 3, ∀ j < 3,
    (setup listOrbitals closedIntegrals (1 / 7)).dAA a b i j ≠ 0) a ha b hb i hi j hj
  ab := fun a b i j ha hb hi hj => (by decide +kernel : ∀ a < 4, ∀ b < 4, ∀ i < 3, ∀ j < 3,
    (setup listOrbitals closedIntegrals (1 / 7)).dAB a b i j ≠ 0) a ha b hb i hi j hj
  bb := fun a b i j ha hb hi hj => (by decide +kernel : ∀ a < 4, ∀ b < 4, ∀ i < 3, ∀ j < 3,
    (setup listOrbitals closedIntegrals (1 / 7)).dBB a b i j ≠ 0) a ha b hb i hi j hj

theorem mirror_gaps : ListedDenominators listOrbitals closedIntegrals (1 / 7) listA listB mirrorC listA where
  aaa := fun q hq _ => (by decide +kernel : ∀ q ∈ listA.excits, atRow (tripleGapAAA listOrbitals closedIntegrals) q - 1 / 7 ≠ 0) q hq
  aab := fun q hq _ => (by decide +kernel : ∀ q ∈ listB.excits, atRow (tripleGapAAB listOrbitals closedIntegrals) q - 1 / 7 ≠ 0) q hq
  abb := fun q hq _ => (by decide +kernel : ∀ q ∈ mirrorC.excits, atRow (tripleGapABB listOrbitals closedIntegrals) q - 1 / 7 ≠ 0) q hq
  bbb := fun q hq _ => (by decide +kernel : ∀ q ∈ listA.excits, atRow (tripleGapBBB listOrbitals closedIntegrals) q - 1 / 7 ≠ 0) q hq

example := C83_closed_fixed_point listOrbitals_proper listShell closedIntegrals_antisym closedCluster_antisym closedCluster_symmetric (1 / 7)
  mirror_denominators (L := mirrorStates) mirror_gaps mirror_proper mirror_lists stored (m := closedCluster.amp) (fun _ _ _ => rfl)
example := C83_closed_runs (setup listOrbitals closedIntegrals (1 / 7)) rfl stored closedCluster.amp (L := mirrorStates)
  listA_usable listB_usable mirrorC_usable listA_usable

end Examples

end Ccpy.PSpace
