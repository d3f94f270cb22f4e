import Verif.Lemmas.PSpaceFixed
import Verif.Props.CcsdtP

/-! C83: the kernels of CCSDT(P) for single and double excitations and a whole iteration.

`T` are the amplitudes of single and double excitations in the memory `m`, the triple excitations are four lists.  `X` are the
intermediates that an iteration starts from. -/

namespace Ccpy.PSpace
open Ccpy.Tensor Ccpy.Fock Ccpy.Ccsdt Ccpy.Engine Ccpy.Ccsd

variable {ι : Type*} [LinearOrder ι]

/-! ### Kernels

Each kernel adds the projection of the similarity transformed Hamiltonian, divided by the energy denominator, to the amplitudes,
and returns this quotient as well. -/

section
variable {S : Orbitals ι} (h : S.Proper) {Z : Fock.Integrals} (hZ : Z.Antisym) {T : Cluster} (hT : T.Antisym) {shift : ℚ}
  (hd : Denominators (setup S Z shift)) (X : Ints) {m : Memory} (hm : ∀ n, 6 ≤ n → n ≤ 10 → m n = T.amp n)
  {t3a t3b t3c t3d : Buffer} (hL : ProperLists S t3a t3b t3c t3d)
include h hZ hT hd hm hL

theorem C83_t1a :
    let r := callT1a (setup S Z shift) m amplitudes3.toAmps (atSingles X) stored t3a t3b t3c (m 6)
    (∀ a i, a < S.ua → i < S.na →
      let x := S.element (S.singleA a i) (transformed3 S Z T (listed3 t3a.list t3b.list t3c.list t3d.list))
        / (fockA S Z i i - fockA S Z (S.na + a) (S.na + a) - shift)
      r.1 [a, i] = T.tA a i + x ∧ r.2 [a, i] = x)
    ∧ ∀ l, (∀ a i, a < S.ua → i < S.na → l ≠ [a, i]) → r.1 l = m 6 l := by
  have e := (swept_callT1a h hZ hT hd X hL.aaa hL.aab hL.abb (t3d := t3d) hm).explicit hd.a
  rw [hm 6 (by omega) (by omega)] at e ⊢
  exact e

theorem C83_t1b :
    let r := callT1b (setup S Z shift) m amplitudes3.toAmps (atSingles X) stored t3b t3c t3d (m 7)
    (∀ a i, a < S.ub → i < S.nb →
      let x := S.element (S.singleB a i) (transformed3 S Z T (listed3 t3a.list t3b.list t3c.list t3d.list))
        / (fockB S Z i i - fockB S Z (S.nb + a) (S.nb + a) - shift)
      r.1 [a, i] = T.tB a i + x ∧ r.2 [a, i] = x)
    ∧ ∀ l, (∀ a i, a < S.ub → i < S.nb → l ≠ [a, i]) → r.1 l = m 7 l := by
  have e := (swept_callT1b h hZ hT hd X hL.aab hL.abb hL.bbb (t3a := t3a) hm).explicit hd.b
  rw [hm 7 (by omega) (by omega)] at e ⊢
  exact e

theorem C83_t2a :
    let r := callT2a (setup S Z shift) m amplitudes3.toAmps (atDoubles X) stored t3a t3b (m 8)
    (∀ a b i j, a < S.ua → b < S.ua → i < S.na → j < S.na →
      let x := S.element (S.doubleAA a b i j) (transformed3 S Z T (listed3 t3a.list t3b.list t3c.list t3d.list))
        / (fockA S Z i i + fockA S Z j j - fockA S Z (S.na + a) (S.na + a) - fockA S Z (S.na + b) (S.na + b) - shift)
      r.1 [a, b, i, j] = T.tAA a b i j + x ∧ r.2 [a, b, i, j] = x)
    ∧ ∀ l, (∀ a b i j, a < S.ua → b < S.ua → i < S.na → j < S.na → l ≠ [a, b, i, j]) → r.1 l = m 8 l := by
  have e := (swept_callT2a h hZ hT hd X hL.aaa hL.aab (t3c := t3c) (t3d := t3d) hm).explicit hd.aa
  rw [hm 8 (by omega) (by omega)] at e ⊢
  exact e

theorem C83_t2b :
    let r := callT2b (setup S Z shift) m amplitudes3.toAmps (atDoubles X) stored t3b t3c (m 9)
    (∀ a b i j, a < S.ua → b < S.ub → i < S.na → j < S.nb →
      let x := S.element (S.doubleAB a b i j) (transformed3 S Z T (listed3 t3a.list t3b.list t3c.list t3d.list))
        / (fockA S Z i i + fockB S Z j j - fockA S Z (S.na + a) (S.na + a) - fockB S Z (S.nb + b) (S.nb + b) - shift)
      r.1 [a, b, i, j] = T.tAB a b i j + x ∧ r.2 [a, b, i, j] = x)
    ∧ ∀ l, (∀ a b i j, a < S.ua → b < S.ub → i < S.na → j < S.nb → l ≠ [a, b, i, j]) → r.1 l = m 9 l := by
  have e := (swept_callT2b h hZ hT hd X hL.aab hL.abb (t3a := t3a) (t3d := t3d) hm).explicit hd.ab
  rw [hm 9 (by omega) (by omega)] at e ⊢
  exact e

theorem C83_t2c :
    let r := callT2c (setup S Z shift) m amplitudes3.toAmps (atDoubles X) stored t3c t3d (m 10)
    (∀ a b i j, a < S.ub → b < S.ub → i < S.nb → j < S.nb →
      let x := S.element (S.doubleBB a b i j) (transformed3 S Z T (listed3 t3a.list t3b.list t3c.list t3d.list))
        / (fockB S Z i i + fockB S Z j j - fockB S Z (S.nb + a) (S.nb + a) - fockB S Z (S.nb + b) (S.nb + b) - shift)
      r.1 [a, b, i, j] = T.tBB a b i j + x ∧ r.2 [a, b, i, j] = x)
    ∧ ∀ l, (∀ a b i j, a < S.ub → b < S.ub → i < S.nb → j < S.nb → l ≠ [a, b, i, j]) → r.1 l = m 10 l := by
  have e := (swept_callT2c h hZ hT hd X hL.abb hL.bbb (t3a := t3a) (t3b := t3b) hm).explicit hd.bb
  rw [hm 10 (by omega) (by omega)] at e ⊢
  exact e

end

/-! ### The iteration -/

/-- An iteration keeps the amplitudes of single and double excitations and, up to the order, the lists exactly at the solutions of
the equations of CCSDT(P). -/
theorem C83_fixed_point {S : Orbitals ι} (h : S.Proper) {Z : Fock.Integrals} (hZ : Z.Antisym) {T : Cluster} (hT : T.Antisym)
    (shift : ℚ) (hd : Denominators (setup S Z shift)) {L : Lists}
    (hd₃ : ListedDenominators S Z shift L.aaa.buffer L.aab.buffer L.abb.buffer L.bbb.buffer)
    (hL : ProperLists S L.aaa.buffer L.aab.buffer L.abb.buffer L.bbb.buffer) (hn : S.nb ≤ S.na) (X : Ints) {m : Memory}
    (hm : ∀ n, 6 ≤ n → n ≤ 10 → m n = T.amp n) :
    (∃ m' L', update (setup S Z shift) X m L = some (m', L') ∧ (∀ k, 6 ≤ k → k ≤ 10 → m' (k + 5) = T.amp k)
        ∧ L'.aaa.buffer.list.Perm L.aaa.buffer.list ∧ L'.aab.buffer.list.Perm L.aab.buffer.list
        ∧ L'.abb.buffer.list.Perm L.abb.buffer.list ∧ L'.bbb.buffer.list.Perm L.bbb.buffer.list)
      ↔ SolvesCCSDTP S Z T L.aaa.buffer L.aab.buffer L.abb.buffer L.bbb.buffer := by
  obtain ⟨fa, ha, ha'⟩ := flag_of hL.aaa (not_aaa _ _)
  obtain ⟨fb, hb, hb'⟩ := flag_of hL.aab (not_aab _ _ _ _)
  obtain ⟨fc, hc, hc'⟩ := flag_of hL.abb (not_abb _ _ _ _)
  obtain ⟨fd, hd, hd'⟩ := flag_of hL.bbb (not_aaa _ _)
  rw [update_flags _ X m ha hb hc hd]
  have low := low_rest h hZ hT shift hL X hm ‹_›
  constructor
  · rintro ⟨m', L', e, g, r₁, r₂, r₃, r₄⟩
    obtain ⟨L'', e, e'⟩ := Option.map_eq_some_iff.mp e
    cases e'
    have g₂ := (list_rest_after h hZ hT shift hL X hm hd₃ hn ha' hb' hc' hd' g).mp ⟨_, e, r₁, r₂, r₃, r₄⟩
    obtain ⟨l₁, l₂, l₃, l₄, l₅⟩ := low.mp g
    exact ⟨l₁, l₂, l₃, l₄, l₅, g₂.1, g₂.2.1, g₂.2.2.1, g₂.2.2.2⟩
  · intro q
    have g := low.mpr ⟨q.a, q.b, q.aa, q.ab, q.bb⟩
    obtain ⟨L', e, r⟩ := (list_rest_after h hZ hT shift hL X hm hd₃ hn ha' hb' hc' hd' g).mpr ⟨q.aaa, q.aab, q.abb, q.bbb⟩
    exact ⟨_, L', by rw [e]; rfl, g, r.aaa, r.aab, r.abb, r.bbb⟩

/-- An iteration never fails, whatever the values are, and the lists hold the same excitations as before. -/
theorem C83_runs (s : Setup) (hn : s.nb ≤ s.na) (X : Ints) (m : Memory) {L : Lists}
    (ua : L.aaa.buffer.Usable (ListedAAA (s.n - s.na) s.na)) (ub : L.aab.buffer.Usable (ListedAAB (s.n - s.na) (s.n - s.nb) s.na s.nb))
    (uc : L.abb.buffer.Usable (ListedABB (s.n - s.na) (s.n - s.nb) s.na s.nb)) (ud : L.bbb.buffer.Usable (ListedAAA (s.n - s.nb) s.nb)) :
    ∃ m' L', update s X m L = some (m', L')
      ∧ L'.aaa.buffer.Usable (ListedAAA (s.n - s.na) s.na) ∧ L'.aab.buffer.Usable (ListedAAB (s.n - s.na) (s.n - s.nb) s.na s.nb)
      ∧ L'.abb.buffer.Usable (ListedABB (s.n - s.na) (s.n - s.nb) s.na s.nb) ∧ L'.bbb.buffer.Usable (ListedAAA (s.n - s.nb) s.nb)
      ∧ L'.aaa.excits.Perm L.aaa.excits ∧ L'.aab.excits.Perm L.aab.excits
      ∧ L'.abb.excits.Perm L.abb.excits ∧ L'.bbb.excits.Perm L.bbb.excits := by
  obtain ⟨fa, ha, ha'⟩ := flag_of ua (not_aaa _ _)
  obtain ⟨fb, hb, hb'⟩ := flag_of ub (not_aab _ _ _ _)
  obtain ⟨fc, hc, hc'⟩ := flag_of uc (not_abb _ _ _ _)
  obtain ⟨fd, hd, hd'⟩ := flag_of ud (not_aaa _ _)
  rw [update_flags _ X m ha hb hc hd]
  obtain ⟨L', e, n⟩ := listUpdate_runs (d := dimsOf s) hn (dressed s (stages m (lowProgram s X L) 1) stage5.toAmps
    (if fa || fb || fc || fd then ints3 X else ints2 X)) (L := L) ⟨ua, ub, uc, ud, .refl _, .refl _, .refl _, .refl _⟩ ha' hb' hc' hd'
  exact ⟨_, L', by rw [e]; rfl, n.ua, n.ub, n.uc, n.ud, n.aaa, n.aab, n.abb, n.bbb⟩

/-- A list without any row, not even the placeholder, is an error. -/
theorem C83_no_rows (s : Setup) (X : Ints) (m : Memory) {L : Lists}
    (h : L.aaa.excits = [] ∨ L.aab.excits = [] ∨ L.abb.excits = [] ∨ L.bbb.excits = []) : update s X m L = none := by
  have e : ∀ {t : State}, t.excits = [] → t.active = none := fun h => by simp [State.active, h]
  rcases h with h | h | h | h
  · simp [update, e h]
  · cases g : L.aaa.active <;> simp [update, e h, g]
  · cases g : L.aaa.active <;> cases g' : L.aab.active <;> simp [update, e h, g, g']
  · cases g : L.aaa.active <;> cases g' : L.aab.active <;> cases g'' : L.abb.active <;> simp [update, e h, g, g', g'']

/-- If all four lists are empty, they stay as they are, and an iteration is the one of the single and double excitations alone. -/
theorem C83_empty (s : Setup) (X : Ints) (m : Memory) {L : Lists} (ha : L.aaa.excits = [[1, 1, 1, 1, 1, 1]])
    (hb : L.aab.excits = [[1, 1, 1, 1, 1, 1]]) (hc : L.abb.excits = [[1, 1, 1, 1, 1, 1]]) (hd : L.bbb.excits = [[1, 1, 1, 1, 1, 1]]) :
    update s X m L = some ((updateLow s X m L).1, L) := by
  have e : ∀ {t : State}, t.excits = [[1, 1, 1, 1, 1, 1]] → t.active = some false := fun h => by simp [State.active, h]
  rw [update_flags s X m (e ha) (e hb) (e hc) (e hd), updateLow_eq]
  rfl

section Examples

def listStates : Lists := ⟨⟨listA.excits, listA.amps, []⟩, ⟨listB.excits, listB.amps, []⟩, ⟨listC.excits, listC.amps, []⟩,
  ⟨listD.excits, listD.amps, []⟩⟩

theorem list_proper : ProperLists listOrbitals listA listB listC listD :=
  ⟨listA_usable, listB_usable, listC_usable, listD_usable, by decide, by decide, by decide, by decide⟩

theorem list_denominators : Denominators (setup listOrbitals exampleIntegrals (1 / 7)) where
  a := fun a i ha hi => (by decide +kernel : ∀ a < 4, ∀ i < 3, (setup listOrbitals exampleIntegrals (1 / 7)).dA a i ≠ 0) a ha i hi
  b := fun a i ha hi => (by decide +kernel : ∀ a < 4, ∀ i < 3, (setup listOrbitals exampleIntegrals (1 / 7)).dB a i ≠ 0) a ha i hi
  aa := fun a b i j ha hb hi hj => (by decide +kernel : ∀ a < 4, ∀ b < 4, ∀ i < 3, ∀ j < 3,
    (setup listOrbitals exampleIntegrals (1 / 7)).dAA a b i j ≠ 0) a ha b hb i hi j hj
  ab := fun a b i j ha hb hi hj => (by decide +kernel : ∀ a < 4, ∀ b < 4, ∀ i < 3, ∀ j < 3,
    (setup listOrbitals exampleIntegrals (1 / 7)).dAB a b i j ≠ 0) a ha b hb i hi j hj
  bb := fun a b i j ha hb hi hj => (by decide +kernel : ∀ a < 4, ∀ b < 4, ∀ i < 3, ∀ j < 3,
    (setup listOrbitals exampleIntegrals (1 / 7)).dBB a b i j ≠ 0) a ha b hb i hi j hj

theorem list_gaps : ListedDenominators listOrbitals exampleIntegrals (1 / 7) listA listB listC listD where
  aaa := fun q hq _ => (by decide +kernel : ∀ q ∈ listA.excits, atRow (tripleGapAAA listOrbitals exampleIntegrals) q - 1 / 7 ≠ 0) q hq
  aab := fun q hq _ => (by decide +kernel : ∀ q ∈ listB.excits, atRow (tripleGapAAB listOrbitals exampleIntegrals) q - 1 / 7 ≠ 0) q hq
  abb := fun q hq _ => (by decide +kernel : ∀ q ∈ listC.excits, atRow (tripleGapABB listOrbitals exampleIntegrals) q - 1 / 7 ≠ 0) q hq
  bbb := fun q hq _ => (by decide +kernel : ∀ q ∈ listD.excits, atRow (tripleGapBBB listOrbitals exampleIntegrals) q - 1 / 7 ≠ 0) q hq

example := C83_t1a listOrbitals_proper exampleIntegrals_antisym exampleCluster_antisym list_denominators stored
  (m := exampleCluster.amp) (fun _ _ _ => rfl) list_proper
example := C83_t1b listOrbitals_proper exampleIntegrals_antisym exampleCluster_antisym list_denominators stored
  (m := exampleCluster.amp) (fun _ _ _ => rfl) list_proper
example := C83_t2a listOrbitals_proper exampleIntegrals_antisym exampleCluster_antisym list_denominators stored
  (m := exampleCluster.amp) (fun _ _ _ => rfl) list_proper
example := C83_t2b listOrbitals_proper exampleIntegrals_antisym exampleCluster_antisym list_denominators stored
  (m := exampleCluster.amp) (fun _ _ _ => rfl) list_proper
example := C83_t2c listOrbitals_proper exampleIntegrals_antisym exampleCluster_antisym list_denominators stored
  (m := exampleCluster.amp) (fun _ _ _ => rfl) list_proper
example := C83_fixed_point listOrbitals_proper exampleIntegrals_antisym exampleCluster_antisym (1 / 7) list_denominators
  (L := listStates) list_gaps list_proper (by decide) stored (m := exampleCluster.amp) (fun _ _ _ => rfl)
example := C83_runs (setup listOrbitals exampleIntegrals (1 / 7)) (by decide) stored exampleCluster.amp (L := listStates)
  listA_usable listB_usable listC_usable listD_usable
example := C83_no_rows (setup listOrbitals exampleIntegrals (1 / 7)) stored exampleCluster.amp
  (L := { listStates with abb := ⟨[], [], []⟩ }) (Or.inr (Or.inr (Or.inl rfl)))
example := let t : State := ⟨[[1, 1, 1, 1, 1, 1]], [0], [0]⟩
  C83_empty (setup listOrbitals exampleIntegrals (1 / 7)) stored exampleCluster.amp (L := ⟨t, t, t, t⟩) rfl rfl rfl rfl

end Examples

end Ccpy.PSpace
