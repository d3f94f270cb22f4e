import Verif.Lemmas.PSpaceRuns
import Verif.Lemmas.CcsdtStages

/-! An iteration of CCSDT(P) is at rest exactly at the solutions of its equations. -/

namespace Ccpy.PSpace
open Ccpy.Tensor Ccpy.Fock Ccpy.Ccsdt Ccpy.Engine Ccpy.Ccsd

variable {ι : Type*} [LinearOrder ι]

theorem stages_old : ∀ (Fs : List (Memory → (List ℕ → ℚ) × (List ℕ → ℚ))) (m : Memory) {k : ℕ}, 1 ≤ k → k + Fs.length ≤ 10 →
    ∀ {n}, ¬ Reserved n → stages m Fs k n = m n
  | [], _, _, _, _, _, _ => rfl
  | F :: Fs, m, k, h₁, h₂, n, hn => by
    rw [List.length_cons] at h₂
    exact (stages_old Fs (put m k (F m)) (k := k + 1) (by omega) (by omega) hn).trans (put_old m h₁ (by omega) _ hn)

section
variable {S : Orbitals ι} (h : S.Proper) {Z : Fock.Integrals} (hZ : Z.Antisym) {T : Cluster} (hT : T.Antisym) (shift : ℚ) {L : Lists}
  (hL : ProperLists S L.aaa.buffer L.aab.buffer L.abb.buffer L.bbb.buffer) (X : Ints) {m : Memory}
  (hm : ∀ n, 6 ≤ n → n ≤ 10 → m n = T.amp n)

include h hZ hT hL hm in
theorem low_rest (hd : Denominators (setup S Z shift)) :
    (∀ k, 6 ≤ k → k ≤ 10 → stages m (lowProgram (setup S Z shift) X L) 1 (k + 5) = T.amp k) ↔
      (∀ a i, a < S.ua → i < S.na → S.element (S.singleA a i) (projected S Z T L) = 0)
      ∧ (∀ a i, a < S.ub → i < S.nb → S.element (S.singleB a i) (projected S Z T L) = 0)
      ∧ (∀ a b i j, a < S.ua → b < S.ua → i < S.na → j < S.na → S.element (S.doubleAA a b i j) (projected S Z T L) = 0)
      ∧ (∀ a b i j, a < S.ua → b < S.ub → i < S.na → j < S.nb → S.element (S.doubleAB a b i j) (projected S Z T L) = 0)
      ∧ ∀ a b i j, a < S.ub → b < S.ub → i < S.nb → j < S.nb → S.element (S.doubleBB a b i j) (projected S Z T L) = 0 := by
  let Q : ℕ → Prop := fun n => match n with
    | 1 => ∀ a i, a < S.ua → i < S.na → S.element (S.singleA a i) (projected S Z T L) = 0
    | 2 => ∀ a i, a < S.ub → i < S.nb → S.element (S.singleB a i) (projected S Z T L) = 0
    | 3 => ∀ a b i j, a < S.ua → b < S.ua → i < S.na → j < S.na → S.element (S.doubleAA a b i j) (projected S Z T L) = 0
    | 4 => ∀ a b i j, a < S.ua → b < S.ub → i < S.na → j < S.nb → S.element (S.doubleAB a b i j) (projected S Z T L) = 0
    | 5 => ∀ a b i j, a < S.ub → b < S.ub → i < S.nb → j < S.nb → S.element (S.doubleBB a b i j) (projected S Z T L) = 0
    | _ => True
  have main := stages_fixed (m₀ := m) (Q := Q) (lowProgram (setup S Z shift) X L) m (k := 1) le_rfl
    (show 1 + 5 ≤ 10 by omega) (fun _ _ => rfl) (fun n => by
      have : backName (1 - 1) n = n := by unfold backName; split_ifs <;> omega
      rw [this]) (fun j hj m' hm' hs => by
    have hj : j < 5 := hj
    have hm'' : ∀ n, 6 ≤ n → n ≤ 10 → m' n = T.amp n := fun n h₁ h₂ =>
      (hm' n (by unfold Reserved; omega)).trans (hm n h₁ h₂)
    have old : ∀ n, 6 ≤ n → n ≤ 10 → m n = m' n := fun n h₁ h₂ => (hm n h₁ h₂).trans (hm'' n h₁ h₂).symm
    interval_cases j
    · rw [show m (oldName (1 + 0)) = m' 6 from old 6 (by omega) (by omega)]
      exact (swept_stageT1a h hZ hT hd X hL.aaa hL.aab hL.abb (t3d := L.bbb.buffer) hs hm'').fixed_iff hd.a
    · rw [show m (oldName (1 + 1)) = m' 7 from old 7 (by omega) (by omega)]
      exact (swept_stageT1b h hZ hT hd X hL.aab hL.abb hL.bbb (t3a := L.aaa.buffer) hs hm'').fixed_iff hd.b
    · rw [show m (oldName (1 + 2)) = m' 8 from old 8 (by omega) (by omega)]
      exact (swept_stageT2a h hZ hT hd X hL.aaa hL.aab (t3c := L.abb.buffer) (t3d := L.bbb.buffer) hs hm'').fixed_iff hd.aa
    · rw [show m (oldName (1 + 3)) = m' 9 from old 9 (by omega) (by omega)]
      exact (swept_stageT2b h hZ hT hd X hL.aab hL.abb (t3a := L.aaa.buffer) (t3d := L.bbb.buffer) hs hm'').fixed_iff hd.ab
    · rw [show m (oldName (1 + 4)) = m' 10 from old 10 (by omega) (by omega)]
      exact (swept_stageT2c h hZ hT hd X hL.abb hL.bbb (t3a := L.aaa.buffer) (t3b := L.aab.buffer) hs hm'').fixed_iff hd.bb)
  have hlen : (lowProgram (setup S Z shift) X L).length = 5 := rfl
  rw [hlen] at main
  refine Iff.trans ⟨fun g j hj => ?_, fun g k h₁ h₂ => ?_⟩ (main.trans ⟨fun g => ?_, fun g j hj => ?_⟩)
  · interval_cases j
    · exact (g 6 (by omega) (by omega)).trans (hm 6 (by omega) (by omega)).symm
    · exact (g 7 (by omega) (by omega)).trans (hm 7 (by omega) (by omega)).symm
    · exact (g 8 (by omega) (by omega)).trans (hm 8 (by omega) (by omega)).symm
    · exact (g 9 (by omega) (by omega)).trans (hm 9 (by omega) (by omega)).symm
    · exact (g 10 (by omega) (by omega)).trans (hm 10 (by omega) (by omega)).symm
  · interval_cases k
    · exact (g 0 (by omega)).trans (hm 6 (by omega) (by omega))
    · exact (g 1 (by omega)).trans (hm 7 (by omega) (by omega))
    · exact (g 2 (by omega)).trans (hm 8 (by omega) (by omega))
    · exact (g 3 (by omega)).trans (hm 9 (by omega) (by omega))
    · exact (g 4 (by omega)).trans (hm 10 (by omega) (by omega))
  · exact ⟨g 0 (by omega), g 1 (by omega), g 2 (by omega), g 3 (by omega), g 4 (by omega)⟩
  · interval_cases j
    · exact g.1
    · exact g.2.1
    · exact g.2.2.1
    · exact g.2.2.2.1
    · exact g.2.2.2.2

include h hZ hT hL hm in
theorem list_rest_after (hd : ListedDenominators S Z shift L.aaa.buffer L.aab.buffer L.abb.buffer L.bbb.buffer) (hn : S.nb ≤ S.na)
    {fa fb fc fd : Bool} (ha : Flag fa L.aaa (ListedAAA S.ua S.na))
    (hb : Flag fb L.aab (ListedAAB S.ua S.ub S.na S.nb)) (hc : Flag fc L.abb (ListedABB S.ua S.ub S.na S.nb))
    (hd' : Flag fd L.bbb (ListedAAA S.ub S.nb))
    (g : ∀ k, 6 ≤ k → k ≤ 10 → stages m (lowProgram (setup S Z shift) X L) 1 (k + 5) = T.amp k) :
    (∃ L', listUpdate (dimsOf (setup S Z shift)) (dressed (setup S Z shift) (stages m (lowProgram (setup S Z shift) X L) 1)
        stage5.toAmps (if fa || fb || fc || fd then ints3 X else ints2 X)) fa fb fc fd L = some L' ∧ Reordered L L')
      ↔ (∀ q ∈ L.aaa.excits, ListedAAA S.ua S.na q →
          atRow (fun a b c i j k => S.element (S.tripleAAA a b c i j k) (projected S Z T L)) q = 0)
        ∧ (∀ q ∈ L.aab.excits, ListedAAB S.ua S.ub S.na S.nb q →
          atRow (fun a b c i j k => S.element (S.tripleAAB a b c i j k) (projected S Z T L)) q = 0)
        ∧ (∀ q ∈ L.abb.excits, ListedABB S.ua S.ub S.na S.nb q →
          atRow (fun a b c i j k => S.element (S.tripleABB a b c i j k) (projected S Z T L)) q = 0)
        ∧ ∀ q ∈ L.bbb.excits, ListedAAA S.ub S.nb q →
          atRow (fun a b c i j k => S.element (S.tripleBBB a b c i j k) (projected S Z T L)) q = 0 := by
  set m' := stages m (lowProgram (setup S Z shift) X L) 1 with hm'
  have old : ∀ n, 6 ≤ n → n ≤ 10 → m' n = T.amp n := fun n h₁ h₂ =>
    (stages_old (lowProgram (setup S Z shift) X L) m (k := 1) le_rfl (show 1 + 5 ≤ 10 by omega) (n := n)
      (by unfold Reserved; omega)).trans (hm n h₁ h₂)
  have hs : ∀ n, m' n = m' (backName 5 n) := fun n => by
    unfold backName
    split_ifs with h₁ h₂
    · obtain ⟨k, rfl⟩ : ∃ k, n = k + 5 := ⟨n - 5, by omega⟩
      rw [g k (by omega) (by omega), show k + 5 - 5 = k by omega, old k (by omega) (by omega)]
    · omega
    · rfl
  rw [← listUpdate_rest h hZ hT shift old hL hd hn ha hb hc hd', ← dressed_stage X _ hs]
  cases f : fa || fb || fc || fd
  · simp only [Bool.or_eq_false_iff] at f
    obtain ⟨⟨⟨rfl, rfl⟩, rfl⟩, rfl⟩ := f
    simp only [listUpdate, onlyIf, Bool.false_eq_true, if_false]
  · simp only [if_true]
end

end Ccpy.PSpace
