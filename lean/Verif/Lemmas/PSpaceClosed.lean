import Verif.Lemmas.PSpaceFixed
import Verif.Lemmas.PSpaceClosedLow
import Verif.Lemmas.ClosedCcsd

/-! The restricted iteration of CCSDT(P) for closed shells. -/

namespace Ccpy.PSpace
open Ccpy.Tensor Ccpy.Fock Ccpy.Ccsdt Ccpy.Engine Ccpy.Ccsd

variable {ι : Type*} [LinearOrder ι]

theorem mirrorRow_eq (q : List ℕ) :
    mirrorRow q = [q.getD 2 0, q.getD 0 0, q.getD 1 0, q.getD 5 0, q.getD 3 0, q.getD 4 0] := rfl

theorem mirrored_symmetric {aaa aab abb bbb : TripleList} (h : MirroredLists aaa aab abb bbb) : (listed3 aaa aab abb bbb).Symmetric where
  aaa := ofThree_perm h.bbb
  aab := fun a b c i j k => by
    show abb.ofOneTwo a b c i j k = aab.ofTwoOne b c a j k i
    rw [ofOneTwo_perm h.abb]
    unfold TripleList.ofOneTwo TripleList.ofTwoOne
    rw [List.map_map]
    refine congrArg List.sum (List.map_congr_left fun x _ => ?_)
    simp only [Function.comp_apply, List.getD_cons_zero, List.getD_cons_succ]
    ring

theorem mirror_list (L : Lists) : L.mirror.abb.buffer.list = L.aab.buffer.list.map fun x =>
    ([x.1.getD 2 0, x.1.getD 0 0, x.1.getD 1 0, x.1.getD 5 0, x.1.getD 3 0, x.1.getD 4 0], x.2) := by
  show (L.aab.excits.map mirrorRow).zip L.aab.amps = (L.aab.excits.zip L.aab.amps).map _
  rw [List.zip_map_left]
  rfl

/-- The restricted program of single and double excitations. -/
def lowProgramR (s : Setup) (X : Ints) (L : Lists) : List (Memory → (List ℕ → ℚ) × (List ℕ → ℚ)) :=
  [fun m => callT1a s m amplitudes3.toAmps (Ccsdt.ints1R X) stored L.aaa.buffer L.aab.buffer L.abb.buffer (m 6),
   fun m => (m 11, m 16),
   fun m => callT2a s m stage2.toAmps (Ccsdt.ints2R X) stored L.aaa.buffer L.aab.buffer (m 8),
   fun m => callT2b s m stage3.toAmps (Ccsdt.ints2R X) stored L.aab.buffer L.abb.buffer (m 9),
   fun m => (m 13, m 18)]

theorem updateLowRhf_eq (s : Setup) (X : Ints) (m : Memory) (L : Lists) :
    updateLowRhf s X m L = (stages m (lowProgramR s X L) 1, stage5.toAmps, Ccsdt.ints2R X) := by
  delta updateLowRhf
  extract_lets T X₁ m₁ T₁ m₂ T₂ X₂ m₃ T₃ m₄ T₄ m₅ T₅
  have e₁ : stages m (lowProgramR s X L) 1 = stages m₁ ((lowProgramR s X L).drop 1) 2 := rfl
  have e₂ : stages m₁ ((lowProgramR s X L).drop 1) 2 = stages m₂ ((lowProgramR s X L).drop 2) 3 := rfl
  have e₃ : stages m₂ ((lowProgramR s X L).drop 2) 3 = stages m₃ ((lowProgramR s X L).drop 3) 4 := rfl
  have e₄ : stages m₃ ((lowProgramR s X L).drop 3) 4 = stages m₄ ((lowProgramR s X L).drop 4) 5 := rfl
  rw [e₁, e₂, e₃, e₄]
  rfl

section
variable {S : Orbitals ι} (h : S.Proper) {Z : Fock.Integrals} (hC : ClosedShell S Z) (hZ : Z.Antisym) {T : Cluster} (hT : T.Antisym)
  (hs : T.Symmetric) (shift : ℚ) {L : Lists}
  (hL : ProperLists S L.aaa.buffer L.aab.buffer L.abb.buffer L.bbb.buffer)
  (hM : MirroredLists L.aaa.buffer.list L.aab.buffer.list L.abb.buffer.list L.bbb.buffer.list) (X : Ints) {m : Memory}
  (hm : ∀ n, 6 ≤ n → n ≤ 10 → m n = T.amp n)

include hC hZ hT hs hM hm in
set_option maxRecDepth 100000 in
theorem dressed_closed : dressed (setup S Z shift) m amplitudes3.toAmps hbar2R = dressed (setup S Z shift) m amplitudes3.toAmps hbar2 := by
  have hs₃ := mirrored_symmetric hM
  have key : ∀ {x : Ex}, x.rename low = x → (setup S Z shift).eval m x
      = (setup S Z shift).eval (store4 T L.aaa.buffer L.aab.buffer L.abb.buffer L.bbb.buffer) x := fun hy =>
    eval_low (fun n h₁ h₂ => (hm n h₁ h₂).trans (by interval_cases n <;> rfl)) hy
  have atR2 : ∀ {v0 v1 : Var} {x y : Ex}, equalC x [v0, v1] y [v0, v1] = true → [v0, v1].Nodup → x.rename low = x → y.rename low = y →
      ∀ p q, (setup S Z shift).eval m x [p, q] = (setup S Z shift).eval m y [p, q] := fun c hv hx hy p q => by
    rw [key hx, key hy]
    exact closed_at2 hC hZ hT hs hs₃ c hv p q
  have atR4 : ∀ {v0 v1 v2 v3 : Var} {x y : Ex}, equalC x [v0, v1, v2, v3] y [v0, v1, v2, v3] = true → [v0, v1, v2, v3].Nodup →
      x.rename low = x → y.rename low = y →
      ∀ p q r s, (setup S Z shift).eval m x [p, q, r, s] = (setup S Z shift).eval m y [p, q, r, s] := fun c hv hx hy p q r s => by
    rw [key hx, key hy]
    exact closed_at4 hC hZ hT hs hs₃ c hv p q r s
  unfold dressed
  congr 1
  · funext p q; exact atR2 closedD_b_oo (by decide) rfl rfl p q
  · funext p q; exact atR2 closedD_b_vv (by decide) rfl rfl p q
  · funext p q u v; exact atR4 closedD_ab_vooo (by decide) rfl rfl p q u v
  · funext p q u v; exact atR4 closedD_ab_vvov (by decide) rfl rfl p q u v
  · funext p q u v; exact atR4 closedD_bb_vooo (by decide) rfl rfl p q u v
  · funext p q u v; exact atR4 closedD_bb_vvov (by decide) rfl rfl p q u v
  · funext p q u v; exact atR4 closedD_bb_oooo (by decide) rfl rfl p q u v
  · funext p q u v; exact atR4 closedD_bb_voov (by decide) rfl rfl p q u v
  · funext p q u v; exact atR4 closedD_bb_vvvv (by decide) rfl rfl p q u v

set_option maxRecDepth 100000 in
theorem dressed_stageR (X : Ints) (s : Setup) {m : Memory} (hs : ∀ n, m n = m (backName 5 n)) :
    dressed s m stage5.toAmps (Ccsdt.ints3R X) = dressed s m amplitudes3.toAmps hbar2R := by
  have key : ∀ {x y : Ex}, x.rename (backName 5) = y → s.eval m x = s.eval m y := fun hx => by rw [eval_backName _ hs, hx]
  unfold dressed
  congr 1 <;> (funext; exact congrFun (key rfl) _)

include h hC hZ hT hs hL hM hm in
theorem low_restR (hd : Denominators (setup S Z shift)) :
    (∀ k, 6 ≤ k → k ≤ 10 → stages m (lowProgramR (setup S Z shift) X L) 1 (k + 5) = T.amp k) ↔
      (∀ a i, a < S.ua → i < S.na → S.element (S.singleA a i) (projected S Z T L) = 0)
      ∧ (∀ a b i j, a < S.ua → b < S.ua → i < S.na → j < S.na → S.element (S.doubleAA a b i j) (projected S Z T L) = 0)
      ∧ (∀ a b i j, a < S.ua → b < S.ub → i < S.na → j < S.nb → S.element (S.doubleAB a b i j) (projected S Z T L) = 0) := by
  have hs₃ := mirrored_symmetric hM
  have c₁ : T.amp 6 = T.amp 7 := copied_t1 hs
  have c₂ : T.amp 8 = T.amp 10 := copied_t2 hs
  let Q : ℕ → Prop := fun n => match n with
    | 1 => ∀ a i, a < S.ua → i < S.na → S.element (S.singleA a i) (projected S Z T L) = 0
    | 3 => ∀ a b i j, a < S.ua → b < S.ua → i < S.na → j < S.na → S.element (S.doubleAA a b i j) (projected S Z T L) = 0
    | 4 => ∀ a b i j, a < S.ua → b < S.ub → i < S.na → j < S.nb → S.element (S.doubleAB a b i j) (projected S Z T L) = 0
    | _ => True
  have main := stages_fixed (m₀ := m) (Q := Q) (lowProgramR (setup S Z shift) X L) m (k := 1) le_rfl
    (show 1 + 5 ≤ 10 by omega) (fun _ _ => rfl) (fun n => by
      have : backName (1 - 1) n = n := by unfold backName; split_ifs <;> omega
      rw [this]) (fun j hj m' hm' hb => by
    have hj : j < 5 := hj
    have hm'' : ∀ n, 6 ≤ n → n ≤ 10 → m' n = T.amp n := fun n h₁ h₂ =>
      (hm' n (by unfold Reserved; omega)).trans (hm n h₁ h₂)
    have old : ∀ n, 6 ≤ n → n ≤ 10 → m n = m' n := fun n h₁ h₂ => (hm n h₁ h₂).trans (hm'' n h₁ h₂).symm
    interval_cases j
    · rw [show m (oldName (1 + 0)) = m' 6 from old 6 (by omega) (by omega)]
      exact (sweptR_stageT1a h hC hZ hT hs hd X hL.aaa hL.aab hL.abb (t3d := L.bbb.buffer) hs₃ hb hm'').fixed_iff hd.a
    · refine iff_of_true ?_ trivial
      show m' 11 = m 7
      rw [hb 11, show backName (1 + 1 - 1) 11 = 6 from rfl, hm'' 6 (by omega) (by omega), hm 7 (by omega) (by omega), c₁]
    · rw [show m (oldName (1 + 2)) = m' 8 from old 8 (by omega) (by omega)]
      exact (sweptR_stageT2a h hC hZ hT hs hd X hL.aaa hL.aab (t3c := L.abb.buffer) (t3d := L.bbb.buffer) hs₃ hb hm'').fixed_iff hd.aa
    · rw [show m (oldName (1 + 3)) = m' 9 from old 9 (by omega) (by omega)]
      exact (sweptR_stageT2b h hC hZ hT hs hd X hL.aab hL.abb (t3a := L.aaa.buffer) (t3d := L.bbb.buffer) hs₃ hb hm'').fixed_iff hd.ab
    · refine iff_of_true ?_ trivial
      show m' 13 = m 10
      rw [hb 13, show backName (1 + 4 - 1) 13 = 8 from rfl, hm'' 8 (by omega) (by omega), hm 10 (by omega) (by omega), c₂])
  have hlen : (lowProgramR (setup S Z shift) X L).length = 5 := rfl
  rw [hlen] at main
  refine Iff.trans ⟨fun g j hj => ?_, fun g k h₁ h₂ => ?_⟩ (main.trans ⟨fun g => ?_, fun g j hj => ?_⟩)
  · interval_cases j
    · exact (g 6 (by omega) (by omega)).trans (hm 6 (by omega) (by omega)).symm
    · exact (g 7 (by omega) (by omega)).trans (hm 7 (by omega) (by omega)).symm
    · exact (g 8 (by omega) (by omega)).trans (hm 8 (by omega) (by omega)).symm
    · exact (g 9 (by omega) (by omega)).trans (hm 9 (by omega) (by omega)).symm
    · exact (g 10 (by omega) (by omega)).trans (hm 10 (by omega) (by omega)).symm
  · interval_cases k
    · exact (g 0 (by omega)).trans (hm 6 (by omega) (by omega))
    · exact (g 1 (by omega)).trans (hm 7 (by omega) (by omega))
    · exact (g 2 (by omega)).trans (hm 8 (by omega) (by omega))
    · exact (g 3 (by omega)).trans (hm 9 (by omega) (by omega))
    · exact (g 4 (by omega)).trans (hm 10 (by omega) (by omega))
  · exact ⟨g 0 (by omega), g 2 (by omega), g 3 (by omega)⟩
  · interval_cases j
    · exact g.1
    · trivial
    · exact g.2.1
    · exact g.2.2
    · trivial

def listUpdateR (d : Dims) (D : Dressed) (fa fb : Bool) (L : Lists) : Option Lists := do
  let L ← onlyIf fa (L.stepA d D) L
  let L ← onlyIf fb (L.stepB d D) L
  some L.mirror

theorem updateRhf_flags (s : Setup) (X : Ints) (m : Memory) {L : Lists} {fa fb fc fd : Bool} (ha : L.aaa.active = some fa)
    (hb : L.aab.active = some fb) (hc : L.abb.active = some fc) (hd : L.bbb.active = some fd) :
    updateRhf s X m L = (listUpdateR (dimsOf s) (dressed s (stages m (lowProgramR s X L) 1) stage5.toAmps
      (if fa || fb || fc || fd then Ccsdt.ints3R X else Ccsdt.ints2R X)) fa fb L).map fun L' => (stages m (lowProgramR s X L) 1, L') := by
  unfold updateRhf
  simp only [ha, hb, hc, hd, Option.bind_eq_bind, Option.bind_some, updateLowRhf_eq, listUpdateR]
  rw [show Ccsdt.ints3R X = HbarCcsd.getCcsdIntermediates stage5.toAmps (Ccsdt.ints2R X) stored true from rfl]
  simp only [Option.map_eq_bind, Option.bind_assoc, Function.comp_def, Option.bind_some]

include h hC hZ hT hs hL hM hm in
theorem list_rest_afterR (hd : ListedDenominators S Z shift L.aaa.buffer L.aab.buffer L.abb.buffer L.bbb.buffer)
    {fa fb fc fd : Bool} (ha : Flag fa L.aaa (ListedAAA S.ua S.na)) (hb : Flag fb L.aab (ListedAAB S.ua S.ub S.na S.nb))
    (g : ∀ k, 6 ≤ k → k ≤ 10 → stages m (lowProgramR (setup S Z shift) X L) 1 (k + 5) = T.amp k) :
    (∃ L', listUpdateR (dimsOf (setup S Z shift)) (dressed (setup S Z shift) (stages m (lowProgramR (setup S Z shift) X L) 1)
        stage5.toAmps (if fa || fb || fc || fd then Ccsdt.ints3R X else Ccsdt.ints2R X)) fa fb L = some L' ∧ Reordered L L')
      ↔ (∀ q ∈ L.aaa.excits, ListedAAA S.ua S.na q →
          atRow (fun a b c i j k => S.element (S.tripleAAA a b c i j k) (projected S Z T L)) q = 0)
        ∧ (∀ q ∈ L.aab.excits, ListedAAB S.ua S.ub S.na S.nb q →
          atRow (fun a b c i j k => S.element (S.tripleAAB a b c i j k) (projected S Z T L)) q = 0) := by
  set m' := stages m (lowProgramR (setup S Z shift) X L) 1 with hm'
  have old : ∀ n, 6 ≤ n → n ≤ 10 → m' n = T.amp n := fun n h₁ h₂ =>
    (stages_old (lowProgramR (setup S Z shift) X L) m (k := 1) le_rfl (show 1 + 5 ≤ 10 by omega) (n := n)
      (by unfold Reserved; omega)).trans (hm n h₁ h₂)
  have hk : ∀ n, m' n = m' (backName 5 n) := fun n => by
    unfold backName
    split_ifs with h₁ h₂
    · obtain ⟨k, rfl⟩ : ∃ k, n = k + 5 := ⟨n - 5, by omega⟩
      rw [g k (by omega) (by omega), show k + 5 - 5 = k by omega, old k (by omega) (by omega)]
    · omega
    · rfl
  have eD : listUpdateR (dimsOf (setup S Z shift)) (dressed (setup S Z shift) m'
        stage5.toAmps (if fa || fb || fc || fd then Ccsdt.ints3R X else Ccsdt.ints2R X)) fa fb L
      = listUpdateR (dimsOf (setup S Z shift)) (dressed (setup S Z shift) m' amplitudes3.toAmps hbar2) fa fb L := by
    rw [← dressed_closed hC hZ hT hs shift hM old, ← dressed_stageR X _ hk]
    cases f : fa || fb || fc || fd
    · simp only [Bool.or_eq_false_iff] at f
      obtain ⟨⟨⟨rfl, rfl⟩, rfl⟩, rfl⟩ := f
      simp only [listUpdateR, onlyIf, Bool.false_eq_true, if_false]
    · simp only [if_true]
  rw [eD]
  obtain ⟨L₁, e₁, i₁, n₁⟩ := stepA h hZ hT shift old hL hd ha (near_refl hL)
  simp only [listUpdateR, e₁, Option.bind_eq_bind, Option.bind_some, Option.bind_eq_some_iff]
  constructor
  · rintro ⟨L', ⟨L₂, e₂, e₃⟩, r⟩
    cases e₃
    have k₂ := keepB e₂
    have ra : L₁.aaa.buffer.list.Perm L.aaa.buffer.list := by
      rw [← k₂.1]; exact r.aaa
    obtain ⟨_, e₂', i₂, n₂⟩ := stepB h hZ hT shift old hL hd hC.electrons.le hb (n₁ ra)
    rw [e₂] at e₂'
    cases e₂'
    exact ⟨i₁.mp ra, i₂.mp r.aab⟩
  · rintro ⟨g₁, g₂⟩
    have ra := i₁.mpr g₁
    obtain ⟨L₂, e₂, i₂, n₂⟩ := stepB h hZ hT shift old hL hd hC.electrons.le hb (n₁ ra)
    have rb := i₂.mpr g₂
    have near := n₂ rb
    refine ⟨L₂.mirror, ⟨L₂, e₂, rfl⟩, near.aaa, near.aab, ?_, ?_⟩
    · rw [mirror_list]
      exact (near.aab.map _).trans hM.abb.symm
    · exact near.aaa.trans hM.bbb.symm

include hM in
theorem mirror_mem (hL : L.abb.amps.length = L.abb.excits.length) (hL' : L.aab.amps.length = L.aab.excits.length) {q : List ℕ}
    (hq : q ∈ L.abb.excits) : ∃ q' ∈ L.aab.excits, q = mirrorRow q' := by
  have e : L.abb.excits.Perm (L.aab.excits.map mirrorRow) := by
    have := hM.abb.map Prod.fst
    rw [excits_list hL, List.map_map] at this
    rw [← excits_list hL', List.map_map]
    exact this
  obtain ⟨q', h₁, h₂⟩ := List.mem_map.mp (e.mem_iff.mp hq)
  exact ⟨q', h₁, h₂.symm⟩

include h hC hZ hT hs hL hM in
theorem mirror_abb (g : ∀ q ∈ L.aab.excits, ListedAAB S.ua S.ub S.na S.nb q →
      atRow (fun a b c i j k => S.element (S.tripleAAB a b c i j k) (projected S Z T L)) q = 0) :
    ∀ q ∈ L.abb.excits, ListedABB S.ua S.ub S.na S.nb q →
      atRow (fun a b c i j k => S.element (S.tripleABB a b c i j k) (projected S Z T L)) q = 0 := by
  have hs₃ := mirrored_symmetric hM
  have hu : S.ub = S.ua := by unfold Orbitals.ub Orbitals.ua; rw [hC.electrons]
  have hn := hC.electrons
  rintro q hq ⟨a, b, c, i, j, k, rfl, ha, hb, hc, hi, hj, hk⟩
  obtain ⟨q', h₁, h₂⟩ := mirror_mem hM hL.abb.length hL.aab.length hq
  rcases hL.aab.2 with e | ⟨-, -, r⟩
  · have e : L.aab.excits = [[1, 1, 1, 1, 1, 1]] := e.1
    rw [e, List.mem_singleton] at h₁
    rw [h₁, mirrorRow_eq] at h₂
    simp only [List.getD_cons_zero, List.getD_cons_succ, List.cons.injEq] at h₂
    omega
  · have p := r q' h₁
    have z := g q' h₁ p
    obtain ⟨a', b', c', i', j', k', rfl, -⟩ := p
    rw [mirrorRow_eq] at h₂
    simp only [List.getD_cons_zero, List.getD_cons_succ, List.cons.injEq, Nat.add_right_cancel_iff] at h₂
    obtain ⟨rfl, rfl, rfl, rfl, rfl, rfl, -⟩ := h₂
    refine (reversed_t3' hC hZ hT hs (listed3_antisym _ _ _ _) hs₃ h ha (hb.trans hc) hc hi (hj.trans hk) hk).trans ?_
    exact z

include h hC hZ hT hs hL hM in
theorem mirror_bbb (g : ∀ q ∈ L.aaa.excits, ListedAAA S.ua S.na q →
      atRow (fun a b c i j k => S.element (S.tripleAAA a b c i j k) (projected S Z T L)) q = 0) :
    ∀ q ∈ L.bbb.excits, ListedAAA S.ub S.nb q →
      atRow (fun a b c i j k => S.element (S.tripleBBB a b c i j k) (projected S Z T L)) q = 0 := by
  have hs₃ := mirrored_symmetric hM
  have hu : S.ub = S.ua := by unfold Orbitals.ub Orbitals.ua; rw [hC.electrons]
  have hn := hC.electrons
  intro q hq p
  have e : L.bbb.excits.Perm L.aaa.excits := by
    have := hM.bbb.map Prod.fst
    rwa [excits_list hL.bbb.length, excits_list hL.aaa.length] at this
  rw [hu, hn] at p
  have z := g q (e.mem_iff.mp hq) p
  obtain ⟨a, b, c, i, j, k, rfl, ha, hb, hc, hi, hj, hk⟩ := p
  refine (reversed_t3 hC hZ hT hs (listed3_antisym _ _ _ _) hs₃ h (a := a) (b := b) (c := c) (i := i) (j := j) (k := k)
    (by omega) (by omega) hc (by omega) (by omega) hk).trans z

end

end Ccpy.PSpace
