import Verif.Lemmas.PSpaceRest
import Verif.Lemmas.PSpaceKernelA
import Verif.Lemmas.PSpaceKernelB
import Verif.Lemmas.PSpaceKernelC
import Verif.Lemmas.PSpaceKernelD

/-! The updates of lists succeed and keep the excitations, whatever the arrays contain. -/

namespace Ccpy.PSpace
open Ccpy.Tensor Ccpy.Fock Ccpy.Ccsdt

theorem updateT3a_runs (H : Arrays) (d : Dims) (t3a t3b : Buffer)
    (hne : t3a.excits ≠ []) (hrows : ∀ q ∈ t3a.excits, ListedAAA d.ua d.oa q) (hlen : t3a.amps.length = t3a.excits.length)
    (ub : t3b.Usable (ListedAAB d.ua d.ub d.oa d.ob)) :
    ∃ s, updateT3a d H t3a t3b = some s ∧ s.Full ∧ s.excits.Perm t3a.excits := by
  have h₀ : State.Full ⟨t3a.excits, t3a.amps, t3a.excits.map fun _ => 0⟩ := ⟨hlen, by simp⟩
  have hph : t3a.excits ≠ [[1, 1, 1, 1, 1, 1]] := by
    intro h
    obtain ⟨a, b, c, i, j, k, h, _⟩ := hrows [1, 1, 1, 1, 1, 1] (by rw [h]; simp)
    simp only [List.cons.injEq] at h
    omega
  obtain ⟨s₁, e₁, a₁⟩ := runOwn_adds (t3aBlocks_ready) (s := ⟨t3a.excits, t3a.amps, t3a.excits.map fun _ => 0⟩) h₀ hne hph
    (fun b hb q hq => ⟨t3aBlocks_holds (H := H) (hrows q hq) b hb, t3aBlocks_asks (H := H) (hrows q hq) b hb⟩)
  have hr₁ : ∀ q ∈ s₁.excits, ListedAAA d.ua d.oa q := fun q hq => hrows q (a₁.2.1.mem_iff.mp hq)
  obtain ⟨s₂, e₂, a₂, x₂, y₂⟩ := runOther_adds (t3aBlocksT3b_ready (d := d) (H := H)) a₁.1 (t := t3b)
    (fun b hb => ub.mono fun q hq => t3aBlocksT3b_holds (H := H) hq b hb)
    (fun b hb q hq => t3aBlocksT3b_asks (H := H) (hr₁ q hq) b hb)
  have hr₂ : ∀ q ∈ s₂.excits, ListedAAA d.ua d.oa q := fun q hq => hr₁ q (x₂ ▸ hq)
  have m1 := addMoment_adds a₂.1 (t3aMoment1 d H (t3aInter d H t3a t3b))
  have m2 := addMoment_adds m1.1 (t3aMoment2 d H (t3aInter d H t3a t3b))
  have all := (((a₁.trans a₂).trans m1).trans m2)
  refine ⟨_, ?_, (finish_records m2.1 H.shift (t3aDenom H)).1, ?_⟩
  · simp only [updateT3a, e₁, e₂, Option.bind_eq_bind, Option.bind_some]
  · exact all.2.1

theorem updateT3b_runs (H : Arrays) (d : Dims) (hd : d.ob ≤ d.oa) (t3a t3b t3c : Buffer)
    (hne : t3b.excits ≠ []) (hrows : ∀ q ∈ t3b.excits, ListedAAB d.ua d.ub d.oa d.ob q) (hlen : t3b.amps.length = t3b.excits.length)
    (ua : t3a.Usable (ListedAAA d.ua d.oa)) (uc : t3c.Usable (ListedABB d.ua d.ub d.oa d.ob)) :
    ∃ s, updateT3b d H t3a t3b t3c = some s ∧ s.Full ∧ s.excits.Perm t3b.excits := by
  have h₀ : State.Full ⟨t3b.excits, t3b.amps, t3b.excits.map fun _ => 0⟩ := ⟨hlen, by simp⟩
  have hph : t3b.excits ≠ [[1, 1, 1, 1, 1, 1]] := by
    intro h
    obtain ⟨a, b, c, i, j, k, h, _⟩ := hrows [1, 1, 1, 1, 1, 1] (by rw [h]; simp)
    simp only [List.cons.injEq] at h
    omega
  obtain ⟨s₁, e₁, a₁⟩ := runOwn_adds (t3bBlocks_ready hd) (s := ⟨t3b.excits, t3b.amps, t3b.excits.map fun _ => 0⟩) h₀ hne hph
    (fun b hb q hq => ⟨t3bBlocks_holds (H := H) (hrows q hq) b hb, t3bBlocks_asks (H := H) (hrows q hq) b hb⟩)
  have hr₁ : ∀ q ∈ s₁.excits, ListedAAB d.ua d.ub d.oa d.ob q := fun q hq => hrows q (a₁.2.1.mem_iff.mp hq)
  obtain ⟨s₂, e₂, a₂, x₂, y₂⟩ := runOther_adds (t3bBlocksT3a_ready (d := d) (H := H)) a₁.1 (t := t3a)
    (fun b hb => ua.mono fun q hq => t3bBlocksT3a_holds (H := H) hq b hb)
    (fun b hb q hq => t3bBlocksT3a_asks (H := H) (hr₁ q hq) b hb)
  have hr₂ : ∀ q ∈ s₂.excits, ListedAAB d.ua d.ub d.oa d.ob q := fun q hq => hr₁ q (x₂ ▸ hq)
  obtain ⟨s₃, e₃, a₃, x₃, y₃⟩ := runOther_adds (t3bBlocksT3c_ready (d := d) (H := H)) a₂.1 (t := t3c)
    (fun b hb => uc.mono fun q hq => t3bBlocksT3c_holds (H := H) hq b hb)
    (fun b hb q hq => t3bBlocksT3c_asks (H := H) (hr₂ q hq) b hb)
  have hr₃ : ∀ q ∈ s₃.excits, ListedAAB d.ua d.ub d.oa d.ob q := fun q hq => hr₂ q (x₃ ▸ hq)
  have m1 := addMoment_adds a₃.1 (t3bMoment1 d H (t3bInter d H t3a t3b t3c))
  have m2 := addMoment_adds m1.1 (t3bMoment2 d H (t3bInter d H t3a t3b t3c))
  have m3 := addMoment_adds m2.1 (t3bMoment3 d H (t3bInter d H t3a t3b t3c))
  have m4 := addMoment_adds m3.1 (t3bMoment4 d H (t3bInter d H t3a t3b t3c))
  have m5 := addMoment_adds m4.1 (t3bMoment5 d H (t3bInter d H t3a t3b t3c))
  have m6 := addMoment_adds m5.1 (t3bMoment6 d H (t3bInter d H t3a t3b t3c))
  have all := ((((((((a₁.trans a₂).trans a₃).trans m1).trans m2).trans m3).trans m4).trans m5).trans m6)
  refine ⟨_, ?_, (finish_records m6.1 H.shift (t3bDenom H)).1, ?_⟩
  · simp only [updateT3b, e₁, e₂, e₃, Option.bind_eq_bind, Option.bind_some]
  · exact all.2.1

theorem updateT3c_runs (H : Arrays) (d : Dims) (t3b t3c t3d : Buffer)
    (hne : t3c.excits ≠ []) (hrows : ∀ q ∈ t3c.excits, ListedABB d.ua d.ub d.oa d.ob q) (hlen : t3c.amps.length = t3c.excits.length)
    (ub : t3b.Usable (ListedAAB d.ua d.ub d.oa d.ob)) (ud : t3d.Usable (ListedAAA d.ub d.ob)) :
    ∃ s, updateT3c d H t3b t3c t3d = some s ∧ s.Full ∧ s.excits.Perm t3c.excits := by
  have h₀ : State.Full ⟨t3c.excits, t3c.amps, t3c.excits.map fun _ => 0⟩ := ⟨hlen, by simp⟩
  have hph : t3c.excits ≠ [[1, 1, 1, 1, 1, 1]] := by
    intro h
    obtain ⟨a, b, c, i, j, k, h, _⟩ := hrows [1, 1, 1, 1, 1, 1] (by rw [h]; simp)
    simp only [List.cons.injEq] at h
    omega
  obtain ⟨s₁, e₁, a₁⟩ := runOwn_adds (t3cBlocks_ready) (s := ⟨t3c.excits, t3c.amps, t3c.excits.map fun _ => 0⟩) h₀ hne hph
    (fun b hb q hq => ⟨t3cBlocks_holds (H := H) (hrows q hq) b hb, t3cBlocks_asks (H := H) (hrows q hq) b hb⟩)
  have hr₁ : ∀ q ∈ s₁.excits, ListedABB d.ua d.ub d.oa d.ob q := fun q hq => hrows q (a₁.2.1.mem_iff.mp hq)
  obtain ⟨s₂, e₂, a₂, x₂, y₂⟩ := runOther_adds (t3cBlocksT3d_ready (d := d) (H := H)) a₁.1 (t := t3d)
    (fun b hb => ud.mono fun q hq => t3cBlocksT3d_holds (H := H) hq b hb)
    (fun b hb q hq => t3cBlocksT3d_asks (H := H) (hr₁ q hq) b hb)
  have hr₂ : ∀ q ∈ s₂.excits, ListedABB d.ua d.ub d.oa d.ob q := fun q hq => hr₁ q (x₂ ▸ hq)
  obtain ⟨s₃, e₃, a₃, x₃, y₃⟩ := runOther_adds (t3cBlocksT3b_ready (d := d) (H := H)) a₂.1 (t := t3b)
    (fun b hb => ub.mono fun q hq => t3cBlocksT3b_holds (H := H) hq b hb)
    (fun b hb q hq => t3cBlocksT3b_asks (H := H) (hr₂ q hq) b hb)
  have hr₃ : ∀ q ∈ s₃.excits, ListedABB d.ua d.ub d.oa d.ob q := fun q hq => hr₂ q (x₃ ▸ hq)
  have m1 := addMoment_adds a₃.1 (t3cMoment1 d H (t3cInter d H t3b t3c t3d))
  have m2 := addMoment_adds m1.1 (t3cMoment2 d H (t3cInter d H t3b t3c t3d))
  have m3 := addMoment_adds m2.1 (t3cMoment3 d H (t3cInter d H t3b t3c t3d))
  have m4 := addMoment_adds m3.1 (t3cMoment4 d H (t3cInter d H t3b t3c t3d))
  have m5 := addMoment_adds m4.1 (t3cMoment5 d H (t3cInter d H t3b t3c t3d))
  have m6 := addMoment_adds m5.1 (t3cMoment6 d H (t3cInter d H t3b t3c t3d))
  have all := ((((((((a₁.trans a₂).trans a₃).trans m1).trans m2).trans m3).trans m4).trans m5).trans m6)
  refine ⟨_, ?_, (finish_records m6.1 H.shift (t3cDenom H)).1, ?_⟩
  · simp only [updateT3c, e₁, e₂, e₃, Option.bind_eq_bind, Option.bind_some]
  · exact all.2.1

theorem updateT3d_runs (H : Arrays) (d : Dims) (t3c t3d : Buffer)
    (hne : t3d.excits ≠ []) (hrows : ∀ q ∈ t3d.excits, ListedAAA d.ub d.ob q) (hlen : t3d.amps.length = t3d.excits.length)
    (uc : t3c.Usable (ListedABB d.ua d.ub d.oa d.ob)) :
    ∃ s, updateT3d d H t3c t3d = some s ∧ s.Full ∧ s.excits.Perm t3d.excits := by
  have h₀ : State.Full ⟨t3d.excits, t3d.amps, t3d.excits.map fun _ => 0⟩ := ⟨hlen, by simp⟩
  have hph : t3d.excits ≠ [[1, 1, 1, 1, 1, 1]] := by
    intro h
    obtain ⟨a, b, c, i, j, k, h, _⟩ := hrows [1, 1, 1, 1, 1, 1] (by rw [h]; simp)
    simp only [List.cons.injEq] at h
    omega
  obtain ⟨s₁, e₁, a₁⟩ := runOwn_adds (t3dBlocks_ready) (s := ⟨t3d.excits, t3d.amps, t3d.excits.map fun _ => 0⟩) h₀ hne hph
    (fun b hb q hq => ⟨t3dBlocks_holds (H := H) (hrows q hq) b hb, t3dBlocks_asks (H := H) (hrows q hq) b hb⟩)
  have hr₁ : ∀ q ∈ s₁.excits, ListedAAA d.ub d.ob q := fun q hq => hrows q (a₁.2.1.mem_iff.mp hq)
  obtain ⟨s₂, e₂, a₂, x₂, y₂⟩ := runOther_adds (t3dBlocksT3c_ready (d := d) (H := H)) a₁.1 (t := t3c)
    (fun b hb => uc.mono fun q hq => t3dBlocksT3c_holds (H := H) hq b hb)
    (fun b hb q hq => t3dBlocksT3c_asks (H := H) (hr₁ q hq) b hb)
  have hr₂ : ∀ q ∈ s₂.excits, ListedAAA d.ub d.ob q := fun q hq => hr₁ q (x₂ ▸ hq)
  have m1 := addMoment_adds a₂.1 (t3dMoment1 d H (t3dInter d H t3c t3d))
  have m2 := addMoment_adds m1.1 (t3dMoment2 d H (t3dInter d H t3c t3d))
  have all := (((a₁.trans a₂).trans m1).trans m2)
  refine ⟨_, ?_, (finish_records m2.1 H.shift (t3dDenom H)).1, ?_⟩
  · simp only [updateT3d, e₁, e₂, Option.bind_eq_bind, Option.bind_some]
  · exact all.2.1

/-- Lists with the excitations of other lists. -/
structure Same (d : Dims) (L L₁ : Lists) : Prop where
  ua : L₁.aaa.buffer.Usable (ListedAAA d.ua d.oa)
  ub : L₁.aab.buffer.Usable (ListedAAB d.ua d.ub d.oa d.ob)
  uc : L₁.abb.buffer.Usable (ListedABB d.ua d.ub d.oa d.ob)
  ud : L₁.bbb.buffer.Usable (ListedAAA d.ub d.ob)
  aaa : L₁.aaa.excits.Perm L.aaa.excits
  aab : L₁.aab.excits.Perm L.aab.excits
  abb : L₁.abb.excits.Perm L.abb.excits
  bbb : L₁.bbb.excits.Perm L.bbb.excits

theorem sameA {d : Dims} (D : Dressed) {f : Bool} {L L₁ : Lists} (hf : Flag f L.aaa (ListedAAA d.ua d.oa)) (n : Same d L L₁) :
    ∃ L₂, onlyIf f (L₁.stepA d D) L₁ = some L₂ ∧ Same d L L₂ := by
  rcases hf with ⟨rfl, _⟩ | ⟨rfl, hr⟩
  · exact ⟨L₁, rfl, n⟩
  · have hne : L₁.aaa.excits ≠ [] := fun e => hr.1 (by have := n.aaa; rw [e] at this; exact this.symm.eq_nil)
    obtain ⟨s, e, full, hp⟩ := updateT3a_runs D.argsA d L₁.aaa.buffer L₁.aab.buffer hne
      (fun q hq => hr.2.2 q (n.aaa.mem_iff.1 hq)) n.ua.length n.ub
    refine ⟨{ L₁ with aaa := s }, ?_, ?_⟩
    · simp only [onlyIf, if_true, Lists.stepA, e, Option.bind_eq_bind, Option.bind_some]
    · have hp' : s.excits.Perm L.aaa.excits := hp.trans n.aaa
      exact ⟨usable_perm full.amps hp' hr, n.ub, n.uc, n.ud, hp', n.aab, n.abb, n.bbb⟩

theorem sameB {d : Dims} (hn : d.ob ≤ d.oa) (D : Dressed) {f : Bool} {L L₁ : Lists} (hf : Flag f L.aab (ListedAAB d.ua d.ub d.oa d.ob)) (n : Same d L L₁) :
    ∃ L₂, onlyIf f (L₁.stepB d D) L₁ = some L₂ ∧ Same d L L₂ := by
  rcases hf with ⟨rfl, _⟩ | ⟨rfl, hr⟩
  · exact ⟨L₁, rfl, n⟩
  · have hne : L₁.aab.excits ≠ [] := fun e => hr.1 (by have := n.aab; rw [e] at this; exact this.symm.eq_nil)
    obtain ⟨s, e, full, hp⟩ := updateT3b_runs D.argsB d hn L₁.aaa.buffer L₁.aab.buffer L₁.abb.buffer hne
      (fun q hq => hr.2.2 q (n.aab.mem_iff.1 hq)) n.ub.length n.ua n.uc
    refine ⟨{ L₁ with aab := s }, ?_, ?_⟩
    · simp only [onlyIf, if_true, Lists.stepB, e, Option.bind_eq_bind, Option.bind_some]
    · have hp' : s.excits.Perm L.aab.excits := hp.trans n.aab
      exact ⟨n.ua, usable_perm full.amps hp' hr, n.uc, n.ud, n.aaa, hp', n.abb, n.bbb⟩

theorem sameC {d : Dims} (D : Dressed) {f : Bool} {L L₁ : Lists} (hf : Flag f L.abb (ListedABB d.ua d.ub d.oa d.ob)) (n : Same d L L₁) :
    ∃ L₂, onlyIf f (L₁.stepC d D) L₁ = some L₂ ∧ Same d L L₂ := by
  rcases hf with ⟨rfl, _⟩ | ⟨rfl, hr⟩
  · exact ⟨L₁, rfl, n⟩
  · have hne : L₁.abb.excits ≠ [] := fun e => hr.1 (by have := n.abb; rw [e] at this; exact this.symm.eq_nil)
    obtain ⟨s, e, full, hp⟩ := updateT3c_runs D.argsC d L₁.aab.buffer L₁.abb.buffer L₁.bbb.buffer hne
      (fun q hq => hr.2.2 q (n.abb.mem_iff.1 hq)) n.uc.length n.ub n.ud
    refine ⟨{ L₁ with abb := s }, ?_, ?_⟩
    · simp only [onlyIf, if_true, Lists.stepC, e, Option.bind_eq_bind, Option.bind_some]
    · have hp' : s.excits.Perm L.abb.excits := hp.trans n.abb
      exact ⟨n.ua, n.ub, usable_perm full.amps hp' hr, n.ud, n.aaa, n.aab, hp', n.bbb⟩

theorem sameD {d : Dims} (D : Dressed) {f : Bool} {L L₁ : Lists} (hf : Flag f L.bbb (ListedAAA d.ub d.ob)) (n : Same d L L₁) :
    ∃ L₂, onlyIf f (L₁.stepD d D) L₁ = some L₂ ∧ Same d L L₂ := by
  rcases hf with ⟨rfl, _⟩ | ⟨rfl, hr⟩
  · exact ⟨L₁, rfl, n⟩
  · have hne : L₁.bbb.excits ≠ [] := fun e => hr.1 (by have := n.bbb; rw [e] at this; exact this.symm.eq_nil)
    obtain ⟨s, e, full, hp⟩ := updateT3d_runs D.argsD d L₁.abb.buffer L₁.bbb.buffer hne
      (fun q hq => hr.2.2 q (n.bbb.mem_iff.1 hq)) n.ud.length n.uc
    refine ⟨{ L₁ with bbb := s }, ?_, ?_⟩
    · simp only [onlyIf, if_true, Lists.stepD, e, Option.bind_eq_bind, Option.bind_some]
    · have hp' : s.excits.Perm L.bbb.excits := hp.trans n.bbb
      exact ⟨n.ua, n.ub, n.uc, usable_perm full.amps hp' hr, n.aaa, n.aab, n.abb, hp'⟩

theorem listUpdate_runs {d : Dims} (hn : d.ob ≤ d.oa) (D : Dressed) {L : Lists} (n : Same d L L) {fa fb fc fd : Bool}
    (ha : Flag fa L.aaa (ListedAAA d.ua d.oa)) (hb : Flag fb L.aab (ListedAAB d.ua d.ub d.oa d.ob))
    (hc : Flag fc L.abb (ListedABB d.ua d.ub d.oa d.ob)) (hd : Flag fd L.bbb (ListedAAA d.ub d.ob)) :
    ∃ L', listUpdate d D fa fb fc fd L = some L' ∧ Same d L L' := by
  obtain ⟨L₁, e₁, n₁⟩ := sameA D ha n
  obtain ⟨L₂, e₂, n₂⟩ := sameB hn D hb n₁
  obtain ⟨L₃, e₃, n₃⟩ := sameC D hc n₂
  obtain ⟨L₄, e₄, n₄⟩ := sameD D hd n₃
  exact ⟨L₄, by simp only [listUpdate, e₁, e₂, e₃, e₄, Option.bind_eq_bind, Option.bind_some], n₄⟩

theorem flag_of {t : State} {P : List ℕ → Prop} (h : t.buffer.Usable P) (hP : ¬ P [1, 1, 1, 1, 1, 1]) :
    ∃ f, t.active = some f ∧ Flag f t P := by
  rcases active_rows h hP with ⟨e, r⟩ | ⟨e, r⟩
  · exact ⟨false, e, Or.inl ⟨rfl, r⟩⟩
  · exact ⟨true, e, Or.inr ⟨rfl, r⟩⟩

theorem update_flags (s : Setup) (X : Ints) (m : Memory) {L : Lists} {fa fb fc fd : Bool} (ha : L.aaa.active = some fa)
    (hb : L.aab.active = some fb) (hc : L.abb.active = some fc) (hd : L.bbb.active = some fd) :
    update s X m L = (listUpdate (dimsOf s) (dressed s (stages m (lowProgram s X L) 1) stage5.toAmps
      (if fa || fb || fc || fd then ints3 X else ints2 X)) fa fb fc fd L).map fun L' => (stages m (lowProgram s X L) 1, L') := by
  unfold update
  simp only [ha, hb, hc, hd, Option.bind_eq_bind, Option.bind_some, updateLow_eq, listUpdate]
  rw [show ints3 X = HbarCcsd.getCcsdIntermediates stage5.toAmps (ints2 X) stored false from rfl]
  simp only [Option.map_eq_bind, Option.bind_assoc, Function.comp_def]

end Ccpy.PSpace
