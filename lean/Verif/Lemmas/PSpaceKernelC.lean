import Verif.Lemmas.PSpaceAnti
import Verif.Lemmas.PSpaceElementsC
import Verif.Lemmas.PSpaceRowsC

/-! The kernel `update_t3c_p`. -/

set_option linter.unusedSimpArgs false
set_option linter.unusedVariables false

namespace Ccpy.PSpace
open Ccpy.Fock
open Finset (range)

def momC1 (X : Dressed) (d : Dims) (T : Triples) (a b c i j k : ℕ) : ℚ :=
  pick2 (fun j k => pick2 (fun b c => ∑ e ∈ range d.ua, vvvB X d T.tAAB T.tABB a b e j * X.t_ab e c i k) b c) j k

def momC2 (X : Dressed) (d : Dims) (T : Triples) (a b c i j k : ℕ) : ℚ :=
  pick2 (fun b c => ∑ e ∈ range d.ub, vvoB X d T.tAAB T.tABB a b i e * X.t_bb e c j k) b c

def momC3 (X : Dressed) (d : Dims) (T : Triples) (a b c i j k : ℕ) : ℚ :=
  pick2 (fun j k => ∑ e ∈ range d.ub, vvoC X d T.tBBB T.tABB c b k e * X.t_ab a e i j) j k

def momC4 (X : Dressed) (d : Dims) (T : Triples) (a b c i j k : ℕ) : ℚ :=
  -pick2 (fun j k => pick2 (fun b c => ∑ m ∈ range d.oa, ovoB X d T.tAAB T.tABB m b i j * X.t_ab a c m k) b c) j k

def momC5 (X : Dressed) (d : Dims) (T : Triples) (a b c i j k : ℕ) : ℚ :=
  -pick2 (fun j k => ∑ m ∈ range d.ob, vooB X d T.tAAB T.tABB a m i j * X.t_bb b c m k) j k

def momC6 (X : Dressed) (d : Dims) (T : Triples) (a b c i j k : ℕ) : ℚ :=
  -pick2 (fun b c => ∑ m ∈ range d.ob, vooC X d T.tBBB T.tABB c m k j * X.t_ab a b i m) b c

/-- The triples equation with the indices in order. -/
def resC (X : Dressed) (d : Dims) (T : Triples) (a b c i j k : ℕ) : ℚ :=
  linC_t3c X d T.tABB a b c i j k + linC_t3d X d T.tBBB a b c i j k + linC_t3b X d T.tAAB a b c i j k
    + momC1 X d T a b c i j k + momC2 X d T a b c i j k + momC3 X d T a b c i j k + momC4 X d T a b c i j k + momC5 X d T a b c i j k + momC6 X d T a b c i j k

def denC (X : Dressed) (a b c i j k : ℕ) : ℚ := X.fa_oo i i + X.fb_oo j j + X.fb_oo k k - X.fa_vv a a - X.fb_vv b b - X.fb_vv c c

section
variable {X : Dressed} (hX : X.Anti) (d : Dims) (t3a t3b t3c t3d : Buffer)
  (fa : Fits t3a.list (ListedAAA d.ua d.oa)) (fb : Fits t3b.list (ListedAAB d.ua d.ub d.oa d.ob))
  (fc : Fits t3c.list (ListedABB d.ua d.ub d.oa d.ob)) (fd : Fits t3d.list (ListedAAA d.ub d.ob))

include hX fa fb fc fd in
theorem t3cMoment1_eq {a b c i j k : ℕ} (ha : a < d.ua) (hbc : b < c) (hc : c < d.ub) (hi : i < d.oa) (hjk : j < k) (hk : k < d.ob) :
    t3cMoment1 d X.argsC (t3cInter d X.argsC t3b t3c t3d) (column [a + 1, b + 1, c + 1, i + 1, j + 1, k + 1])
      = momC1 X d (listed3 t3a.list t3b.list t3c.list t3d.list) a b c i j k := by
  have hb := hbc.trans hc; have hj := hjk.trans hk
  have hT := listed3_antisym t3a.list t3b.list t3c.list t3d.list
  generalize hTT : listed3 t3a.list t3b.list t3c.list t3d.list = T at hT ⊢
  have e : ∀ a b e j, (t3cInter d X.argsC t3b t3c t3d).i2b_vvvo (e + 1) (a + 1) (b + 1) (j + 1) = vvvB X d T.tAAB T.tABB a b e j := by
    rw [← hTT]
    exact
    fun a b e j => calcI2b_vvvo_eq X d X.argsC t3b t3c rfl rfl hX.aa_oovv_o hX.aa_oovv_v fb fc (fun _ _ _ _ => rfl)
  simp only [t3cMoment1, sumTo_eq, column, List.getD_cons_zero, List.getD_cons_succ, Nat.reduceSub, e, momC1, pick2, pick3,
    ← Finset.sum_sub_distrib, ← Finset.sum_add_distrib, ← Finset.sum_neg_distrib]
  refine Finset.sum_congr rfl fun z _ => ?_
  simp only [Dressed.argsC, one4, Nat.add_sub_cancel]
  all_goals ring

include hX fa fb fc fd in
theorem t3cMoment2_eq {a b c i j k : ℕ} (ha : a < d.ua) (hbc : b < c) (hc : c < d.ub) (hi : i < d.oa) (hjk : j < k) (hk : k < d.ob) :
    t3cMoment2 d X.argsC (t3cInter d X.argsC t3b t3c t3d) (column [a + 1, b + 1, c + 1, i + 1, j + 1, k + 1])
      = momC2 X d (listed3 t3a.list t3b.list t3c.list t3d.list) a b c i j k := by
  have hb := hbc.trans hc; have hj := hjk.trans hk
  have hT := listed3_antisym t3a.list t3b.list t3c.list t3d.list
  generalize hTT : listed3 t3a.list t3b.list t3c.list t3d.list = T at hT ⊢
  have e : ∀ a b i e, (t3cInter d X.argsC t3b t3c t3d).i2b_vvov (e + 1) (a + 1) (b + 1) (i + 1) = vvoB X d T.tAAB T.tABB a b i e := by
    rw [← hTT]
    exact
    fun a b i e => calcI2b_vvov_eq X d X.argsC t3b t3c rfl rfl hX.bb_oovv_o hX.bb_oovv_v fb fc (fun _ _ _ _ => rfl)
  simp only [t3cMoment2, sumTo_eq, column, List.getD_cons_zero, List.getD_cons_succ, Nat.reduceSub, e, momC2, pick2, pick3,
    ← Finset.sum_sub_distrib, ← Finset.sum_add_distrib, ← Finset.sum_neg_distrib]
  refine Finset.sum_congr rfl fun z _ => ?_
  simp only [Dressed.argsC, one4, Nat.add_sub_cancel, hX.bb_t_v b c, hX.bb_t_o _ _ j k, hX.bb_t_v a z, hX.bb_t_v b z, hX.bb_t_v c z]
  all_goals ring

include hX fa fb fc fd in
theorem t3cMoment3_eq {a b c i j k : ℕ} (ha : a < d.ua) (hbc : b < c) (hc : c < d.ub) (hi : i < d.oa) (hjk : j < k) (hk : k < d.ob) :
    t3cMoment3 d X.argsC (t3cInter d X.argsC t3b t3c t3d) (column [a + 1, b + 1, c + 1, i + 1, j + 1, k + 1])
      = momC3 X d (listed3 t3a.list t3b.list t3c.list t3d.list) a b c i j k := by
  have hb := hbc.trans hc; have hj := hjk.trans hk
  have hT := listed3_antisym t3a.list t3b.list t3c.list t3d.list
  generalize hTT : listed3 t3a.list t3b.list t3c.list t3d.list = T at hT ⊢
  have e : ∀ a b i e, a < d.ub → b < d.ub → a ≠ b → (t3cInter d X.argsC t3b t3c t3d).i2c_vvov (e + 1) (a + 1) (b + 1) (i + 1) = vvoC X d T.tBBB T.tABB a b i e := by
    rw [← hTT]
    exact
    fun a b i e hx hy hxy => calcI2c_vvov_eq X d X.argsC t3c t3d rfl rfl hX.bb_oovv_o hX.bb_oovv_v fd fc (fun _ _ _ _ => rfl) hX.bb_vvov hx hy hxy
  simp only [t3cMoment3, sumTo_eq, column, List.getD_cons_zero, List.getD_cons_succ, Nat.reduceSub, e _ _ _ _ hb hc hbc.ne, e _ _ _ _ hc hb hbc.ne', momC3, pick2, pick3,
    ← Finset.sum_sub_distrib, ← Finset.sum_add_distrib, ← Finset.sum_neg_distrib]
  refine Finset.sum_congr rfl fun z _ => ?_
  simp only [Dressed.argsC, one4, Nat.add_sub_cancel, vvoC_anti hX d hT b c]
  all_goals ring

include hX fa fb fc fd in
theorem t3cMoment4_eq {a b c i j k : ℕ} (ha : a < d.ua) (hbc : b < c) (hc : c < d.ub) (hi : i < d.oa) (hjk : j < k) (hk : k < d.ob) :
    t3cMoment4 d X.argsC (t3cInter d X.argsC t3b t3c t3d) (column [a + 1, b + 1, c + 1, i + 1, j + 1, k + 1])
      = momC4 X d (listed3 t3a.list t3b.list t3c.list t3d.list) a b c i j k := by
  have hb := hbc.trans hc; have hj := hjk.trans hk
  have hT := listed3_antisym t3a.list t3b.list t3c.list t3d.list
  generalize hTT : listed3 t3a.list t3b.list t3c.list t3d.list = T at hT ⊢
  have e : ∀ m b i j, (t3cInter d X.argsC t3b t3c t3d).i2b_ovoo (m + 1) (b + 1) (i + 1) (j + 1) = ovoB X d T.tAAB T.tABB m b i j := by
    rw [← hTT]
    exact
    fun m b i j => calcI2b_ovoo_eq X d X.argsC t3b t3c rfl rfl hX.aa_oovv_o hX.aa_oovv_v fb fc (fun _ _ _ _ => rfl)
  simp only [t3cMoment4, sumTo_eq, column, List.getD_cons_zero, List.getD_cons_succ, Nat.reduceSub, e, momC4, pick2, pick3,
    ← Finset.sum_sub_distrib, ← Finset.sum_add_distrib, ← Finset.sum_neg_distrib]
  refine Finset.sum_congr rfl fun z _ => ?_
  simp only [Dressed.argsC, one4, Nat.add_sub_cancel]
  all_goals ring

include hX fa fb fc fd in
theorem t3cMoment5_eq {a b c i j k : ℕ} (ha : a < d.ua) (hbc : b < c) (hc : c < d.ub) (hi : i < d.oa) (hjk : j < k) (hk : k < d.ob) :
    t3cMoment5 d X.argsC (t3cInter d X.argsC t3b t3c t3d) (column [a + 1, b + 1, c + 1, i + 1, j + 1, k + 1])
      = momC5 X d (listed3 t3a.list t3b.list t3c.list t3d.list) a b c i j k := by
  have hb := hbc.trans hc; have hj := hjk.trans hk
  have hT := listed3_antisym t3a.list t3b.list t3c.list t3d.list
  generalize hTT : listed3 t3a.list t3b.list t3c.list t3d.list = T at hT ⊢
  have e : ∀ a m i j, (t3cInter d X.argsC t3b t3c t3d).i2b_vooo (m + 1) (a + 1) (i + 1) (j + 1) = vooB X d T.tAAB T.tABB a m i j := by
    rw [← hTT]
    exact
    fun a m i j => calcI2b_vooo_eq X d X.argsC t3b t3c rfl rfl hX.bb_oovv_o hX.bb_oovv_v fb fc (fun _ _ _ _ => rfl)
  simp only [t3cMoment5, sumTo_eq, column, List.getD_cons_zero, List.getD_cons_succ, Nat.reduceSub, e, momC5, pick2, pick3,
    ← Finset.sum_sub_distrib, ← Finset.sum_add_distrib, ← Finset.sum_neg_distrib]
  refine Finset.sum_congr rfl fun z _ => ?_
  simp only [Dressed.argsC, one4, Nat.add_sub_cancel, hX.bb_t_v b c, hX.bb_t_o _ _ j k, hX.bb_t_o _ _ z i, hX.bb_t_o _ _ z j, hX.bb_t_o _ _ z k]
  all_goals ring

include hX fa fb fc fd in
theorem t3cMoment6_eq {a b c i j k : ℕ} (ha : a < d.ua) (hbc : b < c) (hc : c < d.ub) (hi : i < d.oa) (hjk : j < k) (hk : k < d.ob) :
    t3cMoment6 d X.argsC (t3cInter d X.argsC t3b t3c t3d) (column [a + 1, b + 1, c + 1, i + 1, j + 1, k + 1])
      = momC6 X d (listed3 t3a.list t3b.list t3c.list t3d.list) a b c i j k := by
  have hb := hbc.trans hc; have hj := hjk.trans hk
  have hT := listed3_antisym t3a.list t3b.list t3c.list t3d.list
  generalize hTT : listed3 t3a.list t3b.list t3c.list t3d.list = T at hT ⊢
  have e : ∀ a m i j, i < d.ob → j < d.ob → i ≠ j → (t3cInter d X.argsC t3b t3c t3d).i2c_vooo (m + 1) (a + 1) (i + 1) (j + 1) = vooC X d T.tBBB T.tABB a m i j := by
    rw [← hTT]
    exact
    fun a m i j hx hy hxy => calcI2c_vooo_eq X d X.argsC t3c t3d rfl rfl hX.bb_oovv_o hX.bb_oovv_v fd fc (fun _ _ _ _ => rfl) hX.bb_vooo hx hy hxy
  simp only [t3cMoment6, sumTo_eq, column, List.getD_cons_zero, List.getD_cons_succ, Nat.reduceSub, e _ _ _ _ hj hk hjk.ne, e _ _ _ _ hk hj hjk.ne', momC6, pick2, pick3,
    ← Finset.sum_sub_distrib, ← Finset.sum_add_distrib, ← Finset.sum_neg_distrib]
  refine Finset.sum_congr rfl fun z _ => ?_
  simp only [Dressed.argsC, one4, Nat.add_sub_cancel, vooC_anti hX d hT _ _ j k]
  all_goals ring

end

theorem updateT3c_records {X : Dressed} (hX : X.Anti) (d : Dims) (t3a t3b t3c t3d : Buffer)
    (hne : t3c.excits ≠ []) (hrows : ∀ q ∈ t3c.excits, ListedABB d.ua d.ub d.oa d.ob q) (hlen : t3c.amps.length = t3c.excits.length)
    (ua : t3a.Usable (ListedAAA d.ua d.oa)) (ub : t3b.Usable (ListedAAB d.ua d.ub d.oa d.ob)) (ud : t3d.Usable (ListedAAA d.ub d.ob)) :
    ∃ s, updateT3c d X.argsC t3b t3c t3d = some s ∧ s.Full ∧ s.records.Perm (t3c.list.map fun x =>
      let r := atRow (resC X d (listed3 t3a.list t3b.list t3c.list t3d.list)) x.1 / (atRow (denC X) x.1 - X.shift)
      (x.1, x.2 + r, r)) := by
  have fa := ua.fits
  have fb := ub.fits
  have fd := ud.fits
  have fc : Fits t3c.list (ListedABB d.ua d.ub d.oa d.ob) := fits_of_rows hrows
  have h₀ : State.Full ⟨t3c.excits, t3c.amps, t3c.excits.map fun _ => 0⟩ := ⟨hlen, by simp⟩
  have hph : t3c.excits ≠ [[1, 1, 1, 1, 1, 1]] := by
    intro h
    obtain ⟨a, b, c, i, j, k, h, _⟩ := hrows [1, 1, 1, 1, 1, 1] (by rw [h]; simp)
    simp only [List.cons.injEq] at h
    omega
  obtain ⟨s₁, e₁, a₁⟩ := runOwn_adds (t3cBlocks_ready) (s := ⟨t3c.excits, t3c.amps, t3c.excits.map fun _ => 0⟩) h₀ hne hph
    (fun b hb q hq => ⟨t3cBlocks_holds (H := X.argsC) (hrows q hq) b hb, t3cBlocks_asks (H := X.argsC) (hrows q hq) b hb⟩)
  have hr₁ : ∀ q ∈ s₁.excits, ListedABB d.ua d.ub d.oa d.ob q := fun q hq => hrows q (a₁.2.1.mem_iff.mp hq)
  obtain ⟨s₂, e₂, a₂, x₂, y₂⟩ := runOther_adds (t3cBlocksT3d_ready (d := d) (H := X.argsC)) a₁.1 (t := t3d)
    (fun b hb => ud.mono fun q hq => t3cBlocksT3d_holds (H := X.argsC) hq b hb)
    (fun b hb q hq => t3cBlocksT3d_asks (H := X.argsC) (hr₁ q hq) b hb)
  have hr₂ : ∀ q ∈ s₂.excits, ListedABB d.ua d.ub d.oa d.ob q := fun q hq => hr₁ q (x₂ ▸ hq)
  obtain ⟨s₃, e₃, a₃, x₃, y₃⟩ := runOther_adds (t3cBlocksT3b_ready (d := d) (H := X.argsC)) a₂.1 (t := t3b)
    (fun b hb => ub.mono fun q hq => t3cBlocksT3b_holds (H := X.argsC) hq b hb)
    (fun b hb q hq => t3cBlocksT3b_asks (H := X.argsC) (hr₂ q hq) b hb)
  have hr₃ : ∀ q ∈ s₃.excits, ListedABB d.ua d.ub d.oa d.ob q := fun q hq => hr₂ q (x₃ ▸ hq)
  have m1 := addMoment_adds a₃.1 (t3cMoment1 d X.argsC (t3cInter d X.argsC t3b t3c t3d))
  have m2 := addMoment_adds m1.1 (t3cMoment2 d X.argsC (t3cInter d X.argsC t3b t3c t3d))
  have m3 := addMoment_adds m2.1 (t3cMoment3 d X.argsC (t3cInter d X.argsC t3b t3c t3d))
  have m4 := addMoment_adds m3.1 (t3cMoment4 d X.argsC (t3cInter d X.argsC t3b t3c t3d))
  have m5 := addMoment_adds m4.1 (t3cMoment5 d X.argsC (t3cInter d X.argsC t3b t3c t3d))
  have m6 := addMoment_adds m5.1 (t3cMoment6 d X.argsC (t3cInter d X.argsC t3b t3c t3d))
  have all := ((((((((a₁.trans a₂).trans a₃).trans m1).trans m2).trans m3).trans m4).trans m5).trans m6)
  refine ⟨_, ?_, (finish_records m6.1 X.shift (t3cDenom X.argsC)).1, ?_⟩
  · simp only [updateT3c, e₁, e₂, e₃, Option.bind_eq_bind, Option.bind_some]
    rfl
  · rw [(finish_records m6.1 X.shift (t3cDenom X.argsC)).2]
    refine (all.2.2.map _).trans (List.Perm.of_eq ?_)
    rw [List.map_map, State.records]
    simp only
    rw [zip_zero_records hlen, List.map_map]
    refine List.map_congr_left fun x hx => ?_
    obtain ⟨q, v⟩ := x
    obtain ⟨a, b, c, i, j, k, rfl, ha, hbc, hc, hi, hjk, hk⟩ := hrows q (List.of_mem_zip hx).1
    simp only [Function.comp_apply, zero_add, atRow_row]
    have l0 : over (t3c.excits.zip t3c.amps) (elements (t3cBlocks d X.argsC) [a + 1, b + 1, c + 1, i + 1, j + 1, k + 1])
        = linC_t3c X d (listed3 t3a.list t3b.list t3c.list t3d.list).tABB a b c i j k :=
      over_oneTwo fc (linC_t3c_linear X d a b c i j k) fun A B C L M N h₁ h₂ h₃ h₄ h₅ h₆ => elements_t3cBlocks d X hX.bb_oooo_l hX.bb_oooo_r hX.bb_vvvv_l hX.bb_vvvv_r hbc hjk h₁ h₂ h₃ h₄ h₅ h₆
    have l1 : over (t3d.excits.zip t3d.amps) (elements (t3cBlocksT3d d X.argsC) [a + 1, b + 1, c + 1, i + 1, j + 1, k + 1])
        = linC_t3d X d (listed3 t3a.list t3b.list t3c.list t3d.list).tBBB a b c i j k :=
      over_three fd (linC_t3d_linear X d a b c i j k) fun A B C L M N h₁ h₂ h₃ h₄ h₅ h₆ => elements_t3cBlocksT3d d X hbc hjk h₁ h₂ h₃ h₄ h₅ h₆
    have l2 : over (t3b.excits.zip t3b.amps) (elements (t3cBlocksT3b d X.argsC) [a + 1, b + 1, c + 1, i + 1, j + 1, k + 1])
        = linC_t3b X d (listed3 t3a.list t3b.list t3c.list t3d.list).tAAB a b c i j k :=
      over_twoOne fb (linC_t3b_linear X d a b c i j k) fun A B C L M N h₁ h₂ h₃ h₄ h₅ h₆ => elements_t3cBlocksT3b d X hbc hjk h₁ h₂ h₃ h₄ h₅ h₆
    have D : t3cDenom X.argsC (column [a + 1, b + 1, c + 1, i + 1, j + 1, k + 1]) = denC X a b c i j k := by
      simp [t3cDenom, column, Dressed.argsC, one2, denC]
    rw [l0, l1, l2, t3cMoment1_eq hX d t3a t3b t3c t3d fa fb fc fd ha hbc hc hi hjk hk, t3cMoment2_eq hX d t3a t3b t3c t3d fa fb fc fd ha hbc hc hi hjk hk, t3cMoment3_eq hX d t3a t3b t3c t3d fa fb fc fd ha hbc hc hi hjk hk, t3cMoment4_eq hX d t3a t3b t3c t3d fa fb fc fd ha hbc hc hi hjk hk, t3cMoment5_eq hX d t3a t3b t3c t3d fa fb fc fd ha hbc hc hi hjk hk, t3cMoment6_eq hX d t3a t3b t3c t3d fa fb fc fd ha hbc hc hi hjk hk, D]
    simp only [resC]

end Ccpy.PSpace
