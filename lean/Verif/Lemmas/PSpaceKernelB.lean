import Verif.Lemmas.PSpaceAnti
import Verif.Lemmas.PSpaceElementsB
import Verif.Lemmas.PSpaceRowsB

/-! The kernel `update_t3b_p`. -/

set_option linter.unusedSimpArgs false
set_option linter.unusedVariables false

namespace Ccpy.PSpace
open Ccpy.Fock
open Finset (range)

def momB1 (X : Dressed) (d : Dims) (T : Triples) (a b c i j k : ℕ) : ℚ :=
  pick2 (fun a b => ∑ e ∈ range d.ua, vvvB X d T.tAAB T.tABB b c e k * X.t_aa a e i j) a b

def momB2 (X : Dressed) (d : Dims) (T : Triples) (a b c i j k : ℕ) : ℚ :=
  pick2 (fun i j => ∑ e ∈ range d.ua, vvoA X d T.tAAA T.tAAB a b i e * X.t_ab e c j k) i j

def momB3 (X : Dressed) (d : Dims) (T : Triples) (a b c i j k : ℕ) : ℚ :=
  pick2 (fun i j => pick2 (fun a b => ∑ e ∈ range d.ub, vvoB X d T.tAAB T.tABB a c i e * X.t_ab b e j k) a b) i j

def momB4 (X : Dressed) (d : Dims) (T : Triples) (a b c i j k : ℕ) : ℚ :=
  -pick2 (fun i j => ∑ m ∈ range d.oa, ovoB X d T.tAAB T.tABB m c j k * X.t_aa a b i m) i j

def momB5 (X : Dressed) (d : Dims) (T : Triples) (a b c i j k : ℕ) : ℚ :=
  -pick2 (fun a b => ∑ m ∈ range d.oa, vooA X d T.tAAA T.tAAB a m i j * X.t_ab b c m k) a b

def momB6 (X : Dressed) (d : Dims) (T : Triples) (a b c i j k : ℕ) : ℚ :=
  -pick2 (fun i j => pick2 (fun a b => ∑ m ∈ range d.ob, vooB X d T.tAAB T.tABB a m i k * X.t_ab b c j m) a b) i j

/-- The triples equation with the indices in order. -/
def resB (X : Dressed) (d : Dims) (T : Triples) (a b c i j k : ℕ) : ℚ :=
  linB_t3b X d T.tAAB a b c i j k + linB_t3a X d T.tAAA a b c i j k + linB_t3c X d T.tABB a b c i j k
    + momB1 X d T a b c i j k + momB2 X d T a b c i j k + momB3 X d T a b c i j k + momB4 X d T a b c i j k + momB5 X d T a b c i j k + momB6 X d T a b c i j k

def denB (X : Dressed) (a b c i j k : ℕ) : ℚ := X.fa_oo i i + X.fa_oo j j + X.fb_oo k k - X.fa_vv a a - X.fa_vv b b - X.fb_vv c c

section
variable {X : Dressed} (hX : X.Anti) (d : Dims) (t3a t3b t3c t3d : Buffer)
  (fa : Fits t3a.list (ListedAAA d.ua d.oa)) (fb : Fits t3b.list (ListedAAB d.ua d.ub d.oa d.ob))
  (fc : Fits t3c.list (ListedABB d.ua d.ub d.oa d.ob)) (fd : Fits t3d.list (ListedAAA d.ub d.ob))

include hX fa fb fc fd in
theorem t3bMoment1_eq {a b c i j k : ℕ} (hab : a < b) (hb : b < d.ua) (hc : c < d.ub) (hij : i < j) (hj : j < d.oa) (hk : k < d.ob) :
    t3bMoment1 d X.argsB (t3bInter d X.argsB t3a t3b t3c) (column [a + 1, b + 1, c + 1, i + 1, j + 1, k + 1])
      = momB1 X d (listed3 t3a.list t3b.list t3c.list t3d.list) a b c i j k := by
  have ha := hab.trans hb; have hi := hij.trans hj
  have hT := listed3_antisym t3a.list t3b.list t3c.list t3d.list
  generalize hTT : listed3 t3a.list t3b.list t3c.list t3d.list = T at hT ⊢
  have e : ∀ a b e j, (t3bInter d X.argsB t3a t3b t3c).i2b_vvvo (e + 1) (a + 1) (b + 1) (j + 1) = vvvB X d T.tAAB T.tABB a b e j := by
    rw [← hTT]
    exact
    fun a b e j => calcI2b_vvvo_eq X d X.argsB t3b t3c rfl rfl hX.aa_oovv_o hX.aa_oovv_v fb fc (fun _ _ _ _ => rfl)
  simp only [t3bMoment1, sumTo_eq, column, List.getD_cons_zero, List.getD_cons_succ, Nat.reduceSub, e, momB1, pick2, pick3,
    ← Finset.sum_sub_distrib, ← Finset.sum_add_distrib, ← Finset.sum_neg_distrib]
  refine Finset.sum_congr rfl fun z _ => ?_
  simp only [Dressed.argsB, one4, Nat.add_sub_cancel, hX.aa_t_v a b, hX.aa_t_o _ _ i j, hX.aa_t_v a z, hX.aa_t_v b z, hX.aa_t_v c z]
  all_goals ring

include hX fa fb fc fd in
theorem t3bMoment2_eq {a b c i j k : ℕ} (hab : a < b) (hb : b < d.ua) (hc : c < d.ub) (hij : i < j) (hj : j < d.oa) (hk : k < d.ob) :
    t3bMoment2 d X.argsB (t3bInter d X.argsB t3a t3b t3c) (column [a + 1, b + 1, c + 1, i + 1, j + 1, k + 1])
      = momB2 X d (listed3 t3a.list t3b.list t3c.list t3d.list) a b c i j k := by
  have ha := hab.trans hb; have hi := hij.trans hj
  have hT := listed3_antisym t3a.list t3b.list t3c.list t3d.list
  generalize hTT : listed3 t3a.list t3b.list t3c.list t3d.list = T at hT ⊢
  have e : ∀ a b i e, a < d.ua → b < d.ua → a ≠ b → (t3bInter d X.argsB t3a t3b t3c).i2a_vvov (e + 1) (a + 1) (b + 1) (i + 1) = vvoA X d T.tAAA T.tAAB a b i e := by
    rw [← hTT]
    exact
    fun a b i e hx hy hxy => calcI2a_vvov_eq X d X.argsB t3a t3b rfl rfl hX.aa_oovv_o hX.aa_oovv_v fa fb (fun _ _ _ _ => rfl) hX.aa_vvov hx hy hxy
  simp only [t3bMoment2, sumTo_eq, column, List.getD_cons_zero, List.getD_cons_succ, Nat.reduceSub, e _ _ _ _ ha hb hab.ne, e _ _ _ _ hb ha hab.ne', momB2, pick2, pick3,
    ← Finset.sum_sub_distrib, ← Finset.sum_add_distrib, ← Finset.sum_neg_distrib]
  refine Finset.sum_congr rfl fun z _ => ?_
  simp only [Dressed.argsB, one4, Nat.add_sub_cancel, vvoA_anti hX d hT a b]
  all_goals ring

include hX fa fb fc fd in
theorem t3bMoment3_eq {a b c i j k : ℕ} (hab : a < b) (hb : b < d.ua) (hc : c < d.ub) (hij : i < j) (hj : j < d.oa) (hk : k < d.ob) :
    t3bMoment3 d X.argsB (t3bInter d X.argsB t3a t3b t3c) (column [a + 1, b + 1, c + 1, i + 1, j + 1, k + 1])
      = momB3 X d (listed3 t3a.list t3b.list t3c.list t3d.list) a b c i j k := by
  have ha := hab.trans hb; have hi := hij.trans hj
  have hT := listed3_antisym t3a.list t3b.list t3c.list t3d.list
  generalize hTT : listed3 t3a.list t3b.list t3c.list t3d.list = T at hT ⊢
  have e : ∀ a b i e, (t3bInter d X.argsB t3a t3b t3c).i2b_vvov (e + 1) (a + 1) (b + 1) (i + 1) = vvoB X d T.tAAB T.tABB a b i e := by
    rw [← hTT]
    exact
    fun a b i e => calcI2b_vvov_eq X d X.argsB t3b t3c rfl rfl hX.bb_oovv_o hX.bb_oovv_v fb fc (fun _ _ _ _ => rfl)
  simp only [t3bMoment3, sumTo_eq, column, List.getD_cons_zero, List.getD_cons_succ, Nat.reduceSub, e, momB3, pick2, pick3,
    ← Finset.sum_sub_distrib, ← Finset.sum_add_distrib, ← Finset.sum_neg_distrib]
  refine Finset.sum_congr rfl fun z _ => ?_
  simp only [Dressed.argsB, one4, Nat.add_sub_cancel]
  all_goals ring

include hX fa fb fc fd in
theorem t3bMoment4_eq {a b c i j k : ℕ} (hab : a < b) (hb : b < d.ua) (hc : c < d.ub) (hij : i < j) (hj : j < d.oa) (hk : k < d.ob) :
    t3bMoment4 d X.argsB (t3bInter d X.argsB t3a t3b t3c) (column [a + 1, b + 1, c + 1, i + 1, j + 1, k + 1])
      = momB4 X d (listed3 t3a.list t3b.list t3c.list t3d.list) a b c i j k := by
  have ha := hab.trans hb; have hi := hij.trans hj
  have hT := listed3_antisym t3a.list t3b.list t3c.list t3d.list
  generalize hTT : listed3 t3a.list t3b.list t3c.list t3d.list = T at hT ⊢
  have e : ∀ m b i j, (t3bInter d X.argsB t3a t3b t3c).i2b_ovoo (m + 1) (b + 1) (i + 1) (j + 1) = ovoB X d T.tAAB T.tABB m b i j := by
    rw [← hTT]
    exact
    fun m b i j => calcI2b_ovoo_eq X d X.argsB t3b t3c rfl rfl hX.aa_oovv_o hX.aa_oovv_v fb fc (fun _ _ _ _ => rfl)
  simp only [t3bMoment4, sumTo_eq, column, List.getD_cons_zero, List.getD_cons_succ, Nat.reduceSub, e, momB4, pick2, pick3,
    ← Finset.sum_sub_distrib, ← Finset.sum_add_distrib, ← Finset.sum_neg_distrib]
  refine Finset.sum_congr rfl fun z _ => ?_
  simp only [Dressed.argsB, one4, Nat.add_sub_cancel, hX.aa_t_v a b, hX.aa_t_o _ _ i j, hX.aa_t_o _ _ z i, hX.aa_t_o _ _ z j, hX.aa_t_o _ _ z k]
  all_goals ring

include hX fa fb fc fd in
theorem t3bMoment5_eq {a b c i j k : ℕ} (hab : a < b) (hb : b < d.ua) (hc : c < d.ub) (hij : i < j) (hj : j < d.oa) (hk : k < d.ob) :
    t3bMoment5 d X.argsB (t3bInter d X.argsB t3a t3b t3c) (column [a + 1, b + 1, c + 1, i + 1, j + 1, k + 1])
      = momB5 X d (listed3 t3a.list t3b.list t3c.list t3d.list) a b c i j k := by
  have ha := hab.trans hb; have hi := hij.trans hj
  have hT := listed3_antisym t3a.list t3b.list t3c.list t3d.list
  generalize hTT : listed3 t3a.list t3b.list t3c.list t3d.list = T at hT ⊢
  have e : ∀ a m i j, i < d.oa → j < d.oa → i ≠ j → (t3bInter d X.argsB t3a t3b t3c).i2a_vooo (m + 1) (a + 1) (i + 1) (j + 1) = vooA X d T.tAAA T.tAAB a m i j := by
    rw [← hTT]
    exact
    fun a m i j hx hy hxy => calcI2a_vooo_eq X d X.argsB t3a t3b rfl rfl hX.aa_oovv_o hX.aa_oovv_v fa fb (fun _ _ _ _ => rfl) hX.aa_vooo hx hy hxy
  simp only [t3bMoment5, sumTo_eq, column, List.getD_cons_zero, List.getD_cons_succ, Nat.reduceSub, e _ _ _ _ hi hj hij.ne, e _ _ _ _ hj hi hij.ne', momB5, pick2, pick3,
    ← Finset.sum_sub_distrib, ← Finset.sum_add_distrib, ← Finset.sum_neg_distrib]
  refine Finset.sum_congr rfl fun z _ => ?_
  simp only [Dressed.argsB, one4, Nat.add_sub_cancel, vooA_anti hX d hT _ _ i j]
  all_goals ring

include hX fa fb fc fd in
theorem t3bMoment6_eq {a b c i j k : ℕ} (hab : a < b) (hb : b < d.ua) (hc : c < d.ub) (hij : i < j) (hj : j < d.oa) (hk : k < d.ob) :
    t3bMoment6 d X.argsB (t3bInter d X.argsB t3a t3b t3c) (column [a + 1, b + 1, c + 1, i + 1, j + 1, k + 1])
      = momB6 X d (listed3 t3a.list t3b.list t3c.list t3d.list) a b c i j k := by
  have ha := hab.trans hb; have hi := hij.trans hj
  have hT := listed3_antisym t3a.list t3b.list t3c.list t3d.list
  generalize hTT : listed3 t3a.list t3b.list t3c.list t3d.list = T at hT ⊢
  have e : ∀ a m i j, (t3bInter d X.argsB t3a t3b t3c).i2b_vooo (m + 1) (a + 1) (i + 1) (j + 1) = vooB X d T.tAAB T.tABB a m i j := by
    rw [← hTT]
    exact
    fun a m i j => calcI2b_vooo_eq X d X.argsB t3b t3c rfl rfl hX.bb_oovv_o hX.bb_oovv_v fb fc (fun _ _ _ _ => rfl)
  simp only [t3bMoment6, sumTo_eq, column, List.getD_cons_zero, List.getD_cons_succ, Nat.reduceSub, e, momB6, pick2, pick3,
    ← Finset.sum_sub_distrib, ← Finset.sum_add_distrib, ← Finset.sum_neg_distrib]
  refine Finset.sum_congr rfl fun z _ => ?_
  simp only [Dressed.argsB, one4, Nat.add_sub_cancel]
  all_goals ring

end

theorem updateT3b_records {X : Dressed} (hX : X.Anti) (d : Dims) (hd : d.ob ≤ d.oa) (t3a t3b t3c t3d : Buffer)
    (hne : t3b.excits ≠ []) (hrows : ∀ q ∈ t3b.excits, ListedAAB d.ua d.ub d.oa d.ob q) (hlen : t3b.amps.length = t3b.excits.length)
    (ua : t3a.Usable (ListedAAA d.ua d.oa)) (uc : t3c.Usable (ListedABB d.ua d.ub d.oa d.ob)) (ud : t3d.Usable (ListedAAA d.ub d.ob)) :
    ∃ s, updateT3b d X.argsB t3a t3b t3c = some s ∧ s.Full ∧ s.records.Perm (t3b.list.map fun x =>
      let r := atRow (resB X d (listed3 t3a.list t3b.list t3c.list t3d.list)) x.1 / (atRow (denB X) x.1 - X.shift)
      (x.1, x.2 + r, r)) := by
  have fa := ua.fits
  have fc := uc.fits
  have fd := ud.fits
  have fb : Fits t3b.list (ListedAAB d.ua d.ub d.oa d.ob) := fits_of_rows hrows
  have h₀ : State.Full ⟨t3b.excits, t3b.amps, t3b.excits.map fun _ => 0⟩ := ⟨hlen, by simp⟩
  have hph : t3b.excits ≠ [[1, 1, 1, 1, 1, 1]] := by
    intro h
    obtain ⟨a, b, c, i, j, k, h, _⟩ := hrows [1, 1, 1, 1, 1, 1] (by rw [h]; simp)
    simp only [List.cons.injEq] at h
    omega
  obtain ⟨s₁, e₁, a₁⟩ := runOwn_adds (t3bBlocks_ready hd) (s := ⟨t3b.excits, t3b.amps, t3b.excits.map fun _ => 0⟩) h₀ hne hph
    (fun b hb q hq => ⟨t3bBlocks_holds (H := X.argsB) (hrows q hq) b hb, t3bBlocks_asks (H := X.argsB) (hrows q hq) b hb⟩)
  have hr₁ : ∀ q ∈ s₁.excits, ListedAAB d.ua d.ub d.oa d.ob q := fun q hq => hrows q (a₁.2.1.mem_iff.mp hq)
  obtain ⟨s₂, e₂, a₂, x₂, y₂⟩ := runOther_adds (t3bBlocksT3a_ready (d := d) (H := X.argsB)) a₁.1 (t := t3a)
    (fun b hb => ua.mono fun q hq => t3bBlocksT3a_holds (H := X.argsB) hq b hb)
    (fun b hb q hq => t3bBlocksT3a_asks (H := X.argsB) (hr₁ q hq) b hb)
  have hr₂ : ∀ q ∈ s₂.excits, ListedAAB d.ua d.ub d.oa d.ob q := fun q hq => hr₁ q (x₂ ▸ hq)
  obtain ⟨s₃, e₃, a₃, x₃, y₃⟩ := runOther_adds (t3bBlocksT3c_ready (d := d) (H := X.argsB)) a₂.1 (t := t3c)
    (fun b hb => uc.mono fun q hq => t3bBlocksT3c_holds (H := X.argsB) hq b hb)
    (fun b hb q hq => t3bBlocksT3c_asks (H := X.argsB) (hr₂ q hq) b hb)
  have hr₃ : ∀ q ∈ s₃.excits, ListedAAB d.ua d.ub d.oa d.ob q := fun q hq => hr₂ q (x₃ ▸ hq)
  have m1 := addMoment_adds a₃.1 (t3bMoment1 d X.argsB (t3bInter d X.argsB t3a t3b t3c))
  have m2 := addMoment_adds m1.1 (t3bMoment2 d X.argsB (t3bInter d X.argsB t3a t3b t3c))
  have m3 := addMoment_adds m2.1 (t3bMoment3 d X.argsB (t3bInter d X.argsB t3a t3b t3c))
  have m4 := addMoment_adds m3.1 (t3bMoment4 d X.argsB (t3bInter d X.argsB t3a t3b t3c))
  have m5 := addMoment_adds m4.1 (t3bMoment5 d X.argsB (t3bInter d X.argsB t3a t3b t3c))
  have m6 := addMoment_adds m5.1 (t3bMoment6 d X.argsB (t3bInter d X.argsB t3a t3b t3c))
  have all := ((((((((a₁.trans a₂).trans a₃).trans m1).trans m2).trans m3).trans m4).trans m5).trans m6)
  refine ⟨_, ?_, (finish_records m6.1 X.shift (t3bDenom X.argsB)).1, ?_⟩
  · simp only [updateT3b, e₁, e₂, e₃, Option.bind_eq_bind, Option.bind_some]
    rfl
  · rw [(finish_records m6.1 X.shift (t3bDenom X.argsB)).2]
    refine (all.2.2.map _).trans (List.Perm.of_eq ?_)
    rw [List.map_map, State.records]
    simp only
    rw [zip_zero_records hlen, List.map_map]
    refine List.map_congr_left fun x hx => ?_
    obtain ⟨q, v⟩ := x
    obtain ⟨a, b, c, i, j, k, rfl, hab, hb, hc, hij, hj, hk⟩ := hrows q (List.of_mem_zip hx).1
    simp only [Function.comp_apply, zero_add, atRow_row]
    have l0 : over (t3b.excits.zip t3b.amps) (elements (t3bBlocks d X.argsB) [a + 1, b + 1, c + 1, i + 1, j + 1, k + 1])
        = linB_t3b X d (listed3 t3a.list t3b.list t3c.list t3d.list).tAAB a b c i j k :=
      over_twoOne fb (linB_t3b_linear X d a b c i j k) fun A B C L M N h₁ h₂ h₃ h₄ h₅ h₆ => elements_t3bBlocks d X hX.aa_oooo_l hX.aa_oooo_r hX.aa_vvvv_l hX.aa_vvvv_r hab hij h₁ h₂ h₃ h₄ h₅ h₆
    have l1 : over (t3a.excits.zip t3a.amps) (elements (t3bBlocksT3a d X.argsB) [a + 1, b + 1, c + 1, i + 1, j + 1, k + 1])
        = linB_t3a X d (listed3 t3a.list t3b.list t3c.list t3d.list).tAAA a b c i j k :=
      over_three fa (linB_t3a_linear X d a b c i j k) fun A B C L M N h₁ h₂ h₃ h₄ h₅ h₆ => elements_t3bBlocksT3a d X hab hij h₁ h₂ h₃ h₄ h₅ h₆
    have l2 : over (t3c.excits.zip t3c.amps) (elements (t3bBlocksT3c d X.argsB) [a + 1, b + 1, c + 1, i + 1, j + 1, k + 1])
        = linB_t3c X d (listed3 t3a.list t3b.list t3c.list t3d.list).tABB a b c i j k :=
      over_oneTwo fc (linB_t3c_linear X d a b c i j k) fun A B C L M N h₁ h₂ h₃ h₄ h₅ h₆ => elements_t3bBlocksT3c d X hab hij h₁ h₂ h₃ h₄ h₅ h₆
    have D : t3bDenom X.argsB (column [a + 1, b + 1, c + 1, i + 1, j + 1, k + 1]) = denB X a b c i j k := by
      simp [t3bDenom, column, Dressed.argsB, one2, denB]
    rw [l0, l1, l2, t3bMoment1_eq hX d t3a t3b t3c t3d fa fb fc fd hab hb hc hij hj hk, t3bMoment2_eq hX d t3a t3b t3c t3d fa fb fc fd hab hb hc hij hj hk, t3bMoment3_eq hX d t3a t3b t3c t3d fa fb fc fd hab hb hc hij hj hk, t3bMoment4_eq hX d t3a t3b t3c t3d fa fb fc fd hab hb hc hij hj hk, t3bMoment5_eq hX d t3a t3b t3c t3d fa fb fc fd hab hb hc hij hj hk, t3bMoment6_eq hX d t3a t3b t3c t3d fa fb fc fd hab hb hc hij hj hk, D]
    simp only [resB]

end Ccpy.PSpace
