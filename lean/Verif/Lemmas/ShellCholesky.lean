import Verif.Model.ShellCholesky
import Verif.Spec.ShellCholesky
import Verif.Lemmas.PivotedCholesky
import Mathlib.Data.Nat.Find

/-! The decomposition by shells: the integrals are found, and the remainder stays positive semidefinite. -/

namespace Ccpy.ShellCholesky
open Finset Ccpy.PivotedCholesky

namespace Mol
variable {mol : Mol}

/-- Every shell has a basis function. -/
def Nonempty (mol : Mol) : Prop := ∀ i, i < mol.nbas → 0 < mol.nctr i

theorem dims_lt (h : mol.Nonempty) {i : ℕ} (hi : i < mol.nbas) : mol.dims i < mol.dims (i + 1) := by
  show mol.dims i < mol.dims i + (2 * mol.angular i + 1) * mol.nctr i
  have := Nat.mul_pos (show 0 < 2 * mol.angular i + 1 by omega) (h i hi)
  omega

theorem dims_mono (mol : Mol) {i j : ℕ} (hij : i ≤ j) : mol.dims i ≤ mol.dims j := by
  induction hij with
  | refl => exact le_refl _
  | step _ ih => exact ih.trans (Nat.le_add_right _ _)

theorem filter_length {k n : ℕ} (h : k ≤ n) : ((List.range n).filter fun t => t < k).length = k := by
  induction n, h using Nat.le_induction with
  | base =>
    rw [List.filter_eq_self.mpr]
    · exact List.length_range
    · intro t ht
      simpa using List.mem_range.mp ht
  | succ n hn ih =>
    rw [List.range_succ, List.filter_append, List.length_append, ih]
    simp [Nat.not_lt.mpr hn]

/-- `np.searchsorted` finds the first element that is not less. -/
theorem searchsorted_spec (mol : Mol) {j : ℕ} (hj : j < mol.nao) :
    mol.searchsorted j ≤ mol.nbas ∧ j ≤ mol.dims (mol.searchsorted j) ∧
      ∀ t, t < mol.searchsorted j → mol.dims t < j := by
  have hex : ∃ t, j ≤ mol.dims t := ⟨mol.nbas, le_of_lt hj⟩
  have hk : mol.searchsorted j = Nat.find hex := by
    unfold searchsorted
    have e : ((List.range (mol.nbas + 1)).filter fun t => mol.dims t < j) =
        (List.range (mol.nbas + 1)).filter fun t => t < Nat.find hex := by
      refine List.filter_congr fun t _ => ?_
      rw [decide_eq_decide]
      constructor
      · intro h
        by_contra hc
        have := mol.dims_mono (not_lt.mp hc)
        have := Nat.find_spec hex
        omega
      · intro h
        exact not_le.mp (Nat.find_min hex h)
    rw [e]
    exact filter_length ((Nat.find_min' hex (le_of_lt hj)).trans (Nat.le_succ _))
  rw [hk]
  exact ⟨Nat.find_min' hex (le_of_lt hj), Nat.find_spec hex, fun t h => not_le.mp (Nat.find_min hex h)⟩

/-- The shell that is looked up holds the basis function. -/
theorem shell_spec (h : mol.Nonempty) {j : ℕ} (hj : j < mol.nao) :
    mol.shell j < mol.nbas ∧ mol.dims (mol.shell j) ≤ j ∧ j < mol.dims (mol.shell j + 1) := by
  obtain ⟨h1, h2, h3⟩ := mol.searchsorted_spec hj
  unfold shell
  simp only
  split
  case isTrue hc =>
    have hk : 0 < mol.searchsorted j := by
      by_contra h0
      rw [Nat.eq_zero_of_not_pos h0] at h2
      have : mol.dims 0 = 0 := rfl
      omega
    have := h3 (mol.searchsorted j - 1) (by omega)
    have e : mol.searchsorted j - 1 + 1 = mol.searchsorted j := by omega
    refine ⟨by omega, le_of_lt this, ?_⟩
    rw [e]
    omega
  case isFalse hc =>
    have hd : mol.dims (mol.searchsorted j) = j := by
      by_cases hz : j = 0
      · subst hz
        have : mol.searchsorted 0 = 0 := by
          by_contra h0
          exact absurd (h3 0 (by omega)) (Nat.not_lt_zero _)
        rw [this]
        rfl
      · by_contra hne
        exact hc ⟨hne, hz⟩
    have hlt : mol.searchsorted j < mol.nbas := by
      rcases Nat.lt_or_eq_of_le h1 with h | h
      · exact h
      · rw [h] at hd
        have : mol.nao = mol.dims mol.nbas := rfl
        omega
    refine ⟨hlt, le_of_eq hd, ?_⟩
    have := dims_lt h hlt
    omega

/-- The matrix over pairs. -/
def pairs (mol : Mol) (r s : ℕ) : ℝ := mol.eri (r / mol.nao) (r % mol.nao) (s / mol.nao) (s % mol.nao)

theorem diag_fold (mol : Mol) (h0 : 0 < mol.nao) (i : ℕ) :
    ((List.range i).foldl mol.diagStep (0, fun _ => 0)).1 = mol.dims i * mol.nao ∧
    ∀ r, r < mol.dims i * mol.nao → ((List.range i).foldl mol.diagStep (0, fun _ => 0)).2 r = mol.pairs r r := by
  induction i with
  | zero => exact ⟨by simp [dims], fun r hr => by simp [dims] at hr⟩
  | succ i ih =>
    rw [List.range_succ, List.foldl_append]
    set s := (List.range i).foldl mol.diagStep (0, fun _ => 0) with hs
    obtain ⟨h1, h2⟩ := ih
    simp only [List.foldl_cons, List.foldl_nil, diagStep]
    rw [h1, ← Nat.add_mul]
    refine ⟨rfl, fun r hr => ?_⟩
    have hd : mol.dims (i + 1) = mol.dims i + (2 * mol.angular i + 1) * mol.nctr i := rfl
    rw [hd] at hr
    by_cases hlo : mol.dims i * mol.nao ≤ r
    · rw [if_pos ⟨hlo, hr⟩]
      obtain ⟨t, rfl⟩ := Nat.exists_eq_add_of_le hlo
      rw [Nat.add_sub_cancel_left]
      unfold intor pairs
      rw [show mol.dims i * mol.nao + t = t + mol.nao * mol.dims i by rw [Nat.mul_comm]; omega, Nat.add_mul_div_left _ _ h0,
        Nat.add_mul_mod_self_left, Nat.add_comm (t / mol.nao)]
      simp [dims]
    · rw [if_neg (fun h => hlo h.1)]
      exact h2 r (by omega)

theorem diag_eq (mol : Mol) (h0 : 0 < mol.nao) {r : ℕ} (hr : r < mol.nao * mol.nao) : mol.diag r = mol.pairs r r :=
  (mol.diag_fold h0 mol.nbas).2 r hr

theorem column_eq (h : mol.Nonempty) {nu : ℕ} (hnu : nu < mol.nao * mol.nao) (r : ℕ) : mol.column nu r = mol.pairs r nu := by
  have h0 : 0 < mol.nao := by
    by_contra hz
    rw [Nat.eq_zero_of_not_pos hz] at hnu
    simp at hnu
  obtain ⟨_, hj, _⟩ := shell_spec h (Nat.div_lt_of_lt_mul hnu)
  obtain ⟨_, hl, _⟩ := shell_spec h (Nat.mod_lt nu h0)
  unfold column intor pairs
  simp only [Nat.max_zero, Nat.add_sub_cancel' hj, Nat.add_sub_cancel' hl]
  simp [dims]

end Mol

/-- Sums over pairs. -/
theorem sum_pairs' {α : Type*} [AddCommMonoid α] (n : ℕ) (f : ℕ → ℕ → α) :
    ∑ r ∈ range (n * n), f (r / n) (r % n) = ∑ p ∈ range n, ∑ q ∈ range n, f p q := by
  rw [← sum_product']
  refine sum_nbij' (fun r => (r / n, r % n)) (fun x => x.1 * n + x.2) ?_ ?_ ?_ ?_ ?_
  · intro r hr
    have hr := mem_range.mp hr
    have h0 : 0 < n := by
      by_contra hz
      rw [Nat.eq_zero_of_not_pos hz] at hr
      simp at hr
    rw [mem_product, mem_range, mem_range]
    exact ⟨Nat.div_lt_of_lt_mul hr, Nat.mod_lt _ h0⟩
  · rintro ⟨p, q⟩ h
    rw [mem_product, mem_range, mem_range] at h
    rw [mem_range]
    calc p * n + q < p * n + n := by have := h.2; simp only at this ⊢; omega
      _ = (p + 1) * n := by ring
      _ ≤ n * n := Nat.mul_le_mul_right _ h.1
  · intro r _
    exact Nat.div_add_mod' r n
  · rintro ⟨p, q⟩ h
    rw [mem_product, mem_range, mem_range] at h
    have hq : q < n := h.2
    have h0 : 0 < n := by omega
    simp only
    rw [Nat.mul_comm, Nat.mul_add_div h0, Nat.div_eq_of_lt hq, Nat.add_zero, Nat.mul_add_mod, Nat.mod_eq_of_lt hq]
  · intro r _
    rfl

theorem pairs_psd {mol : Mol} (h : Repulsion mol.nao mol.eri) : PSD (mol.nao * mol.nao) mol.pairs := by
  intro x
  have e : ∑ p ∈ range (mol.nao * mol.nao), ∑ q ∈ range (mol.nao * mol.nao), x p * mol.pairs p q * x q =
      ∑ p ∈ range mol.nao, ∑ q ∈ range mol.nao, ∑ r ∈ range mol.nao, ∑ s ∈ range mol.nao,
        x (p * mol.nao + q) * mol.eri p q r s * x (r * mol.nao + s) := by
    rw [← sum_pairs' mol.nao fun p q => ∑ r ∈ range mol.nao, ∑ s ∈ range mol.nao,
        x (p * mol.nao + q) * mol.eri p q r s * x (r * mol.nao + s)]
    refine sum_congr rfl fun p _ => ?_
    rw [← sum_pairs' mol.nao fun r s => x (p / mol.nao * mol.nao + p % mol.nao) * mol.eri (p / mol.nao) (p % mol.nao) r s *
      x (r * mol.nao + s)]
    refine sum_congr rfl fun q _ => ?_
    simp only [Nat.div_add_mod', Mol.pairs]
  rw [e]
  exact h.positive fun p q => x (p * mol.nao + q)

theorem pairs_symm {mol : Mol} (h : Repulsion mol.nao mol.eri) :
    ∀ p < mol.nao * mol.nao, ∀ q < mol.nao * mol.nao, mol.pairs p q = mol.pairs q p := by
  intro p hp q hq
  have h0 : 0 < mol.nao := by
    by_contra hz
    rw [Nat.eq_zero_of_not_pos hz] at hp
    simp at hp
  exact h.symmetric _ _ _ _ (Nat.div_lt_of_lt_mul hp) (Nat.mod_lt _ h0) (Nat.div_lt_of_lt_mul hq) (Nat.mod_lt _ h0)

/-- The state of the loop: the vectors before `nchol` make the decomposition, and the vector `nchol` has been prepared from the largest
diagonal element of the remainder. -/
structure Inv (mol : Mol) (s : State) : Prop where
  approx : ∀ r, s.mapprox r = ∑ x ∈ range s.nchol, s.vecs x r * s.vecs x r
  psd : PSD (mol.nao * mol.nao) (residual mol.pairs s.vecs s.nchol)
  pivot : ∃ nu, nu < mol.nao * mol.nao ∧ s.deltaMax = residual mol.pairs s.vecs s.nchol nu nu ∧
    (∀ r, r < mol.nao * mol.nao → residual mol.pairs s.vecs s.nchol r r ≤ s.deltaMax) ∧
    ∀ r, r < mol.nao * mol.nao → s.vecs s.nchol r = residual mol.pairs s.vecs s.nchol nu r / Real.sqrt s.deltaMax

theorem Inv.nonneg {mol : Mol} {s : State} (h : Inv mol s) : 0 ≤ s.deltaMax := by
  obtain ⟨nu, h1, h2, _⟩ := h.pivot
  rw [h2]
  exact psd_diag h.psd h1

theorem inv_start {mol : Mol} (h0 : 0 < mol.nao) (hn : mol.Nonempty) (h : Repulsion mol.nao mol.eri) : Inv mol (start mol) := by
  have hN : 0 < mol.nao * mol.nao := Nat.mul_pos h0 h0
  have e : residual mol.pairs (start mol).vecs 0 = mol.pairs := by funext p q; simp [PivotedCholesky.residual]
  set nu := argmax mol.diag (mol.nao * mol.nao - 1) with hnu
  have hlt : nu < mol.nao * mol.nao := by
    have := argmax_le mol.diag (mol.nao * mol.nao - 1)
    omega
  refine ⟨fun r => by simp [start], ?_, nu, hlt, ?_, ?_, ?_⟩
  · show PSD _ (residual mol.pairs (start mol).vecs 0)
    rw [e]
    exact pairs_psd h
  · show mol.diag nu = residual mol.pairs (start mol).vecs 0 nu nu
    rw [e, mol.diag_eq h0 hlt]
  · intro r hr
    show residual mol.pairs (start mol).vecs 0 r r ≤ mol.diag nu
    rw [e, ← mol.diag_eq h0 hr]
    exact argmax_max mol.diag _ r (by omega)
  · intro r hr
    show (start mol).vecs 0 r = residual mol.pairs (start mol).vecs 0 nu r / Real.sqrt (mol.diag nu)
    rw [e, ← pairs_symm h r hr nu hlt, ← Mol.column_eq hn hlt]
    simp [start, hnu]

theorem inv_step {mol : Mol} (hn : mol.Nonempty) (h : Repulsion mol.nao mol.eri) {s : State} (hi : Inv mol s)
    (hpos : 0 < s.deltaMax) : Inv mol (step mol s) ∧
      (∀ r, r < mol.nao * mol.nao → residual mol.pairs s.vecs s.nchol r r = 0 →
        residual mol.pairs (step mol s).vecs (step mol s).nchol r r = 0) ∧
      ∃ nu, nu < mol.nao * mol.nao ∧ residual mol.pairs s.vecs s.nchol nu nu ≠ 0 ∧
        residual mol.pairs (step mol s).vecs (step mol s).nchol nu nu = 0 := by
  obtain ⟨nu, hnu, hmax, hle, hvec⟩ := hi.pivot
  have h0 : 0 < mol.nao := by
    by_contra hz
    rw [Nat.eq_zero_of_not_pos hz] at hnu
    simp at hnu
  have hN : 0 < mol.nao * mol.nao := Nat.mul_pos h0 h0
  have hsq : Real.sqrt s.deltaMax * Real.sqrt s.deltaMax = s.deltaMax := Real.mul_self_sqrt hpos.le
  have hsq0 : Real.sqrt s.deltaMax ≠ 0 := (Real.sqrt_pos.mpr hpos).ne'
  have hprod : ∀ q < mol.nao * mol.nao, s.vecs s.nchol nu * s.vecs s.nchol q = residual mol.pairs s.vecs s.nchol nu q := by
    intro q hq
    rw [hvec nu hnu, hvec q hq, ← hmax]
    have : s.deltaMax / Real.sqrt s.deltaMax = Real.sqrt s.deltaMax := by
      rw [div_eq_iff hsq0, hsq]
    rw [this, mul_div_cancel₀ _ hsq0]
  have hkeep : ∀ p q, residual mol.pairs (step mol s).vecs (s.nchol + 1) p q =
      residual mol.pairs s.vecs s.nchol p q - s.vecs s.nchol p * s.vecs s.nchol q := by
    intro p q
    rw [← residual_succ]
    refine residual_congr (fun k hk => ?_) p q
    show Function.update s.vecs (s.nchol + 1) _ k = s.vecs k
    rw [Function.update_of_ne (by omega)]
  have hpsd : PSD (mol.nao * mol.nao) (residual mol.pairs (step mol s).vecs (s.nchol + 1)) := by
    have := psd_step hnu hi.psd (fun p hp q hq => residual_comm (pairs_symm h) hp hq) (hmax ▸ hpos) hprod
    have e : (fun p q => residual mol.pairs s.vecs s.nchol p q - s.vecs s.nchol p * s.vecs s.nchol q) =
        residual mol.pairs (step mol s).vecs (s.nchol + 1) := by
      funext p q
      rw [hkeep]
    rwa [e] at this
  have happ : ∀ r, (step mol s).mapprox r = ∑ x ∈ range (s.nchol + 1), s.vecs x r * s.vecs x r := by
    intro r
    show s.mapprox r + s.vecs s.nchol r * s.vecs s.nchol r = _
    rw [hi.approx, sum_range_succ]
  have hdelta : ∀ r, r < mol.nao * mol.nao →
      |mol.diag r - (step mol s).mapprox r| = residual mol.pairs (step mol s).vecs (s.nchol + 1) r r := by
    intro r hr
    rw [← abs_of_nonneg (psd_diag hpsd hr), mol.diag_eq h0 hr, happ, hkeep, ← residual_succ]
    rfl
  have hnew : residual mol.pairs s.vecs (s.nchol + 1) = residual mol.pairs (step mol s).vecs (s.nchol + 1) := by
    funext p q
    rw [hkeep, residual_succ]
  refine ⟨⟨fun r => ?_, hpsd, ?_⟩, ?_, nu, hnu, ?_, ?_⟩
  · rw [happ]
    show _ = ∑ x ∈ range (s.nchol + 1), (step mol s).vecs x r * (step mol s).vecs x r
    refine sum_congr rfl fun x hx => ?_
    have : (step mol s).vecs x = s.vecs x := by
      show Function.update s.vecs (s.nchol + 1) _ x = s.vecs x
      rw [Function.update_of_ne (by have := mem_range.mp hx; omega)]
    rw [this]
  · set mu := argmax (fun r => |mol.diag r - (step mol s).mapprox r|) (mol.nao * mol.nao - 1) with hmu
    have hlt : mu < mol.nao * mol.nao := by
      have := argmax_le (fun r => |mol.diag r - (step mol s).mapprox r|) (mol.nao * mol.nao - 1)
      omega
    refine ⟨mu, hlt, hdelta mu hlt, fun r hr => ?_, fun r hr => ?_⟩
    · show residual mol.pairs (step mol s).vecs (s.nchol + 1) r r ≤ |mol.diag mu - (step mol s).mapprox mu|
      rw [← hdelta r hr]
      exact argmax_max (fun r => |mol.diag r - (step mol s).mapprox r|) _ r (by omega)
    · show Function.update s.vecs (s.nchol + 1) _ (s.nchol + 1) r =
        residual mol.pairs (step mol s).vecs (s.nchol + 1) mu r / Real.sqrt (step mol s).deltaMax
      rw [Function.update_self, ← hnew]
      show (mol.column mu r - ∑ x ∈ range (s.nchol + 1), s.vecs x mu * s.vecs x r) / _ = _
      rw [Mol.column_eq hn hlt, pairs_symm h r hr mu hlt]
      rfl
  · intro r hr hz
    show residual mol.pairs (step mol s).vecs (s.nchol + 1) r r = 0
    refine le_antisymm ?_ (psd_diag hpsd hr)
    rw [hkeep, hz]
    have := mul_self_nonneg (s.vecs s.nchol r)
    linarith
  · rw [← hmax]
    exact hpos.ne'
  · show residual mol.pairs (step mol s).vecs (s.nchol + 1) nu nu = 0
    rw [hkeep, hprod nu hnu, sub_self]

/-- The pair in the other order. -/
def swap (mol : Mol) (r : ℕ) : ℕ := r % mol.nao * mol.nao + r / mol.nao

theorem swap_spec {mol : Mol} {r : ℕ} (hr : r < mol.nao * mol.nao) :
    swap mol r < mol.nao * mol.nao ∧ swap mol r / mol.nao = r % mol.nao ∧ swap mol r % mol.nao = r / mol.nao := by
  have h0 : 0 < mol.nao := by
    by_contra hz
    rw [Nat.eq_zero_of_not_pos hz] at hr
    simp at hr
  have h1 : r / mol.nao < mol.nao := Nat.div_lt_of_lt_mul hr
  have h2 : r % mol.nao < mol.nao := Nat.mod_lt _ h0
  unfold swap
  refine ⟨?_, ?_, ?_⟩
  · calc r % mol.nao * mol.nao + r / mol.nao < r % mol.nao * mol.nao + mol.nao := by omega
      _ = (r % mol.nao + 1) * mol.nao := by ring
      _ ≤ mol.nao * mol.nao := Nat.mul_le_mul_right _ h2
  · rw [Nat.mul_comm, Nat.mul_add_div h0, Nat.div_eq_of_lt h1, Nat.add_zero]
  · rw [Nat.mul_comm, Nat.mul_add_mod, Nat.mod_eq_of_lt h1]

theorem pairs_swap {mol : Mol} (hx : Exchange mol.nao mol.eri) {r s : ℕ} (hr : r < mol.nao * mol.nao) :
    mol.pairs (swap mol r) s = mol.pairs r s := by
  have h0 : 0 < mol.nao := by
    by_contra hz
    rw [Nat.eq_zero_of_not_pos hz] at hr
    simp at hr
  obtain ⟨_, h1, h2⟩ := swap_spec hr
  unfold Mol.pairs
  rw [h1, h2]
  exact hx _ _ _ _ (Nat.mod_lt _ h0) (Nat.div_lt_of_lt_mul hr)

/-- The vectors do not change when the two basis functions of a pair are exchanged. -/
def Even (mol : Mol) (s : State) : Prop :=
  ∀ x, x ≤ s.nchol → ∀ r, r < mol.nao * mol.nao → s.vecs x (swap mol r) = s.vecs x r

theorem even_start {mol : Mol} (h0 : 0 < mol.nao) (hn : mol.Nonempty) (hx : Exchange mol.nao mol.eri) : Even mol (start mol) := by
  intro x h r hr
  have hN : 0 < mol.nao * mol.nao := Nat.mul_pos h0 h0
  have hlt : argmax mol.diag (mol.nao * mol.nao - 1) < mol.nao * mol.nao := by
    have := argmax_le mol.diag (mol.nao * mol.nao - 1)
    omega
  have hz : x = 0 := Nat.le_zero.mp h
  subst hz
  simp only [start, Function.update_self]
  rw [Mol.column_eq hn hlt, Mol.column_eq hn hlt, pairs_swap hx hr]

theorem even_step {mol : Mol} (h0 : 0 < mol.nao) (hn : mol.Nonempty) (hx : Exchange mol.nao mol.eri) {s : State} (he : Even mol s) :
    Even mol (step mol s) := by
  intro x h r hr
  have hN : 0 < mol.nao * mol.nao := Nat.mul_pos h0 h0
  replace h : x ≤ s.nchol + 1 := h
  set mu := argmax (fun r => |mol.diag r - (step mol s).mapprox r|) (mol.nao * mol.nao - 1) with hmu
  have hlt : mu < mol.nao * mol.nao := by
    have := argmax_le (fun r => |mol.diag r - (step mol s).mapprox r|) (mol.nao * mol.nao - 1)
    omega
  rcases Nat.lt_or_eq_of_le h with h | h
  · show Function.update s.vecs (s.nchol + 1) _ x _ = Function.update s.vecs (s.nchol + 1) _ x _
    rw [Function.update_of_ne (by omega)]
    exact he x (by omega) r hr
  · subst h
    have e : ∀ t, (step mol s).vecs (s.nchol + 1) t =
        (mol.column mu t - ∑ x ∈ range (s.nchol + 1), s.vecs x mu * s.vecs x t) / Real.sqrt (step mol s).deltaMax := by
      intro t
      show Function.update s.vecs (s.nchol + 1) _ (s.nchol + 1) t = _
      rw [Function.update_self]
      rfl
    rw [e, e, Mol.column_eq hn hlt, Mol.column_eq hn hlt, pairs_swap hx hr]
    congr 2
    refine sum_congr rfl fun x hx => ?_
    rw [he x (by have := mem_range.mp hx; omega) r hr]

theorem residual_swap {mol : Mol} (h : Repulsion mol.nao mol.eri) (hx : Exchange mol.nao mol.eri) {s : State} (he : Even mol s) {r : ℕ}
    (hr : r < mol.nao * mol.nao) :
    residual mol.pairs s.vecs s.nchol (swap mol r) (swap mol r) = residual mol.pairs s.vecs s.nchol r r := by
  have hs := (swap_spec hr).1
  have e : mol.pairs (swap mol r) (swap mol r) = mol.pairs r r := by
    rw [pairs_swap hx hr, pairs_symm h r hr _ hs, pairs_swap hx hr]
  unfold PivotedCholesky.residual
  rw [e]
  congr 1
  refine sum_congr rfl fun x hx => ?_
  rw [he x (by have := mem_range.mp hx; omega) r hr]

/-- The pairs with a remainder. -/
noncomputable def left (mol : Mol) (s : State) : Finset ℕ :=
  {r ∈ range (mol.nao * mol.nao) | r / mol.nao ≤ r % mol.nao ∧ residual mol.pairs s.vecs s.nchol r r ≠ 0}

theorem left_step {mol : Mol} (h0 : 0 < mol.nao) (hn : mol.Nonempty) (h : Repulsion mol.nao mol.eri) (hx : Exchange mol.nao mol.eri)
    {s : State} (hi : Inv mol s) (he : Even mol s) (hpos : 0 < s.deltaMax) : (left mol (step mol s)).card < (left mol s).card := by
  obtain ⟨_, hz, nu, hnu, h1, h2⟩ := inv_step hn h hi hpos
  obtain ⟨nu, hnu, hle, h1, h2⟩ : ∃ nu, nu < mol.nao * mol.nao ∧ nu / mol.nao ≤ nu % mol.nao ∧
      residual mol.pairs s.vecs s.nchol nu nu ≠ 0 ∧ residual mol.pairs (step mol s).vecs (step mol s).nchol nu nu = 0 := by
    rcases le_total (nu / mol.nao) (nu % mol.nao) with hle | hle
    · exact ⟨nu, hnu, hle, h1, h2⟩
    · obtain ⟨h3, h4, h5⟩ := swap_spec hnu
      refine ⟨swap mol nu, h3, by rw [h4, h5]; exact hle, ?_, ?_⟩
      · rw [residual_swap h hx he hnu]
        exact h1
      · rw [residual_swap h hx (even_step h0 hn hx he) hnu]
        exact h2
  refine card_lt_card ⟨fun r hr => ?_, fun hc => ?_⟩
  · unfold left at hr ⊢
    rw [mem_filter] at hr ⊢
    exact ⟨hr.1, hr.2.1, fun h0 => hr.2.2 (hz r (mem_range.mp hr.1) h0)⟩
  · have : nu ∈ left mol (step mol s) := hc (mem_filter.mpr ⟨mem_range.mpr hnu, hle, h1⟩)
    exact (mem_filter.mp this).2.2 h2

theorem card_ordered (n : ℕ) : #{r ∈ range (n * n) | r / n ≤ r % n} * 2 = n * (n + 1) := by
  rw [card_filter, sum_pairs' n fun p q => if p ≤ q then 1 else 0, sum_comm]
  have e : ∀ q ∈ range n, (∑ p ∈ range n, if p ≤ q then 1 else 0) = q + 1 := by
    intro q hq
    rw [← card_filter]
    have : {p ∈ range n | p ≤ q} = range (q + 1) := by
      ext p
      have := mem_range.mp hq
      rw [mem_filter, mem_range, mem_range]
      omega
    rw [this, card_range]
  rw [sum_congr rfl e]
  have := sum_range_id_mul_two (n + 1)
  rw [sum_range_succ', Nat.add_zero] at this
  rw [this, Nat.add_sub_cancel, Nat.mul_comm]

theorem left_card (mol : Mol) (s : State) : (left mol s).card * 2 ≤ mol.nao * (mol.nao + 1) := by
  rw [← card_ordered]
  refine Nat.mul_le_mul_right _ (card_le_card fun r hr => ?_)
  have := mem_filter.mp hr
  exact mem_filter.mpr ⟨this.1, this.2.1⟩

theorem loop_inv {mol : Mol} (hn : mol.Nonempty) (h : Repulsion mol.nao mol.eri) {tol : ℝ} (ht : 0 ≤ tol) (room : ℕ) (s s' : State)
    (hi : Inv mol s) (hl : loop mol tol room s = some s') : Inv mol s' ∧ s'.deltaMax ≤ tol ∧ s'.nchol ≤ s.nchol + room := by
  induction room generalizing s with
  | zero =>
    unfold loop at hl
    rw [abs_of_nonneg hi.nonneg] at hl
    split at hl
    · exact absurd hl (by simp)
    · rw [← Option.some.inj hl]
      exact ⟨hi, by linarith, le_refl _⟩
  | succ room ih =>
    unfold loop at hl
    rw [abs_of_nonneg hi.nonneg] at hl
    split at hl
    · rename_i hc
      obtain ⟨h1, h2, h3⟩ := ih (step mol s) (inv_step hn h hi (ht.trans_lt hc)).1 hl
      refine ⟨h1, h2, h3.trans ?_⟩
      show s.nchol + 1 + room ≤ _
      omega
    · rw [← Option.some.inj hl]
      exact ⟨hi, by linarith, by omega⟩

theorem loop_returns {mol : Mol} (h0 : 0 < mol.nao) (hn : mol.Nonempty) (h : Repulsion mol.nao mol.eri)
    (hx : Exchange mol.nao mol.eri) {tol : ℝ} (ht : 0 ≤ tol) (room : ℕ) (s : State)
    (hi : Inv mol s) (he : Even mol s) (hc : (left mol s).card ≤ room) : ∃ s', loop mol tol room s = some s' := by
  induction room generalizing s with
  | zero =>
    unfold loop
    rw [abs_of_nonneg hi.nonneg]
    split
    · rename_i hd
      have := left_step h0 hn h hx hi he (ht.trans_lt hd)
      omega
    · exact ⟨s, rfl⟩
  | succ room ih =>
    unfold loop
    rw [abs_of_nonneg hi.nonneg]
    split
    · rename_i hd
      have := left_step h0 hn h hx hi he (ht.trans_lt hd)
      exact ih (step mol s) (inv_step hn h hi (ht.trans_lt hd)).1 (even_step h0 hn hx he) (by omega)
    · exact ⟨s, rfl⟩

end Ccpy.ShellCholesky
