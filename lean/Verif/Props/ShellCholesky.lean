import Verif.Lemmas.ShellCholesky
import Mathlib.LinearAlgebra.FiniteDimensional.Lemmas
import Mathlib.LinearAlgebra.Dimension.Constructions

/-! Cholesky vectors of the repulsion integrals of a molecule, computed from blocks of integrals by shells. -/

namespace Ccpy.ShellCholesky
open Finset Ccpy.PivotedCholesky

/-- The integrals `(pq|rs)` of a molecule whose pairs of basis functions are orthonormal charge distributions. -/
noncomputable def unit (p q r s : ℕ) : ℝ := (if p = r ∧ q = s then 1 else 0) + if p = s ∧ q = r then 1 else 0

theorem unit_repulsion (n : ℕ) : Repulsion n unit := by
  constructor
  · intro p q r s _ _ _ _
    unfold unit
    congr 1
    · exact if_congr ⟨fun h => ⟨h.1.symm, h.2.symm⟩, fun h => ⟨h.1.symm, h.2.symm⟩⟩ rfl rfl
    · exact if_congr ⟨fun h => ⟨h.2.symm, h.1.symm⟩, fun h => ⟨h.2.symm, h.1.symm⟩⟩ rfl rfl
  · intro x
    have e : ∀ p ∈ range n, ∀ q ∈ range n, ∑ r ∈ range n, ∑ s ∈ range n, x p q * unit p q r s * x r s = x p q * (x p q + x q p) := by
      intro p hp q hq
      have h1 : ∀ a b, a ∈ range n → b ∈ range n →
          ∑ r ∈ range n, ∑ s ∈ range n, x p q * (if a = r ∧ b = s then 1 else 0) * x r s = x p q * x a b := by
        intro a b ha hb
        rw [sum_eq_single_of_mem a ha, sum_eq_single_of_mem b hb]
        · simp
        · intro s _ hs
          simp [Ne.symm hs]
        · intro r _ hr
          refine sum_eq_zero fun s _ => ?_
          simp [Ne.symm hr]
      have h2 : ∀ r s, x p q * unit p q r s * x r s =
          x p q * (if p = r ∧ q = s then 1 else 0) * x r s + x p q * (if q = r ∧ p = s then 1 else 0) * x r s := by
        intro r s
        unfold unit
        rw [if_congr (and_comm (a := p = s)) rfl rfl]
        ring
      simp only [h2, sum_add_distrib]
      rw [h1 p q hp hq, h1 q p hq hp]
      ring
    rw [sum_congr rfl fun p hp => sum_congr rfl fun q hq => e p hp q hq]
    have h3 : ∑ p ∈ range n, ∑ q ∈ range n, x p q * x q p = ∑ p ∈ range n, ∑ q ∈ range n, x q p * x p q := by
      rw [sum_comm]
    have h4 : ∑ p ∈ range n, ∑ q ∈ range n, x p q * x p q = ∑ p ∈ range n, ∑ q ∈ range n, x q p * x q p := by
      rw [sum_comm]
    have h5 : 0 ≤ ∑ p ∈ range n, ∑ q ∈ range n, (x p q + x q p) * (x p q + x q p) :=
      sum_nonneg fun p _ => sum_nonneg fun q _ => mul_self_nonneg _
    have h6 : ∑ p ∈ range n, ∑ q ∈ range n, (x p q + x q p) * (x p q + x q p) =
        ∑ p ∈ range n, ∑ q ∈ range n, x p q * (x p q + x q p) + ∑ p ∈ range n, ∑ q ∈ range n, x p q * (x p q + x q p) := by
      simp only [mul_add, add_mul, sum_add_distrib]
      rw [← h3, ← h4]
      ring
    linarith

theorem unit_exchange (n : ℕ) : Exchange n unit := by
  intro p q r s _ _
  unfold unit
  rw [add_comm]
  congr 1
  · exact if_congr and_comm rfl rfl
  · exact if_congr and_comm rfl rfl

/-- A molecule with an s shell, a p shell and another s shell. -/
noncomputable def demo : Mol := ⟨3, fun i => if i = 1 then 1 else 0, fun _ => 1, unit⟩

/-- A molecule with `n` s shells. -/
noncomputable def shells (n : ℕ) : Mol := ⟨n, fun _ => 0, fun _ => 1, unit⟩

theorem shells_dims (n i : ℕ) : (shells n).dims i = i := by
  induction i with
  | zero => rfl
  | succ i ih =>
    show (shells n).dims i + (2 * 0 + 1) * 1 = i + 1
    rw [ih]

theorem shells_nao (n : ℕ) : (shells n).nao = n := shells_dims n n

theorem demo_nonempty : ∀ i < demo.nbas, 0 < demo.nctr i := fun _ _ => Nat.one_pos

theorem demo_nao : demo.nao = 5 := by decide

/-- For every basis function the shell that is looked up is the one that holds it, when every shell has a function. -/
theorem C91_shell (mol : Mol) (hn : ∀ i < mol.nbas, 0 < mol.nctr i) (j : ℕ) (hj : j < mol.nao) :
    mol.shell j < mol.nbas ∧ mol.dims (mol.shell j) ≤ j ∧ j < mol.dims (mol.shell j + 1) :=
  Mol.shell_spec hn hj

example : (List.range 5).map demo.shell = [0, 1, 1, 1, 2] := by decide

/-- The columns and the diagonal read from the blocks are those of the matrix of all integrals. -/
theorem C91_column (mol : Mol) (hn : ∀ i < mol.nbas, 0 < mol.nctr i) (p q r s : ℕ) (hp : p < mol.nao) (hq : q < mol.nao)
    (hr : r < mol.nao) (hs : s < mol.nao) :
    mol.column (r * mol.nao + s) (p * mol.nao + q) = mol.eri p q r s ∧ mol.diag (p * mol.nao + q) = mol.eri p q p q := by
  have h0 : 0 < mol.nao := by omega
  have hlt : ∀ a b, a < mol.nao → b < mol.nao → a * mol.nao + b < mol.nao * mol.nao := by
    intro a b ha hb
    calc a * mol.nao + b < a * mol.nao + mol.nao := by omega
      _ = (a + 1) * mol.nao := by ring
      _ ≤ mol.nao * mol.nao := Nat.mul_le_mul_right _ ha
  have hd : ∀ a b, b < mol.nao → (a * mol.nao + b) / mol.nao = a := by
    intro a b hb
    rw [Nat.mul_comm, Nat.mul_add_div h0, Nat.div_eq_of_lt hb, Nat.add_zero]
  have hm : ∀ a b, b < mol.nao → (a * mol.nao + b) % mol.nao = b := by
    intro a b hb
    rw [Nat.mul_comm, Nat.mul_add_mod, Nat.mod_eq_of_lt hb]
  refine ⟨?_, ?_⟩
  · rw [Mol.column_eq hn (hlt r s hr hs)]
    unfold Mol.pairs
    rw [hd _ _ hq, hm _ _ hq, hd _ _ hs, hm _ _ hs]
  · rw [mol.diag_eq h0 (hlt p q hp hq)]
    unfold Mol.pairs
    rw [hd _ _ hq, hm _ _ hq]

example : demo.column (3 * demo.nao + 1) (1 * demo.nao + 3) = 1 := by
  rw [(C91_column demo demo_nonempty 1 3 3 1 (by decide) (by decide) (by decide) (by decide)).1]
  norm_num [demo, unit]

/-- When the decomposition returns, every integral is given by the vectors to within the tolerance, and the vectors fit in the buffer. -/
theorem C91_error (mol : Mol) (hn : ∀ i < mol.nbas, 0 < mol.nctr i) (h : Repulsion mol.nao mol.eri) (tol : ℝ) (ht : 0 ≤ tol)
    (ncholMax count : ℕ) (L : ℕ → ℕ → ℕ → ℝ) (hres : decompose mol tol ncholMax = some (count, L)) :
    Approximates mol.nao mol.eri tol count L ∧ count < ncholMax := by
  unfold decompose at hres
  split at hres
  · exact absurd hres (by simp)
  rename_i hc
  have h0 : 0 < mol.nao := by omega
  obtain ⟨s, hs, he⟩ := Option.map_eq_some_iff.mp hres
  obtain ⟨hi, hd, hcount⟩ := loop_inv hn h ht _ _ s (inv_start h0 hn h) hs
  have hc1 : s.nchol = count := congrArg Prod.fst he
  have hc2 : (fun x p q => s.vecs x (p * mol.nao + q)) = L := congrArg Prod.snd he
  subst hc1 hc2
  refine ⟨?_, ?_⟩
  swap
  · have : (start mol).nchol = 0 := rfl
    omega
  intro p q r t hp hq hr ht'
  have hlt : ∀ a b, a < mol.nao → b < mol.nao → a * mol.nao + b < mol.nao * mol.nao := by
    intro a b ha hb
    calc a * mol.nao + b < a * mol.nao + mol.nao := by omega
      _ = (a + 1) * mol.nao := by ring
      _ ≤ mol.nao * mol.nao := Nat.mul_le_mul_right _ ha
  have hcol := (C91_column mol hn p q r t hp hq hr ht').1
  rw [Mol.column_eq hn (hlt r t hr ht')] at hcol
  rw [← hcol]
  show |residual mol.pairs s.vecs s.nchol (p * mol.nao + q) (r * mol.nao + t)| ≤ tol
  obtain ⟨_, _, _, hle, _⟩ := hi.pivot
  have hle' : ∀ a, a < mol.nao * mol.nao → residual mol.pairs s.vecs s.nchol a a ≤ tol := fun a ha => (hle a ha).trans hd
  by_cases hne : p * mol.nao + q = r * mol.nao + t
  · rw [← hne, abs_of_nonneg (psd_diag hi.psd (hlt p q hp hq))]
    exact hle' _ (hlt p q hp hq)
  · have := psd_offdiag hi.psd (fun a ha b hb => residual_comm (pairs_symm h) ha hb) (hlt p q hp hq) (hlt r t hr ht') hne
    have h1 := hle' _ (hlt p q hp hq)
    have h2 := hle' _ (hlt r t hr ht')
    linarith

/-- The decomposition returns when the buffer has `cmax` vectors for each basis function and there are fewer than `2 cmax - 1` functions. -/
theorem C91_returns_partial (mol : Mol) (h0 : 0 < mol.nao) (hn : ∀ i < mol.nbas, 0 < mol.nctr i) (h : Repulsion mol.nao mol.eri)
    (hx : Exchange mol.nao mol.eri) (tol : ℝ) (ht : 0 ≤ tol) (cmax : ℕ) (hc : mol.nao + 1 < 2 * cmax) :
    ∃ count L, decompose mol tol (cmax * mol.nao) = some (count, L) := by
  have hpos : 0 < cmax * mol.nao := Nat.mul_pos (by omega) h0
  have hcard := left_card mol (start mol)
  have hroom : (left mol (start mol)).card ≤ cmax * mol.nao - 1 := by
    have : mol.nao * (mol.nao + 1) < mol.nao * (2 * cmax) := Nat.mul_lt_mul_of_pos_left hc h0
    have e : mol.nao * (2 * cmax) = cmax * mol.nao * 2 := by ring
    omega
  obtain ⟨s, hs⟩ := loop_returns h0 hn h hx ht _ _ (inv_start h0 hn h) (even_start h0 hn hx) hroom
  refine ⟨s.nchol, fun x p q => s.vecs x (p * mol.nao + q), ?_⟩
  unfold decompose
  rw [if_neg (by omega), hs]
  rfl

/-- The hypotheses hold for a molecule with shells of different sizes. -/
example : ∃ count L, decompose demo (1 / 10) (10 * demo.nao) = some (count, L) ∧
    Approximates demo.nao demo.eri (1 / 10) count L ∧ count < 10 * demo.nao := by
  have hr : Repulsion demo.nao demo.eri := unit_repulsion _
  obtain ⟨count, L, h⟩ := C91_returns_partial demo (by decide) demo_nonempty hr (unit_exchange _) (1 / 10) (by norm_num) 10
    (by rw [demo_nao]; norm_num)
  exact ⟨count, L, h, C91_error demo demo_nonempty hr _ (by norm_num) _ _ _ h⟩

/-- The decomposition does not return for all integrals: with `2 cmax - 1` or more basis functions (19 for the default `cmax`) there are
integrals for which the buffer is too short at any small tolerance, and the function raises an `IndexError` rather than a message about
`cmax`. -/
theorem C91_buffer_fails (cmax n : ℕ) (hc : 2 * cmax ≤ n + 1) (tol : ℝ) (ht : 0 ≤ tol) (hs : tol * (n * n) < 1) :
    (∀ i < (shells n).nbas, 0 < (shells n).nctr i) ∧ Repulsion (shells n).nao (shells n).eri ∧ Exchange (shells n).nao (shells n).eri ∧
      (shells n).nao = n ∧ decompose (shells n) tol (cmax * n) = none := by
  have hn : ∀ i < (shells n).nbas, 0 < (shells n).nctr i := fun _ _ => Nat.one_pos
  refine ⟨hn, unit_repulsion _, unit_exchange _, shells_nao n, ?_⟩
  by_contra hne
  obtain ⟨⟨count, L⟩, hres⟩ := Option.ne_none_iff_exists'.mp hne
  obtain ⟨happ, hcount⟩ := C91_error (shells n) hn (unit_repulsion _) tol ht _ _ _ hres
  rw [shells_nao] at happ
  set T : Finset ℕ := {r ∈ range (n * n) | r / n ≤ r % n} with hT
  have hcardT : T.card * 2 = n * (n + 1) := card_ordered n
  have hcardle : T.card ≤ n * n := (card_filter_le _ _).trans (le_of_eq (card_range _))
  have hlt : count < T.card := by
    have : n * (2 * cmax) ≤ n * (n + 1) := Nat.mul_le_mul_left _ hc
    have e : n * (2 * cmax) = cmax * n * 2 := by ring
    omega
  let f : (T → ℝ) →ₗ[ℝ] (Fin count → ℝ) :=
    { toFun := fun v x => ∑ t : T, L x (t.1 / n) (t.1 % n) * v t
      map_add' := fun v w => by
        funext x
        simp only [Pi.add_apply, mul_add, sum_add_distrib]
      map_smul' := fun c v => by
        funext x
        simp only [Pi.smul_apply, smul_eq_mul, RingHom.id_apply, mul_sum]
        exact sum_congr rfl fun t _ => by ring }
  have hker : LinearMap.ker f ≠ ⊥ := LinearMap.ker_ne_bot_of_finrank_lt (by
    rw [Module.finrank_fintype_fun_eq_card, Module.finrank_fintype_fun_eq_card, Fintype.card_fin, Fintype.card_coe]
    exact hlt)
  obtain ⟨v, hv, hv0⟩ := (Submodule.ne_bot_iff _).mp hker
  have hzero : ∀ x, x < count → ∑ t : T, L x (t.1 / n) (t.1 % n) * v t = 0 := fun x hx =>
    congrFun (LinearMap.mem_ker.mp hv) ⟨x, hx⟩
  obtain ⟨w, hw⟩ : ∃ w, v w ≠ 0 := by
    by_contra hc
    push Not at hc
    exact hv0 (funext hc)
  obtain ⟨t0, _, hmax⟩ := exists_max_image (univ : Finset T) (fun t => |v t|) ⟨w, mem_univ _⟩
  have hpos : 0 < |v t0| := (abs_pos.mpr hw).trans_le (hmax w (mem_univ _))
  have hb : ∀ t : T, t.1 / n < n ∧ t.1 % n < n ∧ t.1 / n ≤ t.1 % n := by
    intro t
    have := mem_filter.mp t.2
    have hr := mem_range.mp this.1
    have h0 : 0 < n := by
      by_contra hz
      rw [Nat.eq_zero_of_not_pos hz] at hr
      simp at hr
    exact ⟨Nat.div_lt_of_lt_mul hr, Nat.mod_lt _ h0, this.2⟩
  -- the integrals alone
  have hself : |v t0| ≤ |∑ t : T, unit (t0.1 / n) (t0.1 % n) (t.1 / n) (t.1 % n) * v t| := by
    rw [sum_eq_single_of_mem t0 (mem_univ _)]
    · rw [abs_mul]
      have : 1 ≤ |unit (t0.1 / n) (t0.1 % n) (t0.1 / n) (t0.1 % n)| := by
        refine le_trans ?_ (le_abs_self _)
        unfold unit
        rw [if_pos ⟨rfl, rfl⟩]
        split <;> norm_num
      exact le_mul_of_one_le_left (abs_nonneg _) this
    · intro t _ htt
      have h1 := hb t
      have h2 := hb t0
      have hdiff : ¬ (t0.1 / n = t.1 / n ∧ t0.1 % n = t.1 % n) := by
        rintro ⟨e1, e2⟩
        refine htt (Subtype.ext ?_)
        rw [← Nat.div_add_mod t.1 n, ← Nat.div_add_mod t0.1 n, e1, e2]
      unfold unit
      rw [if_neg hdiff, if_neg (fun e => hdiff ⟨by omega, by omega⟩)]
      simp
  -- the vectors add nothing
  have hvec : ∑ t : T, (∑ x ∈ range count, L x (t0.1 / n) (t0.1 % n) * L x (t.1 / n) (t.1 % n)) * v t = 0 := by
    simp only [sum_mul]
    rw [sum_comm]
    refine sum_eq_zero fun x hx => ?_
    have := hzero x (mem_range.mp hx)
    calc ∑ t : T, L x (t0.1 / n) (t0.1 % n) * L x (t.1 / n) (t.1 % n) * v t =
        L x (t0.1 / n) (t0.1 % n) * ∑ t : T, L x (t.1 / n) (t.1 % n) * v t := by
          rw [mul_sum]
          exact sum_congr rfl fun t _ => by ring
      _ = 0 := by rw [this, mul_zero]
  have hbound : |∑ t : T, unit (t0.1 / n) (t0.1 % n) (t.1 / n) (t.1 % n) * v t| ≤ T.card * (tol * |v t0|) := by
    have e : ∑ t : T, unit (t0.1 / n) (t0.1 % n) (t.1 / n) (t.1 % n) * v t = ∑ t : T, (unit (t0.1 / n) (t0.1 % n) (t.1 / n) (t.1 % n)
        - ∑ x ∈ range count, L x (t0.1 / n) (t0.1 % n) * L x (t.1 / n) (t.1 % n)) * v t := by
      simp only [sub_mul, sum_sub_distrib]
      rw [hvec, sub_zero]
    rw [e]
    refine (abs_sum_le_sum_abs _ _).trans ?_
    refine (sum_le_card_nsmul univ _ (tol * |v t0|) fun t _ => ?_).trans (le_of_eq ?_)
    · rw [abs_mul]
      exact mul_le_mul (happ _ _ _ _ (hb t0).1 (hb t0).2.1 (hb t).1 (hb t).2.1) (hmax t (mem_univ _)) (abs_nonneg _) ht
    · rw [nsmul_eq_mul, card_univ, Fintype.card_coe]
  have hfin : (T.card : ℝ) * tol < 1 := by
    have : (T.card : ℝ) ≤ n * n := by exact_mod_cast hcardle
    calc (T.card : ℝ) * tol ≤ (n * n) * tol := mul_le_mul_of_nonneg_right this ht
      _ < 1 := by rw [mul_comm]; exact hs
  nlinarith [hself.trans hbound]

/-- The default buffer and tolerance of `load_pyscf_integrals`, with 19 basis functions. -/
example : decompose (shells 19) (1 / 10 ^ 9) (10 * 19) = none :=
  (C91_buffer_fails 10 19 (by norm_num) _ (by norm_num) (by norm_num)).2.2.2.2

/-- The message on line 214 has no conversion for its argument: for an integer of python the function always raises a `TypeError`, and it
goes on only because the library returns integers of NumPy. -/
theorem C91_message (mol : Mol) (tol : ℝ) (cmax : ℕ) :
    choleskyEri mol .python tol cmax = none ∧ choleskyEri mol .numpy tol cmax = decompose mol tol (cmax * mol.nao) := by
  have h : ('%' ∈ "Generating Cholesky decomposition of ERI".toList) = False := by
    rw [eq_iff_iff]
    exact ⟨fun h => absurd h (by decide), False.elim⟩
  constructor <;> simp [choleskyEri, percent, h]

example : ∃ count L, choleskyEri demo .numpy (1 / 10) 10 = some (count, L) := by
  rw [(C91_message demo (1 / 10) 10).2]
  exact C91_returns_partial demo (by decide) demo_nonempty (unit_repulsion _) (unit_exchange _) (1 / 10) (by norm_num) 10
    (by rw [demo_nao]; norm_num)

end Ccpy.ShellCholesky
