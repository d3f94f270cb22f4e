import Verif.Model.UpdateKernels
import Verif.Lemmas.PairSweep
import Mathlib.Algebra.BigOperators.Ring.Finset
import Mathlib.Algebra.BigOperators.Group.Finset.Basic
import Mathlib.Algebra.BigOperators.Fin
import Mathlib.Algebra.CharZero.Defs
import Mathlib.Data.Nat.Cast.Basic
import Mathlib.Algebra.BigOperators.GroupWithZero.Action
import Mathlib.Algebra.CharP.Lemmas
import Mathlib.Algebra.Field.Basic
import Mathlib.Data.Fintype.Perm
import Mathlib.Data.Int.Cast.Lemmas
import Mathlib.Algebra.NoZeroSMulDivisors.Basic
import Mathlib.Tactic.Ring
import Mathlib.Tactic.FieldSimp

namespace Ccpy.UpdateKernels
open Ccpy.Writes Ccpy.Spec Ccpy.Fortran Equiv

/-! ### the specification's ingredients under exchanges -/

section spec
variable {m n : ℕ} {R : Type*} [Field R]

/-- sign of a pair of permutations -/
def sgn (g : Perm (Fin m) × Perm (Fin n)) : ℤ := ((Perm.sign g.1 * Perm.sign g.2 : ℤˣ) : ℤ)

theorem sgn_mul (g h : Perm (Fin m) × Perm (Fin n)) : sgn (g * h) = sgn g * sgn h := by
  unfold sgn
  rw [← Units.val_mul]
  congr 1
  simp only [Prod.fst_mul, Prod.snd_mul, Perm.sign_mul]
  ac_rfl

theorem sgn_mul_self (g : Perm (Fin m) × Perm (Fin n)) : sgn g * sgn g = 1 := by
  unfold sgn
  rw [← Units.val_mul, Int.units_mul_self]; rfl

theorem sgn_inv (g : Perm (Fin m) × Perm (Fin n)) : sgn g⁻¹ = sgn g := by
  unfold sgn; simp

theorem antisymmetrize_antisym (sp : Fin m → Bool) (sh : Fin n → Bool)
    (X : (Fin m → ℕ) × (Fin n → ℕ) → R) :
    AntisymUnder (SpinExchange sp sh) (antisymmetrize sp sh X) := by
  intro h hh P H
  show antisymmetrize sp sh X (P ∘ ⇑h.1, H ∘ ⇑h.2) = sgn h • antisymmetrize sp sh X (P, H)
  unfold antisymmetrize
  rw [Finset.smul_sum]
  refine Fintype.sum_equiv (Equiv.mulLeft h) _ _ ?_
  intro g
  have hiff : ((∀ i, sp (g.1 i) = sp i) ∧ ∀ i, sh (g.2 i) = sh i) ↔
      ((∀ i, sp ((h * g).1 i) = sp i) ∧ ∀ i, sh ((h * g).2 i) = sh i) := by
    have hG := isGroup_spinExchange sp sh
    constructor
    · exact fun hg => hG.mul h hh g hg
    · intro hg
      have := hG.mul _ (hG.inv h hh) _ (show h * g ∈ SpinExchange sp sh from hg)
      rwa [inv_mul_cancel_left] at this
  rw [show (Equiv.mulLeft h) g = h * g from rfl]
  by_cases hg : (∀ i, sp (g.1 i) = sp i) ∧ ∀ i, sh (g.2 i) = sh i
  · rw [if_pos hg, if_pos (hiff.mp hg), comp_mul, comp_mul, smul_smul]
    show sgn g • _ = (sgn h * sgn (h * g)) • X (P ∘ ⇑(h * g).1, H ∘ ⇑(h * g).2)
    rw [sgn_mul, ← mul_assoc, sgn_mul_self, one_mul]
    rfl
  · rw [if_neg hg, if_neg (fun h' => hg (hiff.mpr h')), smul_zero]

theorem energyDifference_exchange {sp : Fin m → Bool} {sh : Fin n → Bool} (eo ev : Bool → ℕ → R)
    {g : Perm (Fin m) × Perm (Fin n)} (hg : g ∈ SpinExchange sp sh)
    (k : (Fin m → ℕ) × (Fin n → ℕ)) :
    energyDifference sp sh eo ev (k.1 ∘ g.1, k.2 ∘ g.2) = energyDifference sp sh eo ev k := by
  unfold energyDifference
  congr 1
  · rw [← Equiv.sum_comp g.2 fun i => eo (sh i) (k.2 i)]
    exact Finset.sum_congr rfl fun i _ => by rw [hg.2 i]; rfl
  · rw [← Equiv.sum_comp g.1 fun i => ev (sp i) (k.1 i)]
    exact Finset.sum_congr rfl fun i _ => by rw [hg.1 i]; rfl

theorem inRange_exchange {sp : Fin m → Bool} {sh : Fin n → Bool} {nv no : Bool → ℕ}
    {g : Perm (Fin m) × Perm (Fin n)} (hg : g ∈ SpinExchange sp sh)
    {k : (Fin m → ℕ) × (Fin n → ℕ)} (hk : InRange sp sh nv no k) :
    InRange sp sh nv no (k.1 ∘ g.1, k.2 ∘ g.2) := by
  constructor
  · intro i
    have := hk.1 (g.1 i)
    rw [hg.1 i] at this
    exact this
  · intro i
    have := hk.2 (g.2 i)
    rw [hg.2 i] at this
    exact this

/-- antisymmetric tensors vanish on repeated same-spin indices -/
theorem antisym_zero [CharZero R] {sp : Fin m → Bool} {sh : Fin n → Bool}
    {T : (Fin m → ℕ) × (Fin n → ℕ) → R} (hT : AntisymUnder (SpinExchange sp sh) T)
    {k : (Fin m → ℕ) × (Fin n → ℕ)}
    (hk : (∃ i j, i ≠ j ∧ sp i = sp j ∧ k.1 i = k.1 j) ∨ ∃ i j, i ≠ j ∧ sh i = sh j ∧ k.2 i = k.2 j) :
    T k = 0 := by
  have key : ∀ g ∈ SpinExchange sp sh, sgn g = -1 → (k.1 ∘ g.1, k.2 ∘ g.2) = k → T k = 0 := by
    intro g hg hs e
    have := hT g hg k.1 k.2
    rw [e] at this
    change T k = sgn g • T k at this
    rw [hs, neg_smul, one_smul] at this
    have h2 : (2 : R) * T k = 0 := by rw [two_mul]; nth_rewrite 1 [this]; exact neg_add_cancel _
    exact (mul_eq_zero.mp h2).resolve_left (OfNat.ofNat_ne_zero 2)
  have hswap : ∀ {q : ℕ} (s : Fin q → Bool) (f : Fin q → ℕ) (i j : Fin q), s i = s j → f i = f j →
      (∀ l, s (swap i j l) = s l) ∧ f ∘ swap i j = f := by
    intro q s f i j h1 h2
    constructor
    · intro l
      by_cases hi : l = i
      · rw [hi, swap_apply_left, h1]
      · by_cases hj : l = j
        · rw [hj, swap_apply_right, h1]
        · rw [swap_apply_of_ne_of_ne hi hj]
    · funext l
      show f (swap i j l) = f l
      by_cases hi : l = i
      · rw [hi, swap_apply_left, h2]
      · by_cases hj : l = j
        · rw [hj, swap_apply_right, h2]
        · rw [swap_apply_of_ne_of_ne hi hj]
  rcases hk with ⟨i, j, hij, hs, he⟩ | ⟨i, j, hij, hs, he⟩
  · obtain ⟨a, b⟩ := hswap sp k.1 i j hs he
    refine key (swap i j, 1) ⟨a, fun _ => rfl⟩ (by simp [sgn, Perm.sign_swap hij]) ?_
    exact Prod.ext b rfl
  · obtain ⟨a, b⟩ := hswap sh k.2 i j hs he
    refine key (1, swap i j) ⟨fun _ => rfl, a⟩ (by simp [sgn, Perm.sign_swap hij]) ?_
    exact Prod.ext rfl b

end spec

/-! ### the loop body -/

section body
variable {K R : Type*} [DecidableEq K] [Field R]

theorem copyFrom_eq (rep : K) (cs : List (K × ℤ)) : ∀ (t : K → R), (∀ c ∈ cs, c.1 ≠ rep) →
    copyFrom rep cs t = applyWrites t (cs.map fun c => (c.1, (c.2 : R) * t rep)) := by
  induction cs with
  | nil => intro t _; rfl
  | cons c cs ih =>
    intro t h
    have h1 : c.1 ≠ rep := h c (by simp)
    show copyFrom rep cs (Function.update t c.1 ((c.2 : R) * t rep)) = _
    rw [ih _ (fun d hd => h d (List.mem_cons_of_mem _ hd)), List.map_cons, applyWrites_cons,
      Function.update_of_ne h1.symm]

/-- copies of an updated representative are the writes of one value -/
theorem copyFrom_update (rep : K) (cs : List (K × ℤ)) (t : K → R) (x : R)
    (h : ∀ c ∈ cs, c.1 ≠ rep) :
    copyFrom rep cs (Function.update t rep x) =
      applyWrites t (((rep, (1 : ℤ)) :: cs).map fun c => (c.1, (c.2 : R) * x)) := by
  rw [copyFrom_eq rep cs _ h, List.map_cons, applyWrites_cons, Function.update_self]
  simp

end body

section pattern
variable {m n : ℕ} {R : Type*} [Field R]

/-- the pattern lists each spin-preserving pair of permutations with its sign exactly once -/
structure Lists (sp : Fin m → Bool) (sh : Fin n → Bool) (pat : Pattern m n) : Prop where
  all : ∀ g ∈ SpinExchange sp sh, ((⇑g.1, ⇑g.2, sgn g) :
      (Fin m → Fin m) × (Fin n → Fin n) × ℤ) ∈ pat
  only : ∀ e ∈ pat, ∃ g ∈ SpinExchange sp sh, e = (⇑g.1, ⇑g.2, sgn g)
  nodup : pat.Nodup

theorem lists_of {sp : Fin m → Bool} {sh : Fin n → Bool} {pat : Pattern m n}
    (h1 : ∀ g : Perm (Fin m) × Perm (Fin n), ((∀ i, sp (g.1 i) = sp i) ∧ ∀ i, sh (g.2 i) = sh i) →
      ((⇑g.1, ⇑g.2, ((Perm.sign g.1 * Perm.sign g.2 : ℤˣ) : ℤ)) :
        (Fin m → Fin m) × (Fin n → Fin n) × ℤ) ∈ pat)
    (h2 : ∀ e ∈ pat, ∃ g : Perm (Fin m) × Perm (Fin n),
      ((∀ i, sp (g.1 i) = sp i) ∧ ∀ i, sh (g.2 i) = sh i) ∧
        e = (⇑g.1, ⇑g.2, ((Perm.sign g.1 * Perm.sign g.2 : ℤˣ) : ℤ)))
    (h3 : pat.Nodup) : Lists sp sh pat :=
  ⟨h1, h2, h3⟩

/-- keys and signs of a list follow the pattern at `k` -/
def At (k : (Fin m → ℕ) × (Fin n → ℕ)) (pat : Pattern m n) :
    List (((Fin m → ℕ) × (Fin n → ℕ)) × ℤ) :=
  pat.map fun e => ((k.1 ∘ e.1, k.2 ∘ e.2.1), e.2.2)

theorem covers_at {sp : Fin m → Bool} {sh : Fin n → Bool} {pat : Pattern m n}
    (hp : Lists sp sh pat) (k : (Fin m → ℕ) × (Fin n → ℕ)) (x : R) :
    Covers (SpinExchange sp sh) k.1 k.2 x ((At k pat).map fun c => (c.1, (c.2 : R) * x)) := by
  refine covers_of_pattern _ _ _ _ pat _ ?_ hp.all hp.only
  rw [At, List.map_map]
  refine List.map_congr_left fun e _ => ?_
  simp [zsmul_eq_mul]

theorem storeUpdate_stores {sp : Fin m → Bool} {sh : Fin n → Bool} {pat pat' : Pattern m n}
    (hp : Lists sp sh pat) (hp' : Lists sp sh pat') {k : (Fin m → ℕ) × (Fin n → ℕ)}
    (hf : Free (SpinExchange sp sh) k.1 k.2)
    {cs rs : List (((Fin m → ℕ) × (Fin n → ℕ)) × ℤ)} (hcs : (k, 1) :: cs = At k pat)
    (hrs : rs = At k pat') (val : R) (s : ((Fin m → ℕ) × (Fin n → ℕ) → R) × _) :
    StoresAmplitude (SpinExchange sp sh) k.1 k.2 (s.1 k + val) s.1 (storeUpdate k val cs rs s).1 ∧
    StoresAmplitude (SpinExchange sp sh) k.1 k.2 val s.2 (storeUpdate k val cs rs s).2 := by
  have hG := isGroup_spinExchange sp sh
  have hne : ∀ c ∈ cs, c.1 ≠ k := by
    have hnd : (((k, (1 : ℤ)) :: cs).map Prod.fst).Nodup := by
      rw [hcs, At, List.map_map]
      refine (List.nodup_map_iff_inj_on hp.nodup).mpr ?_
      intro e he e' he' h
      obtain ⟨g, hg, rfl⟩ := hp.only e he
      obtain ⟨g', hg', rfl⟩ := hp.only e' he'
      simp only [Function.comp, Prod.mk.injEq] at h
      rw [free_unique hG hf hg hg' h.1 h.2]
    intro c hc h
    rw [List.map_cons, List.nodup_cons] at hnd
    exact hnd.1 (List.mem_map.mpr ⟨c, hc, h⟩)
  constructor
  · show StoresAmplitude _ _ _ _ _ (copyFrom k cs (Function.update s.1 k (s.1 k + val)))
    rw [copyFrom_update k cs s.1 _ hne, hcs]
    exact covers_stores hG (covers_at hp k _) hf s.1
  · show StoresAmplitude _ _ _ _ _ (setSigned val rs s.2)
    rw [setSigned, hrs]
    exact covers_stores hG (covers_at hp' k _) hf s.2

theorem signedSum_at {sp : Fin m → Bool} {sh : Fin n → Bool} {pat : Pattern m n}
    (hp : Lists sp sh pat) (X : (Fin m → ℕ) × (Fin n → ℕ) → R) (k : (Fin m → ℕ) × (Fin n → ℕ)) :
    signedSum X (At k pat) = antisymmetrize sp sh X k := by
  classical
  unfold antisymmetrize
  rw [← Finset.sum_filter, ← Finset.sum_map_toList]
  let S : List (Perm (Fin m) × Perm (Fin n)) := (Finset.univ.filter fun g : Perm (Fin m) × Perm (Fin n) =>
    (∀ i, sp (g.1 i) = sp i) ∧ ∀ i, sh (g.2 i) = sh i).toList
  have hperm : pat.Perm (S.map fun g : Perm (Fin m) × Perm (Fin n) => (⇑g.1, ⇑g.2, sgn g)) := by
    rw [List.perm_ext_iff_of_nodup hp.nodup]
    · intro e
      constructor
      · intro he
        obtain ⟨g, hg, rfl⟩ := hp.only e he
        exact List.mem_map.mpr ⟨g, by simp only [S, Finset.mem_toList, Finset.mem_filter,
          Finset.mem_univ, true_and]; exact hg, rfl⟩
      · intro he
        obtain ⟨g, hg, rfl⟩ := List.mem_map.mp he
        simp only [S, Finset.mem_toList, Finset.mem_filter, Finset.mem_univ, true_and] at hg
        exact hp.all g hg
    · refine (Finset.nodup_toList _).map ?_
      intro g h e
      simp only [Prod.mk.injEq] at e
      exact Prod.ext (DFunLike.coe_injective e.1) (DFunLike.coe_injective e.2.1)
  unfold signedSum At
  rw [List.map_map]
  rw [(hperm.map _).sum_eq, List.map_map]
  congr 1
  refine List.map_congr_left fun g _ => ?_
  simp [sgn, zsmul_eq_mul]

end pattern

/-! ### the whole kernel -/

section kernel
variable {m n : ℕ} {R : Type*} [Field R] [CharZero R] {α : Type*} [LinearOrder α]

/-- the loop visits exactly the ordered in-range index tuples, once each -/
structure Visits {ι : Type*} (e : ℕ → α) (sp : Fin m → Bool) (sh : Fin n → Bool) (nv no : Bool → ℕ)
    (items : List ι) (key : ι → (Fin m → ℕ) × (Fin n → ℕ)) : Prop where
  inj : Function.Injective e
  sorted : Monotone sp ∧ Monotone sh
  nodup : (items.map key).Nodup
  ordered : ∀ x ∈ items, InRange sp sh nv no (key x) ∧ OrderedVia e sp (key x).1 ∧
    OrderedVia e sh (key x).2
  complete : ∀ k, InRange sp sh nv no k → OrderedVia e sp k.1 → OrderedVia e sh k.2 →
    ∃ x ∈ items, key x = k

/-- every in-range tuple has a repeated index or is an exchange of exactly one visited tuple -/
theorem Visits.cases {ι : Type*} {e : ℕ → α} {sp : Fin m → Bool} {sh : Fin n → Bool}
    {nv no : Bool → ℕ} {items : List ι} {key : ι → (Fin m → ℕ) × (Fin n → ℕ)}
    (hv : Visits e sp sh nv no items key) {k : (Fin m → ℕ) × (Fin n → ℕ)}
    (hk : InRange sp sh nv no k) :
    ((∃ i j, i ≠ j ∧ sp i = sp j ∧ k.1 i = k.1 j) ∨ ∃ i j, i ≠ j ∧ sh i = sh j ∧ k.2 i = k.2 j) ∨
    ∃ x ∈ items, ∃ g ∈ SpinExchange sp sh, k = ((key x).1 ∘ g.1, (key x).2 ∘ g.2) := by
  by_cases h1 : ∃ i j, i ≠ j ∧ sp i = sp j ∧ k.1 i = k.1 j
  · exact Or.inl (Or.inl h1)
  by_cases h2 : ∃ i j, i ≠ j ∧ sh i = sh j ∧ k.2 i = k.2 j
  · exact Or.inl (Or.inr h2)
  right
  push Not at h1 h2
  obtain ⟨σ, hσ, oσ⟩ := exists_sort hv.inj hv.sorted.1 (P := k.1)
    (fun i j hs he => by by_contra hne; exact h1 i j hne hs he)
  obtain ⟨τ, hτ, oτ⟩ := exists_sort hv.inj hv.sorted.2 (P := k.2)
    (fun i j hs he => by by_contra hne; exact h2 i j hne hs he)
  have hg : (σ, τ) ∈ SpinExchange sp sh := ⟨hσ, hτ⟩
  obtain ⟨x, hx, hkx⟩ := hv.complete (k.1 ∘ σ, k.2 ∘ τ) (inRange_exchange hg hk) oσ oτ
  refine ⟨x, hx, (σ, τ)⁻¹, (isGroup_spinExchange sp sh).inv _ hg, ?_⟩
  rw [hkx]
  refine Prod.ext ?_ ?_
  · show k.1 = (k.1 ∘ ⇑σ) ∘ ⇑σ⁻¹
    rw [comp_mul]; simp
  · show k.2 = (k.2 ∘ ⇑τ) ∘ ⇑τ⁻¹
    rw [comp_mul]; simp

theorem Visits.apart {ι : Type*} {e : ℕ → α} {sp : Fin m → Bool} {sh : Fin n → Bool}
    {nv no : Bool → ℕ} {items : List ι} {key : ι → (Fin m → ℕ) × (Fin n → ℕ)}
    (hv : Visits e sp sh nv no items key) :
    items.Pairwise (fun x y => ∀ g ∈ SpinExchange sp sh,
      key y ≠ ((key x).1 ∘ g.1, (key x).2 ∘ g.2)) := by
  have hnd := hv.nodup
  rw [List.Nodup, List.pairwise_map] at hnd
  refine hnd.imp_of_mem ?_
  intro x y hx hy hne g hg h
  obtain ⟨_, a, b⟩ := hv.ordered x hx
  obtain ⟨_, c, d⟩ := hv.ordered y hy
  exact hne (orderedVia_unique a b c d hg h).symm

theorem jacobiStep_of {ι : Type*} {e : ℕ → α} {sp : Fin m → Bool} {sh : Fin n → Bool}
    {nv no : Bool → ℕ} {items : List ι} {key : ι → (Fin m → ℕ) × (Fin n → ℕ)}
    (hv : Visits e sp sh nv no items key) {eo ev : Bool → ℕ → R} {shift : R}
    {X T : (Fin m → ℕ) × (Fin n → ℕ) → R} (hT : AntisymUnder (SpinExchange sp sh) T)
    (hden : ∀ k, InRange sp sh nv no k → energyDifference sp sh eo ev k ≠ shift)
    {pc pr pt : Pattern m n} (hpc : Lists sp sh pc) (hpr : Lists sp sh pr) (hpt : Lists sp sh pt)
    {cs rs ts : ι → List (((Fin m → ℕ) × (Fin n → ℕ)) × ℤ)}
    (hcs : ∀ x, (key x, 1) :: cs x = At (key x) pc) (hrs : ∀ x, rs x = At (key x) pr)
    (hts : ∀ x, ts x = At (key x) pt) {den : ι → R}
    (hd : ∀ x, den x = energyDifference sp sh eo ev (key x))
    {res : ((Fin m → ℕ) × (Fin n → ℕ) → R) × ((Fin m → ℕ) × (Fin n → ℕ) → R)}
    (hres : res = items.foldl (fun s x =>
      storeUpdate (key x) (signedSum X (ts x) / (den x - shift)) (cs x) (rs x) s) (T, fun _ => 0)) :
    JacobiStep sp sh nv no eo ev shift X T res.1 res.2 := by
  have hG := isGroup_spinExchange sp sh
  let v : ι → R := fun x => antisymmetrize sp sh X (key x) /
    (energyDifference sp sh eo ev (key x) - shift)
  obtain ⟨s1, s2⟩ := pairSweep hG key (fun x a _ => a + v x) (fun x _ _ => v x)
    (fun x s => storeUpdate (key x) (signedSum X (ts x) / (den x - shift)) (cs x) (rs x) s) items
    (fun x hx s => by
      obtain ⟨_, a, b⟩ := hv.ordered x hx
      have := storeUpdate_stores hpc hpr (free_orderedVia a b) (hcs x) (hrs x) (v x) s
      rw [hts x, signedSum_at hpt, hd x]
      exact this) hv.apart (T, fun _ => 0)
  rw [← hres] at s1 s2
  have hA := antisymmetrize_antisym sp sh X
  have c1 : ∀ x ∈ items, ∀ g ∈ SpinExchange sp sh,
      res.1 ((key x).1 ∘ g.1, (key x).2 ∘ g.2) = sgn g • (T (key x) + v x) := fun x hx g hg =>
    s1.stored _ (List.mem_map.mpr ⟨x, hx, rfl⟩) g hg
  have c2 : ∀ x ∈ items, ∀ g ∈ SpinExchange sp sh,
      res.2 ((key x).1 ∘ g.1, (key x).2 ∘ g.2) = sgn g • v x := fun x hx g hg =>
    s2.stored _ (List.mem_map.mpr ⟨x, hx, rfl⟩) g hg
  have u1 : ∀ k, (∀ x ∈ items, ∀ g ∈ SpinExchange sp sh,
      k ≠ ((key x).1 ∘ g.1, (key x).2 ∘ g.2)) → res.1 k = T k := fun k h =>
    s1.untouched k (fun e he g hg => by
      obtain ⟨x, hx, rfl⟩ := List.mem_map.mp he
      exact h x hx g hg)
  have u2 : ∀ k, (∀ x ∈ items, ∀ g ∈ SpinExchange sp sh,
      k ≠ ((key x).1 ∘ g.1, (key x).2 ∘ g.2)) → res.2 k = 0 := fun k h =>
    s2.untouched k (fun e he g hg => by
      obtain ⟨x, hx, rfl⟩ := List.mem_map.mp he
      exact h x hx g hg)
  have hT' : AntisymUnder (SpinExchange sp sh) res.1 := s1.antisym hT
  refine ⟨?_, ?_, ?_, hT'⟩
  · intro k hk
    rcases hv.cases hk with hrep | ⟨x, hx, g, hg, rfl⟩
    · rw [antisym_zero hT' hrep, antisym_zero hT hrep, antisym_zero hA hrep, sub_zero, mul_zero]
    · rw [c1 x hx g hg, energyDifference_exchange eo ev hg]
      have e1 : T ((key x).1 ∘ ⇑g.1, (key x).2 ∘ ⇑g.2) = sgn g • T (key x) := hT g hg _ _
      have e2 : antisymmetrize sp sh X ((key x).1 ∘ ⇑g.1, (key x).2 ∘ ⇑g.2) =
        sgn g • antisymmetrize sp sh X (key x) := hA g hg _ _
      rw [e1, e2, smul_add, add_sub_cancel_left]
      have hne := sub_ne_zero.mpr (hden (key x) (hv.ordered x hx).1)
      rw [mul_smul_comm, mul_div_cancel₀ _ hne]
  · intro k
    by_cases h : ∃ x ∈ items, ∃ g ∈ SpinExchange sp sh, k = ((key x).1 ∘ g.1, (key x).2 ∘ g.2)
    · obtain ⟨x, hx, g, hg, rfl⟩ := h
      have e1 : T ((key x).1 ∘ ⇑g.1, (key x).2 ∘ ⇑g.2) = sgn g • T (key x) := hT g hg _ _
      rw [c1 x hx g hg, c2 x hx g hg, e1, smul_add, add_sub_cancel_left]
    · push Not at h
      rw [u1 k h, u2 k h, sub_self]
  · intro k hk
    refine u1 k fun x hx g hg h => hk ?_
    rw [h]
    exact inRange_exchange hg (hv.ordered x hx).1

end kernel

end Ccpy.UpdateKernels
