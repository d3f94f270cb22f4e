import Verif.Lemmas.Sweep
import Verif.Lemmas.FortranLoop
import Verif.Spec.Update
import Mathlib.Data.Fin.Tuple.Sort
import Mathlib.Data.Prod.Lex
import Mathlib.Order.Basic

/-! Kernels that visit one representative of each class of equivalent index tuples and update two
tensors on the whole class. -/

namespace Ccpy.Writes
open Ccpy.Spec Equiv

variable {m n : ℕ} {α : Type*} [LinearOrder α]

/-- Indices of equal spin increase strictly after applying `e`. -/
def OrderedVia (e : ℕ → α) (sp : Fin m → Bool) (P : Fin m → ℕ) : Prop :=
  ∀ i j, i < j → sp i = sp j → e (P i) < e (P j)

theorem orderedVia_perm_eq_one {e : ℕ → α} {sp : Fin m → Bool} {P : Fin m → ℕ} {σ : Perm (Fin m)}
    (hσ : ∀ i, sp (σ i) = sp i) (h : OrderedVia e sp P) (h' : OrderedVia e sp (P ∘ σ)) :
    σ = 1 := by
  by_contra hne
  have hex : ∃ k : ℕ, ∃ hk : k < m, σ ⟨k, hk⟩ ≠ ⟨k, hk⟩ := by
    by_contra hc
    push Not at hc
    exact hne (Equiv.ext fun i => hc i.1 i.2)
  classical
  let k := Nat.find hex
  obtain ⟨hk, hσk⟩ := Nat.find_spec hex
  have hmin : ∀ i : Fin m, i.1 < k → σ i = i := by
    intro i hi
    have := Nat.find_min hex hi
    push Not at this
    exact this i.2
  set i : Fin m := ⟨k, hk⟩ with hi
  have hgt : ∀ j : Fin m, j ≠ i → σ j = i → i < j := by
    intro j hj e
    rcases lt_trichotomy j i with hl | hl | hl
    · have := hmin j hl
      exact absurd (this.symm.trans e) hj
    · exact absurd hl hj
    · exact hl
  have hup : i < σ i := by
    rcases lt_trichotomy (σ i) i with hl | hl | hl
    · have := hmin (σ i) hl
      exact absurd (σ.injective this) hσk
    · exact absurd hl hσk
    · exact hl
  let j := σ⁻¹ i
  have hj : σ j = i := Equiv.apply_symm_apply σ i
  have hji : j ≠ i := fun e => hσk (by rw [e] at hj; exact hj)
  have hlt := hgt j hji hj
  have hs : sp j = sp i := by rw [← hσ j, hj]
  have h1 : e (P (σ i)) < e (P (σ j)) := h' i j hlt hs.symm
  rw [hj] at h1
  have h2 : e (P i) < e (P (σ i)) := h i (σ i) hup (hσ i).symm
  exact lt_asymm h1 h2

theorem free_orderedVia {e : ℕ → α} {sp : Fin m → Bool} {sh : Fin n → Bool} {P : Fin m → ℕ}
    {H : Fin n → ℕ} (hP : OrderedVia e sp P) (hH : OrderedVia e sh H) :
    Free (SpinExchange sp sh) P H := by
  intro g hg e1 e2
  refine Prod.ext ?_ ?_
  · exact orderedVia_perm_eq_one hg.1 hP (by rw [e1]; exact hP)
  · exact orderedVia_perm_eq_one hg.2 hH (by rw [e2]; exact hH)

theorem orderedVia_unique {e : ℕ → α} {sp : Fin m → Bool} {sh : Fin n → Bool}
    {k k' : (Fin m → ℕ) × (Fin n → ℕ)} (hP : OrderedVia e sp k.1) (hH : OrderedVia e sh k.2)
    (hP' : OrderedVia e sp k'.1) (hH' : OrderedVia e sh k'.2) {g : Perm (Fin m) × Perm (Fin n)}
    (hg : g ∈ SpinExchange sp sh) (e1 : k' = (k.1 ∘ g.1, k.2 ∘ g.2)) : k' = k := by
  have h1 := orderedVia_perm_eq_one hg.1 hP (by have := hP'; rw [e1] at this; exact this)
  have h2 := orderedVia_perm_eq_one hg.2 hH (by have := hH'; rw [e1] at this; exact this)
  rw [e1, h1, h2]
  rfl

/-- distinct indices can be sorted within each spin when the spins are sorted -/
theorem exists_sort {e : ℕ → α} (he : Function.Injective e) {sp : Fin m → Bool} (hsp : Monotone sp)
    {P : Fin m → ℕ} (hP : ∀ i j, sp i = sp j → P i = P j → i = j) :
    ∃ σ : Perm (Fin m), (∀ i, sp (σ i) = sp i) ∧ OrderedVia e sp (P ∘ σ) := by
  let f : Fin m → Bool ×ₗ α := fun i => toLex (sp i, e (P i))
  have hm := Tuple.monotone_sort f
  set σ := Tuple.sort f with hσ
  have hspσ : sp ∘ σ = sp := by
    have h1 : Monotone (sp ∘ σ) := fun i j hij => by
      have := hm hij
      exact Prod.Lex.monotone_fst _ _ this
    have h2 : Monotone (sp ∘ (1 : Perm (Fin m))) := hsp
    have := Tuple.unique_monotone h1 h2
    rw [this]
    rfl
  have hs : ∀ i, sp (σ i) = sp i := fun i => congrFun hspσ i
  refine ⟨σ, hs, ?_⟩
  intro i j hij hsij
  have h1 : f (σ i) ≤ f (σ j) := hm hij.le
  rw [Prod.Lex.le_iff] at h1
  have h2 : sp (σ i) = sp (σ j) := by rw [hs, hs, hsij]
  have h3 : e (P (σ i)) ≤ e (P (σ j)) := by
    rcases h1 with h | h
    · exact absurd h2 (ne_of_lt h)
    · exact h.2
  refine lt_of_le_of_ne h3 fun h => ?_
  have := σ.injective (hP _ _ h2 (he h))
  exact absurd this (ne_of_lt hij)

variable {R : Type*} [AddCommGroup R]

/-- The effect of a loop over `items` that updates two tensors on the class of `key x` using only
the two elements at `key x`. -/
theorem pairSweep {ι : Type*} {G : Set (Perm (Fin m) × Perm (Fin n))} (hG : IsGroup G)
    (key : ι → (Fin m → ℕ) × (Fin n → ℕ)) (F E : ι → R → R → R)
    (step : ι → ((Fin m → ℕ) × (Fin n → ℕ) → R) × ((Fin m → ℕ) × (Fin n → ℕ) → R) →
      ((Fin m → ℕ) × (Fin n → ℕ) → R) × ((Fin m → ℕ) × (Fin n → ℕ) → R)) :
    ∀ (items : List ι),
    (∀ x ∈ items, ∀ s, StoresAmplitude G (key x).1 (key x).2 (F x (s.1 (key x)) (s.2 (key x)))
        s.1 (step x s).1 ∧
      StoresAmplitude G (key x).1 (key x).2 (E x (s.1 (key x)) (s.2 (key x))) s.2 (step x s).2) →
    items.Pairwise (fun x y => ∀ g ∈ G, key y ≠ ((key x).1 ∘ g.1, (key x).2 ∘ g.2)) →
    ∀ s, Sweeps G (items.map fun x => ((key x).1, (key x).2, F x (s.1 (key x)) (s.2 (key x))))
        s.1 (items.foldl (fun s x => step x s) s).1 ∧
      Sweeps G (items.map fun x => ((key x).1, (key x).2, E x (s.1 (key x)) (s.2 (key x))))
        s.2 (items.foldl (fun s x => step x s) s).2 := by
  intro items
  induction items with
  | nil => intro _ _ s; exact ⟨sweeps_nil G s.1, sweeps_nil G s.2⟩
  | cons x xs ih =>
    intro hstep hd s
    obtain ⟨hx, hxs⟩ := List.pairwise_cons.mp hd
    obtain ⟨a1, a2⟩ := hstep x (by simp) s
    obtain ⟨b1, b2⟩ := ih (fun y hy => hstep y (List.mem_cons_of_mem _ hy)) hxs (step x s)
    have e1 : ∀ y ∈ xs, (step x s).1 (key y) = s.1 (key y) := fun y hy =>
      a1.untouched _ (fun g hg => hx y hy g hg)
    have e2 : ∀ y ∈ xs, (step x s).2 (key y) = s.2 (key y) := fun y hy =>
      a2.untouched _ (fun g hg => hx y hy g hg)
    have hdis : ∀ y ∈ xs, ∀ g ∈ G, ((key x).1, (key x).2) ≠ ((key y).1 ∘ g.1, (key y).2 ∘ g.2) := by
      intro y hy g hg h
      refine hx y hy g⁻¹ (hG.inv g hg) ?_
      have h1 : (key x).1 = (key y).1 ∘ g.1 := congrArg Prod.fst h
      have h2 : (key x).2 = (key y).2 ∘ g.2 := congrArg Prod.snd h
      refine Prod.ext ?_ ?_
      · show (key y).1 = (key x).1 ∘ ⇑(g⁻¹).1
        rw [h1, Prod.fst_inv, comp_mul]; simp
      · show (key y).2 = (key x).2 ∘ ⇑(g⁻¹).2
        rw [h2, Prod.snd_inv, comp_mul]; simp
    have m1 : (xs.map fun y => ((key y).1, (key y).2, F y ((step x s).1 (key y)) ((step x s).2 (key y))))
        = xs.map fun y => ((key y).1, (key y).2, F y (s.1 (key y)) (s.2 (key y))) :=
      List.map_congr_left fun y hy => by rw [e1 y hy, e2 y hy]
    have m2 : (xs.map fun y => ((key y).1, (key y).2, E y ((step x s).1 (key y)) ((step x s).2 (key y))))
        = xs.map fun y => ((key y).1, (key y).2, E y (s.1 (key y)) (s.2 (key y))) :=
      List.map_congr_left fun y hy => by rw [e1 y hy, e2 y hy]
    rw [m1] at b1
    rw [m2] at b2
    constructor
    · refine sweeps_cons hG a1 b1 ?_
      intro e' he' g hg
      obtain ⟨y, hy, rfl⟩ := List.mem_map.mp he'
      exact hdis y hy g hg
    · refine sweeps_cons hG a2 b2 ?_
      intro e' he' g hg
      obtain ⟨y, hy, rfl⟩ := List.mem_map.mp he'
      exact hdis y hy g hg

end Ccpy.Writes
