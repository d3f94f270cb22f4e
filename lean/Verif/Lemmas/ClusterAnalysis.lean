import Verif.Model.ClusterAnalysis
import Verif.Spec.ClusterExpansion
import Verif.Lemmas.UpdateLeft
import Mathlib.GroupTheory.Perm.Fin
import Mathlib.Tactic.FinCases

namespace Ccpy.ClusterAnalysis
open Ccpy.Writes Ccpy.Spec Ccpy.Fortran Ccpy.UpdateKernels Equiv

/-- representative `(a,b,i,j)` of the loops `a`, `b`, `i`, `j` -/
def keyC2 (x : It4) : Key2 := (![x.1, x.2.1], ![x.2.2.1, x.2.2.2.1])
/-- representative `(a,b,c,i,j,k)` of the loops `a`, `b`, `c`, `i`, `j`, `k` -/
def keyC3 (x : It6) : Key3 := (![x.1, x.2.1, x.2.2.1], ![x.2.2.2.1, x.2.2.2.2.1, x.2.2.2.2.2.1])

theorem visitsC2 (s : Bool) (nv no : Bool → ℕ) :
    Visits id ![s, s] ![s, s] nv no (items2 (nv s) (no s)) keyC2 where
  inj := Function.injective_id
  sorted := by revert s; decide
  nodup := by
    refine (nodup_items2 _ _).map ?_
    rintro ⟨a, b, i, j, ⟨⟩⟩ ⟨a', b', i', j', ⟨⟩⟩ h
    simp only [keyC2, Prod.mk.injEq] at h
    have h1 := congrFun h.1 0
    have h2 := congrFun h.1 1
    have h3 := congrFun h.2 0
    have h4 := congrFun h.2 1
    simp at h1 h2 h3 h4
    simp [h1, h2, h3, h4]
  ordered := by
    rintro ⟨a, b, i, j, ⟨⟩⟩ hx
    simp only [items2, mem_pairs, mem_do, List.mem_singleton, and_true] at hx
    refine ⟨⟨?_, ?_⟩, ?_, ?_⟩
    · intro l; match l with
      | 0 => show 1 ≤ a ∧ a ≤ nv s; omega
      | 1 => show 1 ≤ b ∧ b ≤ nv s; omega
    · intro l; match l with
      | 0 => show 1 ≤ i ∧ i ≤ no s; omega
      | 1 => show 1 ≤ j ∧ j ≤ no s; omega
    · intro l l' h e
      rcases lt_fin2 h with ⟨rfl, rfl⟩
      · show a < b; omega
    · intro l l' h e
      rcases lt_fin2 h with ⟨rfl, rfl⟩
      · show i < j; omega
  complete := by
    intro k hk o1 o2
    refine ⟨(k.1 0, k.1 1, k.2 0, k.2 1, ()), ?_, Prod.ext (fun2_ext rfl rfl) (fun2_ext rfl rfl)⟩
    simp only [items2, mem_pairs, mem_do, List.mem_singleton, and_true]
    have a101 : k.1 0 < k.1 1 := o1 0 1 (by decide) rfl
    have a201 : k.2 0 < k.2 1 := o2 0 1 (by decide) rfl
    have b0 : 1 ≤ k.1 0 ∧ k.1 0 ≤ nv s := hk.1 0
    have c0 : 1 ≤ k.2 0 ∧ k.2 0 ≤ no s := hk.2 0
    have b1 : 1 ≤ k.1 1 ∧ k.1 1 ≤ nv s := hk.1 1
    have c1 : 1 ≤ k.2 1 ∧ k.2 1 ≤ no s := hk.2 1
    omega

theorem visitsC2b (nv no : Bool → ℕ) :
    Visits id ![false, true] ![false, true] nv no (items2b (nv true) (no true) (nv false) (no false)) keyC2 where
  inj := Function.injective_id
  sorted := by decide
  nodup := by
    refine (nodup_items2b _ _ _ _).map ?_
    rintro ⟨a, b, i, j, ⟨⟩⟩ ⟨a', b', i', j', ⟨⟩⟩ h
    simp only [keyC2, Prod.mk.injEq] at h
    have h1 := congrFun h.1 0
    have h2 := congrFun h.1 1
    have h3 := congrFun h.2 0
    have h4 := congrFun h.2 1
    simp at h1 h2 h3 h4
    simp [h1, h2, h3, h4]
  ordered := by
    rintro ⟨a, b, i, j, ⟨⟩⟩ hx
    simp only [items2b, mem_pairs, mem_do, List.mem_singleton, and_true] at hx
    refine ⟨⟨?_, ?_⟩, ?_, ?_⟩
    · intro l; match l with
      | 0 => show 1 ≤ a ∧ a ≤ nv false; omega
      | 1 => show 1 ≤ b ∧ b ≤ nv true; omega
    · intro l; match l with
      | 0 => show 1 ≤ i ∧ i ≤ no false; omega
      | 1 => show 1 ≤ j ∧ j ≤ no true; omega
    · intro l l' h e
      rcases lt_fin2 h with ⟨rfl, rfl⟩
      · simp at e
    · intro l l' h e
      rcases lt_fin2 h with ⟨rfl, rfl⟩
      · simp at e
  complete := by
    intro k hk o1 o2
    refine ⟨(k.1 0, k.1 1, k.2 0, k.2 1, ()), ?_, Prod.ext (fun2_ext rfl rfl) (fun2_ext rfl rfl)⟩
    simp only [items2b, mem_pairs, mem_do, List.mem_singleton, and_true]
    have b0 : 1 ≤ k.1 0 ∧ k.1 0 ≤ nv false := hk.1 0
    have c0 : 1 ≤ k.2 0 ∧ k.2 0 ≤ no false := hk.2 0
    have b1 : 1 ≤ k.1 1 ∧ k.1 1 ≤ nv true := hk.1 1
    have c1 : 1 ≤ k.2 1 ∧ k.2 1 ≤ no true := hk.2 1
    omega

theorem visitsC3 (s : Bool) (nv no : Bool → ℕ) :
    Visits id ![s, s, s] ![s, s, s] nv no (items3 (nv s) (no s)) keyC3 where
  inj := Function.injective_id
  sorted := by revert s; decide
  nodup := by
    refine (nodup_items3 _ _).map ?_
    rintro ⟨a, b, c, i, j, k, ⟨⟩⟩ ⟨a', b', c', i', j', k', ⟨⟩⟩ h
    simp only [keyC3, Prod.mk.injEq] at h
    have h1 := congrFun h.1 0
    have h2 := congrFun h.1 1
    have h3 := congrFun h.1 2
    have h4 := congrFun h.2 0
    have h5 := congrFun h.2 1
    have h6 := congrFun h.2 2
    simp at h1 h2 h3 h4 h5 h6
    simp [h1, h2, h3, h4, h5, h6]
  ordered := by
    rintro ⟨a, b, c, i, j, k, ⟨⟩⟩ hx
    simp only [items3, mem_pairs, mem_do, List.mem_singleton, and_true] at hx
    refine ⟨⟨?_, ?_⟩, ?_, ?_⟩
    · intro l; match l with
      | 0 => show 1 ≤ a ∧ a ≤ nv s; omega
      | 1 => show 1 ≤ b ∧ b ≤ nv s; omega
      | 2 => show 1 ≤ c ∧ c ≤ nv s; omega
    · intro l; match l with
      | 0 => show 1 ≤ i ∧ i ≤ no s; omega
      | 1 => show 1 ≤ j ∧ j ≤ no s; omega
      | 2 => show 1 ≤ k ∧ k ≤ no s; omega
    · intro l l' h e
      rcases lt_fin3 h with ⟨rfl, rfl⟩ | ⟨rfl, rfl⟩ | ⟨rfl, rfl⟩
      · show a < b; omega
      · show a < c; omega
      · show b < c; omega
    · intro l l' h e
      rcases lt_fin3 h with ⟨rfl, rfl⟩ | ⟨rfl, rfl⟩ | ⟨rfl, rfl⟩
      · show i < j; omega
      · show i < k; omega
      · show j < k; omega
  complete := by
    intro k hk o1 o2
    refine ⟨(k.1 0, k.1 1, k.1 2, k.2 0, k.2 1, k.2 2, ()), ?_, Prod.ext (fun3_ext rfl rfl rfl) (fun3_ext rfl rfl rfl)⟩
    simp only [items3, mem_pairs, mem_do, List.mem_singleton, and_true]
    have a101 : k.1 0 < k.1 1 := o1 0 1 (by decide) rfl
    have a102 : k.1 0 < k.1 2 := o1 0 2 (by decide) rfl
    have a112 : k.1 1 < k.1 2 := o1 1 2 (by decide) rfl
    have a201 : k.2 0 < k.2 1 := o2 0 1 (by decide) rfl
    have a202 : k.2 0 < k.2 2 := o2 0 2 (by decide) rfl
    have a212 : k.2 1 < k.2 2 := o2 1 2 (by decide) rfl
    have b0 : 1 ≤ k.1 0 ∧ k.1 0 ≤ nv s := hk.1 0
    have c0 : 1 ≤ k.2 0 ∧ k.2 0 ≤ no s := hk.2 0
    have b1 : 1 ≤ k.1 1 ∧ k.1 1 ≤ nv s := hk.1 1
    have c1 : 1 ≤ k.2 1 ∧ k.2 1 ≤ no s := hk.2 1
    have b2 : 1 ≤ k.1 2 ∧ k.1 2 ≤ nv s := hk.1 2
    have c2 : 1 ≤ k.2 2 ∧ k.2 2 ≤ no s := hk.2 2
    omega

theorem visitsC3b (nv no : Bool → ℕ) :
    Visits id ![false, false, true] ![false, false, true] nv no (items3b (nv false) (no false) (nv true) (no true)) keyC3 where
  inj := Function.injective_id
  sorted := by decide
  nodup := by
    refine (nodup_items3b _ _ _ _).map ?_
    rintro ⟨a, b, c, i, j, k, ⟨⟩⟩ ⟨a', b', c', i', j', k', ⟨⟩⟩ h
    simp only [keyC3, Prod.mk.injEq] at h
    have h1 := congrFun h.1 0
    have h2 := congrFun h.1 1
    have h3 := congrFun h.1 2
    have h4 := congrFun h.2 0
    have h5 := congrFun h.2 1
    have h6 := congrFun h.2 2
    simp at h1 h2 h3 h4 h5 h6
    simp [h1, h2, h3, h4, h5, h6]
  ordered := by
    rintro ⟨a, b, c, i, j, k, ⟨⟩⟩ hx
    simp only [items3b, mem_pairs, mem_do, List.mem_singleton, and_true] at hx
    refine ⟨⟨?_, ?_⟩, ?_, ?_⟩
    · intro l; match l with
      | 0 => show 1 ≤ a ∧ a ≤ nv false; omega
      | 1 => show 1 ≤ b ∧ b ≤ nv false; omega
      | 2 => show 1 ≤ c ∧ c ≤ nv true; omega
    · intro l; match l with
      | 0 => show 1 ≤ i ∧ i ≤ no false; omega
      | 1 => show 1 ≤ j ∧ j ≤ no false; omega
      | 2 => show 1 ≤ k ∧ k ≤ no true; omega
    · intro l l' h e
      rcases lt_fin3 h with ⟨rfl, rfl⟩ | ⟨rfl, rfl⟩ | ⟨rfl, rfl⟩
      · show a < b; omega
      · simp at e
      · simp at e
    · intro l l' h e
      rcases lt_fin3 h with ⟨rfl, rfl⟩ | ⟨rfl, rfl⟩ | ⟨rfl, rfl⟩
      · show i < j; omega
      · simp at e
      · simp at e
  complete := by
    intro k hk o1 o2
    refine ⟨(k.1 0, k.1 1, k.1 2, k.2 0, k.2 1, k.2 2, ()), ?_, Prod.ext (fun3_ext rfl rfl rfl) (fun3_ext rfl rfl rfl)⟩
    simp only [items3b, mem_pairs, mem_do, List.mem_singleton, and_true]
    have a101 : k.1 0 < k.1 1 := o1 0 1 (by decide) rfl
    have a201 : k.2 0 < k.2 1 := o2 0 1 (by decide) rfl
    have b0 : 1 ≤ k.1 0 ∧ k.1 0 ≤ nv false := hk.1 0
    have c0 : 1 ≤ k.2 0 ∧ k.2 0 ≤ no false := hk.2 0
    have b1 : 1 ≤ k.1 1 ∧ k.1 1 ≤ nv false := hk.1 1
    have c1 : 1 ≤ k.2 1 ∧ k.2 1 ≤ no false := hk.2 1
    have b2 : 1 ≤ k.1 2 ∧ k.1 2 ≤ nv true := hk.1 2
    have c2 : 1 ≤ k.2 2 ∧ k.2 2 ≤ no true := hk.2 2
    omega

theorem visitsC3c (nv no : Bool → ℕ) :
    Visits id ![false, true, true] ![false, true, true] nv no (items3c (nv false) (no false) (nv true) (no true)) keyC3 where
  inj := Function.injective_id
  sorted := by decide
  nodup := by
    refine (nodup_items3c _ _ _ _).map ?_
    rintro ⟨a, b, c, i, j, k, ⟨⟩⟩ ⟨a', b', c', i', j', k', ⟨⟩⟩ h
    simp only [keyC3, Prod.mk.injEq] at h
    have h1 := congrFun h.1 0
    have h2 := congrFun h.1 1
    have h3 := congrFun h.1 2
    have h4 := congrFun h.2 0
    have h5 := congrFun h.2 1
    have h6 := congrFun h.2 2
    simp at h1 h2 h3 h4 h5 h6
    simp [h1, h2, h3, h4, h5, h6]
  ordered := by
    rintro ⟨a, b, c, i, j, k, ⟨⟩⟩ hx
    simp only [items3c, mem_pairs, mem_do, List.mem_singleton, and_true] at hx
    refine ⟨⟨?_, ?_⟩, ?_, ?_⟩
    · intro l; match l with
      | 0 => show 1 ≤ a ∧ a ≤ nv false; omega
      | 1 => show 1 ≤ b ∧ b ≤ nv true; omega
      | 2 => show 1 ≤ c ∧ c ≤ nv true; omega
    · intro l; match l with
      | 0 => show 1 ≤ i ∧ i ≤ no false; omega
      | 1 => show 1 ≤ j ∧ j ≤ no true; omega
      | 2 => show 1 ≤ k ∧ k ≤ no true; omega
    · intro l l' h e
      rcases lt_fin3 h with ⟨rfl, rfl⟩ | ⟨rfl, rfl⟩ | ⟨rfl, rfl⟩
      · simp at e
      · simp at e
      · show b < c; omega
    · intro l l' h e
      rcases lt_fin3 h with ⟨rfl, rfl⟩ | ⟨rfl, rfl⟩ | ⟨rfl, rfl⟩
      · simp at e
      · simp at e
      · show j < k; omega
  complete := by
    intro k hk o1 o2
    refine ⟨(k.1 0, k.1 1, k.1 2, k.2 0, k.2 1, k.2 2, ()), ?_, Prod.ext (fun3_ext rfl rfl rfl) (fun3_ext rfl rfl rfl)⟩
    simp only [items3c, mem_pairs, mem_do, List.mem_singleton, and_true]
    have a112 : k.1 1 < k.1 2 := o1 1 2 (by decide) rfl
    have a212 : k.2 1 < k.2 2 := o2 1 2 (by decide) rfl
    have b0 : 1 ≤ k.1 0 ∧ k.1 0 ≤ nv false := hk.1 0
    have c0 : 1 ≤ k.2 0 ∧ k.2 0 ≤ no false := hk.2 0
    have b1 : 1 ≤ k.1 1 ∧ k.1 1 ≤ nv true := hk.1 1
    have c1 : 1 ≤ k.2 1 ∧ k.2 1 ≤ no true := hk.2 1
    have b2 : 1 ≤ k.1 2 ∧ k.1 2 ≤ nv true := hk.1 2
    have c2 : 1 ≤ k.2 2 ∧ k.2 2 ≤ no true := hk.2 2
    omega

/-! ### permutations and blocks -/

theorem perm_antisym {α R : Type*} [AddCommGroup R] {n : ℕ} {F : (Fin (n + 1) → α) → R}
    (h : ∀ x (i : Fin n), F (x ∘ swap i.castSucc i.succ) = -F x) (σ : Perm (Fin (n + 1))) :
    ∀ x, F (x ∘ σ) = (Perm.sign σ : ℤ) • F x := by
  have hσ : σ ∈ Submonoid.closure (Set.range fun i : Fin n => swap i.castSucc i.succ) := by
    rw [Perm.mclosure_swap_castSucc_succ]; trivial
  induction hσ using Submonoid.closure_induction with
  | mem σ hσ =>
    obtain ⟨i, rfl⟩ := hσ
    intro x
    rw [h, Perm.sign_swap (by simp [Fin.ext_iff])]
    simp
  | one => intro x; simp
  | mul σ τ _ _ h1 h2 =>
    intro x
    have : x ∘ ⇑(σ * τ) = (x ∘ σ) ∘ τ := rfl
    rw [this, h2, h1, Perm.sign_mul, smul_smul, Units.val_mul, mul_comm]

theorem block_antisym {m n : ℕ} {R : Type*} [Ring R] {C : Amplitudes R}
    (hp : ∀ (p : Fin m → SpinOrb) (h : Fin n → SpinOrb) (g : Perm (Fin m)),
      C (List.ofFn (p ∘ g)) (List.ofFn h) = (Perm.sign g : ℤ) • C (List.ofFn p) (List.ofFn h))
    (hh : ∀ (p : Fin m → SpinOrb) (h : Fin n → SpinOrb) (g : Perm (Fin n)),
      C (List.ofFn p) (List.ofFn (h ∘ g)) = (Perm.sign g : ℤ) • C (List.ofFn p) (List.ofFn h))
    (sp : Fin m → Bool) (sh : Fin n → Bool) : AntisymUnder (SpinExchange sp sh) (block sp sh C) := by
  intro g hg P H
  have e1 : (fun i => (sp i, (P ∘ g.1) i)) = (fun i => (sp i, P i)) ∘ g.1 := by
    funext i; simp [hg.1 i]
  have e2 : (fun i => (sh i, (H ∘ g.2) i)) = (fun i => (sh i, H i)) ∘ g.2 := by
    funext i; simp [hg.2 i]
  unfold block
  simp only [e1, e2]
  rw [hp, hh, smul_smul, Units.val_mul]

theorem excitation_antisym {m n : ℕ} {R : Type*} [Ring R] {T : Amplitudes R} (hT : IsExcitation T)
    (sp : Fin m → Bool) (sh : Fin n → Bool) : AntisymUnder (SpinExchange sp sh) (block sp sh T) :=
  block_antisym (fun p h g => hT.particles m p g _) (fun p h g => hT.holes n _ h g) sp sh

/-! ### exchanges in short lists -/

section rules
variable {R : Type*} [CommRing R] {T : Amplitudes R}

theorem swapP {n : ℕ} (hT : IsExcitation T) (x y : Fin (n + 1) → SpinOrb) (i : Fin n)
    (e : y = x ∘ swap i.castSucc i.succ) (h : List SpinOrb) :
    T (List.ofFn y) h = -T (List.ofFn x) h := by
  rw [e, hT.particles, Perm.sign_swap (by simp [Fin.ext_iff])]; simp

theorem swapH {n : ℕ} (hT : IsExcitation T) (x y : Fin (n + 1) → SpinOrb) (i : Fin n)
    (e : y = x ∘ swap i.castSucc i.succ) (p : List SpinOrb) :
    T p (List.ofFn y) = -T p (List.ofFn x) := by
  rw [e, hT.holes, Perm.sign_swap (by simp [Fin.ext_iff])]; simp

theorem P2 (hT : IsExcitation T) (a b : SpinOrb) (h : List SpinOrb) :
    T [b, a] h = -T [a, b] h :=
  swapP hT ![a, b] ![b, a] 0 (by funext i; fin_cases i <;> rfl) h

theorem H2 (hT : IsExcitation T) (a b : SpinOrb) (p : List SpinOrb) :
    T p [b, a] = -T p [a, b] :=
  swapH hT ![a, b] ![b, a] 0 (by funext i; fin_cases i <;> rfl) p

theorem P3 (hT : IsExcitation T) (a b c : SpinOrb) (h : List SpinOrb) :
    T [b, a, c] h = -T [a, b, c] h ∧ T [a, c, b] h = -T [a, b, c] h ∧ T [c, b, a] h = -T [a, b, c] h ∧
      T [b, c, a] h = T [a, b, c] h ∧ T [c, a, b] h = T [a, b, c] h := by
  have s0 : ∀ a b c, T [b, a, c] h = -T [a, b, c] h := fun a b c =>
    swapP hT ![a, b, c] ![b, a, c] 0 (by funext i; fin_cases i <;> rfl) h
  have s1 : ∀ a b c, T [a, c, b] h = -T [a, b, c] h := fun a b c =>
    swapP hT ![a, b, c] ![a, c, b] 1 (by funext i; fin_cases i <;> rfl) h
  refine ⟨s0 a b c, s1 a b c, ?_, ?_, ?_⟩
  · rw [s0, s1, s0, neg_neg]
  · rw [s1, s0, neg_neg]
  · rw [s0, s1, neg_neg]

theorem H3 (hT : IsExcitation T) (a b c : SpinOrb) (p : List SpinOrb) :
    T p [b, a, c] = -T p [a, b, c] ∧ T p [a, c, b] = -T p [a, b, c] ∧ T p [c, b, a] = -T p [a, b, c] ∧
      T p [b, c, a] = T p [a, b, c] ∧ T p [c, a, b] = T p [a, b, c] := by
  have s0 : ∀ a b c, T p [b, a, c] = -T p [a, b, c] := fun a b c =>
    swapH hT ![a, b, c] ![b, a, c] 0 (by funext i; fin_cases i <;> rfl) p
  have s1 : ∀ a b c, T p [a, c, b] = -T p [a, b, c] := fun a b c =>
    swapH hT ![a, b, c] ![a, c, b] 1 (by funext i; fin_cases i <;> rfl) p
  refine ⟨s0 a b c, s1 a b c, ?_, ?_, ?_⟩
  · rw [s0, s1, s0, neg_neg]
  · rw [s1, s0, neg_neg]
  · rw [s0, s1, neg_neg]

/-- amplitudes that change the spin vanish -/
theorem Z1 (hT : IsExcitation T) (s s' : Bool) (a i : ℕ) (h : s.toNat ≠ s'.toNat) :
    T [(s, a)] [(s', i)] = 0 := by
  refine hT.spin _ _ ?_
  revert h; cases s <;> cases s' <;> simp
theorem Z2 (hT : IsExcitation T) (s t s' t' : Bool) (a b i j : ℕ)
    (h : s.toNat + t.toNat ≠ s'.toNat + t'.toNat) : T [(s, a), (t, b)] [(s', i), (t', j)] = 0 := by
  refine hT.spin _ _ ?_
  revert h; cases s <;> cases s' <;> cases t <;> cases t' <;> simp
theorem Z3 (hT : IsExcitation T) (s t u s' t' u' : Bool) (a b c i j k : ℕ)
    (h : s.toNat + t.toNat + u.toNat ≠ s'.toNat + t'.toNat + u'.toNat) :
    T [(s, a), (t, b), (u, c)] [(s', i), (t', j), (u', k)] = 0 := by
  refine hT.spin _ _ ?_
  revert h
  cases s <;> cases s' <;> cases t <;> cases t' <;> cases u <;> cases u' <;> simp

theorem exp1 (T : Amplitudes R) (p h : SpinOrb) : expAmp T [p] [h] = T [p] [h] := by
  simp [expAmp, expAux, unshuffle]

theorem exp2 (T : Amplitudes R) (p q h k : SpinOrb) :
    expAmp T [p, q] [h, k] = T [p, q] [h, k] + T [p] [h] * T [q] [k] - T [p] [k] * T [q] [h] := by
  simp [expAmp, expAux, unshuffle]
  ring

theorem exp3 (T : Amplitudes R) (p q r h k l : SpinOrb) :
    expAmp T [p, q, r] [h, k, l] = T [p, q, r] [h, k, l]
      + T [p] [h] * T [q, r] [k, l] - T [p] [k] * T [q, r] [h, l] + T [p] [l] * T [q, r] [h, k]
      - T [q] [h] * T [p, r] [k, l] + T [q] [k] * T [p, r] [h, l] - T [q] [l] * T [p, r] [h, k]
      + T [r] [h] * T [p, q] [k, l] - T [r] [k] * T [p, q] [h, l] + T [r] [l] * T [p, q] [h, k]
      + T [p] [h] * T [q] [k] * T [r] [l] - T [p] [h] * T [q] [l] * T [r] [k]
      - T [p] [k] * T [q] [h] * T [r] [l] + T [p] [k] * T [q] [l] * T [r] [h]
      + T [p] [l] * T [q] [h] * T [r] [k] - T [p] [l] * T [q] [k] * T [r] [h] := by
  simp [expAmp, expAux, unshuffle]
  ring

theorem exp_antisym2 (hT : IsExcitation T) (sp sh : Fin 2 → Bool) :
    AntisymUnder (SpinExchange sp sh) (block sp sh (expAmp T)) := by
  refine block_antisym ?_ ?_ sp sh
  · intro p h g
    refine perm_antisym (F := fun p => expAmp T (List.ofFn p) (List.ofFn h)) ?_ g p
    intro x i
    fin_cases i
    have e : List.ofFn (x ∘ swap 0 1) = [x 1, x 0] := rfl
    have e' : List.ofFn x = [x 0, x 1] := rfl
    have e2 : List.ofFn h = [h 0, h 1] := rfl
    simp only [Fin.zero_eta, Fin.castSucc_zero, Fin.succ_zero_eq_one]
    rw [e, e', e2, exp2, exp2, P2 hT (x 0) (x 1)]
    ring
  · intro p h g
    refine perm_antisym (F := fun h => expAmp T (List.ofFn p) (List.ofFn h)) ?_ g h
    intro x i
    fin_cases i
    have e : List.ofFn (x ∘ swap 0 1) = [x 1, x 0] := rfl
    have e' : List.ofFn x = [x 0, x 1] := rfl
    have e2 : List.ofFn p = [p 0, p 1] := rfl
    simp only [Fin.zero_eta, Fin.castSucc_zero, Fin.succ_zero_eq_one]
    rw [e, e', e2, exp2, exp2, H2 hT (x 0) (x 1)]
    ring

theorem exp_antisym3 (hT : IsExcitation T) (sp sh : Fin 3 → Bool) :
    AntisymUnder (SpinExchange sp sh) (block sp sh (expAmp T)) := by
  refine block_antisym ?_ ?_ sp sh
  · intro p h g
    refine perm_antisym (F := fun p => expAmp T (List.ofFn p) (List.ofFn h)) ?_ g p
    intro x i
    have e' : List.ofFn x = [x 0, x 1, x 2] := rfl
    have e2 : List.ofFn h = [h 0, h 1, h 2] := rfl
    fin_cases i
    · have e : List.ofFn (x ∘ swap (0 : Fin 2).castSucc (0 : Fin 2).succ) = [x 1, x 0, x 2] := rfl
      show expAmp T (List.ofFn (x ∘ swap (0 : Fin 2).castSucc (0 : Fin 2).succ)) _ = _
      rw [e, e', e2, exp3, exp3]
      simp only [P2 hT (x 0) (x 1), P3 hT (x 0) (x 1) (x 2)]
      ring
    · have e : List.ofFn (x ∘ swap (1 : Fin 2).castSucc (1 : Fin 2).succ) = [x 0, x 2, x 1] := rfl
      show expAmp T (List.ofFn (x ∘ swap (1 : Fin 2).castSucc (1 : Fin 2).succ)) _ = _
      rw [e, e', e2, exp3, exp3]
      simp only [P2 hT (x 1) (x 2), P3 hT (x 0) (x 1) (x 2)]
      ring
  · intro p h g
    refine perm_antisym (F := fun h => expAmp T (List.ofFn p) (List.ofFn h)) ?_ g h
    intro x i
    have e' : List.ofFn x = [x 0, x 1, x 2] := rfl
    have e2 : List.ofFn p = [p 0, p 1, p 2] := rfl
    fin_cases i
    · have e : List.ofFn (x ∘ swap (0 : Fin 2).castSucc (0 : Fin 2).succ) = [x 1, x 0, x 2] := rfl
      show expAmp T _ (List.ofFn (x ∘ swap (0 : Fin 2).castSucc (0 : Fin 2).succ)) = _
      rw [e, e', e2, exp3, exp3]
      simp only [H2 hT (x 0) (x 1), H3 hT (x 0) (x 1) (x 2)]
      ring
    · have e : List.ofFn (x ∘ swap (1 : Fin 2).castSucc (1 : Fin 2).succ) = [x 0, x 2, x 1] := rfl
      show expAmp T _ (List.ofFn (x ∘ swap (1 : Fin 2).castSucc (1 : Fin 2).succ)) = _
      rw [e, e', e2, exp3, exp3]
      simp only [H2 hT (x 1) (x 2), H3 hT (x 0) (x 1) (x 2)]
      ring

end rules

/-! ### the loop nests -/

section sweep
variable {m n : ℕ} {R : Type*} [Field R] [CharZero R] [DecidableEq R] {α : Type*} [LinearOrder α]

theorem foldl_pair {ι S : Type*} (f : ι → S → S) (items : List ι) : ∀ s : S,
    items.foldl (fun (p : S × S) x => (f x p.1, f x p.2)) (s, s) =
      (items.foldl (fun s x => f x s) s, items.foldl (fun s x => f x s) s) := by
  induction items with
  | nil => intro s; rfl
  | cons x xs ih => intro s; exact ih (f x s)

theorem cluster_of {ι : Type*} {e : ℕ → α} {sp : Fin m → Bool} {sh : Fin n → Bool}
    {nv no : Bool → ℕ} {items : List ι} {key : ι → (Fin m → ℕ) × (Fin n → ℕ)}
    (hv : Visits e sp sh nv no items key) {C T : (Fin m → ℕ) × (Fin n → ℕ) → R}
    (hC : AntisymUnder (SpinExchange sp sh) C) (hT : AntisymUnder (SpinExchange sp sh) T)
    {pat : Pattern m n} (hpat : Lists sp sh pat)
    {cs : ι → List (((Fin m → ℕ) × (Fin n → ℕ)) × ℤ)}
    (hcs : ∀ x, (key x, 1) :: cs x = At (key x) pat) {val : ι → R}
    (hval : ∀ x, val x = T (key x)) {res : (Fin m → ℕ) × (Fin n → ℕ) → R}
    (hres : res = items.foldl (fun t x => storeCluster (key x) (C (key x)) (val x) (cs x) t) fun _ => 0) :
    ∀ k, (InRange sp sh nv no k ∧ C k ≠ 0 → res k = T k) ∧
      (¬(InRange sp sh nv no k ∧ C k ≠ 0) → res k = 0) := by
  have hG := isGroup_spinExchange sp sh
  let v : ι → R := fun x => if C (key x) ≠ 0 then T (key x) else 0
  obtain ⟨s1, _⟩ := pairSweep hG key (fun x _ _ => v x) (fun x _ _ => v x)
    (fun x s => (storeCluster (key x) (C (key x)) (val x) (cs x) s.1,
      storeCluster (key x) (C (key x)) (val x) (cs x) s.2)) items
    (fun x hx s => by
      obtain ⟨_, a, b⟩ := hv.ordered x hx
      rw [hval x]
      exact ⟨copyFrom_stores hpat (free_orderedVia a b) (hcs x) s.1 _,
        copyFrom_stores hpat (free_orderedVia a b) (hcs x) s.2 _⟩) hv.apart (fun _ => 0, fun _ => 0)
  rw [foldl_pair, ← hres] at s1
  have c1 : ∀ x ∈ items, ∀ g ∈ SpinExchange sp sh,
      res ((key x).1 ∘ g.1, (key x).2 ∘ g.2) = sgn g • v x := fun x hx g hg =>
    s1.stored _ (List.mem_map.mpr ⟨x, hx, rfl⟩) g hg
  have u1 : ∀ k, (∀ x ∈ items, ∀ g ∈ SpinExchange sp sh,
      k ≠ ((key x).1 ∘ g.1, (key x).2 ∘ g.2)) → res k = 0 := fun k h =>
    s1.untouched k (fun e he g hg => by
      obtain ⟨x, hx, rfl⟩ := List.mem_map.mp he
      exact h x hx g hg)
  have hne : ∀ g : Perm (Fin m) × Perm (Fin n), ∀ y : R, sgn g • y = 0 ↔ y = 0 := by
    intro g y
    constructor
    · intro h
      have : sgn g • (sgn g • y) = 0 := by rw [h, smul_zero]
      rwa [smul_smul, sgn_mul_self, one_smul] at this
    · rintro rfl; exact smul_zero _
  intro k
  by_cases h : ∃ x ∈ items, ∃ g ∈ SpinExchange sp sh, k = ((key x).1 ∘ g.1, (key x).2 ∘ g.2)
  · obtain ⟨x, hx, g, hg, rfl⟩ := h
    have eC : C ((key x).1 ∘ ⇑g.1, (key x).2 ∘ ⇑g.2) = sgn g • C (key x) := hC g hg _ _
    have eT : T ((key x).1 ∘ ⇑g.1, (key x).2 ∘ ⇑g.2) = sgn g • T (key x) := hT g hg _ _
    have hr := inRange_exchange hg (hv.ordered x hx).1
    rw [c1 x hx g hg, eC, eT]
    constructor
    · rintro ⟨_, hc⟩
      have hc' : C (key x) ≠ 0 := fun h => hc ((hne g _).mpr h)
      show sgn g • (if C (key x) ≠ 0 then T (key x) else 0) = _
      rw [if_pos hc']
    · intro hc
      have hc' : ¬ C (key x) ≠ 0 := fun h => hc ⟨hr, fun h' => h ((hne g _).mp h')⟩
      show sgn g • (if C (key x) ≠ 0 then T (key x) else 0) = _
      rw [if_neg hc', smul_zero]
  · push Not at h
    refine ⟨?_, fun _ => u1 k h⟩
    rintro ⟨hk, hc⟩
    rcases hv.cases hk with hrep | ⟨x, hx, g, hg, rfl⟩
    · exact absurd (antisym_zero hC hrep) hc
    · exact absurd rfl (h x hx g hg)

end sweep

/-! ### copies -/

theorem copies_t2a_at (x : It4) :
    (keyC2 x, 1) :: copies_t2a x.1 x.2.1 x.2.2.1 x.2.2.2.1 = At (keyC2 x) pattern4 := by
  simp [At, pattern4, copies_t2a, keyC2, vec_comp2]
theorem copies_t2b_at (x : It4) : [(keyC2 x, 1)] = At (keyC2 x) pat2b := by
  simp [At, pat2b, keyC2, vec_comp2]
theorem copies_t2c_at (x : It4) :
    (keyC2 x, 1) :: copies_t2c x.1 x.2.1 x.2.2.1 x.2.2.2.1 = At (keyC2 x) pattern4 := by
  simp [At, pattern4, copies_t2c, keyC2, vec_comp2]
theorem copies_t3a_at (x : It6) :
    (keyC3 x, 1) :: copies_t3a x.1 x.2.1 x.2.2.1 x.2.2.2.1 x.2.2.2.2.1 x.2.2.2.2.2.1 =
      At (keyC3 x) patCopies3 := by
  simp [At, patCopies3, prodPat, copies_t3a, keyC3, vec_comp3]
theorem copies_t3b_at (x : It6) :
    (keyC3 x, 1) :: copies_t3b x.1 x.2.1 x.2.2.1 x.2.2.2.1 x.2.2.2.2.1 x.2.2.2.2.2.1 =
      At (keyC3 x) patternAab := by
  simp [At, patternAab, copies_t3b, keyC3, vec_comp3]
theorem copies_t3c_at (x : It6) :
    (keyC3 x, 1) :: copies_t3c x.1 x.2.1 x.2.2.1 x.2.2.2.1 x.2.2.2.2.1 x.2.2.2.2.2.1 =
      At (keyC3 x) patternAbb := by
  simp [At, patternAbb, copies_t3c, keyC3, vec_comp3]
theorem copies_t3d_at (x : It6) :
    (keyC3 x, 1) :: copies_t3d x.1 x.2.1 x.2.2.1 x.2.2.2.1 x.2.2.2.2.1 x.2.2.2.2.2.1 =
      At (keyC3 x) patCopies3 := by
  simp [At, patCopies3, prodPat, copies_t3d, keyC3, vec_comp3]

end Ccpy.ClusterAnalysis
