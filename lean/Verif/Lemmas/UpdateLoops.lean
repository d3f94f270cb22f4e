import Verif.Lemmas.UpdateKernels
import Mathlib.Data.Fin.Tuple.Basic

/-! The loop nests of the update kernels visit each class of index tuples once. -/

namespace Ccpy.UpdateKernels
open Ccpy.Writes Ccpy.Spec Ccpy.Fortran Equiv

/-- the values of `do i = lo,hi` -/
abbrev loop (lo hi : ℕ) : List ℕ := List.range' lo (hi + 1 - lo)

abbrev It2 := ℕ × ℕ × Unit
abbrev It4 := ℕ × ℕ × ℕ × ℕ × Unit
abbrev It6 := ℕ × ℕ × ℕ × ℕ × ℕ × ℕ × Unit

def items1 (no nv : ℕ) : List It2 := pairs (loop 1 no) fun _ => pairs (loop 1 nv) fun _ => [()]

def items2 (no nv : ℕ) : List It4 :=
  pairs (loop 1 no) fun i => pairs (loop (i + 1) no) fun _ =>
  pairs (loop 1 nv) fun a => pairs (loop (a + 1) nv) fun _ => [()]

def items2b (noa nua nob nub : ℕ) : List It4 :=
  pairs (loop 1 nob) fun _ => pairs (loop 1 noa) fun _ =>
  pairs (loop 1 nub) fun _ => pairs (loop 1 nua) fun _ => [()]

def items3 (no nv : ℕ) : List It6 :=
  pairs (loop 1 no) fun i => pairs (loop (i + 1) no) fun j => pairs (loop (j + 1) no) fun _ =>
  pairs (loop 1 nv) fun a => pairs (loop (a + 1) nv) fun b => pairs (loop (b + 1) nv) fun _ => [()]

def items3b (noa nua nob nub : ℕ) : List It6 :=
  pairs (loop 1 noa) fun i => pairs (loop (i + 1) noa) fun _ => pairs (loop 1 nob) fun _ =>
  pairs (loop 1 nua) fun a => pairs (loop (a + 1) nua) fun _ => pairs (loop 1 nub) fun _ => [()]

def items3c (noa nua nob nub : ℕ) : List It6 :=
  pairs (loop 1 noa) fun _ => pairs (loop 1 nob) fun j => pairs (loop (j + 1) nob) fun _ =>
  pairs (loop 1 nua) fun _ => pairs (loop 1 nub) fun b => pairs (loop (b + 1) nub) fun _ => [()]

theorem nodup_leaf : ([()] : List Unit).Nodup := by simp

theorem nodup_items1 (no nv : ℕ) : (items1 no nv).Nodup :=
  nodup_pairs nodup_do fun _ => nodup_pairs nodup_do fun _ => nodup_leaf

theorem nodup_items2 (no nv : ℕ) : (items2 no nv).Nodup :=
  nodup_pairs nodup_do fun _ => nodup_pairs nodup_do fun _ => nodup_pairs nodup_do fun _ =>
    nodup_pairs nodup_do fun _ => nodup_leaf

theorem nodup_items2b (noa nua nob nub : ℕ) : (items2b noa nua nob nub).Nodup :=
  nodup_pairs nodup_do fun _ => nodup_pairs nodup_do fun _ => nodup_pairs nodup_do fun _ =>
    nodup_pairs nodup_do fun _ => nodup_leaf

theorem nodup_items3 (no nv : ℕ) : (items3 no nv).Nodup :=
  nodup_pairs nodup_do fun _ => nodup_pairs nodup_do fun _ => nodup_pairs nodup_do fun _ =>
    nodup_pairs nodup_do fun _ => nodup_pairs nodup_do fun _ => nodup_pairs nodup_do fun _ =>
    nodup_leaf

theorem nodup_items3b (noa nua nob nub : ℕ) : (items3b noa nua nob nub).Nodup :=
  nodup_pairs nodup_do fun _ => nodup_pairs nodup_do fun _ => nodup_pairs nodup_do fun _ =>
    nodup_pairs nodup_do fun _ => nodup_pairs nodup_do fun _ => nodup_pairs nodup_do fun _ =>
    nodup_leaf

theorem nodup_items3c (noa nua nob nub : ℕ) : (items3c noa nua nob nub).Nodup :=
  nodup_pairs nodup_do fun _ => nodup_pairs nodup_do fun _ => nodup_pairs nodup_do fun _ =>
    nodup_pairs nodup_do fun _ => nodup_pairs nodup_do fun _ => nodup_pairs nodup_do fun _ =>
    nodup_leaf

def key1 (x : It2) : Key1 := (![x.2.1], ![x.1])
/-- loops `i`, `j`, `a`, `b`; representative `(b,a,j,i)` -/
def key2 (x : It4) : Key2 := (![x.2.2.2.1, x.2.2.1], ![x.2.1, x.1])
/-- loops `j`, `i`, `b`, `a`; representative `(a,b,i,j)` -/
def key2b (x : It4) : Key2 := (![x.2.2.2.1, x.2.2.1], ![x.2.1, x.1])
def key3 (x : It6) : Key3 := (![x.2.2.2.2.2.1, x.2.2.2.2.1, x.2.2.2.1], ![x.2.2.1, x.2.1, x.1])
def key3b (x : It6) : Key3 := (![x.2.2.2.2.1, x.2.2.2.1, x.2.2.2.2.2.1], ![x.2.1, x.1, x.2.2.1])
def key3c (x : It6) : Key3 := (![x.2.2.2.1, x.2.2.2.2.2.1, x.2.2.2.2.1], ![x.1, x.2.2.1, x.2.1])

theorem fun1_ext {f g : Fin 1 → ℕ} (h0 : f 0 = g 0) : f = g := by
  funext i; match i with | 0 => exact h0
theorem fun2_ext {f g : Fin 2 → ℕ} (h0 : f 0 = g 0) (h1 : f 1 = g 1) : f = g := by
  funext i; match i with | 0 => exact h0 | 1 => exact h1
theorem fun3_ext {f g : Fin 3 → ℕ} (h0 : f 0 = g 0) (h1 : f 1 = g 1) (h2 : f 2 = g 2) : f = g := by
  funext i; match i with | 0 => exact h0 | 1 => exact h1 | 2 => exact h2

theorem lt_fin2 {i j : Fin 2} (h : i < j) : i = 0 ∧ j = 1 := by revert i j; decide
theorem lt_fin3 {i j : Fin 3} (h : i < j) :
    (i = 0 ∧ j = 1) ∨ (i = 0 ∧ j = 2) ∨ (i = 1 ∧ j = 2) := by revert i j; decide

open OrderDual (toDual)

theorem visits1 (s : Bool) (nv no : Bool → ℕ) :
    Visits toDual ![s] ![s] nv no (items1 (no s) (nv s)) key1 where
  inj := toDual.injective
  sorted := by constructor <;> exact Subsingleton.monotone _
  nodup := by
    refine (nodup_items1 _ _).map ?_
    rintro ⟨i, a, ⟨⟩⟩ ⟨i', a', ⟨⟩⟩ h
    simp only [key1, Prod.mk.injEq] at h
    have h1 := congrFun h.1 0
    have h2 := congrFun h.2 0
    simp at h1 h2
    simp [h1, h2]
  ordered := by
    rintro ⟨i, a, ⟨⟩⟩ hx
    simp only [items1, mem_pairs, mem_do, List.mem_singleton, and_true] at hx
    refine ⟨⟨?_, ?_⟩, ?_, ?_⟩
    · intro l; match l with | 0 => exact hx.2
    · intro l; match l with | 0 => exact hx.1
    · intro l l' h; exact absurd h (by simp [Subsingleton.elim l l'])
    · intro l l' h; exact absurd h (by simp [Subsingleton.elim l l'])
  complete := by
    intro k hk _ _
    refine ⟨(k.2 0, k.1 0, ()), ?_, Prod.ext (fun1_ext rfl) (fun1_ext rfl)⟩
    simp only [items1, mem_pairs, mem_do, List.mem_singleton, and_true]
    exact ⟨hk.2 0, hk.1 0⟩

theorem visits2 (s : Bool) (nv no : Bool → ℕ) :
    Visits toDual ![s, s] ![s, s] nv no (items2 (no s) (nv s)) key2 where
  inj := toDual.injective
  sorted := by revert s; decide
  nodup := by
    refine (nodup_items2 _ _).map ?_
    rintro ⟨i, j, a, b, ⟨⟩⟩ ⟨i', j', a', b', ⟨⟩⟩ h
    simp only [key2, Prod.mk.injEq] at h
    have h1 := congrFun h.1 0
    have h2 := congrFun h.1 1
    have h3 := congrFun h.2 0
    have h4 := congrFun h.2 1
    simp at h1 h2 h3 h4
    simp [h1, h2, h3, h4]
  ordered := by
    rintro ⟨i, j, a, b, ⟨⟩⟩ hx
    simp only [items2, mem_pairs, mem_do, List.mem_singleton, and_true] at hx
    obtain ⟨h1, h2, h3, h4⟩ := hx
    refine ⟨⟨?_, ?_⟩, ?_, ?_⟩
    · intro l; match l with
      | 0 => show 1 ≤ b ∧ b ≤ nv s; omega
      | 1 => show 1 ≤ a ∧ a ≤ nv s; omega
    · intro l; match l with
      | 0 => show 1 ≤ j ∧ j ≤ no s; omega
      | 1 => show 1 ≤ i ∧ i ≤ no s; omega
    · intro l l' h _
      obtain ⟨rfl, rfl⟩ := lt_fin2 h
      show toDual b < toDual a; rw [OrderDual.toDual_lt_toDual]; omega
    · intro l l' h _
      obtain ⟨rfl, rfl⟩ := lt_fin2 h
      show toDual j < toDual i; rw [OrderDual.toDual_lt_toDual]; omega
  complete := by
    intro k hk o1 o2
    refine ⟨(k.2 1, k.2 0, k.1 1, k.1 0, ()), ?_, Prod.ext (fun2_ext rfl rfl) (fun2_ext rfl rfl)⟩
    simp only [items2, mem_pairs, mem_do, List.mem_singleton, and_true]
    have a1 := o1 0 1 (by decide) rfl
    have a2 := o2 0 1 (by decide) rfl
    rw [OrderDual.toDual_lt_toDual] at a1 a2
    have b0 : 1 ≤ k.1 0 ∧ k.1 0 ≤ nv s := hk.1 0
    have b1 : 1 ≤ k.1 1 ∧ k.1 1 ≤ nv s := hk.1 1
    have c0 : 1 ≤ k.2 0 ∧ k.2 0 ≤ no s := hk.2 0
    have c1 : 1 ≤ k.2 1 ∧ k.2 1 ≤ no s := hk.2 1
    omega

theorem visits2b (nv no : Bool → ℕ) :
    Visits toDual ![false, true] ![false, true] nv no
      (items2b (no false) (nv false) (no true) (nv true)) key2b where
  inj := toDual.injective
  sorted := by decide
  nodup := by
    refine (nodup_items2b _ _ _ _).map ?_
    rintro ⟨i, j, a, b, ⟨⟩⟩ ⟨i', j', a', b', ⟨⟩⟩ h
    simp only [key2b, Prod.mk.injEq] at h
    have h1 := congrFun h.1 0
    have h2 := congrFun h.1 1
    have h3 := congrFun h.2 0
    have h4 := congrFun h.2 1
    simp at h1 h2 h3 h4
    simp [h1, h2, h3, h4]
  ordered := by
    rintro ⟨j, i, b, a, ⟨⟩⟩ hx
    simp only [items2b, mem_pairs, mem_do, List.mem_singleton, and_true] at hx
    obtain ⟨h1, h2, h3, h4⟩ := hx
    refine ⟨⟨?_, ?_⟩, ?_, ?_⟩
    · intro l; match l with | 0 => exact h4 | 1 => exact h3
    · intro l; match l with | 0 => exact h2 | 1 => exact h1
    · intro l l' h e
      obtain ⟨rfl, rfl⟩ := lt_fin2 h
      simp at e
    · intro l l' h e
      obtain ⟨rfl, rfl⟩ := lt_fin2 h
      simp at e
  complete := by
    intro k hk o1 o2
    refine ⟨(k.2 1, k.2 0, k.1 1, k.1 0, ()), ?_, Prod.ext (fun2_ext rfl rfl) (fun2_ext rfl rfl)⟩
    simp only [items2b, mem_pairs, mem_do, List.mem_singleton, and_true]
    exact ⟨hk.2 1, hk.2 0, hk.1 1, hk.1 0⟩

theorem visits3 (s : Bool) (nv no : Bool → ℕ) :
    Visits toDual ![s, s, s] ![s, s, s] nv no (items3 (no s) (nv s)) key3 where
  inj := toDual.injective
  sorted := by revert s; decide
  nodup := by
    refine (nodup_items3 _ _).map ?_
    rintro ⟨i, j, k, a, b, c, ⟨⟩⟩ ⟨i', j', k', a', b', c', ⟨⟩⟩ h
    simp only [key3, Prod.mk.injEq] at h
    have h1 := congrFun h.1 0
    have h2 := congrFun h.1 1
    have h3 := congrFun h.1 2
    have h4 := congrFun h.2 0
    have h5 := congrFun h.2 1
    have h6 := congrFun h.2 2
    simp at h1 h2 h3 h4 h5 h6
    simp [h1, h2, h3, h4, h5, h6]
  ordered := by
    rintro ⟨i, j, k, a, b, c, ⟨⟩⟩ hx
    simp only [items3, mem_pairs, mem_do, List.mem_singleton, and_true] at hx
    obtain ⟨h1, h2, h3, h4, h5, h6⟩ := hx
    refine ⟨⟨?_, ?_⟩, ?_, ?_⟩
    · intro l; match l with
      | 0 => show 1 ≤ c ∧ c ≤ nv s; omega
      | 1 => show 1 ≤ b ∧ b ≤ nv s; omega
      | 2 => show 1 ≤ a ∧ a ≤ nv s; omega
    · intro l; match l with
      | 0 => show 1 ≤ k ∧ k ≤ no s; omega
      | 1 => show 1 ≤ j ∧ j ≤ no s; omega
      | 2 => show 1 ≤ i ∧ i ≤ no s; omega
    · intro l l' h _
      rcases lt_fin3 h with ⟨rfl, rfl⟩ | ⟨rfl, rfl⟩ | ⟨rfl, rfl⟩
      · show toDual c < toDual b; rw [OrderDual.toDual_lt_toDual]; omega
      · show toDual c < toDual a; rw [OrderDual.toDual_lt_toDual]; omega
      · show toDual b < toDual a; rw [OrderDual.toDual_lt_toDual]; omega
    · intro l l' h _
      rcases lt_fin3 h with ⟨rfl, rfl⟩ | ⟨rfl, rfl⟩ | ⟨rfl, rfl⟩
      · show toDual k < toDual j; rw [OrderDual.toDual_lt_toDual]; omega
      · show toDual k < toDual i; rw [OrderDual.toDual_lt_toDual]; omega
      · show toDual j < toDual i; rw [OrderDual.toDual_lt_toDual]; omega
  complete := by
    intro k hk o1 o2
    refine ⟨(k.2 2, k.2 1, k.2 0, k.1 2, k.1 1, k.1 0, ()), ?_,
      Prod.ext (fun3_ext rfl rfl rfl) (fun3_ext rfl rfl rfl)⟩
    simp only [items3, mem_pairs, mem_do, List.mem_singleton, and_true]
    have a1 := o1 0 1 (by decide) rfl
    have a2 := o2 0 1 (by decide) rfl
    have a3 := o1 1 2 (by decide) rfl
    have a4 := o2 1 2 (by decide) rfl
    rw [OrderDual.toDual_lt_toDual] at a1 a2 a3 a4
    have b0 : 1 ≤ k.1 0 ∧ k.1 0 ≤ nv s := hk.1 0
    have b1 : 1 ≤ k.1 1 ∧ k.1 1 ≤ nv s := hk.1 1
    have b2 : 1 ≤ k.1 2 ∧ k.1 2 ≤ nv s := hk.1 2
    have c0 : 1 ≤ k.2 0 ∧ k.2 0 ≤ no s := hk.2 0
    have c1 : 1 ≤ k.2 1 ∧ k.2 1 ≤ no s := hk.2 1
    have c2 : 1 ≤ k.2 2 ∧ k.2 2 ≤ no s := hk.2 2
    omega

theorem visits3b (nv no : Bool → ℕ) :
    Visits toDual ![false, false, true] ![false, false, true] nv no
      (items3b (no false) (nv false) (no true) (nv true)) key3b where
  inj := toDual.injective
  sorted := by decide
  nodup := by
    refine (nodup_items3b _ _ _ _).map ?_
    rintro ⟨i, j, k, a, b, c, ⟨⟩⟩ ⟨i', j', k', a', b', c', ⟨⟩⟩ h
    simp only [key3b, Prod.mk.injEq] at h
    have h1 := congrFun h.1 0
    have h2 := congrFun h.1 1
    have h3 := congrFun h.1 2
    have h4 := congrFun h.2 0
    have h5 := congrFun h.2 1
    have h6 := congrFun h.2 2
    simp at h1 h2 h3 h4 h5 h6
    simp [h1, h2, h3, h4, h5, h6]
  ordered := by
    rintro ⟨i, j, k, a, b, c, ⟨⟩⟩ hx
    simp only [items3b, mem_pairs, mem_do, List.mem_singleton, and_true] at hx
    obtain ⟨h1, h2, h3, h4, h5, h6⟩ := hx
    refine ⟨⟨?_, ?_⟩, ?_, ?_⟩
    · intro l; match l with
      | 0 => show 1 ≤ b ∧ b ≤ nv false; omega
      | 1 => show 1 ≤ a ∧ a ≤ nv false; omega
      | 2 => show 1 ≤ c ∧ c ≤ nv true; omega
    · intro l; match l with
      | 0 => show 1 ≤ j ∧ j ≤ no false; omega
      | 1 => show 1 ≤ i ∧ i ≤ no false; omega
      | 2 => show 1 ≤ k ∧ k ≤ no true; omega
    · intro l l' h e
      rcases lt_fin3 h with ⟨rfl, rfl⟩ | ⟨rfl, rfl⟩ | ⟨rfl, rfl⟩
      · show toDual b < toDual a; rw [OrderDual.toDual_lt_toDual]; omega
      · simp at e
      · simp at e
    · intro l l' h e
      rcases lt_fin3 h with ⟨rfl, rfl⟩ | ⟨rfl, rfl⟩ | ⟨rfl, rfl⟩
      · show toDual j < toDual i; rw [OrderDual.toDual_lt_toDual]; omega
      · simp at e
      · simp at e
  complete := by
    intro k hk o1 o2
    refine ⟨(k.2 1, k.2 0, k.2 2, k.1 1, k.1 0, k.1 2, ()), ?_,
      Prod.ext (fun3_ext rfl rfl rfl) (fun3_ext rfl rfl rfl)⟩
    simp only [items3b, mem_pairs, mem_do, List.mem_singleton, and_true]
    have a1 := o1 0 1 (by decide) rfl
    have a2 := o2 0 1 (by decide) rfl
    rw [OrderDual.toDual_lt_toDual] at a1 a2
    have b0 : 1 ≤ k.1 0 ∧ k.1 0 ≤ nv false := hk.1 0
    have b1 : 1 ≤ k.1 1 ∧ k.1 1 ≤ nv false := hk.1 1
    have b2 : 1 ≤ k.1 2 ∧ k.1 2 ≤ nv true := hk.1 2
    have c0 : 1 ≤ k.2 0 ∧ k.2 0 ≤ no false := hk.2 0
    have c1 : 1 ≤ k.2 1 ∧ k.2 1 ≤ no false := hk.2 1
    have c2 : 1 ≤ k.2 2 ∧ k.2 2 ≤ no true := hk.2 2
    omega

theorem visits3c (nv no : Bool → ℕ) :
    Visits toDual ![false, true, true] ![false, true, true] nv no
      (items3c (no false) (nv false) (no true) (nv true)) key3c where
  inj := toDual.injective
  sorted := by decide
  nodup := by
    refine (nodup_items3c _ _ _ _).map ?_
    rintro ⟨i, j, k, a, b, c, ⟨⟩⟩ ⟨i', j', k', a', b', c', ⟨⟩⟩ h
    simp only [key3c, Prod.mk.injEq] at h
    have h1 := congrFun h.1 0
    have h2 := congrFun h.1 1
    have h3 := congrFun h.1 2
    have h4 := congrFun h.2 0
    have h5 := congrFun h.2 1
    have h6 := congrFun h.2 2
    simp at h1 h2 h3 h4 h5 h6
    simp [h1, h2, h3, h4, h5, h6]
  ordered := by
    rintro ⟨i, j, k, a, b, c, ⟨⟩⟩ hx
    simp only [items3c, mem_pairs, mem_do, List.mem_singleton, and_true] at hx
    obtain ⟨h1, h2, h3, h4, h5, h6⟩ := hx
    refine ⟨⟨?_, ?_⟩, ?_, ?_⟩
    · intro l; match l with
      | 0 => show 1 ≤ a ∧ a ≤ nv false; omega
      | 1 => show 1 ≤ c ∧ c ≤ nv true; omega
      | 2 => show 1 ≤ b ∧ b ≤ nv true; omega
    · intro l; match l with
      | 0 => show 1 ≤ i ∧ i ≤ no false; omega
      | 1 => show 1 ≤ k ∧ k ≤ no true; omega
      | 2 => show 1 ≤ j ∧ j ≤ no true; omega
    · intro l l' h e
      rcases lt_fin3 h with ⟨rfl, rfl⟩ | ⟨rfl, rfl⟩ | ⟨rfl, rfl⟩
      · simp at e
      · simp at e
      · show toDual c < toDual b; rw [OrderDual.toDual_lt_toDual]; omega
    · intro l l' h e
      rcases lt_fin3 h with ⟨rfl, rfl⟩ | ⟨rfl, rfl⟩ | ⟨rfl, rfl⟩
      · simp at e
      · simp at e
      · show toDual k < toDual j; rw [OrderDual.toDual_lt_toDual]; omega
  complete := by
    intro k hk o1 o2
    refine ⟨(k.2 0, k.2 2, k.2 1, k.1 0, k.1 2, k.1 1, ()), ?_,
      Prod.ext (fun3_ext rfl rfl rfl) (fun3_ext rfl rfl rfl)⟩
    simp only [items3c, mem_pairs, mem_do, List.mem_singleton, and_true]
    have a1 := o1 1 2 (by decide) rfl
    have a2 := o2 1 2 (by decide) rfl
    rw [OrderDual.toDual_lt_toDual] at a1 a2
    have b0 : 1 ≤ k.1 0 ∧ k.1 0 ≤ nv false := hk.1 0
    have b1 : 1 ≤ k.1 1 ∧ k.1 1 ≤ nv true := hk.1 1
    have b2 : 1 ≤ k.1 2 ∧ k.1 2 ≤ nv true := hk.1 2
    have c0 : 1 ≤ k.2 0 ∧ k.2 0 ≤ no false := hk.2 0
    have c1 : 1 ≤ k.2 1 ∧ k.2 1 ≤ no true := hk.2 1
    have c2 : 1 ≤ k.2 2 ∧ k.2 2 ≤ no true := hk.2 2
    omega

/-! ### patterns -/

/-- products of signed permutations, the particle list outermost -/
def prodPat {m n : ℕ} (ps : List ((Fin m → Fin m) × ℤ)) (hs : List ((Fin n → Fin n) × ℤ)) :
    Pattern m n :=
  ps.flatMap fun p => hs.map fun h => (p.1, h.1, p.2 * h.2)

def prodPat' {m n : ℕ} (hs : List ((Fin n → Fin n) × ℤ)) (ps : List ((Fin m → Fin m) × ℤ)) :
    Pattern m n :=
  hs.flatMap fun h => ps.map fun p => (p.1, h.1, p.2 * h.2)

def pat1 : Pattern 1 1 := [(![0], ![0], 1)]
def pat2b : Pattern 2 2 := [(![0, 1], ![0, 1], 1)]
def patTerms3 : Pattern 3 3 := prodPat'
  [(![0,1,2], 1), (![1,0,2], -1), (![0,2,1], -1), (![2,1,0], -1), (![1,2,0], 1), (![2,0,1], 1)]
  [(![0,1,2], 1), (![1,0,2], -1), (![0,2,1], -1), (![1,2,0], 1), (![2,1,0], -1), (![2,0,1], 1)]
def patCopies3 : Pattern 3 3 := prodPat
  [(![0,1,2], 1), (![1,0,2], -1), (![0,2,1], -1), (![2,1,0], -1), (![1,2,0], 1), (![2,0,1], 1)]
  [(![0,1,2], 1), (![2,0,1], 1), (![1,2,0], 1), (![0,2,1], -1), (![1,0,2], -1), (![2,1,0], -1)]
def patResids3 : Pattern 3 3 := prodPat
  [(![0,1,2], 1), (![1,2,0], 1), (![2,0,1], 1), (![0,2,1], -1), (![1,0,2], -1), (![2,1,0], -1)]
  [(![0,1,2], 1), (![2,0,1], 1), (![1,2,0], 1), (![0,2,1], -1), (![1,0,2], -1), (![2,1,0], -1)]

theorem lists_pat1 (s : Bool) : Lists ![s] ![s] pat1 := by
  cases s <;> exact lists_of (by decide +kernel) (by decide +kernel) (by decide +kernel)
theorem lists_pat2 (s : Bool) : Lists ![s, s] ![s, s] pattern4 := by
  cases s <;> exact lists_of (by decide +kernel) (by decide +kernel) (by decide +kernel)
theorem lists_pat2b : Lists ![false, true] ![false, true] pat2b :=
  lists_of (by decide +kernel) (by decide +kernel) (by decide +kernel)
theorem lists_terms3 (s : Bool) : Lists ![s, s, s] ![s, s, s] patTerms3 := by
  cases s <;> exact lists_of (by decide +kernel) (by decide +kernel) (by decide +kernel)
theorem lists_copies3 (s : Bool) : Lists ![s, s, s] ![s, s, s] patCopies3 := by
  cases s <;> exact lists_of (by decide +kernel) (by decide +kernel) (by decide +kernel)
theorem lists_resids3 (s : Bool) : Lists ![s, s, s] ![s, s, s] patResids3 := by
  cases s <;> exact lists_of (by decide +kernel) (by decide +kernel) (by decide +kernel)
theorem lists_3b : Lists ![false, false, true] ![false, false, true] patternAab :=
  lists_of (by decide +kernel) (by decide +kernel) (by decide +kernel)
theorem lists_3c : Lists ![false, true, true] ![false, true, true] patternAbb :=
  lists_of (by decide +kernel) (by decide +kernel) (by decide +kernel)

end Ccpy.UpdateKernels
