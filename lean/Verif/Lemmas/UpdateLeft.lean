import Verif.Model.UpdateLeft
import Verif.Lemmas.UpdateLists
import Verif.Spec.LeftUpdate

namespace Ccpy.UpdateKernels
open Ccpy.Writes Ccpy.Spec Ccpy.Fortran Equiv

/-- representative `(a,b,i,j)` of the loops `i`, `j`, `a`, `b` -/
def keyL2 (x : It4) : Key2 := (![x.2.2.1, x.2.2.2.1], ![x.1, x.2.1])
/-- representative `(a,b,c,i,j,k)` of the loops `i`, `j`, `k`, `a`, `b`, `c` -/
def keyL3 (x : It6) : Key3 := (![x.2.2.2.1, x.2.2.2.2.1, x.2.2.2.2.2.1], ![x.1, x.2.1, x.2.2.1])

theorem visitsL1 (s : Bool) (nv no : Bool → ℕ) :
    Visits id ![s] ![s] nv no (items1 (no s) (nv s)) key1 where
  inj := Function.injective_id
  sorted := by constructor <;> exact Subsingleton.monotone _
  nodup := by
    refine (nodup_items1 _ _).map ?_
    rintro ⟨i, a, ⟨⟩⟩ ⟨i', a', ⟨⟩⟩ h
    simp only [key1, Prod.mk.injEq] at h
    have h1 := congrFun h.1 0
    have h2 := congrFun h.2 0
    simp at h1 h2
    simp [h1, h2]
  ordered := by
    rintro ⟨i, a, ⟨⟩⟩ hx
    simp only [items1, mem_pairs, mem_do, List.mem_singleton, and_true] at hx
    refine ⟨⟨?_, ?_⟩, ?_, ?_⟩
    · intro l; match l with
      | 0 => show 1 ≤ a ∧ a ≤ nv s; omega
    · intro l; match l with
      | 0 => show 1 ≤ i ∧ i ≤ no s; omega
    · intro l l' h; exact absurd h (by simp [Subsingleton.elim l l'])
    · intro l l' h; exact absurd h (by simp [Subsingleton.elim l l'])
  complete := by
    intro k hk o1 o2
    refine ⟨(k.2 0, k.1 0, ()), ?_, Prod.ext (fun1_ext rfl) (fun1_ext rfl)⟩
    simp only [items1, mem_pairs, mem_do, List.mem_singleton, and_true]
    have b0 : 1 ≤ k.1 0 ∧ k.1 0 ≤ nv s := hk.1 0
    have c0 : 1 ≤ k.2 0 ∧ k.2 0 ≤ no s := hk.2 0
    omega

theorem visitsL2 (s : Bool) (nv no : Bool → ℕ) :
    Visits id ![s, s] ![s, s] nv no (items2 (no s) (nv s)) keyL2 where
  inj := Function.injective_id
  sorted := by revert s; decide
  nodup := by
    refine (nodup_items2 _ _).map ?_
    rintro ⟨i, j, a, b, ⟨⟩⟩ ⟨i', j', a', b', ⟨⟩⟩ h
    simp only [keyL2, Prod.mk.injEq] at h
    have h1 := congrFun h.1 0
    have h2 := congrFun h.1 1
    have h3 := congrFun h.2 0
    have h4 := congrFun h.2 1
    simp at h1 h2 h3 h4
    simp [h1, h2, h3, h4]
  ordered := by
    rintro ⟨i, j, a, b, ⟨⟩⟩ hx
    simp only [items2, mem_pairs, mem_do, List.mem_singleton, and_true] at hx
    refine ⟨⟨?_, ?_⟩, ?_, ?_⟩
    · intro l; match l with
      | 0 => show 1 ≤ a ∧ a ≤ nv s; omega
      | 1 => show 1 ≤ b ∧ b ≤ nv s; omega
    · intro l; match l with
      | 0 => show 1 ≤ i ∧ i ≤ no s; omega
      | 1 => show 1 ≤ j ∧ j ≤ no s; omega
    · intro l l' h e
      rcases lt_fin2 h with ⟨rfl, rfl⟩
      · show a < b; omega
    · intro l l' h e
      rcases lt_fin2 h with ⟨rfl, rfl⟩
      · show i < j; omega
  complete := by
    intro k hk o1 o2
    refine ⟨(k.2 0, k.2 1, k.1 0, k.1 1, ()), ?_, Prod.ext (fun2_ext rfl rfl) (fun2_ext rfl rfl)⟩
    simp only [items2, mem_pairs, mem_do, List.mem_singleton, and_true]
    have a101 : k.1 0 < k.1 1 := o1 0 1 (by decide) rfl
    have a201 : k.2 0 < k.2 1 := o2 0 1 (by decide) rfl
    have b0 : 1 ≤ k.1 0 ∧ k.1 0 ≤ nv s := hk.1 0
    have c0 : 1 ≤ k.2 0 ∧ k.2 0 ≤ no s := hk.2 0
    have b1 : 1 ≤ k.1 1 ∧ k.1 1 ≤ nv s := hk.1 1
    have c1 : 1 ≤ k.2 1 ∧ k.2 1 ≤ no s := hk.2 1
    omega

theorem visitsL2b (nv no : Bool → ℕ) :
    Visits id ![false, true] ![false, true] nv no (items2b (no false) (nv false) (no true) (nv true)) key2b where
  inj := Function.injective_id
  sorted := by decide
  nodup := by
    refine (nodup_items2b _ _ _ _).map ?_
    rintro ⟨i, j, a, b, ⟨⟩⟩ ⟨i', j', a', b', ⟨⟩⟩ h
    simp only [key2b, Prod.mk.injEq] at h
    have h1 := congrFun h.1 0
    have h2 := congrFun h.1 1
    have h3 := congrFun h.2 0
    have h4 := congrFun h.2 1
    simp at h1 h2 h3 h4
    simp [h1, h2, h3, h4]
  ordered := by
    rintro ⟨j, i, b, a, ⟨⟩⟩ hx
    simp only [items2b, mem_pairs, mem_do, List.mem_singleton, and_true] at hx
    refine ⟨⟨?_, ?_⟩, ?_, ?_⟩
    · intro l; match l with
      | 0 => show 1 ≤ a ∧ a ≤ nv false; omega
      | 1 => show 1 ≤ b ∧ b ≤ nv true; omega
    · intro l; match l with
      | 0 => show 1 ≤ i ∧ i ≤ no false; omega
      | 1 => show 1 ≤ j ∧ j ≤ no true; omega
    · intro l l' h e
      rcases lt_fin2 h with ⟨rfl, rfl⟩
      · simp at e
    · intro l l' h e
      rcases lt_fin2 h with ⟨rfl, rfl⟩
      · simp at e
  complete := by
    intro k hk o1 o2
    refine ⟨(k.2 1, k.2 0, k.1 1, k.1 0, ()), ?_, Prod.ext (fun2_ext rfl rfl) (fun2_ext rfl rfl)⟩
    simp only [items2b, mem_pairs, mem_do, List.mem_singleton, and_true]
    have b0 : 1 ≤ k.1 0 ∧ k.1 0 ≤ nv false := hk.1 0
    have c0 : 1 ≤ k.2 0 ∧ k.2 0 ≤ no false := hk.2 0
    have b1 : 1 ≤ k.1 1 ∧ k.1 1 ≤ nv true := hk.1 1
    have c1 : 1 ≤ k.2 1 ∧ k.2 1 ≤ no true := hk.2 1
    omega

theorem visitsL3 (s : Bool) (nv no : Bool → ℕ) :
    Visits id ![s, s, s] ![s, s, s] nv no (items3 (no s) (nv s)) keyL3 where
  inj := Function.injective_id
  sorted := by revert s; decide
  nodup := by
    refine (nodup_items3 _ _).map ?_
    rintro ⟨i, j, k, a, b, c, ⟨⟩⟩ ⟨i', j', k', a', b', c', ⟨⟩⟩ h
    simp only [keyL3, Prod.mk.injEq] at h
    have h1 := congrFun h.1 0
    have h2 := congrFun h.1 1
    have h3 := congrFun h.1 2
    have h4 := congrFun h.2 0
    have h5 := congrFun h.2 1
    have h6 := congrFun h.2 2
    simp at h1 h2 h3 h4 h5 h6
    simp [h1, h2, h3, h4, h5, h6]
  ordered := by
    rintro ⟨i, j, k, a, b, c, ⟨⟩⟩ hx
    simp only [items3, mem_pairs, mem_do, List.mem_singleton, and_true] at hx
    refine ⟨⟨?_, ?_⟩, ?_, ?_⟩
    · intro l; match l with
      | 0 => show 1 ≤ a ∧ a ≤ nv s; omega
      | 1 => show 1 ≤ b ∧ b ≤ nv s; omega
      | 2 => show 1 ≤ c ∧ c ≤ nv s; omega
    · intro l; match l with
      | 0 => show 1 ≤ i ∧ i ≤ no s; omega
      | 1 => show 1 ≤ j ∧ j ≤ no s; omega
      | 2 => show 1 ≤ k ∧ k ≤ no s; omega
    · intro l l' h e
      rcases lt_fin3 h with ⟨rfl, rfl⟩ | ⟨rfl, rfl⟩ | ⟨rfl, rfl⟩
      · show a < b; omega
      · show a < c; omega
      · show b < c; omega
    · intro l l' h e
      rcases lt_fin3 h with ⟨rfl, rfl⟩ | ⟨rfl, rfl⟩ | ⟨rfl, rfl⟩
      · show i < j; omega
      · show i < k; omega
      · show j < k; omega
  complete := by
    intro k hk o1 o2
    refine ⟨(k.2 0, k.2 1, k.2 2, k.1 0, k.1 1, k.1 2, ()), ?_, Prod.ext (fun3_ext rfl rfl rfl) (fun3_ext rfl rfl rfl)⟩
    simp only [items3, mem_pairs, mem_do, List.mem_singleton, and_true]
    have a101 : k.1 0 < k.1 1 := o1 0 1 (by decide) rfl
    have a102 : k.1 0 < k.1 2 := o1 0 2 (by decide) rfl
    have a112 : k.1 1 < k.1 2 := o1 1 2 (by decide) rfl
    have a201 : k.2 0 < k.2 1 := o2 0 1 (by decide) rfl
    have a202 : k.2 0 < k.2 2 := o2 0 2 (by decide) rfl
    have a212 : k.2 1 < k.2 2 := o2 1 2 (by decide) rfl
    have b0 : 1 ≤ k.1 0 ∧ k.1 0 ≤ nv s := hk.1 0
    have c0 : 1 ≤ k.2 0 ∧ k.2 0 ≤ no s := hk.2 0
    have b1 : 1 ≤ k.1 1 ∧ k.1 1 ≤ nv s := hk.1 1
    have c1 : 1 ≤ k.2 1 ∧ k.2 1 ≤ no s := hk.2 1
    have b2 : 1 ≤ k.1 2 ∧ k.1 2 ≤ nv s := hk.1 2
    have c2 : 1 ≤ k.2 2 ∧ k.2 2 ≤ no s := hk.2 2
    omega

theorem visitsL3b (nv no : Bool → ℕ) :
    Visits id ![false, false, true] ![false, false, true] nv no (items3b (no false) (nv false) (no true) (nv true)) keyL3 where
  inj := Function.injective_id
  sorted := by decide
  nodup := by
    refine (nodup_items3b _ _ _ _).map ?_
    rintro ⟨i, j, k, a, b, c, ⟨⟩⟩ ⟨i', j', k', a', b', c', ⟨⟩⟩ h
    simp only [keyL3, Prod.mk.injEq] at h
    have h1 := congrFun h.1 0
    have h2 := congrFun h.1 1
    have h3 := congrFun h.1 2
    have h4 := congrFun h.2 0
    have h5 := congrFun h.2 1
    have h6 := congrFun h.2 2
    simp at h1 h2 h3 h4 h5 h6
    simp [h1, h2, h3, h4, h5, h6]
  ordered := by
    rintro ⟨i, j, k, a, b, c, ⟨⟩⟩ hx
    simp only [items3b, mem_pairs, mem_do, List.mem_singleton, and_true] at hx
    refine ⟨⟨?_, ?_⟩, ?_, ?_⟩
    · intro l; match l with
      | 0 => show 1 ≤ a ∧ a ≤ nv false; omega
      | 1 => show 1 ≤ b ∧ b ≤ nv false; omega
      | 2 => show 1 ≤ c ∧ c ≤ nv true; omega
    · intro l; match l with
      | 0 => show 1 ≤ i ∧ i ≤ no false; omega
      | 1 => show 1 ≤ j ∧ j ≤ no false; omega
      | 2 => show 1 ≤ k ∧ k ≤ no true; omega
    · intro l l' h e
      rcases lt_fin3 h with ⟨rfl, rfl⟩ | ⟨rfl, rfl⟩ | ⟨rfl, rfl⟩
      · show a < b; omega
      · simp at e
      · simp at e
    · intro l l' h e
      rcases lt_fin3 h with ⟨rfl, rfl⟩ | ⟨rfl, rfl⟩ | ⟨rfl, rfl⟩
      · show i < j; omega
      · simp at e
      · simp at e
  complete := by
    intro k hk o1 o2
    refine ⟨(k.2 0, k.2 1, k.2 2, k.1 0, k.1 1, k.1 2, ()), ?_, Prod.ext (fun3_ext rfl rfl rfl) (fun3_ext rfl rfl rfl)⟩
    simp only [items3b, mem_pairs, mem_do, List.mem_singleton, and_true]
    have a101 : k.1 0 < k.1 1 := o1 0 1 (by decide) rfl
    have a201 : k.2 0 < k.2 1 := o2 0 1 (by decide) rfl
    have b0 : 1 ≤ k.1 0 ∧ k.1 0 ≤ nv false := hk.1 0
    have c0 : 1 ≤ k.2 0 ∧ k.2 0 ≤ no false := hk.2 0
    have b1 : 1 ≤ k.1 1 ∧ k.1 1 ≤ nv false := hk.1 1
    have c1 : 1 ≤ k.2 1 ∧ k.2 1 ≤ no false := hk.2 1
    have b2 : 1 ≤ k.1 2 ∧ k.1 2 ≤ nv true := hk.1 2
    have c2 : 1 ≤ k.2 2 ∧ k.2 2 ≤ no true := hk.2 2
    omega

theorem visitsL3c (nv no : Bool → ℕ) :
    Visits id ![false, true, true] ![false, true, true] nv no (items3c (no false) (nv false) (no true) (nv true)) keyL3 where
  inj := Function.injective_id
  sorted := by decide
  nodup := by
    refine (nodup_items3c _ _ _ _).map ?_
    rintro ⟨i, j, k, a, b, c, ⟨⟩⟩ ⟨i', j', k', a', b', c', ⟨⟩⟩ h
    simp only [keyL3, Prod.mk.injEq] at h
    have h1 := congrFun h.1 0
    have h2 := congrFun h.1 1
    have h3 := congrFun h.1 2
    have h4 := congrFun h.2 0
    have h5 := congrFun h.2 1
    have h6 := congrFun h.2 2
    simp at h1 h2 h3 h4 h5 h6
    simp [h1, h2, h3, h4, h5, h6]
  ordered := by
    rintro ⟨i, j, k, a, b, c, ⟨⟩⟩ hx
    simp only [items3c, mem_pairs, mem_do, List.mem_singleton, and_true] at hx
    refine ⟨⟨?_, ?_⟩, ?_, ?_⟩
    · intro l; match l with
      | 0 => show 1 ≤ a ∧ a ≤ nv false; omega
      | 1 => show 1 ≤ b ∧ b ≤ nv true; omega
      | 2 => show 1 ≤ c ∧ c ≤ nv true; omega
    · intro l; match l with
      | 0 => show 1 ≤ i ∧ i ≤ no false; omega
      | 1 => show 1 ≤ j ∧ j ≤ no true; omega
      | 2 => show 1 ≤ k ∧ k ≤ no true; omega
    · intro l l' h e
      rcases lt_fin3 h with ⟨rfl, rfl⟩ | ⟨rfl, rfl⟩ | ⟨rfl, rfl⟩
      · simp at e
      · simp at e
      · show b < c; omega
    · intro l l' h e
      rcases lt_fin3 h with ⟨rfl, rfl⟩ | ⟨rfl, rfl⟩ | ⟨rfl, rfl⟩
      · simp at e
      · simp at e
      · show j < k; omega
  complete := by
    intro k hk o1 o2
    refine ⟨(k.2 0, k.2 1, k.2 2, k.1 0, k.1 1, k.1 2, ()), ?_, Prod.ext (fun3_ext rfl rfl rfl) (fun3_ext rfl rfl rfl)⟩
    simp only [items3c, mem_pairs, mem_do, List.mem_singleton, and_true]
    have a112 : k.1 1 < k.1 2 := o1 1 2 (by decide) rfl
    have a212 : k.2 1 < k.2 2 := o2 1 2 (by decide) rfl
    have b0 : 1 ≤ k.1 0 ∧ k.1 0 ≤ nv false := hk.1 0
    have c0 : 1 ≤ k.2 0 ∧ k.2 0 ≤ no false := hk.2 0
    have b1 : 1 ≤ k.1 1 ∧ k.1 1 ≤ nv true := hk.1 1
    have c1 : 1 ≤ k.2 1 ∧ k.2 1 ≤ no true := hk.2 1
    have b2 : 1 ≤ k.1 2 ∧ k.1 2 ≤ nv true := hk.1 2
    have c2 : 1 ≤ k.2 2 ∧ k.2 2 ≤ no true := hk.2 2
    omega

/-! ### lists -/

theorem copiesL2_at (x : It4) :
    (keyL2 x, 1) :: copiesL2a x.2.2.1 x.2.2.2.1 x.1 x.2.1 = At (keyL2 x) pattern4 := by
  simp [At, pattern4, copiesL2a, keyL2, vec_comp2]
theorem copiesXL2_at (x : It4) :
    (keyL2 x, 1) :: copiesXL2a x.2.2.1 x.2.2.2.1 x.1 x.2.1 = At (keyL2 x) pattern4 := by
  simp [At, pattern4, copiesXL2a, keyL2, vec_comp2]
theorem copiesL3_at (x : It6) :
    (keyL3 x, 1) :: copiesL3a x.2.2.2.1 x.2.2.2.2.1 x.2.2.2.2.2.1 x.1 x.2.1 x.2.2.1 =
      At (keyL3 x) patCopies3 := by
  simp [At, patCopies3, prodPat, copiesL3a, keyL3, vec_comp3]
theorem setXL3_at (x : It6) :
    setXL3a x.2.2.2.1 x.2.2.2.2.1 x.2.2.2.2.2.1 x.1 x.2.1 x.2.2.1 = At (keyL3 x) patResids3 := by
  simp [At, patResids3, prodPat, setXL3a, keyL3, vec_comp3]
theorem copiesL3b_at (x : It6) :
    (keyL3 x, 1) :: copiesL3b x.2.2.2.1 x.2.2.2.2.1 x.2.2.2.2.2.1 x.1 x.2.1 x.2.2.1 =
      At (keyL3 x) patternAab := by
  simp [At, patternAab, copiesL3b, keyL3, vec_comp3]
theorem setXL3b_at (x : It6) :
    setXL3b x.2.2.2.1 x.2.2.2.2.1 x.2.2.2.2.2.1 x.1 x.2.1 x.2.2.1 = At (keyL3 x) patternAab := by
  simp [At, patternAab, setXL3b, keyL3, vec_comp3]
theorem copiesL3c_at (x : It6) :
    (keyL3 x, 1) :: copiesL3c x.2.2.2.1 x.2.2.2.2.1 x.2.2.2.2.2.1 x.1 x.2.1 x.2.2.1 =
      At (keyL3 x) patternAbb := by
  simp [At, patternAbb, copiesL3c, keyL3, vec_comp3]
theorem setXL3c_at (x : It6) :
    setXL3c x.2.2.2.1 x.2.2.2.2.1 x.2.2.2.2.2.1 x.1 x.2.1 x.2.2.1 = At (keyL3 x) patternAbb := by
  simp [At, patternAbb, setXL3c, keyL3, vec_comp3]

/-! ### loop bodies and kernels -/

section
variable {m n : ℕ} {R : Type*} [Field R] {α : Type*} [LinearOrder α]

theorem at_ne {sp : Fin m → Bool} {sh : Fin n → Bool} {pat : Pattern m n}
    (hp : Lists sp sh pat) {k : (Fin m → ℕ) × (Fin n → ℕ)}
    (hf : Free (SpinExchange sp sh) k.1 k.2) {cs : List (((Fin m → ℕ) × (Fin n → ℕ)) × ℤ)}
    (hcs : (k, 1) :: cs = At k pat) : ∀ c ∈ cs, c.1 ≠ k := by
  have hnd : (((k, (1 : ℤ)) :: cs).map Prod.fst).Nodup := by
    rw [hcs, At, List.map_map]
    refine (List.nodup_map_iff_inj_on hp.nodup).mpr ?_
    intro e he e' he' h
    obtain ⟨g, hg, rfl⟩ := hp.only e he
    obtain ⟨g', hg', rfl⟩ := hp.only e' he'
    simp only [Function.comp, Prod.mk.injEq] at h
    rw [free_unique (isGroup_spinExchange sp sh) hf hg hg' h.1 h.2]
  intro c hc h
  rw [List.map_cons, List.nodup_cons] at hnd
  exact hnd.1 (List.mem_map.mpr ⟨c, hc, h⟩)

theorem copyFrom_stores {sp : Fin m → Bool} {sh : Fin n → Bool} {pat : Pattern m n}
    (hp : Lists sp sh pat) {k : (Fin m → ℕ) × (Fin n → ℕ)}
    (hf : Free (SpinExchange sp sh) k.1 k.2) {cs : List (((Fin m → ℕ) × (Fin n → ℕ)) × ℤ)}
    (hcs : (k, 1) :: cs = At k pat) (t : (Fin m → ℕ) × (Fin n → ℕ) → R) (x : R) :
    StoresAmplitude (SpinExchange sp sh) k.1 k.2 x t (copyFrom k cs (Function.update t k x)) := by
  rw [copyFrom_update k cs t _ (at_ne hp hf hcs), hcs]
  exact covers_stores (isGroup_spinExchange sp sh) (covers_at hp k _) hf t

theorem setSigned_stores {sp : Fin m → Bool} {sh : Fin n → Bool} {pat : Pattern m n}
    (hp : Lists sp sh pat) {k : (Fin m → ℕ) × (Fin n → ℕ)}
    (hf : Free (SpinExchange sp sh) k.1 k.2) {cs : List (((Fin m → ℕ) × (Fin n → ℕ)) × ℤ)}
    (hcs : cs = At k pat) (t : (Fin m → ℕ) × (Fin n → ℕ) → R) (x : R) :
    StoresAmplitude (SpinExchange sp sh) k.1 k.2 x t (setSigned x cs t) := by
  rw [setSigned, hcs]
  exact covers_stores (isGroup_spinExchange sp sh) (covers_at hp k _) hf t

theorem storeLeft_stores {sp : Fin m → Bool} {sh : Fin n → Bool} {pat pat' : Pattern m n}
    (hp : Lists sp sh pat) (hp' : Lists sp sh pat') {k : (Fin m → ℕ) × (Fin n → ℕ)}
    (hf : Free (SpinExchange sp sh) k.1 k.2) {cs cs' : List (((Fin m → ℕ) × (Fin n → ℕ)) × ℤ)}
    (hcs : (k, 1) :: cs = At k pat) (hcs' : (k, 1) :: cs' = At k pat') {d d' : R} (hd : d = d')
    (omega shift : R)
    (s : ((Fin m → ℕ) × (Fin n → ℕ) → R) × ((Fin m → ℕ) × (Fin n → ℕ) → R)) :
    StoresAmplitude (SpinExchange sp sh) k.1 k.2
        (s.1 k + (omega * s.1 k - s.2 k) / (d' - omega + shift)) s.1
        (storeLeft k d omega shift cs cs' s).1 ∧
      StoresAmplitude (SpinExchange sp sh) k.1 k.2
        ((omega * s.1 k - s.2 k) / (d' - omega + shift)) s.2
        (storeLeft k d omega shift cs cs' s).2 := by
  subst hd
  exact ⟨copyFrom_stores hp hf hcs s.1 _, copyFrom_stores hp' hf hcs' s.2 _⟩

theorem storeLeftVal_stores {sp : Fin m → Bool} {sh : Fin n → Bool} {pat pat' : Pattern m n}
    (hp : Lists sp sh pat) (hp' : Lists sp sh pat') {k : (Fin m → ℕ) × (Fin n → ℕ)}
    (hf : Free (SpinExchange sp sh) k.1 k.2) {cs cs' : List (((Fin m → ℕ) × (Fin n → ℕ)) × ℤ)}
    (hcs : (k, 1) :: cs = At k pat) (hcs' : cs' = At k pat') {d d' : R} (hd : d = d')
    (omega shift : R)
    (s : ((Fin m → ℕ) × (Fin n → ℕ) → R) × ((Fin m → ℕ) × (Fin n → ℕ) → R)) :
    StoresAmplitude (SpinExchange sp sh) k.1 k.2
        (s.1 k + (omega * s.1 k - s.2 k) / (d' - omega + shift)) s.1
        (storeLeftVal k d omega shift cs cs' s).1 ∧
      StoresAmplitude (SpinExchange sp sh) k.1 k.2
        ((omega * s.1 k - s.2 k) / (d' - omega + shift)) s.2
        (storeLeftVal k d omega shift cs cs' s).2 := by
  subst hd
  exact ⟨copyFrom_stores hp hf hcs s.1 _, setSigned_stores hp' hf hcs' s.2 _⟩

variable [CharZero R]

theorem leftStep_of {ι : Type*} {e : ℕ → α} {sp : Fin m → Bool} {sh : Fin n → Bool}
    {nv no : Bool → ℕ} {items : List ι} {key : ι → (Fin m → ℕ) × (Fin n → ℕ)}
    (hv : Visits e sp sh nv no items key) {eo ev : Bool → ℕ → R} {omega shift : R}
    {L X : (Fin m → ℕ) × (Fin n → ℕ) → R} (hL : AntisymUnder (SpinExchange sp sh) L)
    (hX : AntisymUnder (SpinExchange sp sh) X)
    (hden : ∀ k, InRange sp sh nv no k → -energyDifference sp sh eo ev k - omega + shift ≠ 0)
    {step : ι → ((Fin m → ℕ) × (Fin n → ℕ) → R) × ((Fin m → ℕ) × (Fin n → ℕ) → R) →
      ((Fin m → ℕ) × (Fin n → ℕ) → R) × ((Fin m → ℕ) × (Fin n → ℕ) → R)}
    (hstep : ∀ x, Free (SpinExchange sp sh) (key x).1 (key x).2 → ∀ s,
      StoresAmplitude (SpinExchange sp sh) (key x).1 (key x).2
        (s.1 (key x) + (omega * s.1 (key x) - s.2 (key x)) /
          (-energyDifference sp sh eo ev (key x) - omega + shift)) s.1 (step x s).1 ∧
      StoresAmplitude (SpinExchange sp sh) (key x).1 (key x).2
        ((omega * s.1 (key x) - s.2 (key x)) /
          (-energyDifference sp sh eo ev (key x) - omega + shift)) s.2 (step x s).2)
    {res : ((Fin m → ℕ) × (Fin n → ℕ) → R) × ((Fin m → ℕ) × (Fin n → ℕ) → R)}
    (hres : res = items.foldl (fun s x => step x s) (L, X)) :
    LeftStep sp sh nv no eo ev omega shift X L res.1 res.2 := by
  have hG := isGroup_spinExchange sp sh
  let d : ι → R := fun x => -energyDifference sp sh eo ev (key x) - omega + shift
  obtain ⟨s1, s2⟩ := pairSweep hG key (fun x a b => a + (omega * a - b) / d x)
    (fun x a b => (omega * a - b) / d x) step items
    (fun x hx s => by
      obtain ⟨_, a, b⟩ := hv.ordered x hx
      exact hstep x (free_orderedVia a b) s) hv.apart (L, X)
  rw [← hres] at s1 s2
  let v : ι → R := fun x => (omega * L (key x) - X (key x)) / d x
  have c1 : ∀ x ∈ items, ∀ g ∈ SpinExchange sp sh,
      res.1 ((key x).1 ∘ g.1, (key x).2 ∘ g.2) = sgn g • (L (key x) + v x) := fun x hx g hg =>
    s1.stored _ (List.mem_map.mpr ⟨x, hx, rfl⟩) g hg
  have c2 : ∀ x ∈ items, ∀ g ∈ SpinExchange sp sh,
      res.2 ((key x).1 ∘ g.1, (key x).2 ∘ g.2) = sgn g • v x := fun x hx g hg =>
    s2.stored _ (List.mem_map.mpr ⟨x, hx, rfl⟩) g hg
  have u1 : ∀ k, (∀ x ∈ items, ∀ g ∈ SpinExchange sp sh,
      k ≠ ((key x).1 ∘ g.1, (key x).2 ∘ g.2)) → res.1 k = L k := fun k h =>
    s1.untouched k (fun e he g hg => by
      obtain ⟨x, hx, rfl⟩ := List.mem_map.mp he
      exact h x hx g hg)
  have u2 : ∀ k, (∀ x ∈ items, ∀ g ∈ SpinExchange sp sh,
      k ≠ ((key x).1 ∘ g.1, (key x).2 ∘ g.2)) → res.2 k = X k := fun k h =>
    s2.untouched k (fun e he g hg => by
      obtain ⟨x, hx, rfl⟩ := List.mem_map.mp he
      exact h x hx g hg)
  have hL' : AntisymUnder (SpinExchange sp sh) res.1 := s1.antisym hL
  have hX' : AntisymUnder (SpinExchange sp sh) res.2 := s2.antisym hX
  refine ⟨?_, ?_, ?_, hL', hX'⟩
  · intro k hk
    rcases hv.cases hk with hrep | ⟨x, hx, g, hg, rfl⟩
    · rw [antisym_zero hL' hrep, antisym_zero hL hrep, antisym_zero hX hrep]; ring
    · rw [c1 x hx g hg, energyDifference_exchange eo ev hg]
      have e1 : L ((key x).1 ∘ ⇑g.1, (key x).2 ∘ ⇑g.2) = sgn g • L (key x) := hL g hg _ _
      have e2 : X ((key x).1 ∘ ⇑g.1, (key x).2 ∘ ⇑g.2) = sgn g • X (key x) := hX g hg _ _
      rw [e1, e2, smul_add, add_sub_cancel_left]
      have hne := hden (key x) (hv.ordered x hx).1
      rw [mul_smul_comm]
      show sgn g • (d x * ((omega * L (key x) - X (key x)) / d x)) = _
      rw [mul_div_cancel₀ _ hne, mul_smul_comm, smul_sub]
  · intro k hk
    rcases hv.cases hk with hrep | ⟨x, hx, g, hg, rfl⟩
    · rw [antisym_zero hL' hrep, antisym_zero hL hrep, antisym_zero hX' hrep, sub_zero]
    · have e1 : L ((key x).1 ∘ ⇑g.1, (key x).2 ∘ ⇑g.2) = sgn g • L (key x) := hL g hg _ _
      rw [c1 x hx g hg, c2 x hx g hg, e1, smul_add, add_sub_cancel_left]
  · intro k hk
    have : ∀ x ∈ items, ∀ g ∈ SpinExchange sp sh, k ≠ ((key x).1 ∘ g.1, (key x).2 ∘ g.2) := by
      intro x hx g hg h
      apply hk
      rw [h]
      exact inRange_exchange hg (hv.ordered x hx).1
    exact ⟨u1 k this, u2 k this⟩

end

end Ccpy.UpdateKernels
