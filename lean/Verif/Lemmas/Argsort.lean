import Verif.Model.Argsort
import Mathlib.Data.List.Perm.Basic
import Mathlib.Data.Nat.Basic
import Mathlib.Tactic.Ring
import Mathlib.Algebra.Order.Group.Nat

namespace Ccpy.Argsort

variable {α : Type*}

/-- `before` behaves like the strict part of a total preorder. -/
structure Total (before : α → α → Bool) : Prop where
  asymm : ∀ x y, before x y = true → before y x = false
  trans : ∀ x y z, before y x = false → before z y = false → before z x = false

/-- `i` may stand before `j`. -/
def Ok (before : α → α → Bool) (r : ℕ → α) (i j : ℕ) : Prop := before (r j) (r i) = false

variable {before : α → α → Bool} {r : ℕ → α}

theorem mergeRuns_perm (fuel : ℕ) (l m : List ℕ) : (mergeRuns before r fuel l m).Perm (l ++ m) := by
  induction fuel generalizing l m with
  | zero => simp [mergeRuns]
  | succ fuel ih =>
    cases l with
    | nil => simp [mergeRuns]
    | cons i l =>
      cases m with
      | nil => simp [mergeRuns]
      | cons j m =>
        simp only [mergeRuns]
        split
        · exact (ih l (j :: m)).cons i
        · exact ((ih (i :: l) m).cons j).trans (List.perm_middle.symm)

theorem mergeRuns_sorted (h : Total before) (fuel : ℕ) (l m : List ℕ)
    (hf : l.length + m.length ≤ fuel) (hl : l.Pairwise (Ok before r)) (hm : m.Pairwise (Ok before r)) :
    (mergeRuns before r fuel l m).Pairwise (Ok before r) := by
  induction fuel generalizing l m with
  | zero =>
    have h1 : l = [] := List.length_eq_zero_iff.mp (by omega)
    have h2 : m = [] := List.length_eq_zero_iff.mp (by omega)
    simp [mergeRuns, h1, h2]
  | succ fuel ih =>
    cases l with
    | nil => simpa [mergeRuns] using hm
    | cons i l =>
      cases m with
      | nil => simpa [mergeRuns] using hl
      | cons j m =>
        simp only [List.length_cons] at hf
        obtain ⟨hi, hl'⟩ := List.pairwise_cons.mp hl
        obtain ⟨hj, hm'⟩ := List.pairwise_cons.mp hm
        simp only [mergeRuns]
        split
        · rename_i hb
          refine List.pairwise_cons.mpr ⟨fun x hx => ?_, ih l (j :: m) (by simp; omega) hl' hm⟩
          have := (mergeRuns_perm fuel l (j :: m)).mem_iff.mp hx
          rcases List.mem_append.mp this with hx | hx
          · exact hi x hx
          · rcases List.mem_cons.mp hx with rfl | hx
            · exact h.asymm _ _ hb
            · exact h.trans _ _ _ (h.asymm _ _ hb) (hj x hx)
        · rename_i hb
          have hb' : before (r i) (r j) = false := by simpa using hb
          refine List.pairwise_cons.mpr ⟨fun x hx => ?_, ih (i :: l) m (by simp; omega) hl hm'⟩
          have := (mergeRuns_perm fuel (i :: l) m).mem_iff.mp hx
          rcases List.mem_append.mp this with hx | hx
          · rcases List.mem_cons.mp hx with rfl | hx
            · exact hb'
            · exact h.trans _ _ _ hb' (hi x hx)
          · exact hj x hx

/-- The pass as a recursion on the list. -/
def passList (before : α → α → Bool) (r : ℕ → α) (s : ℕ) : ℕ → List ℕ → List ℕ
  | 0, d => d
  | fuel + 1, d =>
    if s < d.length then
      mergeRuns before r (min (s * 2) d.length) (d.take s) ((d.drop s).take (min (s * 2) d.length - s))
        ++ passList before r s fuel (d.drop (s * 2))
    else d

theorem passList_nil (s fuel : ℕ) : passList before r s fuel [] = [] := by
  cases fuel <;> simp [passList]

theorem mergeRuns_block_length (s : ℕ) (d : List ℕ) :
    (mergeRuns before r (min (s * 2) d.length) (d.take s)
      ((d.drop s).take (min (s * 2) d.length - s))).length = min (s * 2) d.length := by
  rw [(mergeRuns_perm _ _ _).length_eq]
  simp only [List.length_append, List.length_take, List.length_drop]
  omega

theorem mergePass_eq (n s : ℕ) (fuel left : ℕ) (d : List ℕ) (hd : d.length = n)
    (hl : 1 ≤ left) :
    mergePass before r n s fuel left d
      = d.take (left - 1) ++ passList before r s fuel (d.drop (left - 1)) := by
  induction fuel generalizing left d with
  | zero => simp [mergePass, passList]
  | succ fuel ih =>
    simp only [mergePass, passList, List.length_drop, hd]
    by_cases hc : left + s ≤ n
    · rw [if_pos hc, if_pos (by omega : s < n - (left - 1))]
      have hn : n - left + 1 = n - (left - 1) := by omega
      have hM := mergeRuns_block_length (before := before) (r := r) s (d.drop (left - 1))
      simp only [List.length_drop, hd] at hM
      have hb : mergeBlock before r n s left d = d.take (left - 1) ++
          (mergeRuns before r (min (s * 2) (n - (left - 1))) ((d.drop (left - 1)).take s)
            (((d.drop (left - 1)).drop s).take (min (s * 2) (n - (left - 1)) - s)) ++
            d.drop (left - 1 + min (s * 2) (n - (left - 1)))) := by
        simp only [mergeBlock, hn, List.drop_drop]
      set M := mergeRuns before r (min (s * 2) (n - (left - 1))) ((d.drop (left - 1)).take s)
            (((d.drop (left - 1)).drop s).take (min (s * 2) (n - (left - 1)) - s)) with hMdef
      have htl : (d.take (left - 1)).length = left - 1 := by simp [hd]; omega
      rw [hb, ih _ _ (by simp [hM, htl, hd]; omega) (by omega)]
      by_cases hfull : s * 2 ≤ n - (left - 1)
      · have hk : min (s * 2) (n - (left - 1)) = s * 2 := by omega
        rw [hk] at hM ⊢
        have e : left + s * 2 - 1 = (left - 1) + s * 2 := by omega
        have htake : (d.take (left - 1) ++ (M ++ d.drop (left - 1 + s * 2))).take (left + s * 2 - 1)
            = d.take (left - 1) ++ M := by
          rw [← List.append_assoc]
          exact List.take_left' (by simp [hM, htl, e])
        have hdrop : (d.take (left - 1) ++ (M ++ d.drop (left - 1 + s * 2))).drop (left + s * 2 - 1)
            = d.drop (left - 1 + s * 2) := by
          rw [← List.append_assoc]
          exact List.drop_left' (by simp [hM, htl, e])
        rw [htake, hdrop, List.append_assoc, List.drop_drop]
      · have hk : min (s * 2) (n - (left - 1)) = n - (left - 1) := by omega
        rw [hk] at hM ⊢
        have h1 : d.drop (left - 1 + (n - (left - 1))) = [] := by
          apply List.drop_eq_nil_of_le; omega
        have h2 : (d.drop (left - 1)).drop (s * 2) = [] := by
          rw [List.drop_drop]; apply List.drop_eq_nil_of_le; omega
        rw [h1, h2, passList_nil, List.append_nil]
        have hlen : (d.take (left - 1) ++ M).length ≤ left + s * 2 - 1 := by
          simp only [List.length_append, hM, htl]; omega
        rw [List.take_of_length_le hlen, List.drop_eq_nil_of_le hlen, passList_nil, List.append_nil]
    · rw [if_neg hc, if_neg (by omega), List.take_append_drop]

theorem passList_perm (s fuel : ℕ) (d : List ℕ) : (passList before r s fuel d).Perm d := by
  induction fuel generalizing d with
  | zero => simp [passList]
  | succ fuel ih =>
    simp only [passList]
    split
    · rename_i h
      refine ((mergeRuns_perm _ _ _).append (ih _)).trans ?_
      have hk : (d.drop s).take (min (s * 2) d.length - s) = (d.drop s).take s := by
        apply List.take_eq_take_iff.mpr; simp; omega
      rw [hk]
      have e : d.drop (s * 2) = (d.drop s).drop s := by rw [List.drop_drop]; congr 1; omega
      rw [e, List.append_assoc, List.take_append_drop, List.take_append_drop]
    · exact List.Perm.refl _

/-- Consecutive runs of length `s` are sorted. -/
def Runs (before : α → α → Bool) (r : ℕ → α) (s : ℕ) (d : List ℕ) : Prop :=
  ∀ k, ((d.drop (k * s)).take s).Pairwise (Ok before r)

theorem Runs.drop {s : ℕ} {d : List ℕ} (h : Runs before r s d) (j : ℕ) :
    Runs before r s (d.drop (j * s)) := by
  intro k
  rw [List.drop_drop, ← Nat.add_mul]
  exact h _

theorem passList_runs (ht : Total before) (s fuel : ℕ) (hs : 1 ≤ s) (d : List ℕ)
    (hf : d.length ≤ fuel) (h : Runs before r s d) :
    Runs before r (s * 2) (passList before r s fuel d) := by
  induction fuel generalizing d with
  | zero =>
    have : d = [] := List.length_eq_zero_iff.mp (by omega)
    subst this
    intro k; simp [passList]
  | succ fuel ih =>
    simp only [passList]
    split
    · rename_i hlen
      have hM := mergeRuns_block_length (before := before) (r := r) s d
      have hsorted : (mergeRuns before r (min (s * 2) d.length) (d.take s)
          ((d.drop s).take (min (s * 2) d.length - s))).Pairwise (Ok before r) := by
        apply mergeRuns_sorted ht
        · simp; omega
        · simpa using h 0
        · have := h 1
          rw [Nat.one_mul] at this
          exact this.sublist (List.take_sublist_take_left (by omega))
      have ih' := ih (d.drop (s * 2)) (by simp; omega) (by
        have := h.drop 2
        rwa [Nat.mul_comm] at this)
      generalize hMd : (mergeRuns before r (min (s * 2) d.length) (d.take s)
          ((d.drop s).take (min (s * 2) d.length - s))) = M at *
      by_cases hfull : s * 2 ≤ d.length
      · rw [Nat.min_eq_left hfull] at hM
        intro k
        cases k with
        | zero => simpa [List.take_left' hM] using hsorted
        | succ k =>
          have e : (k + 1) * (s * 2) = s * 2 + k * (s * 2) := by ring
          rw [e, ← List.drop_drop, List.drop_left' hM]
          exact ih' k
      · have hd : d.drop (s * 2) = [] := List.drop_eq_nil_of_le (by omega)
        rw [hd, passList_nil, List.append_nil]
        intro k
        exact hsorted.sublist ((List.take_sublist _ _).trans (List.drop_sublist _ _))
    · rename_i hlen
      intro k
      have h0 := h 0
      rw [Nat.zero_mul, List.drop_zero, List.take_of_length_le (by omega)] at h0
      exact h0.sublist ((List.take_sublist _ _).trans (List.drop_sublist _ _))

theorem sortPasses_spec (ht : Total before) (n fuel s : ℕ) (hs : 1 ≤ s) (d : List ℕ)
    (hd : d.length = n) (hf : n ≤ s + fuel) (h : Runs before r s d) :
    (sortPasses before r n fuel s d).Perm d ∧
      (sortPasses before r n fuel s d).Pairwise (Ok before r) := by
  have hdone : ∀ t (d : List ℕ), d.length = n → n ≤ t → Runs before r t d → d.Pairwise (Ok before r) := by
    intro t d hd ht h
    have := h 0
    rwa [Nat.zero_mul, List.drop_zero, List.take_of_length_le (by omega)] at this
  induction fuel generalizing s d with
  | zero => exact ⟨List.Perm.refl _, hdone s d hd (by omega) h⟩
  | succ fuel ih =>
    simp only [sortPasses]
    split
    · have hp : (mergePass before r n s n 1 d).Perm d := by
        rw [mergePass_eq n s n 1 d hd (le_refl 1)]
        simpa using passList_perm s n d
      have hr : Runs before r (s * 2) (mergePass before r n s n 1 d) := by
        rw [mergePass_eq n s n 1 d hd (le_refl 1)]
        simpa using passList_runs ht s n hs d (by omega) h
      obtain ⟨h1, h2⟩ := ih (s * 2) (by omega) _ (hp.length_eq.trans hd) (by omega) hr
      exact ⟨h1.trans hp, h2⟩
    · exact ⟨List.Perm.refl _, hdone s d hd (by omega) h⟩

theorem argsortBy_spec (ht : Total before) (n : ℕ) (r : ℕ → α) :
    (argsortBy before n r).Perm (List.range' 1 n) ∧
      (argsortBy before n r).Pairwise (Ok before r) := by
  simp only [argsortBy]
  split
  · rename_i h; subst h; simp
  · apply sortPasses_spec ht n n 1 (le_refl 1) _ (by simp) (by omega)
    intro k
    have hlen : ((List.drop (k * 1) (List.range' 1 n)).take 1).length ≤ 1 := by simp
    generalize (List.drop (k * 1) (List.range' 1 n)).take 1 = l at hlen
    match l, hlen with
    | [], _ => simp
    | [x], _ => simp

theorem total_lt [LinearOrder α] : Total (fun x y : α => decide (x < y)) where
  asymm x y h := by simp at *; exact h.le
  trans x y z h1 h2 := by simp at *; exact h1.trans h2

theorem total_gt [LinearOrder α] : Total (fun x y : α => decide (x > y)) where
  asymm x y h := by simp at *; exact h.le
  trans x y z h1 h2 := by simp at *; exact h2.trans h1

end Ccpy.Argsort
