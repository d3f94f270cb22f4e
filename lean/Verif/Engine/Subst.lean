import Verif.Engine.Fold

/-! Replacing stored arrays of a tensor expression by expressions with the same elements. -/

namespace Ccpy.Engine

open Ccpy.Tensor

variable {I : ℕ → List (ℕ × ℕ) → ℚ} {dim : ℕ → ℕ}

/-- Two expressions have the same shape and the same elements. -/
structure Like (dim : ℕ → ℕ) (I : ℕ → List (ℕ × ℕ) → ℚ) (x y : Ex) : Prop where
  axes : x.axes.map dim = y.axes.map dim
  value : ∀ idx, idx.length = y.axes.length → x.denote dim I idx = y.denote dim I idx

theorem Like.refl (x : Ex) : Like dim I x x := ⟨rfl, fun _ _ => rfl⟩

/-- The labels with the lengths of their spaces. -/
def sized (dim : ℕ → ℕ) (m : List (ℕ × ℕ)) : List (ℕ × ℕ) := m.map fun e => (e.1, dim e.2)

theorem look_sized {m m' : List (ℕ × ℕ)} (h : sized dim m = sized dim m') (c : ℕ) : dim (look m c) = dim (look m' c) := by
  induction m generalizing m' with
  | nil =>
    cases m' with
    | nil => rfl
    | cons e m' => exact absurd h (by simp [sized])
  | cons e m ih =>
    cases m' with
    | nil => exact absurd h (by simp [sized])
    | cons e' m' =>
      obtain ⟨a, b⟩ := e
      obtain ⟨a', b'⟩ := e'
      simp only [sized, List.map_cons, List.cons.injEq, Prod.mk.injEq] at h
      obtain ⟨⟨rfl, hb⟩, hm⟩ := h
      rw [look_cons, look_cons]
      split
      · exact hb
      · exact ih hm

theorem sized_zip (l : List ℕ) {s s' : List ℕ} (h : s.map dim = s'.map dim) : sized dim (l.zip s) = sized dim (l.zip s') := by
  induction l generalizing s s' with
  | nil => rfl
  | cons c l ih =>
    cases s with
    | nil =>
      cases s' with
      | nil => rfl
      | cons x s' => exact absurd h (by simp)
    | cons x s =>
      cases s' with
      | nil => exact absurd h (by simp)
      | cons x' s' =>
        simp only [List.map_cons, List.cons.injEq] at h
        have := ih h.2
        simp only [sized, List.zip_cons_cons, List.map_cons, h.1] at this ⊢
        rw [this]

theorem sumLetters_sized (m : List (ℕ × ℕ)) (g : (ℕ → ℕ) → ℚ) (ε : ℕ → ℕ) :
    sumLetters dim m g ε = sumLetters id (sized dim m) g ε := by
  induction m generalizing ε with
  | nil => rfl
  | cons e m ih =>
    obtain ⟨c, s⟩ := e
    show _ = ∑ k ∈ Finset.range (id (dim s)), sumLetters id (sized dim m) g (Function.update ε c k)
    rw [sumLetters]
    exact Finset.sum_congr rfl fun k _ => ih _

theorem sumLetters_like {m m' : List (ℕ × ℕ)} (h : sized dim m = sized dim m') {g g' : (ℕ → ℕ) → ℚ} (hg : ∀ ε, g ε = g' ε)
    (ε : ℕ → ℕ) : sumLetters dim m g ε = sumLetters dim m' g' ε := by
  rw [sumLetters_sized, sumLetters_sized m', h, funext hg]

section
variable {φ φ' : ℕ → List ℕ → Ex} (h : ∀ n sp, Like dim I (φ n sp) (φ' n sp))
include h

mutual
theorem subst_axes : ∀ x : Ex, (foldE φ x).axes.map dim = (foldE φ' x).axes.map dim
  | .arr n sp => (h n sp).axes
  | .es out b => by
    have e : ∀ f, foldE f (.es out b) = .es out (foldB f b) := fun _ => rfl
    rw [e, e, Ex.axes, Ex.axes, List.map_map, List.map_map]
    exact List.map_congr_left fun c _ => look_sized (subst_letters b) c
  | .add x y => subst_axes x
  | .smul a n d x => subst_axes x
theorem subst_letters : ∀ b : Body, sized dim (foldB φ b).letters = sized dim (foldB φ' b).letters
  | .nil => rfl
  | .cons l x r => by
    have e : ∀ f, foldB f (.cons l x r) = .cons l (foldE f x) (foldB f r) := fun _ => rfl
    have a : ∀ m m', sized dim (m ++ m') = sized dim m ++ sized dim m' := fun m m' => List.map_append
    rw [e, e, Body.letters, Body.letters, a, a, subst_letters r, sized_zip l (subst_axes x)]
end

mutual
theorem subst_denote : ∀ x : Ex, (foldE φ' x).ok = true → ∀ idx, idx.length = (foldE φ' x).axes.length →
    (foldE φ x).denote dim I idx = (foldE φ' x).denote dim I idx
  | .arr n sp, _, idx, hl => (h n sp).value idx hl
  | .es out b, hok, idx, hl => by
    have e : ∀ f, foldE f (.es out b) = .es out (foldB f b) := fun _ => rfl
    rw [e, Ex.ok, Bool.and_eq_true, Bool.and_eq_true] at hok
    rw [e, e, Ex.denote, Ex.denote]
    refine sumLetters_like ?_ (subst_body b hok.1.1) _
    have s : ∀ m, sized dim (summed m out) = summed (sized dim m) out := fun m => (summed_map (σ := dim) m out).symm
    rw [s, s, subst_letters h b]
  | .add x y, hok, idx, hl => by
    have e : ∀ f, foldE f (.add x y) = .add (foldE f x) (foldE f y) := fun _ => rfl
    rw [e, Ex.ok, Bool.and_eq_true, Bool.and_eq_true] at hok
    rw [e, Ex.axes] at hl
    have hy : idx.length = (foldE φ' y).axes.length := by rw [hl, beq_iff_eq.1 hok.2]
    rw [e, e, Ex.denote, Ex.denote, subst_denote x hok.1.1 idx hl, subst_denote y hok.1.2 idx hy]
  | .smul a n d x, hok, idx, hl => by
    have e : ∀ f, foldE f (.smul a n d x) = .smul a n d (foldE f x) := fun _ => rfl
    rw [e, Ex.ok] at hok
    rw [e, Ex.axes] at hl
    rw [e, e, Ex.denote, Ex.denote, subst_denote x hok idx hl]
theorem subst_body : ∀ b : Body, (foldB φ' b).ok = true → ∀ ε, (foldB φ b).denote dim I ε = (foldB φ' b).denote dim I ε
  | .nil, _, ε => rfl
  | .cons l x r, hok, ε => by
    have e : ∀ f, foldB f (.cons l x r) = .cons l (foldE f x) (foldB f r) := fun _ => rfl
    rw [e, Body.ok, Bool.and_eq_true, Bool.and_eq_true] at hok
    have hl : (l.map ε).length = (foldE φ' x).axes.length := by rw [List.length_map, beq_iff_eq.1 hok.1.2]
    rw [e, e, Body.denote, Body.denote, subst_denote x hok.1.1 _ hl, subst_body r hok.2]
end

end

/-! ### Expressions that do not contain some arrays -/

mutual
/-- All arrays have names below `n`. -/
def belowE (n : ℕ) : Ex → Bool
  | .arr k _ => decide (k < n)
  | .es _ b => belowB n b
  | .add x y => belowE n x && belowE n y
  | .smul _ _ _ x => belowE n x
def belowB (n : ℕ) : Body → Bool
  | .nil => true
  | .cons _ x r => belowE n x && belowB n r
end

section
variable {I' : ℕ → List (ℕ × ℕ) → ℚ} {n : ℕ} (h : ∀ k, k < n → I k = I' k)
include h

mutual
theorem below_denote : ∀ x : Ex, belowE n x = true → ∀ idx, x.denote dim I idx = x.denote dim I' idx
  | .arr k sp, hb, idx => by
    rw [belowE, decide_eq_true_eq] at hb
    rw [Ex.denote, Ex.denote, h k hb]
  | .es out b, hb, idx => by
    rw [belowE] at hb
    rw [Ex.denote, Ex.denote, funext (below_body b hb)]
  | .add x y, hb, idx => by
    rw [belowE, Bool.and_eq_true] at hb
    rw [Ex.denote, Ex.denote, below_denote x hb.1, below_denote y hb.2]
  | .smul a n d x, hb, idx => by
    rw [belowE] at hb
    rw [Ex.denote, Ex.denote, below_denote x hb]
theorem below_body : ∀ b : Body, belowB n b = true → ∀ ε, b.denote dim I ε = b.denote dim I' ε
  | .nil, _, ε => rfl
  | .cons l x r, hb, ε => by
    rw [belowB, Bool.and_eq_true] at hb
    rw [Body.denote, Body.denote, below_denote x hb.1, below_body r hb.2]
end

end

end Ccpy.Engine
