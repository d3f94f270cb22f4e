import Verif.Model.Davidson
import Mathlib.Tactic.Ring
import Mathlib.Tactic.Linarith
import Mathlib.Data.List.Nodup
import Mathlib.Algebra.Module.LinearMap.Basic

/-! Invariants of the Davidson solvers. -/

namespace Ccpy.Davidson

open Finset

variable {V : Type} [AddCommGroup V] [Module ℚ V]

/-- The vector tested for convergence is the error in the eigenvalue equation. -/
theorem residual_eq (H : V →ₗ[ℚ] V) (n : ℕ) (B sigma : ℕ → V) (h : ∀ p < n, sigma p = H (B p)) (alpha : ℕ → ℚ) (e : ℚ) :
    combine n sigma alpha - e • combine n B alpha = H (combine n B alpha) - e • combine n B alpha := by
  congr 1
  unfold combine
  rw [map_sum]
  refine Finset.sum_congr rfl fun p hp => ?_
  rw [map_smul, h p (Finset.mem_range.1 hp)]

/-! ### One root -/

structure Inv (t : Tools V) (H : V →ₗ[ℚ] V) (maxSize : ℕ) (s : State V) : Prop where
  pos : 1 ≤ s.size
  le : s.size ≤ maxSize
  sigma : ∀ p < s.size, s.sigma p = H (s.B p)
  old : ∀ p q, p + 1 < s.size → q + 1 < s.size → s.G p q = t.dot (s.B p) (H (s.B q))
  conv : s.converged = true → ∃ r, s.r = some r ∧ t.norm (H r - s.omega • r) < t.ampTol

theorem inv_start (t : Tools V) (H : V →ₗ[ℚ] V) (hH : ∀ x, t.HR x = H x) {maxSize : ℕ} (h : 0 < maxSize) (b₀ : V) (omega : ℚ) :
    Inv t H maxSize (start t b₀ omega) := by
  refine ⟨le_refl _, h, ?_, ?_, ?_⟩
  · intro p hp
    have : p = 0 := by simpa [start] using hp
    subst this
    simp [start, setRow, hH]
  · intro p q hp
    simp [start] at hp
  · simp [start]

theorem project_full (t : Tools V) (hdot : ∀ x y, t.dot x y = t.dot y x) (H : V →ₗ[ℚ] V) {maxSize : ℕ} {s : State V}
    (h : Inv t H maxSize s) {p q : ℕ} (hp : p < s.size) (hq : q < s.size) :
    (project t s).G p q = t.dot (s.B p) (H (s.B q)) := by
  have hpos := h.pos
  simp only [project]
  by_cases h1 : q = s.size - 1
  · rw [if_pos ⟨h1, hp⟩, ← h1, h.sigma q hq, hdot]
  · rw [if_neg (fun c => h1 c.1)]
    by_cases h2 : p = s.size - 1
    · rw [if_pos ⟨h2, hq⟩, ← h2, h.sigma q hq]
    · rw [if_neg (fun c => h2 c.1)]
      exact h.old p q (by omega) (by omega)

theorem inv_advance (t : Tools V) (hdot : ∀ x y, t.dot x y = t.dot y x) (H : V →ₗ[ℚ] V) (hH : ∀ x, t.HR x = H x) {maxSize : ℕ}
    (hm : 0 < maxSize) {s : State V} (h : Inv t H maxSize s) (k : ℕ) :
    Inv t H maxSize (advance t maxSize 1 k (project t s)).1 := by
  have hfull := fun p q hp hq => project_full t hdot H h (p := p) (q := q) hp hq
  have hpos := h.pos
  have hle := h.le
  have hres := residual_eq H s.size s.B s.sigma h.sigma
  unfold advance
  simp only [show (project t s).size = s.size from rfl, show (project t s).B = s.B from rfl,
    show (project t s).sigma = s.sigma from rfl, show (project t s).omega = s.omega from rfl,
    show (project t s).recent = s.recent from rfl]
  split
  case isTrue hc =>
    refine ⟨hpos, hle, h.sigma, fun p q hp hq => hfull p q (by simp at hp; omega) (by simp at hq; omega), fun _ => ⟨_, rfl, ?_⟩⟩
    simp only
    rw [← hres]
    exact hc.1
  case isFalse hc =>
    split
    case isTrue hlt =>
      refine ⟨by simp, hlt, ?_, ?_, by simp⟩
      · intro p hp
        simp only at hp
        by_cases hp' : p = s.size
        · simp [setRow, hp', hH]
        · simp [setRow, hp', h.sigma p (by omega)]
      · intro p q hp hq
        simp only at hp hq
        have h1 : p ≠ s.size := by omega
        have h2 : q ≠ s.size := by omega
        simp only [setRow, if_neg h1, if_neg h2]
        exact hfull p q (by omega) (by omega)
    case isFalse hge =>
      refine ⟨le_refl _, hm, ?_, ?_, by simp⟩
      · intro p hp
        simp only at hp
        simp [hp, hH]
      · intro p q hp hq
        simp only at hp
        omega

theorem inv_loop (t : Tools V) (hdot : ∀ x y, t.dot x y = t.dot y x) (H : V →ₗ[ℚ] V) (hH : ∀ x, t.HR x = H x) {maxSize : ℕ}
    (hm : 0 < maxSize) (n : ℕ) : ∀ (k : ℕ) (s : State V), Inv t H maxSize s → Inv t H maxSize (loop t maxSize 1 n k s) := by
  induction n with
  | zero => intro k s h; exact h
  | succ n ih =>
    intro k s h
    simp only [loop]
    have h' := inv_advance t hdot H hH hm h k
    split
    · exact h'
    · exact ih _ _ h'

theorem advance_r (t : Tools V) (maxSize nrest k : ℕ) (s : State V) : (advance t maxSize nrest k s).1.r ≠ none := by
  unfold advance
  dsimp only
  split
  · simp
  · split <;> simp

theorem loop_r (t : Tools V) (maxSize nrest n : ℕ) : ∀ (k : ℕ) (s : State V), s.r ≠ none → (loop t maxSize nrest n k s).r ≠ none := by
  induction n with
  | zero => intro k s h; exact h
  | succ n ih =>
    intro k s _
    simp only [loop]
    split
    · exact advance_r t maxSize nrest k _
    · exact ih _ _ (advance_r t maxSize nrest k _)

/-! ### Several roots -/

structure RootInv (t : Tools V) (H : V →ₗ[ℚ] V) (s : Block V) : Prop where
  sigma : ∀ p < s.size + s.added, s.sigma p = H (s.B p)
  conv : ∀ j, s.converged j = true → t.norm (H (s.R j) - s.omega j • s.R j) < t.ampTol

theorem root_inv (t : Tools V) (H : V →ₗ[ℚ] V) (hH : ∀ x, t.HR x = H x) {maxSize : ℕ} {old : ℕ → ℚ} {s s' : Block V} {j : ℕ}
    (h : RootInv t H s) (hr : root t maxSize old s j = some s') : RootInv t H s' := by
  have hres := residual_eq H s.size s.B s.sigma (fun p hp => h.sigma p (by omega))
  unfold root at hr
  split at hr
  · rw [← Option.some.inj hr]; exact h
  · rename_i hcj
    dsimp only at hr
    split at hr
    · rename_i hc
      rw [← Option.some.inj hr]
      refine ⟨h.sigma, fun i hi => ?_⟩
      simp only at hi ⊢
      by_cases hij : i = j
      · subst hij
        simp only [if_true]
        rw [← hres]
        exact hc.1
      · simp only [if_neg hij] at hi ⊢
        exact h.conv i hi
    · split at hr
      · rw [← Option.some.inj hr]
        refine ⟨fun p hp => ?_, fun i hi => ?_⟩
        · simp only at hp
          by_cases hp' : p = s.size + s.added
          · simp [setRow, hp', hH]
          · simp [setRow, hp', h.sigma p (by omega)]
        · simp only at hi ⊢
          by_cases hij : i = j
          · subst hij; exact absurd hi hcj
          · simp only [if_neg hij]
            exact h.conv i hi
      · exact absurd hr (by simp)

/-- What one root leaves unchanged, and the number of columns it adds. -/
theorem root_frame (t : Tools V) {maxSize : ℕ} {old : ℕ → ℚ} {s s' : Block V} {j : ℕ} (hr : root t maxSize old s j = some s') :
    s'.size = s.size ∧ s'.G = s.G ∧ (∀ p < s.size, s'.B p = s.B p) ∧ (∀ i, i ≠ j → s'.converged i = s.converged i) ∧
      (s.converged j = true → s'.converged j = true) ∧ s'.added = s.added + (if s'.converged j then 0 else 1) ∧
      (s'.converged j = false → s'.size + s'.added ≤ maxSize) := by
  unfold root at hr
  split at hr
  · rename_i hc
    rw [← Option.some.inj hr]
    simp [hc]
  · rename_i hcj
    dsimp only at hr
    split at hr
    · rw [← Option.some.inj hr]
      refine ⟨rfl, rfl, fun _ _ => rfl, fun i hi => ?_, ?_⟩
      · simp [hi]
      · simp
    · split at hr
      · rename_i hlt
        rw [← Option.some.inj hr]
        refine ⟨rfl, rfl, fun p hp => ?_, fun i hi => rfl, fun h => h, ?_, fun _ => ?_⟩
        · have : p ≠ s.size + s.added := by omega
          simp [setRow, this]
        · simp [hcj]
        · simp only; omega
      · exact absurd hr (by simp)

/-- The same root in a workspace of another size. -/
theorem root_resize (t : Tools V) {maxSize other : ℕ} {old : ℕ → ℚ} {s s' : Block V} {j : ℕ}
    (hr : root t maxSize old s j = some s') (h : s'.converged j = false → s'.size + s'.added ≤ other) :
    root t other old s j = some s' := by
  unfold root at hr ⊢
  split at hr
  · rename_i hc; rw [if_pos hc]; exact hr
  · rename_i hcj
    rw [if_neg hcj]
    dsimp only at hr ⊢
    split at hr
    · rename_i hc; rw [if_pos hc]; exact hr
    · rename_i hc
      rw [if_neg hc]
      split at hr
      · have hs := Option.some.inj hr
        have : s'.size + s'.added ≤ other := h (by rw [← hs]; simpa using hcj)
        rw [← hs] at this
        rw [if_pos (by simp only at this; omega)]
        exact hr
      · exact absurd hr (by simp)

/-- The number of roots in the list that are not converged. -/
def open' (s : Block V) (l : List ℕ) : ℕ := (l.filter fun j => !s.converged j).length

theorem fold_frame (t : Tools V) {maxSize : ℕ} {old : ℕ → ℚ} (l : List ℕ) : l.Nodup → ∀ {s s' : Block V},
    l.foldlM (root t maxSize old) s = some s' →
    s'.size = s.size ∧ s'.G = s.G ∧ (∀ p < s.size, s'.B p = s.B p) ∧ (∀ i, i ∉ l → s'.converged i = s.converged i) ∧
      (∀ i, s.converged i = true → s'.converged i = true) ∧ s'.added = s.added + open' s' l ∧
      (s.size + s.added ≤ maxSize → s'.size + s'.added ≤ maxSize) := by
  induction l with
  | nil =>
    intro _ s s' h
    rw [List.foldlM_nil] at h
    rw [← Option.some.inj h]
    simp [open']
  | cons j l ih =>
    intro hn s s' h
    rw [List.foldlM_cons] at h
    obtain ⟨s₁, h1, h2⟩ := Option.bind_eq_some_iff.1 h
    rw [List.nodup_cons] at hn
    obtain ⟨a1, a2, a3, a4, a5, a6, a7⟩ := root_frame t h1
    obtain ⟨b1, b2, b3, b4, b5, b6, b7⟩ := ih hn.2 h2
    refine ⟨b1.trans a1, b2.trans a2, fun p hp => (b3 p (by omega)).trans (a3 p hp), ?_, ?_, ?_, ?_⟩
    · intro i hi
      rw [List.mem_cons, not_or] at hi
      rw [b4 i hi.2, a4 i hi.1]
    · intro i hi
      apply b5
      by_cases hij : i = j
      · subst hij; exact a5 hi
      · rw [a4 i hij]; exact hi
    · rw [b6, a6]
      have hj := b4 j hn.1
      unfold open'
      rw [List.filter_cons, hj]
      cases s₁.converged j <;> simp <;> omega
    · intro hle
      apply b7
      by_cases hj : s₁.converged j = false
      · exact a7 hj
      · rw [a6]; simp at hj; simp [hj]; omega

theorem fold_resize (t : Tools V) {maxSize other : ℕ} {old : ℕ → ℚ} (l : List ℕ) : l.Nodup → ∀ {s s' : Block V},
    l.foldlM (root t maxSize old) s = some s' → s'.size + s'.added ≤ other →
    l.foldlM (root t other old) s = some s' := by
  induction l with
  | nil => intro _ s s' h _; exact h
  | cons j l ih =>
    intro hn s s' h hle
    rw [List.foldlM_cons] at h ⊢
    obtain ⟨s₁, h1, h2⟩ := Option.bind_eq_some_iff.1 h
    rw [List.nodup_cons] at hn
    obtain ⟨b1, _, _, _, _, b6, _⟩ := fold_frame t l hn.2 h2
    rw [root_resize t h1 (fun _ => by omega)]
    exact ih hn.2 h2 hle

theorem fold_inv (t : Tools V) (H : V →ₗ[ℚ] V) (hH : ∀ x, t.HR x = H x) {maxSize : ℕ} {old : ℕ → ℚ} (l : List ℕ) :
    ∀ {s s' : Block V}, RootInv t H s → l.foldlM (root t maxSize old) s = some s' → RootInv t H s' := by
  induction l with
  | nil => intro s s' h hs; rw [List.foldlM_nil] at hs; rw [← Option.some.inj hs]; exact h
  | cons j l ih =>
    intro s s' h hs
    rw [List.foldlM_cons] at hs
    obtain ⟨s₁, h1, h2⟩ := Option.bind_eq_some_iff.1 hs
    exact ih (root_inv t H hH h h1) h2

theorem open'_le (s : Block V) (l : List ℕ) : open' s l ≤ l.length := List.length_filter_le _ _

theorem sweep_size (t : Tools V) {maxSize nroot : ℕ} {s s' : Block V} (h : sweep t maxSize nroot s = some s') :
    s'.size = s.size ∧ s'.added = open' s' (List.range nroot) ∧ (∀ i, s.converged i = true → s'.converged i = true) ∧
      (s.size ≤ maxSize → s'.size + s'.added ≤ maxSize) := by
  unfold sweep at h
  obtain ⟨a1, _, _, _, a5, a6, a7⟩ := fold_frame t (List.range nroot) List.nodup_range h
  refine ⟨a1, by simpa using a6, a5, fun h => a7 (by simpa [projectBlock] using h)⟩

theorem sweep_resize (t : Tools V) {maxSize other nroot : ℕ} {s s' : Block V} (h : sweep t maxSize nroot s = some s')
    (hle : s'.size + s'.added ≤ other) : sweep t other nroot s = some s' := by
  unfold sweep at h ⊢
  exact fold_resize t _ List.nodup_range h hle

theorem root_enough (t : Tools V) {maxSize : ℕ} {old : ℕ → ℚ} {s : Block V} {j : ℕ} (h : s.size + s.added < maxSize) :
    ∃ s', root t maxSize old s j = some s' := by
  unfold root
  split
  · exact ⟨_, rfl⟩
  · dsimp only
    split
    · exact ⟨_, rfl⟩
    · exact ⟨_, rfl⟩

theorem fold_enough (t : Tools V) {maxSize : ℕ} {old : ℕ → ℚ} (l : List ℕ) : ∀ {s : Block V},
    s.size + s.added + l.length ≤ maxSize → ∃ s', l.foldlM (root t maxSize old) s = some s' := by
  induction l with
  | nil => intro s _; exact ⟨s, rfl⟩
  | cons j l ih =>
    intro s h
    rw [List.length_cons] at h
    obtain ⟨s₁, h1⟩ := root_enough t (old := old) (j := j) (show s.size + s.added < maxSize by omega)
    obtain ⟨a1, _, _, _, _, a6, _⟩ := root_frame t h1
    have : s₁.added ≤ s.added + 1 := by rw [a6]; split <;> omega
    obtain ⟨s', h2⟩ := ih (s := s₁) (by omega)
    exact ⟨s', by rw [List.foldlM_cons, h1]; exact h2⟩

theorem allConverged_open {nroot : ℕ} {s : Block V} : allConverged nroot s = true ↔ open' s (List.range nroot) = 0 := by
  unfold allConverged open'
  rw [List.length_eq_zero_iff, List.filter_eq_nil_iff, List.all_eq_true]
  simp

theorem loop_enough (t : Tools V) {maxSize nroot : ℕ} (n : ℕ) : ∀ {s : Block V}, s.size + nroot * n ≤ maxSize →
    ∃ s', loopBlock t maxSize nroot n s = some s' := by
  induction n with
  | zero => intro s _; exact ⟨s, rfl⟩
  | succ n ih =>
    intro s h
    rw [Nat.mul_succ] at h
    obtain ⟨s₁, h1⟩ : ∃ s₁, sweep t maxSize nroot s = some s₁ := by
      unfold sweep
      apply fold_enough
      simp [projectBlock]; omega
    obtain ⟨a1, a2, _⟩ := sweep_size t h1
    have := open'_le s₁ (List.range nroot)
    rw [List.length_range] at this
    simp only [loopBlock, h1, Option.bind_eq_bind, Option.bind_some]
    split
    · exact ⟨_, rfl⟩
    · exact ih (by simp only; omega)

theorem loop_resize (t : Tools V) {maxSize other nroot : ℕ} (n : ℕ) : ∀ {s s' : Block V}, s.size + nroot * (n - 1) ≤ other →
    loopBlock t maxSize nroot n s = some s' → allConverged nroot s' = true → loopBlock t other nroot n s = some s' := by
  induction n with
  | zero => intro s s' _ h _; exact h
  | succ n ih =>
    intro s s' hle h hall
    simp only [loopBlock, Option.bind_eq_bind] at h ⊢
    obtain ⟨s₁, h1, h2⟩ := Option.bind_eq_some_iff.1 h
    obtain ⟨a1, a2, _⟩ := sweep_size t h1
    have hlen := open'_le s₁ (List.range nroot)
    rw [List.length_range] at hlen
    rw [Nat.add_sub_cancel] at hle
    split at h2
    · rename_i hc
      have h0 := allConverged_open.1 hc
      rw [sweep_resize t h1 (by rw [a1, a2, h0]; have := Nat.zero_le (nroot * n); omega), Option.bind_some, if_pos hc]
      exact h2
    · rename_i hc
      cases n with
      | zero =>
        simp only [loopBlock] at h2
        rw [← Option.some.inj h2] at hall
        exact absurd hall hc
      | succ n =>
        rw [Nat.mul_succ] at hle
        rw [sweep_resize t h1 (by have := Nat.zero_le (nroot * n); omega), Option.bind_some, if_neg hc]
        exact ih (by simp only; rw [Nat.add_sub_cancel]; omega) h2 hall

theorem loop_mono (t : Tools V) {maxSize nroot : ℕ} (n : ℕ) : ∀ {s s' : Block V}, loopBlock t maxSize nroot n s = some s' →
    ∀ i, s.converged i = true → s'.converged i = true := by
  induction n with
  | zero => intro s s' h i hi; rw [← Option.some.inj h]; exact hi
  | succ n ih =>
    intro s s' h i hi
    simp only [loopBlock, Option.bind_eq_bind] at h
    obtain ⟨s₁, h1, h2⟩ := Option.bind_eq_some_iff.1 h
    have := (sweep_size t h1).2.2.1 i hi
    split at h2
    · rw [← Option.some.inj h2]; exact this
    · exact ih h2 i this

theorem loop_none_converged (t : Tools V) {maxSize nroot : ℕ} (hn : 0 < nroot) (n : ℕ) : ∀ {s s' : Block V}, s.size ≤ maxSize →
    loopBlock t maxSize nroot n s = some s' → (∀ j < nroot, s'.converged j = false) → s.size + nroot * n ≤ maxSize := by
  induction n with
  | zero => intro s s' hle _ _; simpa using hle
  | succ n ih =>
    intro s s' hle h hf
    simp only [loopBlock, Option.bind_eq_bind] at h
    obtain ⟨s₁, h1, h2⟩ := Option.bind_eq_some_iff.1 h
    obtain ⟨a1, a2, _, a4⟩ := sweep_size t h1
    have key : ∀ {x : Block V}, (∀ j < nroot, x.converged j = false) → open' x (List.range nroot) = nroot := by
      intro x hx
      unfold open'
      rw [List.filter_eq_self.2, List.length_range]
      intro j hj
      simp [hx j (List.mem_range.1 hj)]
    split at h2
    · rename_i hc
      rw [Option.some.inj h2] at hc
      have := allConverged_open.1 hc
      rw [key hf] at this
      omega
    · have hm := loop_mono t n h2
      have h3 : ∀ j < nroot, s₁.converged j = false := by
        intro j hj
        by_contra hcon
        have := hm j (by simpa using hcon)
        rw [hf j hj] at this
        exact absurd this (by simp)
      have h4 := a4 hle
      rw [a2, key h3] at h4
      have := ih (by simp only; rw [a2, key h3]; exact h4) h2 hf
      simp only [a2, key h3] at this
      rw [Nat.mul_succ]; omega

/-- Before an iteration. -/
structure BlockInv (t : Tools V) (H : V →ₗ[ℚ] V) (s : Block V) : Prop where
  sigma : ∀ p < s.size, s.sigma p = H (s.B p)
  old : ∀ p q, p < s.size - s.added → q < s.size - s.added → s.G p q = t.dot (s.B p) (H (s.B q))
  conv : ∀ j, s.converged j = true → t.norm (H (s.R j) - s.omega j • s.R j) < t.ampTol

theorem blockInv_start (t : Tools V) (H : V →ₗ[ℚ] V) (hH : ∀ x, t.HR x = H x) (nroot : ℕ) (b₀ : ℕ → V) (omega : ℕ → ℚ) :
    BlockInv t H (startBlock t nroot b₀ omega) := by
  refine ⟨fun p hp => ?_, fun p q hp => ?_, fun j hj => ?_⟩
  · have hp : p < nroot := hp
    simp [startBlock, hp, hH]
  · simp [startBlock] at hp
  · simp [startBlock] at hj

theorem projectBlock_full (t : Tools V) (hdot : ∀ x y, t.dot x y = t.dot y x) (H : V →ₗ[ℚ] V) {s : Block V}
    (h : BlockInv t H s) {p q : ℕ} (hp : p < s.size) (hq : q < s.size) :
    (projectBlock t s).G p q = t.dot (s.B p) (H (s.B q)) := by
  simp only [projectBlock]
  split
  · rw [h.sigma q hq, hdot]
  · split
    · rw [h.sigma q hq]
    · exact h.old p q (by omega) (by omega)

theorem sweep_inv (t : Tools V) (hdot : ∀ x y, t.dot x y = t.dot y x) (H : V →ₗ[ℚ] V) (hH : ∀ x, t.HR x = H x)
    {maxSize nroot : ℕ} {s s' : Block V} (h : BlockInv t H s) (hs : sweep t maxSize nroot s = some s') :
    BlockInv t H { s' with size := s'.size + s'.added } ∧ RootInv t H s' := by
  unfold sweep at hs
  have hr : RootInv t H ({ projectBlock t s with added := 0 } : Block V) := ⟨fun p hp => h.sigma p hp, h.conv⟩
  have hi := fold_inv t H hH _ hr hs
  obtain ⟨a1, a2, a3, _⟩ := fold_frame t _ List.nodup_range hs
  refine ⟨⟨hi.sigma, fun p q hp hq => ?_, hi.conv⟩, hi⟩
  simp only [Nat.add_sub_cancel] at hp hq ⊢
  rw [a1] at hp hq
  rw [a2, a3 p hp, a3 q hq]
  exact projectBlock_full t hdot H h hp hq

theorem loopBlock_conv (t : Tools V) (hdot : ∀ x y, t.dot x y = t.dot y x) (H : V →ₗ[ℚ] V) (hH : ∀ x, t.HR x = H x)
    {maxSize nroot : ℕ} (n : ℕ) : ∀ {s s' : Block V}, BlockInv t H s → loopBlock t maxSize nroot n s = some s' →
    ∀ j, s'.converged j = true → t.norm (H (s'.R j) - s'.omega j • s'.R j) < t.ampTol := by
  induction n with
  | zero => intro s s' h hs; rw [← Option.some.inj hs]; exact h.conv
  | succ n ih =>
    intro s s' h hs
    simp only [loopBlock, Option.bind_eq_bind] at hs
    obtain ⟨s₁, h1, h2⟩ := Option.bind_eq_some_iff.1 hs
    obtain ⟨hb, hr⟩ := sweep_inv t hdot H hH h h1
    split at h2
    · rw [← Option.some.inj h2]; exact hr.conv
    · exact ih hb h2

end Ccpy.Davidson
