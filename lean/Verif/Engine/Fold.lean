import Verif.Engine.Canon2
import Verif.Engine.Expectation

/-! Comparison of two tensor expressions over a closed shell: the spaces of both spins are identified and the arrays of the
second spin are replaced by those of the first. -/

namespace Ccpy.Engine

open Ccpy.Tensor

noncomputable section

/-- Replace the stored arrays. -/
def foldE (φ : ℕ → List ℕ → Ex) (x : Ex) : Ex :=
  @Ex.rec (fun _ => Ex) (fun _ => Body) φ (fun out _ b => .es out b) (fun _ _ a b => .add a b)
    (fun neg n d _ a => .smul neg n d a) .nil (fun l _ _ a b => .cons l a b) x
def foldB (φ : ℕ → List ℕ → Ex) (x : Body) : Body :=
  @Body.rec (fun _ => Ex) (fun _ => Body) φ (fun out _ b => .es out b) (fun _ _ a b => .add a b)
    (fun neg n d _ a => .smul neg n d a) .nil (fun l _ _ a b => .cons l a b) x

/-- The difference of two expressions, the first at the indices `xs`, the second at `ys`, vanishes. -/
def same (E : ℕ → Bool) (G : ℕ → List ℕ) (x : Ex) (xs : List Var) (y : Ex) (ys : List Var) : Bool :=
  brec% x.ok, (brec% y.ok, (brec% (xs.map (· % 4) == x.axes), (brec% (ys.map (· % 4) == y.axes),
    (brec% xs.all (fun v => Nat.ble (Nat.succ v) 24), (brec% ys.all (fun v => Nat.ble (Nat.succ v) 24),
      isZero2 E G (app (symE x xs 6) (mapL negP (symE y ys 6))), false), false), false), false), false), false

/-- The same after replacing the arrays. -/
def sameF (φ : ℕ → List ℕ → Ex) (E : ℕ → Bool) (G : ℕ → List ℕ) (x : Ex) (xs : List Var) (y : Ex) (ys : List Var) : Bool :=
  same E G (foldE φ x) xs (foldE φ y) ys

end

variable {I : ℕ → List (ℕ × ℕ) → ℚ} {dim : ℕ → ℕ}

/-- The new arrays have the same elements as the old ones, over spaces of the same length. -/
structure Folds (φ : ℕ → List ℕ → Ex) (σ : ℕ → ℕ) (dim : ℕ → ℕ) (I : ℕ → List (ℕ × ℕ) → ℚ) : Prop where
  zero : σ 0 = 0
  lengths : ∀ s, dim (σ s) = dim s
  axes : ∀ n sp, (φ n sp).axes = sp.map σ
  value : ∀ n sp, (φ n sp).ok = true → ∀ idx, idx.length = sp.length → (φ n sp).denote dim I idx = I n (sp.zip idx)

section
variable {φ : ℕ → List ℕ → Ex} {σ : ℕ → ℕ}

theorem look_map (h : σ 0 = 0) (m : List (ℕ × ℕ)) (c : ℕ) : look (m.map fun e => (e.1, σ e.2)) c = σ (look m c) := by
  induction m with
  | nil => simp [look, h]
  | cons e m ih =>
    obtain ⟨a, b⟩ := e
    rw [List.map_cons, look_cons, look_cons, ih]
    split <;> rfl

theorem zip_map_snd (l m : List ℕ) : l.zip (m.map σ) = (l.zip m).map fun e => (e.1, σ e.2) := by
  induction l generalizing m with
  | nil => rfl
  | cons c l ih =>
    cases m with
    | nil => rfl
    | cons x m => exact congrArg ((c, σ x) :: ·) (ih m)

mutual
theorem fold_axes (h : Folds φ σ dim I) : ∀ x : Ex, (foldE φ x).axes = x.axes.map σ
  | .arr n sp => by
    have e : foldE φ (.arr n sp) = φ n sp := rfl
    rw [e, h.axes, Ex.axes]
  | .es out b => by
    have e : foldE φ (.es out b) = .es out (foldB φ b) := rfl
    rw [e, Ex.axes, Ex.axes, fold_letters h b, List.map_map]
    exact List.map_congr_left fun c _ => look_map h.zero _ c
  | .add x y => by
    have e : foldE φ (.add x y) = .add (foldE φ x) (foldE φ y) := rfl
    rw [e, Ex.axes, Ex.axes, fold_axes h x]
  | .smul a n d x => by
    have e : foldE φ (.smul a n d x) = .smul a n d (foldE φ x) := rfl
    rw [e, Ex.axes, Ex.axes, fold_axes h x]
theorem fold_letters (h : Folds φ σ dim I) : ∀ b : Body, (foldB φ b).letters = b.letters.map fun e => (e.1, σ e.2)
  | .nil => by
    have e : foldB φ .nil = .nil := rfl
    rw [e, Body.letters]; rfl
  | .cons l x r => by
    have e : foldB φ (.cons l x r) = .cons l (foldE φ x) (foldB φ r) := rfl
    rw [e, Body.letters, Body.letters, fold_axes h x, fold_letters h r, List.map_append, zip_map_snd]
end

theorem summed_map (m : List (ℕ × ℕ)) : ∀ seen, summed (m.map fun e => (e.1, σ e.2)) seen
    = (summed m seen).map fun e => (e.1, σ e.2) := by
  induction m with
  | nil => intro seen; rfl
  | cons e m ih =>
    intro seen
    obtain ⟨c, s⟩ := e
    rw [List.map_cons, summed, summed]
    split
    · exact ih seen
    · rw [ih]; rfl

theorem sumLetters_map (h : Folds φ σ dim I) (m : List (ℕ × ℕ)) {g g' : (ℕ → ℕ) → ℚ} (hg : ∀ ε, g ε = g' ε) :
    ∀ ε, sumLetters dim (m.map fun e => (e.1, σ e.2)) g ε = sumLetters dim m g' ε := by
  induction m with
  | nil => exact hg
  | cons e m ih =>
    intro ε
    obtain ⟨c, s⟩ := e
    rw [List.map_cons, sumLetters, sumLetters, h.lengths]
    exact Finset.sum_congr rfl fun k _ => ih _

mutual
theorem fold_denote (h : Folds φ σ dim I) : ∀ x : Ex, (foldE φ x).ok = true → ∀ idx, idx.length = x.axes.length →
    (foldE φ x).denote dim I idx = x.denote dim I idx
  | .arr n sp, hok, idx, hl => by
    have e : foldE φ (.arr n sp) = φ n sp := rfl
    rw [e] at hok ⊢
    rw [Ex.axes] at hl
    rw [h.value n sp hok idx hl, Ex.denote]
  | .es out b, hok, idx, hl => by
    have e : foldE φ (.es out b) = .es out (foldB φ b) := rfl
    rw [e, Ex.ok, Bool.and_eq_true, Bool.and_eq_true] at hok
    rw [e, Ex.denote, Ex.denote, fold_letters h b, summed_map]
    exact sumLetters_map h _ (fold_body h b hok.1.1) _
  | .add x y, hok, idx, hl => by
    have e : foldE φ (.add x y) = .add (foldE φ x) (foldE φ y) := rfl
    rw [e, Ex.ok, Bool.and_eq_true, Bool.and_eq_true] at hok
    rw [Ex.axes] at hl
    have hy : idx.length = y.axes.length := by
      have := congrArg List.length (beq_iff_eq.1 hok.2)
      rw [fold_axes h x, fold_axes h y, List.length_map, List.length_map] at this
      rw [hl, this]
    rw [e, Ex.denote, Ex.denote, fold_denote h x hok.1.1 idx hl, fold_denote h y hok.1.2 idx hy]
  | .smul a n d x, hok, idx, hl => by
    have e : foldE φ (.smul a n d x) = .smul a n d (foldE φ x) := rfl
    rw [e, Ex.ok] at hok
    rw [Ex.axes] at hl
    rw [e, Ex.denote, Ex.denote, fold_denote h x hok idx hl]
theorem fold_body (h : Folds φ σ dim I) : ∀ b : Body, (foldB φ b).ok = true → ∀ ε,
    (foldB φ b).denote dim I ε = b.denote dim I ε
  | .nil, _, ε => by
    have e : foldB φ .nil = .nil := rfl
    rw [e]
  | .cons l x r, hok, ε => by
    have e : foldB φ (.cons l x r) = .cons l (foldE φ x) (foldB φ r) := rfl
    rw [e, Body.ok, Bool.and_eq_true, Bool.and_eq_true] at hok
    have hl : (l.map ε).length = x.axes.length := by
      rw [List.length_map, beq_iff_eq.1 hok.1.2, fold_axes h x, List.length_map]
    rw [e, Body.denote, Body.denote, fold_denote h x hok.1.1 _ hl, fold_body h r hok.2]
end

end

theorem same_sound {E : ℕ → Bool} (hE : Exch E I) {G : ℕ → List ℕ} (hG : AntiSym G I) {x y : Ex} {xs ys : List Var}
    (h : same E G x xs y ys = true) : x.ok = true ∧ y.ok = true ∧ xs.length = x.axes.length ∧ ys.length = y.axes.length ∧
      ∀ ρ : Env, x.denote dim I (xs.map ρ) = y.denote dim I (ys.map ρ) := by
  have e : same E G x xs y ys = (brec% x.ok, (brec% y.ok, (brec% (xs.map (· % 4) == x.axes), (brec% (ys.map (· % 4) == y.axes),
    (brec% xs.all (fun v => Nat.ble (Nat.succ v) 24), (brec% ys.all (fun v => Nat.ble (Nat.succ v) 24),
      isZero2 E G (app (symE x xs 6) (mapL negP (symE y ys 6))), false), false), false), false), false),
      false) := rfl
  rw [e] at h
  simp only [brec_and, Bool.and_eq_true, beq_iff_eq, List.all_eq_true] at h
  obtain ⟨hx, hy, hxa, hya, hxl, hyl, hz⟩ := h
  have lx := congrArg List.length hxa
  have ly := congrArg List.length hya
  rw [List.length_map] at lx ly
  refine ⟨hx, hy, lx, ly, fun ρ => ?_⟩
  have hz := isZero2_sound (dim := dim) hE hG hz ρ
  have hlt : ∀ {l : List Var}, (∀ v ∈ l, Nat.ble (Nat.succ v) 24 = true) → ∀ v ∈ l, v < 4 * 6 := fun h v hv =>
    Nat.le_of_ble_eq_true (h v hv)
  rw [app_eq, mapL_eq, scalS_append, scalS_neg, (symE_sound x hx xs 6 hxa (hlt hxl)).2 ρ] at hz
  rw [(symE_sound y hy ys 6 hya (hlt hyl)).2 ρ] at hz
  exact sub_eq_zero.1 (by rw [sub_eq_add_neg]; exact hz)

/-- The comparison after folding is sound for the unfolded expressions. -/
theorem sameF_sound {φ : ℕ → List ℕ → Ex} {σ : ℕ → ℕ} (hF : Folds φ σ dim I) {E : ℕ → Bool} (hE : Exch E I) {G : ℕ → List ℕ}
    (hG : AntiSym G I) {x y : Ex} {xs ys : List Var} (h : sameF φ E G x xs y ys = true) (ρ : Env) :
    x.denote dim I (xs.map ρ) = y.denote dim I (ys.map ρ) := by
  obtain ⟨hx, hy, lx, ly, he⟩ := same_sound (dim := dim) hE hG (x := foldE φ x) (y := foldE φ y) h
  rw [fold_axes hF, List.length_map] at lx ly
  rw [← fold_denote hF x hx _ (by rw [List.length_map]; exact lx), he ρ,
    fold_denote hF y hy _ (by rw [List.length_map]; exact ly)]

end Ccpy.Engine
