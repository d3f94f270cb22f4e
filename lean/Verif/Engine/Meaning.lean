import Verif.Engine.Sums
import Mathlib.Algebra.Algebra.Basic
import Mathlib.Tactic.FieldSimp

/-! The meaning of pieces, and the soundness of substitution, delta elimination and products. -/

namespace Ccpy.Engine

open Finset

/-! ### Lists -/

section lists
variable {α β : Type*}

theorem app_eq (l m : List α) : app l m = l ++ m := by
  induction l with
  | nil => rfl
  | cons x l ih => exact congrArg (x :: ·) ih

theorem mapL_eq (g : α → β) (l : List α) : mapL g l = l.map g := by
  induction l with
  | nil => rfl
  | cons x l ih => exact congrArg (g x :: ·) ih

theorem bindL_eq (g : α → List β) (l : List α) : bindL g l = l.flatMap g := by
  induction l with
  | nil => rfl
  | cons x l ih =>
    have : bindL g (x :: l) = app (g x) (bindL g l) := rfl
    rw [this, ih, app_eq, List.flatMap_cons]

theorem len_eq (l : List α) : len l = l.length := by
  induction l with
  | nil => rfl
  | cons x l ih => exact congrArg (· + 1) ih

theorem isNil_iff (l : List α) : isNil l = true ↔ l = [] := by
  cases l with
  | nil => exact ⟨fun _ => rfl, fun _ => rfl⟩
  | cons x l => exact ⟨fun h => Bool.noConfusion h, fun h => by cases h⟩

theorem takeL_eq (n : ℕ) : ∀ l : List α, takeL n l = l.take n := by
  induction n with
  | zero => intro l; rfl
  | succ n ih =>
    intro l
    cases l with
    | nil => rfl
    | cons x l => exact congrArg (x :: ·) (ih l)

theorem dropL_eq (n : ℕ) : ∀ l : List α, dropL n l = l.drop n := by
  induction n with
  | zero => intro l; rfl
  | succ n ih =>
    intro l
    cases l with
    | nil => rfl
    | cons x l => exact ih l

theorem nt_eq (b : Bool) : nt b = !b := by cases b <;> rfl
theorem xr_eq (a b : Bool) : xr a b = xor a b := by cases a <;> cases b <;> rfl

theorem brec_eq {α : Sort*} (b : Bool) (t e : α) : (brec% b, t, e) = bif b then t else e := by cases b <;> rfl

theorem forceN_eq {α : Type*} (x : ℕ) (k : ℕ → α) : forceN x k = k x := by cases x <;> rfl

theorem forceL_eq {α : Type*} (l : List ℕ) : ∀ k : List ℕ → α, forceL l k = k l := by
  induction l with
  | nil => intro k; rfl
  | cons x l ih =>
    intro k
    have e : forceL (x :: l) k = forceN x fun x => forceL l fun r => k (x :: r) := rfl
    rw [e, forceN_eq, ih]

theorem forceF_eq {α : Type*} (l : List Factor) : ∀ k : List Factor → α, forceF l k = k l := by
  induction l with
  | nil => intro k; rfl
  | cons x l ih =>
    intro k
    have e : forceF (x :: l) k = forceN x.1 fun n => forceL x.2 fun y => forceF l fun r => k ((n, y) :: r) := rfl
    rw [e, forceN_eq, forceL_eq, ih]

theorem forceP_eq {α : Type*} (l : List (ℕ × ℕ)) : ∀ k : List (ℕ × ℕ) → α, forceP l k = k l := by
  induction l with
  | nil => intro k; rfl
  | cons x l ih =>
    intro k
    have e : forceP (x :: l) k = forceN x.1 fun a => forceN x.2 fun b => forceP l fun r => k ((a, b) :: r) := rfl
    rw [e, forceN_eq, forceN_eq, ih]

theorem forceB_eq {α : Type*} (b : Bool) (k : Bool → α) : forceB b k = k b := by cases b <;> rfl

theorem forceO_eq {α : Type*} (l : List Op) : ∀ k : List Op → α, forceO l k = k l := by
  induction l with
  | nil => intro k; rfl
  | cons x l ih =>
    intro k
    have e : forceO (x :: l) k = forceB x.1 fun b => forceN x.2 fun v => forceO l fun r => k ((b, v) :: r) := rfl
    rw [e, forceB_eq, forceN_eq, ih]

theorem beq_iff (x y : ℕ) : Nat.beq x y = true ↔ x = y := ⟨Nat.eq_of_beq_eq_true, fun h => by subst h; exact Nat.beq_refl x⟩

theorem mem_iff (v : Var) (l : List Var) : mem v l = true ↔ v ∈ l := by
  induction l with
  | nil => exact ⟨fun h => Bool.noConfusion h, fun h => absurd h List.not_mem_nil⟩
  | cons x l ih =>
    have e : mem v (x :: l) = (brec% Nat.beq x v, true, mem v l) := rfl
    rw [e, brec_eq, List.mem_cons]
    cases h : Nat.beq x v with
    | true => simp [((beq_iff x v).1 h).symm]
    | false =>
      have : v ≠ x := fun e => by rw [(beq_iff x v).2 e.symm] at h; exact Bool.noConfusion h
      simp [this, ih]

theorem mem_false {v : Var} {l : List Var} : mem v l = false ↔ v ∉ l := by
  rw [← mem_iff, Bool.not_eq_true]

theorem erase_split {v : Var} {l : List Var} (h : v ∈ l) : ∃ a b, l = a ++ v :: b ∧ v ∉ a ∧ erase v l = a ++ b := by
  induction l with
  | nil => exact absurd h List.not_mem_nil
  | cons x l ih =>
    have e : erase v (x :: l) = (brec% Nat.beq x v, l, x :: erase v l) := rfl
    rw [e, brec_eq]
    cases hb : Nat.beq x v with
    | true =>
      obtain rfl := (beq_iff x v).1 hb
      exact ⟨[], l, rfl, List.not_mem_nil, rfl⟩
    | false =>
      have hx : v ≠ x := fun e => by rw [(beq_iff x v).2 e.symm] at hb; exact Bool.noConfusion hb
      obtain ⟨a, b, h₁, h₂, h₃⟩ := ih ((List.mem_cons.1 h).resolve_left hx)
      exact ⟨x :: a, b, by rw [h₁]; rfl, by simp [hx, h₂], by simp [h₃]⟩

end lists

/-! ### Values -/

/-- The orbital a variable stands for: its space and the position in the space. -/
def val (ρ : Env) (v : Var) : ℕ × ℕ := (v % 4, ρ v)

def Coef.val (c : Coef) : ℚ := (if c.neg then -1 else 1) * ((c.n : ℚ) / c.d)

/-- `±1` -/
def sg (b : Bool) : ℚ := if b then -1 else 1

theorem sg_xr (a b : Bool) : sg (xr a b) = sg a * sg b := by cases a <;> cases b <;> simp [sg, xr]
theorem sg_nt (a : Bool) : sg (nt a) = - sg a := by cases a <;> simp [sg, nt]
theorem sg_mul_self (a : Bool) : sg a * sg a = 1 := by cases a <;> simp [sg]

theorem Coef.val_mul (x y : Coef) : (x.mul y).val = x.val * y.val := by
  obtain ⟨a, n, d⟩ := x
  obtain ⟨b, m, e⟩ := y
  have e : ((⟨a, n, d⟩ : Coef).mul ⟨b, m, e⟩) = ⟨xr a b, n * m, d * e⟩ := rfl
  rw [e]
  simp only [Coef.val, Nat.cast_mul, mul_div_mul_comm]
  cases a <;> cases b <;> simp [xr]

theorem Coef.val_flip (b : Bool) (x : Coef) : (x.flip b).val = sg b * x.val := by
  obtain ⟨a, n, d⟩ := x
  have e : (Coef.flip b ⟨a, n, d⟩) = ⟨xr b a, n, d⟩ := rfl
  rw [e]
  cases a <;> cases b <;> simp [xr, sg, Coef.val]

variable (I : ℕ → List (ℕ × ℕ) → ℚ)

/-- The element of the tensor a factor stands for. -/
def evalF (ρ : Env) (x : Factor) : ℚ := I x.1 (x.2.map (val ρ))
def evalFs (ρ : Env) (l : List Factor) : ℚ := (l.map (evalF I ρ)).prod

variable {A : Type*} [Ring A] [Algebra ℚ A] (X : Bool → ℕ × ℕ → A)

/-- The product of operators a string stands for. -/
def evalO (ρ : Env) (l : List Op) : A := (l.map fun q => X q.1 (val ρ q.2)).prod

/-- The value of a piece. -/
def evalP (dim : ℕ → ℕ) (p : Piece) (ρ : Env) : A :=
  p.c.val • sumV dim p.s (fun ρ => evalFs I ρ p.f • evalO X ρ p.o) ρ

/-- The value of a sum of pieces. -/
def evalS (dim : ℕ → ℕ) (l : List Piece) (ρ : Env) : A := (l.map fun p => evalP I X dim p ρ).sum

variable {I X} {dim : ℕ → ℕ}

theorem evalFs_append (ρ : Env) (l m : List Factor) : evalFs I ρ (l ++ m) = evalFs I ρ l * evalFs I ρ m := by
  simp [evalFs]

theorem evalFs_cons (ρ : Env) (x : Factor) (l : List Factor) : evalFs I ρ (x :: l) = evalF I ρ x * evalFs I ρ l := by
  simp [evalFs]

theorem evalO_append (ρ : Env) (l m : List Op) : evalO X ρ (l ++ m) = evalO X ρ l * evalO X ρ m := by
  simp [evalO]

theorem evalO_cons (ρ : Env) (x : Op) (l : List Op) : evalO X ρ (x :: l) = X x.1 (val ρ x.2) * evalO X ρ l := by
  simp [evalO]

theorem evalS_cons (p : Piece) (l : List Piece) (ρ : Env) :
    evalS I X dim (p :: l) ρ = evalP I X dim p ρ + evalS I X dim l ρ := by
  simp [evalS]

theorem evalS_append (l m : List Piece) (ρ : Env) :
    evalS I X dim (l ++ m) ρ = evalS I X dim l ρ + evalS I X dim m ρ := by
  simp [evalS]

theorem evalS_flatMap {κ : Type*} (g : κ → List Piece) (l : List κ) (ρ : Env) :
    evalS I X dim (l.flatMap g) ρ = (l.map fun k => evalS I X dim (g k) ρ).sum := by
  induction l with
  | nil => rfl
  | cons x l ih => rw [List.flatMap_cons, evalS_append, ih]; simp

/-! ### Substitution -/

theorem val_subst {v w : Var} (h : v % 4 = w % 4) (ρ : Env) (x : Var) :
    val ρ (substV v w x) = val (Function.update ρ v (ρ w)) x := by
  have e : substV v w x = (brec% Nat.beq x v, w, x) := rfl
  rw [e, brec_eq]
  cases hb : Nat.beq x v with
  | true =>
    obtain rfl := (beq_iff x v).1 hb
    simp [val, h]
  | false =>
    have hx : x ≠ v := fun e => by rw [(beq_iff x v).2 e] at hb; exact Bool.noConfusion hb
    simp [val, Function.update_of_ne hx]

theorem substL_eq (v w : Var) (l : List Var) : substL v w l = l.map (substV v w) := by
  induction l with
  | nil => rfl
  | cons x l ih => exact congrArg (_ :: ·) ih

theorem substF_eq (v w : Var) (l : List Factor) : substF v w l = l.map fun x => (x.1, substL v w x.2) := by
  induction l with
  | nil => rfl
  | cons x l ih => exact congrArg (_ :: ·) ih

theorem substO_eq (v w : Var) (l : List Op) : substO v w l = l.map fun x => (x.1, substV v w x.2) := by
  induction l with
  | nil => rfl
  | cons x l ih => exact congrArg (_ :: ·) ih

theorem evalFs_subst {v w : Var} (h : v % 4 = w % 4) (ρ : Env) (l : List Factor) :
    evalFs I ρ (substF v w l) = evalFs I (Function.update ρ v (ρ w)) l := by
  rw [substF_eq]
  simp only [evalFs, List.map_map]
  congr 1
  refine List.map_congr_left fun x _ => ?_
  simp only [evalF, Function.comp_apply, substL_eq, List.map_map]
  congr 1
  exact List.map_congr_left fun y _ => val_subst h ρ y

theorem evalO_subst {v w : Var} (h : v % 4 = w % 4) (ρ : Env) (l : List Op) :
    evalO X ρ (substO v w l) = evalO X (Function.update ρ v (ρ w)) l := by
  rw [substO_eq]
  simp only [evalO, List.map_map, Function.comp_def, val_subst h]

theorem evalFs_congr {ρ₁ ρ₂ : Env} {l : List Factor} (h : ∀ x ∈ l, ∀ v ∈ x.2, ρ₁ v = ρ₂ v) :
    evalFs I ρ₁ l = evalFs I ρ₂ l := by
  unfold evalFs
  congr 1
  refine List.map_congr_left fun x hx => ?_
  unfold evalF
  congr 1
  exact List.map_congr_left fun v hv => by simp [val, h x hx v hv]

theorem evalO_congr {ρ₁ ρ₂ : Env} {l : List Op} (h : ∀ x ∈ l, ρ₁ x.2 = ρ₂ x.2) :
    evalO X ρ₁ l = evalO X ρ₂ l := by
  unfold evalO
  congr 1
  exact List.map_congr_left fun x hx => by simp [val, h x hx]

/-! ### Deltas -/

/-- Tensor 0 is the Kronecker delta. -/
def IsDelta (I : ℕ → List (ℕ × ℕ) → ℚ) : Prop := ∀ x y, I 0 [x, y] = if x = y then 1 else 0

theorem evalF_delta (hI : IsDelta I) (ρ : Env) (v w : Var) :
    evalF I ρ (0, [v, w]) = if val ρ v = val ρ w then 1 else 0 := hI _ _

theorem asDelta_eq {x : Factor} {p : Var × Var} (h : asDelta x = some p) : x = (0, [p.1, p.2]) := by
  obtain ⟨n, l⟩ := x
  have e : asDelta (n, l) = (brec% Nat.beq n 0,
    (lrec% l, none, fun v r _ => lrec% r, none, fun w r' _ => lrec% r', some (v, w), fun _ _ _ => none), none) := rfl
  rw [e, brec_eq] at h
  cases hb : Nat.beq n 0 with
  | false => simp [hb] at h
  | true =>
    obtain rfl := (beq_iff n 0).1 hb
    simp only [hb, cond_true] at h
    match l, h with
    | [v, w], h => simp at h; rw [← h]

inductive DeltaSpec (ext s : List Var) (v w : Var) : Delta → Prop
  | keep : DeltaSpec ext s v w .keep
  | drop (h : v = w) : DeltaSpec ext s v w .drop
  | left (hne : v ≠ w) (hm : v % 4 = w % 4) (hv : v ∈ s) (hn : v ∉ erase v s) (hw : w ∈ s ∨ w ∈ ext) :
      DeltaSpec ext s v w (.subst v w)
  | right (hne : w ≠ v) (hm : w % 4 = v % 4) (hv : w ∈ s) (hn : w ∉ erase w s) (hw : v ∈ s ∨ v ∈ ext) :
      DeltaSpec ext s v w (.subst w v)

theorem decideDelta_spec (ext s : List Var) (v w : Var) : DeltaSpec ext s v w (decideDelta ext s v w) := by
  unfold decideDelta
  simp only [brec_eq]
  cases h₁ : Nat.beq v w with
  | true => exact .drop ((beq_iff _ _).1 h₁)
  | false =>
    have hne : v ≠ w := fun e => by rw [(beq_iff v w).2 e] at h₁; exact Bool.noConfusion h₁
    cases h₂ : Nat.beq (Nat.mod v 4) (Nat.mod w 4) with
    | false => exact .keep
    | true =>
      have hm : v % 4 = w % 4 := (beq_iff _ _).1 h₂
      cases h₃ : mem v s with
      | true =>
        cases h₄ : mem v (erase v s) with
        | true => exact .keep
        | false =>
          cases h₅ : mem w s with
          | true => exact .left hne hm ((mem_iff _ _).1 h₃) (mem_false.1 h₄) (Or.inl ((mem_iff _ _).1 h₅))
          | false =>
            cases h₆ : mem w ext with
            | true => exact .left hne hm ((mem_iff _ _).1 h₃) (mem_false.1 h₄) (Or.inr ((mem_iff _ _).1 h₆))
            | false => exact .keep
      | false =>
        cases h₅ : mem w s with
        | false => exact .keep
        | true =>
          cases h₄ : mem w (erase w s) with
          | true => exact .keep
          | false =>
            cases h₆ : mem v ext with
            | true => exact .right hne.symm hm.symm ((mem_iff _ _).1 h₅) (mem_false.1 h₄) (Or.inr ((mem_iff _ _).1 h₆))
            | false => exact .keep

/-- The external variables have values in their spaces. -/
def ExtOk (dim : ℕ → ℕ) (ext : List Var) (ρ : Env) : Prop := ∀ x ∈ ext, ρ x < dim (x % 4)

/-- Removing one delta. -/
theorem delta_step {ext s : List Var} {v w : Var} (hne : v ≠ w) (hm : v % 4 = w % 4) (hv : v ∈ s)
    (hn : v ∉ erase v s) (hw : w ∈ s ∨ w ∈ ext) {ρ : Env} (hρ : ExtOk dim ext ρ) (g : Env → A) :
    sumV dim s (fun ρ => (if val ρ v = val ρ w then (1 : ℚ) else 0) • g ρ) ρ
      = sumV dim (erase v s) (fun ρ => g (Function.update ρ v (ρ w))) ρ := by
  obtain ⟨a, b, rfl, ha, he⟩ := erase_split hv
  rw [he] at hn ⊢
  rw [← sumV_delta hne ha (fun h => hn (List.mem_append_right _ h)) hm]
  · refine sumV_congr fun ρ' _ => ?_
    by_cases h : ρ' v = ρ' w
    · simp [val, hm, h]
    · simp [val, h]
  · rcases hw with hw | hw
    · left
      simp only [List.mem_append, List.mem_cons] at hw ⊢
      rcases hw with hw | hw | hw
      · exact Or.inl hw
      · exact absurd hw.symm hne
      · exact Or.inr hw
    · exact Or.inr (hρ w hw)

theorem killDeltas_eq (hI : IsDelta I) (ext : List Var) : ∀ (n : ℕ) (c : Coef) (s : List Var) (todo done : List Factor)
    (o : List Op) {ρ : Env}, ExtOk dim ext ρ →
    evalP I X dim (killDeltas ext n c s todo done o) ρ = evalP I X dim ⟨c, s, todo ++ done, o⟩ ρ := by
  intro n
  induction n with
  | zero =>
    intro c s todo done o ρ _
    have : killDeltas ext 0 c s todo done o = ⟨c, s, app todo done, o⟩ := rfl
    rw [this, app_eq]
  | succ n ih =>
    intro c s todo done o ρ hρ
    cases todo with
    | nil => rfl
    | cons x r =>
      have e : killDeltas ext (n + 1) c s (x :: r) done o = (orec% asDelta x, killDeltas ext n c s r (x :: done) o, fun p =>
        @Delta.rec (fun _ => Piece) (killDeltas ext n c s r (x :: done) o) (killDeltas ext n c s r done o)
          (fun v w => killDeltas ext n c (erase v s) (substF v w r) (substF v w done) (substO v w o))
            (decideDelta ext s p.1 p.2)) := rfl
      rw [e]
      have keep : evalP I X dim (killDeltas ext n c s r (x :: done) o) ρ = evalP I X dim ⟨c, s, x :: r ++ done, o⟩ ρ := by
        rw [ih _ _ _ _ _ hρ]
        unfold evalP
        simp only
        congr 2
        funext ρ'
        rw [evalFs_append, evalFs_cons, List.cons_append, evalFs_cons, evalFs_append]
        congr 1
        ring
      have sub : ∀ v w, x.1 = 0 → (∀ ρ, evalF I ρ x = if val ρ v = val ρ w then 1 else 0) → v ≠ w → v % 4 = w % 4 → v ∈ s → v ∉ erase v s →
          (w ∈ s ∨ w ∈ ext) → evalP I X dim (killDeltas ext n c (erase v s) (substF v w r) (substF v w done) (substO v w o)) ρ
            = evalP I X dim ⟨c, s, x :: r ++ done, o⟩ ρ := by
        intro v w h0 hx hne hm hv hn hw
        rw [ih _ _ _ _ _ hρ]
        unfold evalP
        simp only [List.cons_append, evalFs_cons, hx, mul_smul]
        rw [delta_step hne hm hv hn hw hρ]
        simp only [evalFs_append, evalFs_subst hm, evalO_subst hm]
      cases h : asDelta x with
      | none => exact keep
      | some p =>
        obtain ⟨v, w⟩ := p
        have hx := asDelta_eq h
        have hs := decideDelta_spec ext s v w
        simp only
        generalize decideDelta ext s v w = d at hs
        cases hs with
        | keep => exact keep
        | drop hd =>
          subst hd
          simp only
          rw [ih _ _ _ _ _ hρ]
          unfold evalP
          simp only
          congr 2
          funext ρ'
          rw [List.cons_append, evalFs_cons, hx]
          simp [evalF_delta hI]
        | left hne hm hv hn hw =>
          exact sub v w (by rw [hx]) (fun ρ' => by rw [hx]; simp [evalF_delta hI]) hne hm hv hn hw
        | right hne hm hv hn hw =>
          exact sub w v (by rw [hx]) (fun ρ' => by rw [hx]; simp [evalF_delta hI, eq_comm]) hne hm hv hn hw

/-! ### Products -/

theorem smul_sumV (c : ℚ) (s : List Var) (g : Env → A) (ρ : Env) :
    c • sumV dim s g ρ = sumV dim s (fun ρ => c • g ρ) ρ :=
  sumV_hom (DistribSMul.toAddMonoidHom A c) s g ρ

theorem mul_sumV (a : A) (s : List Var) (g : Env → A) (ρ : Env) :
    a * sumV dim s g ρ = sumV dim s (fun ρ => a * g ρ) ρ :=
  sumV_hom (AddMonoidHom.mulLeft a) s g ρ

theorem sumV_mul (a : A) (s : List Var) (g : Env → A) (ρ : Env) :
    sumV dim s g ρ * a = sumV dim s (fun ρ => g ρ * a) ρ :=
  sumV_hom (AddMonoidHom.mulRight a) s g ρ

/-- The second factor of a product stays under the sums of the first. -/
theorem mulP_eq (p q : Piece) (hf : ∀ x ∈ p.f, ∀ v ∈ x.2, v ∉ q.s) (ho : ∀ x ∈ p.o, x.2 ∉ q.s) (ρ : Env) :
    evalP I X dim (mulP p q) ρ
      = p.c.val • sumV dim p.s (fun ρ => evalFs I ρ p.f • (evalO X ρ p.o * evalP I X dim q ρ)) ρ := by
  have e : mulP p q = ⟨p.c.mul q.c, p.s ++ q.s, p.f ++ q.f, p.o ++ q.o⟩ := by
    rw [← app_eq, ← app_eq, ← app_eq]; rfl
  rw [e]
  unfold evalP
  simp only [Coef.val_mul, sumV_append, mul_smul]
  congr 1
  rw [smul_sumV]
  refine sumV_congr fun ρ₁ _ => ?_
  rw [mul_smul_comm, mul_sumV, smul_comm, smul_sumV, smul_sumV, smul_sumV]
  refine sumV_congr fun ρ₂ hr => ?_
  rw [evalFs_append, evalO_append, evalFs_congr (ρ₁ := ρ₂) (ρ₂ := ρ₁) (l := p.f) fun x hx v hv => hr.1 v (hf x hx v hv),
    evalO_congr (ρ₁ := ρ₂) (ρ₂ := ρ₁) (l := p.o) fun x hx => hr.1 _ (ho x hx), mul_smul_comm, mul_smul]

end Ccpy.Engine
