import Verif.Engine.Similarity

/-! Products of sums of pieces, without the terms that cannot have an expectation value. -/

namespace Ccpy.Engine

open Finset

noncomputable section

/-- Variables below `b` or in `[lo, hi)`. -/
def inL (b lo hi : ℕ) (l : List Var) : Bool :=
  lrec% l, true, fun x _ ih =>
    brec% Nat.ble (Nat.succ x) b, ih, (brec% Nat.ble lo x, (brec% Nat.ble (Nat.succ x) hi, ih, false), false)
def inF (b lo hi : ℕ) (l : List Factor) : Bool := lrec% l, true, fun x _ ih => brec% inL b lo hi x.2, ih, false
def opVars (l : List Op) : List Var := mapL Prod.snd l

/-- Summed variables in `[lo, hi)`, all variables below `b` or in `[lo, hi)`, operator variables summed or in `kn`. -/
def okPiece (b lo hi : ℕ) (kn : List Var) (p : Piece) : Bool :=
  brec% inL 0 lo hi p.s, (brec% inF b lo hi p.f, (brec% inL b lo hi (opVars p.o), known kn p.s p.o, false), false), false

def okSlot (b lo hi : ℕ) (kn : List Var) (l : List Piece) : Bool :=
  lrec% l, true, fun p _ ih => brec% okPiece b lo hi kn p, ih, false

/-- The slots use disjoint ranges of `w` variables, starting at `lo`. -/
def okSlots (b w : ℕ) (kn : List Var) (l : List (List Piece)) : ℕ → Bool :=
  lrec% l, (fun _ => true), fun ps _ ih lo => brec% okSlot b lo (Nat.add lo w) kn ps, ih (Nat.add lo w), false

end

theorem ble_iff (x y : ℕ) : Nat.ble x y = true ↔ x ≤ y := ⟨Nat.le_of_ble_eq_true, Nat.ble_eq_true_of_le⟩

theorem brec_and (a b : Bool) : (brec% a, b, false) = (a && b) := by cases a <;> rfl

theorem inL_spec {b lo hi : ℕ} {l : List Var} (h : inL b lo hi l = true) : ∀ v ∈ l, v < b ∨ (lo ≤ v ∧ v < hi) := by
  induction l with
  | nil => intro v hv; exact absurd hv List.not_mem_nil
  | cons x l ih =>
    have e : inL b lo hi (x :: l) = (brec% Nat.ble (Nat.succ x) b, inL b lo hi l,
      (brec% Nat.ble lo x, (brec% Nat.ble (Nat.succ x) hi, inL b lo hi l, false), false)) := rfl
    rw [e] at h
    simp only [brec_eq] at h
    have key : (x < b ∨ (lo ≤ x ∧ x < hi)) ∧ inL b lo hi l = true := by
      cases h₁ : Nat.ble (Nat.succ x) b with
      | true =>
        rw [h₁] at h
        exact ⟨Or.inl ((ble_iff _ _).1 h₁), h⟩
      | false =>
        rw [h₁] at h
        cases h₂ : Nat.ble lo x with
        | false => rw [h₂] at h; exact Bool.noConfusion h
        | true =>
          rw [h₂] at h
          cases h₃ : Nat.ble (Nat.succ x) hi with
          | false => rw [h₃] at h; exact Bool.noConfusion h
          | true => rw [h₃] at h; exact ⟨Or.inr ⟨(ble_iff _ _).1 h₂, (ble_iff _ _).1 h₃⟩, h⟩
    intro v hv
    rcases List.mem_cons.1 hv with hv | hv
    · subst hv; exact key.1
    · exact ih key.2 v hv

theorem inF_spec {b lo hi : ℕ} {l : List Factor} (h : inF b lo hi l = true) :
    ∀ x ∈ l, ∀ v ∈ x.2, v < b ∨ (lo ≤ v ∧ v < hi) := by
  induction l with
  | nil => intro x hx; exact absurd hx List.not_mem_nil
  | cons y l ih =>
    have e : inF b lo hi (y :: l) = (brec% inL b lo hi y.2, inF b lo hi l, false) := rfl
    rw [e, brec_and, Bool.and_eq_true] at h
    intro x hx
    rcases List.mem_cons.1 hx with hx | hx
    · subst hx; exact inL_spec h.1
    · exact ih h.2 x hx

structure PieceIn (b lo hi : ℕ) (kn : List Var) (p : Piece) : Prop where
  s : ∀ v ∈ p.s, lo ≤ v ∧ v < hi
  f : ∀ x ∈ p.f, ∀ v ∈ x.2, v < b ∨ (lo ≤ v ∧ v < hi)
  o : ∀ x ∈ p.o, x.2 < b ∨ (lo ≤ x.2 ∧ x.2 < hi)
  k : ∀ x ∈ p.o, x.2 ∈ p.s ∨ x.2 ∈ kn

theorem okPiece_spec {b lo hi : ℕ} {kn : List Var} {p : Piece} (h : okPiece b lo hi kn p = true) : PieceIn b lo hi kn p := by
  have e : okPiece b lo hi kn p =
    (brec% inL 0 lo hi p.s, (brec% inF b lo hi p.f, (brec% inL b lo hi (opVars p.o), known kn p.s p.o, false), false), false) := rfl
  rw [e] at h
  simp only [brec_and, Bool.and_eq_true] at h
  obtain ⟨h₁, h₂, h₃, h₄⟩ := h
  refine ⟨fun v hv => ?_, inF_spec h₂, fun x hx => ?_, fun x hx => known_spec h₄ x hx⟩
  · exact (inL_spec h₁ v hv).resolve_left (Nat.not_lt_zero _)
  · refine inL_spec h₃ x.2 ?_
    rw [opVars, mapL_eq]
    exact List.mem_map_of_mem hx

theorem okSlot_spec {b lo hi : ℕ} {kn : List Var} {l : List Piece} (h : okSlot b lo hi kn l = true) :
    ∀ p ∈ l, PieceIn b lo hi kn p := by
  induction l with
  | nil => intro p hp; exact absurd hp List.not_mem_nil
  | cons q l ih =>
    have e : okSlot b lo hi kn (q :: l) = (brec% okPiece b lo hi kn q, okSlot b lo hi kn l, false) := rfl
    rw [e, brec_and, Bool.and_eq_true] at h
    intro p hp
    rcases List.mem_cons.1 hp with hp | hp
    · subst hp; exact okPiece_spec h.1
    · exact ih h.2 p hp

theorem okSlots_cons {b w lo : ℕ} {kn : List Var} {ps : List Piece} {l : List (List Piece)}
    (h : okSlots b w kn (ps :: l) lo = true) : okSlot b lo (lo + w) kn ps = true ∧ okSlots b w kn l (lo + w) = true := by
  have e : okSlots b w kn (ps :: l) lo = (brec% okSlot b lo (Nat.add lo w) kn ps, okSlots b w kn l (Nat.add lo w), false) := rfl
  rwa [e, brec_and, Bool.and_eq_true] at h

/-! ### Balance -/

theorem weight_cons (t : Bool) (x : Op) (l : List Op) :
    weight t (x :: l) = (if x.1 = t then 256 ^ (x.2 % 4) else 0) + weight t l := by
  have e : weight t (x :: l) = (brec% (brec% x.1, t, nt t), Nat.add (Nat.pow 256 (Nat.mod x.2 4)) (weight t l), weight t l) := rfl
  have hm : Nat.mod x.2 4 = x.2 % 4 := rfl
  rw [e, hm]
  cases x.1 <;> cases t <;> simp [nt] <;> rfl

theorem weight_append (t : Bool) (l m : List Op) : weight t (l ++ m) = weight t l + weight t m := by
  induction l with
  | nil => exact (Nat.zero_add _).symm
  | cons x l ih => rw [List.cons_append, weight_cons, ih, weight_cons, Nat.add_assoc]

theorem partners_weight {o : Op} {l : List Op} (t : Bool) : ∀ {s} {y : Bool × Var × List Op}, y ∈ partners o l s →
    weight t (o :: l) = weight t y.2.2 + 256 ^ (o.2 % 4) := by
  induction l with
  | nil => intro s y h; exact absurd h (List.not_mem_nil)
  | cons x xs ih =>
    intro s y h
    rw [partners_cons, List.mem_append] at h
    rcases h with h | h
    · cases hb : (xor x.1 o.1 && Nat.beq (x.2 % 4) (o.2 % 4)) with
      | false => rw [hb] at h; exact absurd h (List.not_mem_nil)
      | true =>
        rw [hb] at h
        have := List.mem_singleton.1 h
        subst this
        rw [Bool.and_eq_true] at hb
        have hm := (beq_iff _ _).1 hb.2
        have hx : x.1 = !o.1 := by
          have := hb.1; revert this; cases x.1 <;> cases o.1 <;> simp
        rw [weight_cons, weight_cons, hx, hm]
        cases o.1 <;> cases t <;> simp <;> omega
    · obtain ⟨z, hz, rfl⟩ := List.mem_map.1 h
      have := ih hz
      simp only [weight_cons] at this ⊢
      omega

theorem wick_balanced {n : ℕ} : ∀ {l : List Op} {z}, z ∈ wick n l → l.length ≤ n → weight true l = weight false l := by
  induction n with
  | zero =>
    intro l z _ hl
    obtain rfl := List.length_eq_zero_iff.1 (Nat.le_zero.1 hl)
    rfl
  | succ n ih =>
    intro l z hz hl
    cases l with
    | nil => rfl
    | cons o r =>
      rw [wick_cons] at hz
      cases ha : isAnn o with
      | false => rw [ha] at hz; exact absurd hz List.not_mem_nil
      | true =>
        rw [ha, cond_true, List.mem_flatMap] at hz
        obtain ⟨y, hy, hz⟩ := hz
        obtain ⟨w, hw, _⟩ := List.mem_map.1 hz
        have hlen := (partners_mem hy).1
        rw [List.length_cons] at hl
        rw [partners_weight true hy, partners_weight false hy, ih hw (by omega)]

variable {A : Type*} [Ring A] [Algebra ℚ A]
variable {I : ℕ → List (ℕ × ℕ) → ℚ} {X : Bool → ℕ × ℕ → A} {dim : ℕ → ℕ}

theorem unbalanced {E : A →ₗ[ℚ] ℚ} (hE : Vacuum dim X E) (hI : IsDelta I) {ρ : Env} {l : List Op} (ho : OpsOk dim ρ l)
    (h : weight true l ≠ weight false l) : E (evalO X ρ l) = 0 := by
  rw [wick_eq hE hI l.length l le_rfl ho]
  have : wick l.length l = [] := by
    rw [List.eq_nil_iff_forall_not_mem]
    exact fun z hz => h (wick_balanced hz le_rfl)
  rw [this]
  rfl

/-! ### Products -/

/-- The product of the slots under the sums of a piece. -/
def nest (I : ℕ → List (ℕ × ℕ) → ℚ) (X : Bool → ℕ × ℕ → A) (dim : ℕ → ℕ) (a : Piece) (l : List (List Piece)) (ρ : Env) : A :=
  a.c.val • sumV dim a.s (fun ρ => evalFs I ρ a.f • (evalO X ρ a.o * (l.map fun ps => evalS I X dim ps ρ).prod)) ρ

theorem evalP_irrel {p : Piece} {ρ₁ ρ₂ : Env} (hf : ∀ x ∈ p.f, ∀ v ∈ x.2, v ∉ p.s → ρ₁ v = ρ₂ v)
    (ho : ∀ x ∈ p.o, x.2 ∉ p.s → ρ₁ x.2 = ρ₂ x.2) : evalP I X dim p ρ₁ = evalP I X dim p ρ₂ := by
  unfold evalP
  congr 1
  refine sumV_irrel (P := fun v => (∃ x ∈ p.f, v ∈ x.2) ∨ ∃ x ∈ p.o, v = x.2) (fun ρ₁ ρ₂ h => ?_) fun v hv hs => ?_
  · rw [evalFs_congr (ρ₁ := ρ₁) (ρ₂ := ρ₂) fun x hx v hv => h v (Or.inl ⟨x, hx, hv⟩),
      evalO_congr (ρ₁ := ρ₁) (ρ₂ := ρ₂) fun x hx => h _ (Or.inr ⟨x, hx, rfl⟩)]
  · rcases hv with ⟨x, hx, hv⟩ | ⟨x, hx, rfl⟩
    · exact hf x hx v hv hs
    · exact ho x hx hs

theorem evalS_irrel {b lo hi : ℕ} {kn : List Var} {l : List Piece} (h : ∀ p ∈ l, PieceIn b lo hi kn p) {ρ₁ ρ₂ : Env}
    (hρ : ∀ v, v < b ∨ lo ≤ v → ρ₁ v = ρ₂ v) : evalS I X dim l ρ₁ = evalS I X dim l ρ₂ := by
  unfold evalS
  congr 1
  refine List.map_congr_left fun p hp => evalP_irrel (fun x hx v hv _ => hρ v ?_) fun x hx _ => hρ _ ?_
  · exact ((h p hp).f x hx v hv).imp id And.left
  · exact ((h p hp).o x hx).imp id And.left

theorem slots_irrel {b w : ℕ} {kn : List Var} {l : List (List Piece)} : ∀ {lo : ℕ}, okSlots b w kn l lo = true →
    ∀ {ρ₁ ρ₂ : Env}, (∀ v, v < b ∨ lo ≤ v → ρ₁ v = ρ₂ v) →
    (l.map fun ps => evalS I X dim ps ρ₁) = l.map fun ps => evalS I X dim ps ρ₂ := by
  induction l with
  | nil => intros; rfl
  | cons ps l ih =>
    intro lo h ρ₁ ρ₂ hρ
    obtain ⟨h₁, h₂⟩ := okSlots_cons h
    rw [List.map_cons, List.map_cons, evalS_irrel (okSlot_spec h₁) hρ,
      ih h₂ fun v hv => hρ v (hv.imp id fun h => by omega)]

theorem nest_cons {b w lo : ℕ} {kn : List Var} {a : Piece} {ps : List Piece} {l : List (List Piece)} (hb : b ≤ lo)
    (h : okSlots b w kn (ps :: l) lo = true) (hf : ∀ x ∈ a.f, ∀ v ∈ x.2, v < lo) (ho : ∀ x ∈ a.o, x.2 < lo) (ρ : Env) :
    nest I X dim a (ps :: l) ρ = (ps.map fun p => nest I X dim (mulP a p) l ρ).sum := by
  obtain ⟨h₁, h₂⟩ := okSlots_cons h
  have hps := okSlot_spec h₁
  have key : ∀ p ∈ ps, nest I X dim (mulP a p) l ρ = a.c.val • sumV dim a.s (fun ρ => evalFs I ρ a.f • (evalO X ρ a.o *
      (evalP I X dim p ρ * (l.map fun ps => evalS I X dim ps ρ).prod))) ρ := by
    intro p hp
    have e : mulP a p = ⟨a.c.mul p.c, a.s ++ p.s, a.f ++ p.f, a.o ++ p.o⟩ := by
      rw [← app_eq, ← app_eq, ← app_eq]; rfl
    rw [e]
    unfold nest evalP
    simp only [Coef.val_mul, sumV_append, mul_smul]
    congr 1
    rw [smul_sumV]
    refine sumV_congr fun ρ₁ _ => ?_
    rw [smul_mul_assoc, mul_smul_comm, sumV_mul, mul_sumV, smul_comm, smul_sumV, smul_sumV, smul_sumV]
    refine sumV_congr fun ρ₂ hr => ?_
    have hlt : ∀ v, v < lo → v ∉ p.s := fun v hv hs => absurd ((hps p hp).s v hs).1 (Nat.not_le.2 hv)
    rw [evalFs_append, evalO_append, evalFs_congr (ρ₁ := ρ₂) (ρ₂ := ρ₁) (l := a.f) fun x hx v hv => hr.1 v (hlt _ (hf x hx v hv)),
      evalO_congr (ρ₁ := ρ₂) (ρ₂ := ρ₁) (l := a.o) fun x hx => hr.1 _ (hlt _ (ho x hx)),
      slots_irrel h₂ (ρ₁ := ρ₂) (ρ₂ := ρ₁), smul_mul_assoc, mul_smul_comm, mul_smul, mul_assoc]
    intro v hv
    refine hr.1 v fun hs => ?_
    obtain ⟨h₃, h₄⟩ := (hps p hp).s v hs
    rcases hv with hv | hv
    · exact absurd h₃ (Nat.not_le.2 (Nat.lt_of_lt_of_le hv hb))
    · exact absurd hv (Nat.not_le.2 h₄)
  rw [List.map_congr_left key]
  have e : ∀ (g : Piece → A), (ps.map fun p => a.c.val • g p).sum = a.c.val • (ps.map g).sum := fun g => by
    rw [List.smul_sum, List.map_map]; rfl
  rw [e, ← sumV_list]
  unfold nest
  congr 2
  funext ρ
  rw [List.map_cons, List.prod_cons, evalS, ← List.sum_map_mul_right, ← List.sum_map_mul_left, List.smul_sum, List.map_map]
  rfl

theorem prods_cons (ps : List Piece) (l : List (List Piece)) (x y : ℕ) (a : Piece) : prods (ps :: l) x y a =
    ps.flatMap fun p => prods l (weight true p.o + x) (weight false p.o + y) (mulP a p) := by
  have e : prods (ps :: l) x y a =
    bindL (fun p => prods l (Nat.add (weight true p.o) x) (Nat.add (weight false p.o) y) (mulP a p)) ps := rfl
  rw [e, bindL_eq]
  rfl

/-- The pieces of `prods` have the expectation value of the product. -/
theorem prods_eq {E : A →ₗ[ℚ] ℚ} (hE : Vacuum dim X E) (hI : IsDelta I) {b w : ℕ} {kn ext : List Var} {ρ : Env}
    (hρ : ExtOk dim ext ρ) : ∀ (l : List (List Piece)) {lo : ℕ} {a : Piece}, b ≤ lo → okSlots b w kn l lo = true →
    (∀ x ∈ a.f, ∀ v ∈ x.2, v < lo) → (∀ x ∈ a.o, x.2 < lo) → (∀ x ∈ a.o, x.2 ∈ a.s ∨ x.2 ∈ ext) →
    (∀ v ∈ kn, v ∈ a.s ∨ v ∈ ext) →
    E (evalS I X dim (prods l (weight true a.o) (weight false a.o) a) ρ) = E (nest I X dim a l ρ) := by
  intro l
  induction l with
  | nil =>
    intro lo a _ _ _ _ hk _
    have e₁ : nest I X dim a [] ρ = evalP I X dim a ρ := by simp [nest, evalP]
    have e₂ : prods [] (weight true a.o) (weight false a.o) a
      = (brec% Nat.beq (weight true a.o) (weight false a.o), [a], []) := rfl
    rw [e₁, e₂, brec_eq]
    cases hb : Nat.beq (weight true a.o) (weight false a.o) with
    | true => simp [evalS]
    | false =>
      have hne : weight true a.o ≠ weight false a.o := fun e => by
        rw [(beq_iff _ _).2 e] at hb; exact Bool.noConfusion hb
      rw [E_evalP]
      have : sumV dim a.s (fun ρ => evalFs I ρ a.f * E (evalO X ρ a.o)) ρ = sumV dim a.s (fun _ => 0) ρ := by
        refine sumV_congr fun ρ' hr => ?_
        rw [unbalanced hE hI _ hne, mul_zero]
        intro x hx
        by_cases hs : x.2 ∈ a.s
        · exact hr.2 _ hs
        · rw [hr.1 _ hs]
          exact hρ _ ((hk x hx).resolve_left hs)
      rw [this, sumV_zero, mul_zero]
      simp [evalS]
  | cons ps l ih =>
    intro lo a hb h hf ho hk hkn
    obtain ⟨h₁, h₂⟩ := okSlots_cons h
    have hps := okSlot_spec h₁
    rw [nest_cons hb h hf ho, prods_cons, evalS_flatMap, map_list_sum, map_list_sum, List.map_map, List.map_map]
    congr 1
    refine List.map_congr_left fun p hp => ?_
    have hp' := hps p hp
    have e : mulP a p = ⟨a.c.mul p.c, a.s ++ p.s, a.f ++ p.f, a.o ++ p.o⟩ := by
      rw [← app_eq, ← app_eq, ← app_eq]; rfl
    have hw : ∀ t, weight t p.o + weight t a.o = weight t (mulP a p).o := fun t => by
      rw [e, weight_append, Nat.add_comm]
    rw [Function.comp_apply, Function.comp_apply, hw, hw]
    refine ih (lo := lo + w) (a := mulP a p) (Nat.le_trans hb (Nat.le_add_right ..)) h₂ ?_ ?_ ?_ ?_ <;> rw [e]
    · intro x hx v hv
      rcases List.mem_append.1 hx with hx | hx
      · exact Nat.lt_of_lt_of_le (hf x hx v hv) (Nat.le_add_right ..)
      · rcases hp'.f x hx v hv with h | h
        · exact Nat.lt_of_lt_of_le h (Nat.le_trans hb (Nat.le_add_right ..))
        · exact h.2
    · intro x hx
      rcases List.mem_append.1 hx with hx | hx
      · exact Nat.lt_of_lt_of_le (ho x hx) (Nat.le_add_right ..)
      · rcases hp'.o x hx with h | h
        · exact Nat.lt_of_lt_of_le h (Nat.le_trans hb (Nat.le_add_right ..))
        · exact h.2
    · intro x hx
      simp only [List.mem_append]
      rcases List.mem_append.1 hx with hx | hx
      · exact (hk x hx).imp Or.inl id
      · rcases hp'.k x hx with h | h
        · exact Or.inl (Or.inr h)
        · exact (hkn _ h).imp Or.inl id
    · intro v hv
      simp only [List.mem_append]
      exact (hkn v hv).imp Or.inl id

end Ccpy.Engine
