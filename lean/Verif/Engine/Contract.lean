import Verif.Engine.Meaning
import Mathlib.Algebra.Algebra.Tower
import Mathlib.Tactic.NoncommRing
import Mathlib.Tactic.Module
import Mathlib.Tactic.LinearCombination

/-! Contractions: Wick's theorem for the strings of the engine, and commutators with even strings. -/

namespace Ccpy.Engine

open Finset

variable {A : Type*} [Ring A] [Algebra ℚ A]

def Valid (dim : ℕ → ℕ) (x : ℕ × ℕ) : Prop := x.1 < 4 ∧ x.2 < dim x.1

/-- Anticommutation relations. -/
structure Car (dim : ℕ → ℕ) (X : Bool → ℕ × ℕ → A) : Prop where
  same : ∀ b x y, Valid dim x → Valid dim y → X b x * X b y = - (X b y * X b x)
  mixed : ∀ b x y, Valid dim x → Valid dim y → X b x * X (!b) y = (if x = y then (1 : A) else 0) - X (!b) y * X b x

/-- The functional `E` is an expectation value in a state that `false` operators of odd spaces and `true` operators of
even spaces annihilate. -/
structure Vacuum (dim : ℕ → ℕ) (X : Bool → ℕ × ℕ → A) (E : A →ₗ[ℚ] ℚ) : Prop extends Car dim X where
  one : E 1 = 1
  left : ∀ b x a, Valid dim x → isAnn (b, x.1) = false → E (X b x * a) = 0
  right : ∀ b x a, Valid dim x → isAnn (b, x.1) = true → E (a * X b x) = 0

variable {I : ℕ → List (ℕ × ℕ) → ℚ} {X : Bool → ℕ × ℕ → A} {dim : ℕ → ℕ}

/-- Every operator of the string acts on an existing orbital. -/
def OpsOk (dim : ℕ → ℕ) (ρ : Env) (l : List Op) : Prop := ∀ x ∈ l, ρ x.2 < dim (x.2 % 4)

theorem valid_val {ρ : Env} {v : Var} (h : ρ v < dim (v % 4)) : Valid dim (val ρ v) := ⟨Nat.mod_lt _ (by decide), h⟩

/-- `δ` of two variables -/
def dl (ρ : Env) (v w : Var) : ℚ := if val ρ v = val ρ w then 1 else 0

theorem partners_cons (o x : Op) (xs : List Op) (s : Bool) : partners o (x :: xs) s =
    (bif xor x.1 o.1 && Nat.beq (x.2 % 4) (o.2 % 4) then [(s, x.2, xs)] else []) ++
      (partners o xs (!s)).map fun y => (y.1, y.2.1, x :: y.2.2) := by
  have e : partners o (x :: xs) s =
    brec% (brec% x.1, (brec% o.1, false, true), (brec% o.1, true, false)),
      (brec% Nat.beq (Nat.mod x.2 4) (Nat.mod o.2 4),
        (s, x.2, xs) :: mapL (fun y => (y.1, y.2.1, x :: y.2.2)) (partners o xs (nt s)),
        mapL (fun y => (y.1, y.2.1, x :: y.2.2)) (partners o xs (nt s))),
      mapL (fun y => (y.1, y.2.1, x :: y.2.2)) (partners o xs (nt s)) := rfl
  rw [e]
  simp only [brec_eq, mapL_eq, nt_eq]
  have h : ∀ k : ℕ, Nat.mod k 4 = k % 4 := fun _ => rfl
  rw [h, h]
  cases x.1 <;> cases o.1 <;> cases Nat.beq (x.2 % 4) (o.2 % 4) <;> rfl

theorem swap_ops (hX : Car dim X) {ρ : Env} {o x : Op} (ho : ρ o.2 < dim (o.2 % 4)) (hx : ρ x.2 < dim (x.2 % 4)) :
    X o.1 (val ρ o.2) * X x.1 (val ρ x.2)
      = ((bif xor x.1 o.1 && Nat.beq (x.2 % 4) (o.2 % 4) then dl ρ o.2 x.2 else 0) : ℚ) • (1 : A)
        - X x.1 (val ρ x.2) * X o.1 (val ρ o.2) := by
  cases hk : xor x.1 o.1 with
  | false =>
    have : x.1 = o.1 := by
      revert hk; cases x.1 <;> cases o.1 <;> simp
    rw [this, hX.same _ _ _ (valid_val ho) (valid_val hx)]
    simp
  | true =>
    have : x.1 = !o.1 := by
      revert hk; cases x.1 <;> cases o.1 <;> simp
    rw [this, hX.mixed _ _ _ (valid_val ho) (valid_val hx)]
    congr 1
    cases hm : Nat.beq (x.2 % 4) (o.2 % 4) with
    | true => simp [dl]
    | false =>
      have : val ρ o.2 ≠ val ρ x.2 := fun e => by
        have := congrArg Prod.fst e
        simp only [val] at this
        rw [(beq_iff _ _).2 this.symm] at hm
        exact Bool.noConfusion hm
      simp [this]

theorem partners_eq (hX : Car dim X) {ρ : Env} {o : Op} (ho : ρ o.2 < dim (o.2 % 4)) (l : List Op) :
    ∀ s, OpsOk dim ρ l → sg s • (X o.1 (val ρ o.2) * evalO X ρ l)
      = ((partners o l s).map fun y => (sg y.1 * dl ρ o.2 y.2.1) • evalO X ρ y.2.2).sum
        + (sg s * (-1) ^ l.length) • (evalO X ρ l * X o.1 (val ρ o.2)) := by
  induction l with
  | nil =>
    intro s _
    have : partners o [] s = [] := rfl
    simp [this, evalO]
  | cons x xs ih =>
    intro s h
    have hx := h x (List.mem_cons_self ..)
    have ih' := ih (!s) fun y hy => h y (List.mem_cons_of_mem _ hy)
    have hs : sg (!s) = - sg s := by rw [← nt_eq, sg_nt]
    rw [partners_cons, List.map_append, List.sum_append, List.map_map]
    have e₂ : (List.map ((fun y => (sg y.1 * dl ρ o.2 y.2.1) • evalO X ρ y.2.2) ∘ fun y => (y.1, y.2.1, x :: y.2.2))
        (partners o xs (!s))).sum
        = X x.1 (val ρ x.2) * ((partners o xs (!s)).map fun y => (sg y.1 * dl ρ o.2 y.2.1) • evalO X ρ y.2.2).sum := by
      rw [← List.sum_map_mul_left]
      congr 1
      refine List.map_congr_left fun y _ => ?_
      simp only [Function.comp_apply, evalO_cons, mul_smul_comm]
    have e₁ : (List.map (fun y => (sg y.1 * dl ρ o.2 y.2.1) • evalO X ρ y.2.2)
          (bif xor x.1 o.1 && Nat.beq (x.2 % 4) (o.2 % 4) then [(s, x.2, xs)] else [])).sum
        = sg s • (((bif xor x.1 o.1 && Nat.beq (x.2 % 4) (o.2 % 4) then dl ρ o.2 x.2 else 0) : ℚ) • evalO X ρ xs) := by
      cases (xor x.1 o.1 && Nat.beq (x.2 % 4) (o.2 % 4)) <;> simp [mul_smul]
    rw [e₁, e₂, ← sub_eq_iff_eq_add.2 ih', evalO_cons, ← mul_assoc, swap_ops hX ho hx, sub_mul, smul_mul_assoc, one_mul, hs,
      List.length_cons, pow_succ, mul_sub, mul_smul_comm, mul_smul_comm]
    simp only [mul_assoc]
    module

theorem killed_by_right {E : A →ₗ[ℚ] ℚ} (hE : Vacuum dim X E) {ρ : Env} {o : Op} (ho : ρ o.2 < dim (o.2 % 4))
    (h : isAnn o = true) (a : A) : E (a * X o.1 (val ρ o.2)) = 0 := by
  refine hE.right _ _ _ (valid_val ho) ?_
  have : isAnn (o.1, o.2 % 4) = isAnn o := by
    have e : ∀ q : Op, isAnn q = (brec% q.1, Nat.beq (q.2 % 2) 0, Nat.beq (q.2 % 2) 1) := fun _ => rfl
    rw [e, e]
    simp only [Nat.mod_mod_of_dvd o.2 (show 2 ∣ 4 by decide)]
  rw [val, this, h]

theorem killed_by_left {E : A →ₗ[ℚ] ℚ} (hE : Vacuum dim X E) {ρ : Env} {o : Op} (ho : ρ o.2 < dim (o.2 % 4))
    (h : isAnn o = false) (a : A) : E (X o.1 (val ρ o.2) * a) = 0 := by
  refine hE.left _ _ _ (valid_val ho) ?_
  have : isAnn (o.1, o.2 % 4) = isAnn o := by
    have e : ∀ q : Op, isAnn q = (brec% q.1, Nat.beq (q.2 % 2) 0, Nat.beq (q.2 % 2) 1) := fun _ => rfl
    rw [e, e]
    simp only [Nat.mod_mod_of_dvd o.2 (show 2 ∣ 4 by decide)]
  rw [val, this, h]

theorem partners_mem {o : Op} {l : List Op} : ∀ {s} {y : Bool × Var × List Op}, y ∈ partners o l s →
    y.2.2.length < l.length ∧ ∀ x ∈ y.2.2, x ∈ l := by
  induction l with
  | nil => intro s y h; exact absurd h (List.not_mem_nil)
  | cons x xs ih =>
    intro s y h
    rw [partners_cons, List.mem_append] at h
    rcases h with h | h
    · cases hb : (xor x.1 o.1 && Nat.beq (x.2 % 4) (o.2 % 4)) with
      | false => rw [hb] at h; exact absurd h (List.not_mem_nil)
      | true =>
        rw [hb] at h
        have := List.mem_singleton.1 h
        subst this
        exact ⟨by simp, fun z hz => List.mem_cons_of_mem _ hz⟩
    · obtain ⟨z, hz, rfl⟩ := List.mem_map.1 h
      obtain ⟨h₁, h₂⟩ := ih hz
      refine ⟨by simpa using h₁, fun w hw => ?_⟩
      rcases List.mem_cons.1 hw with hw | hw
      · subst hw; exact List.mem_cons_self ..
      · exact List.mem_cons_of_mem _ (h₂ w hw)

theorem wick_nil (n : ℕ) : wick n [] = [(false, [])] := by cases n <;> rfl

theorem wick_cons (n : ℕ) (o : Op) (r : List Op) : wick (n + 1) (o :: r) = bif isAnn o then
    (partners o r false).flatMap (fun y => (wick n y.2.2).map fun z => (xr y.1 z.1, (0, [o.2, y.2.1]) :: z.2)) else [] := by
  have e : wick (n + 1) (o :: r) = (brec% isAnn o, bindL (fun y => mapL (fun z => (xr y.1 z.1, ((0 : ℕ), [o.2, y.2.1]) :: z.2))
    (wick n y.2.2)) (partners o r false), []) := rfl
  rw [e, brec_eq, bindL_eq]
  simp only [mapL_eq]

/-- Wick's theorem: the expectation value of a string is the sum over its full contractions. -/
theorem wick_eq {E : A →ₗ[ℚ] ℚ} (hE : Vacuum dim X E) (hI : IsDelta I) {ρ : Env} : ∀ (n : ℕ) (l : List Op),
    l.length ≤ n → OpsOk dim ρ l →
    E (evalO X ρ l) = ((wick n l).map fun z => sg z.1 * evalFs I ρ z.2).sum := by
  intro n
  induction n with
  | zero =>
    intro l hl _
    obtain rfl := List.length_eq_zero_iff.1 (Nat.le_zero.1 hl)
    simp [wick_nil, evalO, evalFs, sg, hE.one]
  | succ n ih =>
    intro l hl h
    cases l with
    | nil => simp [wick_nil, evalO, evalFs, sg, hE.one]
    | cons o r =>
      have ho := h o (List.mem_cons_self ..)
      have hr : OpsOk dim ρ r := fun x hx => h x (List.mem_cons_of_mem _ hx)
      rw [wick_cons, evalO_cons]
      cases ha : isAnn o with
      | false => simpa using killed_by_left hE ho ha _
      | true =>
        have hp := partners_eq hE.toCar ho r false hr
        have hs : sg false = 1 := rfl
        rw [hs, one_smul, one_mul] at hp
        rw [hp, map_add, map_smul, killed_by_right hE ho ha, smul_zero, add_zero, map_list_sum, List.map_map, cond_true]
        have : ∀ L : List (Bool × Var × List Op), (∀ y ∈ L, y.2.2.length ≤ n ∧ OpsOk dim ρ y.2.2) →
            (L.map (E ∘ fun y => (sg y.1 * dl ρ o.2 y.2.1) • evalO X ρ y.2.2)).sum
            = ((L.flatMap fun y => (wick n y.2.2).map fun z => (xr y.1 z.1, (0, [o.2, y.2.1]) :: z.2)).map
                fun z => sg z.1 * evalFs I ρ z.2).sum := by
          intro L
          induction L with
          | nil => intro _; rfl
          | cons y L ihL =>
            intro hL
            obtain ⟨h₁, h₂⟩ := hL y (List.mem_cons_self ..)
            rw [List.map_cons, List.sum_cons, ihL fun z hz => hL z (List.mem_cons_of_mem _ hz), List.flatMap_cons,
              List.map_append, List.sum_append, List.map_map]
            congr 1
            rw [Function.comp_apply, map_smul, ih _ h₁ h₂, smul_eq_mul, ← List.sum_map_mul_left]
            congr 1
            refine List.map_congr_left fun z _ => ?_
            rw [Function.comp_apply, sg_xr, evalFs_cons, evalF_delta hI, dl]
            ring
        refine this _ fun y hy => ?_
        obtain ⟨h₁, h₂⟩ := partners_mem hy
        refine ⟨?_, fun x hx => hr x (h₂ x hx)⟩
        rw [List.length_cons] at hl
        omega

theorem known_spec {ext s : List Var} {l : List Op} (h : known ext s l = true) : ∀ x ∈ l, x.2 ∈ s ∨ x.2 ∈ ext := by
  induction l with
  | nil => intro x hx; exact absurd hx List.not_mem_nil
  | cons x l ih =>
    have e : known ext s (x :: l) = (brec% mem x.2 s, known ext s l, (brec% mem x.2 ext, known ext s l, false)) := rfl
    rw [e] at h
    simp only [brec_eq] at h
    intro y hy
    cases h₁ : mem x.2 s with
    | true =>
      rw [h₁] at h
      rcases List.mem_cons.1 hy with hy | hy
      · subst hy; exact Or.inl ((mem_iff _ _).1 h₁)
      · exact ih h y hy
    | false =>
      rw [h₁] at h
      cases h₂ : mem x.2 ext with
      | false => rw [h₂] at h; exact Bool.noConfusion h
      | true =>
        rw [h₂] at h
        rcases List.mem_cons.1 hy with hy | hy
        · subst hy; exact Or.inr ((mem_iff _ _).1 h₂)
        · exact ih h y hy

theorem opsOk_of_known {ext s : List Var} {l : List Op} (h : known ext s l = true) {ρ ρ' : Env} (hρ : ExtOk dim ext ρ)
    (hr : Reach dim s ρ ρ') : OpsOk dim ρ' l := by
  intro x hx
  by_cases hs : x.2 ∈ s
  · exact hr.2 _ hs
  · rw [hr.1 _ hs]
    exact hρ _ ((known_spec h x hx).resolve_left hs)

theorem E_evalP {E : A →ₗ[ℚ] ℚ} (p : Piece) (ρ : Env) :
    E (evalP I X dim p ρ) = p.c.val * sumV dim p.s (fun ρ => evalFs I ρ p.f * E (evalO X ρ p.o)) ρ := by
  unfold evalP
  rw [map_smul, smul_eq_mul]
  congr 1
  have := sumV_hom (dim := dim) E.toAddMonoidHom p.s (fun ρ => evalFs I ρ p.f • evalO X ρ p.o) ρ
  simp only [LinearMap.toAddMonoidHom_coe, map_smul, smul_eq_mul] at this
  exact this

theorem E_evalS {E : A →ₗ[ℚ] ℚ} (l : List Piece) (ρ : Env) :
    E (evalS I X dim l ρ) = (l.map fun p => E (evalP I X dim p ρ)).sum := by
  unfold evalS
  rw [map_list_sum, List.map_map]
  rfl

/-- The contractions of a piece have the same expectation value as the piece. -/
theorem wickPiece_eq {E : A →ₗ[ℚ] ℚ} (hE : Vacuum dim X E) (hI : IsDelta I) {ext : List Var} {ρ : Env}
    (hρ : ExtOk dim ext ρ) (p : Piece) :
    E (evalS I X dim (wickPiece ext p) ρ) = E (evalP I X dim p ρ) := by
  have e : wickPiece ext p = (brec% known ext p.s p.o,
    mapL (fun z => killDeltas ext (len z.2) (p.c.flip z.1) p.s z.2 p.f []) (wick (len p.o) p.o), [p]) := by
    have e' : wickPiece ext p = forceO p.o fun o => forceL p.s fun s => brec% known ext s o,
      (brec% isNil (wick (len o) o), [],
        forceF p.f fun f => mapL (fun z => killDeltas ext (len z.2) (p.c.flip z.1) s z.2 f []) (wick (len o) o)), [p] := rfl
    rw [e', forceO_eq, forceL_eq, forceF_eq]
    cases wick (len p.o) p.o <;> rfl
  rw [e, brec_eq, E_evalS]
  cases hk : known ext p.s p.o with
  | false => simp
  | true =>
    rw [cond_true, mapL_eq, List.map_map]
    rw [E_evalP p]
    have h₁ : sumV dim p.s (fun ρ => evalFs I ρ p.f * E (evalO X ρ p.o)) ρ
        = sumV dim p.s (fun ρ => ((wick (len p.o) p.o).map fun z => sg z.1 * evalFs I ρ (z.2 ++ p.f)).sum) ρ := by
      refine sumV_congr fun ρ' hr => ?_
      rw [wick_eq hE hI (len p.o) p.o (by rw [len_eq]) (opsOk_of_known hk hρ hr), ← List.sum_map_mul_left]
      congr 1
      refine List.map_congr_left fun z _ => ?_
      rw [evalFs_append]; ring
    rw [h₁, sumV_list, ← List.sum_map_mul_left]
    congr 1
    refine List.map_congr_left fun z _ => ?_
    rw [Function.comp_apply, killDeltas_eq hI _ _ _ _ _ _ _ hρ, E_evalP]
    simp only [Coef.val_flip, evalO, List.map_nil, List.prod_nil, hE.one, mul_one]
    have := sumV_hom (dim := dim) (AddMonoidHom.mulLeft (sg z.1)) p.s (fun ρ => evalFs I ρ (z.2 ++ p.f)) ρ
    simp only [AddMonoidHom.coe_mulLeft] at this
    rw [← this]
    ring

/-- A list of pieces may be replaced by their contractions. -/
theorem wickAll_eq {E : A →ₗ[ℚ] ℚ} (hE : Vacuum dim X E) (hI : IsDelta I) {ext : List Var} {ρ : Env}
    (hρ : ExtOk dim ext ρ) (l : List Piece) :
    E (evalS I X dim (l.flatMap (wickPiece ext)) ρ) = E (evalS I X dim l ρ) := by
  induction l with
  | nil => rfl
  | cons p l ih => rw [List.flatMap_cons, evalS_append, map_add, ih, wickPiece_eq hE hI hρ, evalS_cons, map_add]

/-- The commutator with an even string. -/
theorem commOp_eq (hX : Car dim X) (hI : IsDelta I) {o : Op} {ρ : Env} (ho : ρ o.2 < dim (o.2 % 4)) {p : Piece}
    (hk : known [] p.s p.o = true) (heven : p.o.length % 2 = 0) (hfree : o.2 ∉ p.s) :
    evalS I X dim (commOp o p) ρ
      = X o.1 (val ρ o.2) * evalP I X dim p ρ - evalP I X dim p ρ * X o.1 (val ρ o.2) := by
  have e : commOp o p = mapL (fun y => killDeltas [o.2] 1 (p.c.flip y.1) p.s [(0, [o.2, y.2.1])] p.f y.2.2)
    (partners o p.o false) := rfl
  have hext : ExtOk dim [o.2] ρ := fun x hx => by
    obtain rfl := List.mem_singleton.1 hx
    exact ho
  have hv : ∀ ρ', Reach dim p.s ρ ρ' → val ρ' o.2 = val ρ o.2 := fun ρ' hr => by rw [val, val, hr.1 _ hfree]
  have h₁ : X o.1 (val ρ o.2) * evalP I X dim p ρ - evalP I X dim p ρ * X o.1 (val ρ o.2)
      = p.c.val • sumV dim p.s (fun ρ => ((partners o p.o false).map fun y =>
          (sg y.1 * evalFs I ρ ([(0, [o.2, y.2.1])] ++ p.f)) • evalO X ρ y.2.2).sum) ρ := by
    unfold evalP
    rw [mul_smul_comm, smul_mul_assoc, ← smul_sub, mul_sumV, sumV_mul]
    congr 1
    rw [sub_eq_iff_eq_add, ← sumV_add]
    refine sumV_congr fun ρ' hr => ?_
    have ho' : ρ' o.2 < dim (o.2 % 4) := by rw [hr.1 _ hfree]; exact ho
    have hp := partners_eq hX ho' p.o false (opsOk_of_known hk (fun x hx => absurd hx List.not_mem_nil) hr)
    have hs : sg false = 1 := rfl
    have hev : ((-1 : ℚ)) ^ p.o.length = 1 := Even.neg_one_pow (Nat.even_iff.2 heven)
    rw [hs, one_smul, hev, one_mul, one_smul, hv ρ' hr] at hp
    rw [mul_smul_comm, smul_mul_assoc, hp, smul_add, List.smul_sum, List.map_map]
    congr 2
    refine List.map_congr_left fun y _ => ?_
    rw [Function.comp_apply, evalFs_append, smul_smul]
    congr 1
    rw [evalFs_cons, evalF_delta hI, dl]
    simp only [evalFs, List.map_nil, List.prod_nil]
    ring
  rw [h₁, e, mapL_eq, sumV_list, List.smul_sum, evalS, List.map_map, List.map_map]
  congr 1
  refine List.map_congr_left fun y _ => ?_
  rw [Function.comp_apply, killDeltas_eq hI _ _ _ _ _ _ _ hext, Function.comp_apply]
  unfold evalP
  simp only [Coef.val_flip, mul_smul]
  rw [smul_comm (sg y.1), smul_sumV (sg y.1)]

end Ccpy.Engine
