import Verif.Engine.Contract
import Mathlib.RingTheory.Nilpotent.Exp
import Mathlib.Algebra.Algebra.Subalgebra.Basic
import Mathlib.Algebra.Algebra.Subalgebra.Lattice
import Mathlib.Tactic.Abel

/-! Similarity transformations by excitation operators: `e^{-T} o e^{T} = o + [o, T]` for a single operator `o`, because
`T` contains only operators that create an excitation, and these anticommute. -/

namespace Ccpy.Engine

open Finset

variable {A : Type*} [Ring A] [Algebra ℚ A]

theorem mul_pow_of_commute {x t : A} (h : Commute (x * t - t * x) t) (n : ℕ) :
    x * t ^ n = t ^ n * x + (n : ℚ) • (t ^ (n - 1) * (x * t - t * x)) := by
  induction n with
  | zero => simp
  | succ n ih =>
    rw [pow_succ, ← mul_assoc, ih, add_mul, mul_assoc (t ^ n) x t, smul_mul_assoc, mul_assoc _ _ t, h.eq, ← mul_assoc _ t]
    have e : t ^ (n - 1) * t * (x * t - t * x) = t ^ n * (x * t - t * x) ∨ n = 0 := by
      rcases n with _ | n
      · exact Or.inr rfl
      · left; rw [← pow_succ]; rfl
    rcases e with e | e
    · rw [e, Nat.add_sub_cancel]
      push_cast
      rw [add_smul, one_smul, mul_sub]
      simp only [mul_assoc]
      abel
    · subst e; simp

theorem conj_exp {x t : A} (ht : IsNilpotent t) (h : Commute (x * t - t * x) t) :
    IsNilpotent.exp (-t) * x * IsNilpotent.exp t = x + (x * t - t * x) := by
  obtain ⟨k, hk⟩ := ht
  have hk1 : t ^ (k + 1) = 0 := by rw [pow_succ, hk, zero_mul]
  have key : x * IsNilpotent.exp t = IsNilpotent.exp t * (x + (x * t - t * x)) := by
    rw [IsNilpotent.exp_eq_sum hk1, Finset.mul_sum]
    have : ∀ i ∈ range (k + 1), x * ((i.factorial : ℚ)⁻¹ • t ^ i)
        = ((i.factorial : ℚ)⁻¹ • t ^ i) * x + (((i.factorial : ℚ)⁻¹ * i) • t ^ (i - 1)) * (x * t - t * x) := by
      intro i _
      rw [mul_smul_comm, mul_pow_of_commute h, smul_add, smul_mul_assoc, smul_mul_assoc, smul_smul]
    rw [Finset.sum_congr rfl this, Finset.sum_add_distrib, ← Finset.sum_mul, ← Finset.sum_mul, mul_add]
    congr 1
    rw [← IsNilpotent.exp_eq_sum hk1, IsNilpotent.exp_eq_sum hk, Finset.sum_range_succ']
    simp only [Nat.cast_zero, mul_zero, zero_smul, add_zero, Nat.add_sub_cancel]
    congr 1
    refine Finset.sum_congr rfl fun i _ => ?_
    congr 1
    rw [Nat.factorial_succ]
    push_cast
    have h1 : ((i : ℚ) + 1) ≠ 0 := by positivity
    have h2 : ((i.factorial : ℚ)) ≠ 0 := by positivity
    field_simp
  rw [mul_assoc, key, ← mul_assoc, IsNilpotent.exp_neg_mul_exp_self ⟨k, hk⟩, one_mul]

/-! ### Excitation operators -/

variable {I : ℕ → List (ℕ × ℕ) → ℚ} {X : Bool → ℕ × ℕ → A} {dim : ℕ → ℕ}

/-- The operators that create a hole or a particle. -/
def creators (dim : ℕ → ℕ) (X : Bool → ℕ × ℕ → A) : Set A :=
  {c | ∃ b x, Valid dim x ∧ isAnn (b, x.1) = false ∧ c = X b x}

theorem isAnn_eq (q : Op) : isAnn q = if q.1 then Nat.beq (q.2 % 2) 0 else Nat.beq (q.2 % 2) 1 := by
  obtain ⟨b, v⟩ := q
  cases b <;> rfl

theorem isAnn_mod (b : Bool) (v : Var) : isAnn (b, v % 4) = isAnn (b, v) := by
  rw [isAnn_eq, isAnn_eq]
  simp only [Nat.mod_mod_of_dvd v (show 2 ∣ 4 by decide)]

theorem creators_anti (hX : Car dim X) {c d : A} (hc : c ∈ creators dim X) (hd : d ∈ creators dim X) :
    c * d = -(d * c) := by
  obtain ⟨b, x, hx, hb, rfl⟩ := hc
  obtain ⟨b', y, hy, hb', rfl⟩ := hd
  by_cases h : b' = b
  · subst h; exact hX.same _ _ _ hx hy
  · obtain rfl : b' = !b := by revert h; cases b <;> cases b' <;> simp
    rw [hX.mixed _ _ _ hx hy, if_neg, zero_sub]
    rintro rfl
    rw [isAnn_eq] at hb hb'
    have hm : x.1 % 2 = 0 ∨ x.1 % 2 = 1 := by omega
    cases b <;> rcases hm with hm | hm <;> simp [hm] at hb hb'

/-- Combinations of products of creators that commute with all creators. -/
def excitations (dim : ℕ → ℕ) (X : Bool → ℕ × ℕ → A) : Subalgebra ℚ A :=
  Algebra.adjoin ℚ (creators dim X) ⊓ Subalgebra.centralizer ℚ (creators dim X)

theorem commute_adjoin {t y : A} (ht : t ∈ Subalgebra.centralizer ℚ (creators dim X))
    (hy : y ∈ Algebra.adjoin ℚ (creators dim X)) : Commute t y := by
  induction hy using Algebra.adjoin_induction with
  | mem c hc => exact ((Subalgebra.mem_centralizer_iff ℚ).1 ht c hc).symm
  | algebraMap r => exact (Algebra.commutes r t).symm
  | add x y _ _ h₁ h₂ => exact h₁.add_right h₂
  | mul x y _ _ h₁ h₂ => exact h₁.mul_right h₂

theorem commute_excitations {s t : A} (hs : s ∈ excitations dim X) (ht : t ∈ excitations dim X) : Commute s t :=
  commute_adjoin hs.2 ht.1

/-- A string of creators. -/
def AllCre (l : List Op) : Prop := ∀ x ∈ l, isAnn x = false

theorem creator_mem {ρ : Env} {x : Op} (hc : isAnn x = false) (ho : ρ x.2 < dim (x.2 % 4)) :
    X x.1 (val ρ x.2) ∈ creators dim X :=
  ⟨x.1, val ρ x.2, valid_val ho, by rw [val, isAnn_mod]; exact hc, rfl⟩

theorem evalO_adjoin {ρ : Env} {l : List Op} (hc : AllCre l) (ho : OpsOk dim ρ l) :
    evalO X ρ l ∈ Algebra.adjoin ℚ (creators dim X) := by
  induction l with
  | nil => exact Subalgebra.one_mem _
  | cons x l ih =>
    rw [evalO_cons]
    refine Subalgebra.mul_mem _ (Algebra.subset_adjoin ?_) (ih (fun y hy => hc y (List.mem_cons_of_mem _ hy))
      fun y hy => ho y (List.mem_cons_of_mem _ hy))
    exact creator_mem (hc x (List.mem_cons_self ..)) (ho x (List.mem_cons_self ..))

theorem evalO_past (hX : Car dim X) {ρ : Env} {l : List Op} (hc : AllCre l) (ho : OpsOk dim ρ l) {c : A}
    (h : c ∈ creators dim X) : evalO X ρ l * c = (-1 : ℚ) ^ l.length • (c * evalO X ρ l) := by
  induction l with
  | nil => simp [evalO]
  | cons x l ih =>
    have hx := creator_mem (X := X) (hc x (List.mem_cons_self ..)) (ho x (List.mem_cons_self ..))
    rw [evalO_cons, mul_assoc, ih (fun y hy => hc y (List.mem_cons_of_mem _ hy))
      fun y hy => ho y (List.mem_cons_of_mem _ hy), mul_smul_comm, ← mul_assoc, creators_anti hX hx h, List.length_cons,
      pow_succ, neg_mul, mul_assoc]
    simp

theorem evalO_excitations (hX : Car dim X) {ρ : Env} {l : List Op} (hc : AllCre l) (ho : OpsOk dim ρ l)
    (he : l.length % 2 = 0) : evalO X ρ l ∈ excitations dim X := by
  refine ⟨evalO_adjoin hc ho, (Subalgebra.mem_centralizer_iff ℚ).2 fun c h => ?_⟩
  rw [evalO_past hX hc ho h, Even.neg_one_pow (Nat.even_iff.2 he), one_smul]

theorem evalO_nilpotent (hX : Car dim X) {ρ : Env} {l : List Op} (hc : AllCre l) (ho : OpsOk dim ρ l)
    (he : l.length % 2 = 0) (hn : l ≠ []) : IsNilpotent (evalO X ρ l) := by
  refine ⟨2, ?_⟩
  obtain ⟨x, r, rfl⟩ := List.exists_cons_of_ne_nil hn
  have hm := evalO_excitations hX hc ho he
  have hx := creator_mem (X := X) (hc x (List.mem_cons_self ..)) (ho x (List.mem_cons_self ..))
  have hcomm := (Subalgebra.mem_centralizer_iff ℚ).1 hm.2 _ hx
  have hsq : X x.1 (val ρ x.2) * X x.1 (val ρ x.2) = 0 := by
    have := creators_anti hX hx hx
    have h2 : (2 : ℚ) • (X x.1 (val ρ x.2) * X x.1 (val ρ x.2)) = 0 := by
      rw [two_smul]; nth_rewrite 1 [this]; exact neg_add_cancel _
    exact (smul_eq_zero_iff_right (by norm_num : (2 : ℚ) ≠ 0)).1 h2
  rw [pow_two]
  have e : evalO X ρ (x :: r) = X x.1 (val ρ x.2) * evalO X ρ r := evalO_cons ..
  calc evalO X ρ (x :: r) * evalO X ρ (x :: r) = evalO X ρ (x :: r) * X x.1 (val ρ x.2) * evalO X ρ r := by
        rw [e, mul_assoc, mul_assoc, mul_assoc]
    _ = X x.1 (val ρ x.2) * evalO X ρ (x :: r) * evalO X ρ r := by rw [hcomm]
    _ = 0 := by rw [e, ← mul_assoc, hsq, zero_mul, zero_mul]

theorem sumV_induction {P : A → Prop} (h0 : P 0) (hadd : ∀ a b, P a → P b → P (a + b)) {s : List Var} {g : Env → A} :
    ∀ {ρ : Env}, (∀ ρ', Reach dim s ρ ρ' → P (g ρ')) → P (sumV dim s g ρ) := by
  induction s with
  | nil => intro ρ h; exact h ρ ⟨fun _ _ => rfl, fun _ h => absurd h List.not_mem_nil⟩
  | cons v s ih =>
    intro ρ h
    refine Finset.sum_induction _ P hadd h0 fun k hk => ih fun ρ' hr => h ρ' ⟨fun x hx => ?_, fun x hx => ?_⟩
    · rw [List.mem_cons, not_or] at hx
      rw [hr.1 x hx.2, Function.update_of_ne hx.1]
    · by_cases hs : x ∈ s
      · exact hr.2 x hs
      · have : x = v := by simpa [hs] using hx
        subst this
        rw [hr.1 x hs, Function.update_self]
        exact Finset.mem_range.1 hk

/-- The form of a term of an excitation operator: creators only, an even number of them and at least one, all of them
with summed variables. -/
structure ExcPiece (p : Piece) : Prop where
  known : known [] p.s p.o = true
  cre : AllCre p.o
  even : p.o.length % 2 = 0
  ne : p.o ≠ []

theorem evalP_excitation (hX : Car dim X) {p : Piece} (hp : ExcPiece p) (ρ : Env) :
    evalP I X dim p ρ ∈ excitations dim X ∧ IsNilpotent (evalP I X dim p ρ) := by
  have hs : ∀ (c : ℚ) (a : A), a ∈ excitations dim X ∧ IsNilpotent a → c • a ∈ excitations dim X ∧ IsNilpotent (c • a) :=
    fun c a h => ⟨Subalgebra.smul_mem _ h.1 c, h.2.smul c⟩
  refine hs _ _ (sumV_induction (P := fun a => a ∈ excitations dim X ∧ IsNilpotent a) ⟨Subalgebra.zero_mem _, .zero⟩
    (fun a b ha hb => ⟨Subalgebra.add_mem _ ha.1 hb.1, (commute_excitations ha.1 hb.1).isNilpotent_add ha.2 hb.2⟩)
    fun ρ' hr => hs _ _ ?_)
  have ho : OpsOk dim ρ' p.o := opsOk_of_known hp.known (fun x hx => absurd hx List.not_mem_nil) hr
  exact ⟨evalO_excitations hX hp.cre ho hp.even, evalO_nilpotent hX hp.cre ho hp.even hp.ne⟩

theorem evalS_excitation (hX : Car dim X) {T : List Piece} (hT : ∀ p ∈ T, ExcPiece p) (ρ : Env) :
    evalS I X dim T ρ ∈ excitations dim X ∧ IsNilpotent (evalS I X dim T ρ) := by
  induction T with
  | nil => exact ⟨Subalgebra.zero_mem _, .zero⟩
  | cons p T ih =>
    have h₁ := evalP_excitation (I := I) hX (hT p (List.mem_cons_self ..)) ρ
    have h₂ := ih fun q hq => hT q (List.mem_cons_of_mem _ hq)
    rw [evalS_cons]
    exact ⟨Subalgebra.add_mem _ h₁.1 h₂.1, (commute_excitations h₁.1 h₂.1).isNilpotent_add h₁.2 h₂.2⟩

/-- The commutator of an operator with an excitation operator is a combination of products of creators. -/
theorem comm_adjoin (hX : Car dim X) {o : Op} {p : Piece} (hp : ExcPiece p) {ρ : Env} (ho : ρ o.2 < dim (o.2 % 4))
    (hfree : o.2 ∉ p.s) :
    X o.1 (val ρ o.2) * evalP I X dim p ρ - evalP I X dim p ρ * X o.1 (val ρ o.2)
      ∈ Algebra.adjoin ℚ (creators dim X) := by
  unfold evalP
  rw [mul_smul_comm, smul_mul_assoc, ← smul_sub, mul_sumV, sumV_mul]
  refine Subalgebra.smul_mem _ ?_ _
  have : sumV dim p.s (fun ρ' => X o.1 (val ρ o.2) * (evalFs I ρ' p.f • evalO X ρ' p.o)) ρ
      - sumV dim p.s (fun ρ' => (evalFs I ρ' p.f • evalO X ρ' p.o) * X o.1 (val ρ o.2)) ρ
      = sumV dim p.s (fun ρ' => X o.1 (val ρ o.2) * (evalFs I ρ' p.f • evalO X ρ' p.o)
          - (evalFs I ρ' p.f • evalO X ρ' p.o) * X o.1 (val ρ o.2)) ρ := by
    rw [sub_eq_iff_eq_add, ← sumV_add]
    simp only [sub_add_cancel]
  rw [this]
  refine sumV_induction (P := fun a => a ∈ Algebra.adjoin ℚ (creators dim X)) (Subalgebra.zero_mem _)
    (fun a b => Subalgebra.add_mem _) fun ρ' hr => ?_
  rw [mul_smul_comm, smul_mul_assoc, ← smul_sub]
  refine Subalgebra.smul_mem _ ?_ _
  have hops : OpsOk dim ρ' p.o := opsOk_of_known hp.known (fun x hx => absurd hx List.not_mem_nil) hr
  have hv : val ρ o.2 = val ρ' o.2 := by rw [val, val, hr.1 _ hfree]
  have ho' : ρ' o.2 < dim (o.2 % 4) := by rw [hr.1 _ hfree]; exact ho
  have h := partners_eq hX ho' p.o false hops
  have hs : sg false = 1 := rfl
  rw [hs, one_smul, one_mul, Even.neg_one_pow (Nat.even_iff.2 hp.even), one_smul] at h
  rw [hv, h, add_sub_cancel_right]
  refine Subalgebra.list_sum_mem _ fun a ha => ?_
  obtain ⟨y, hy, rfl⟩ := List.mem_map.1 ha
  obtain ⟨_, h₂⟩ := partners_mem hy
  exact Subalgebra.smul_mem _ (evalO_adjoin (fun x hx => hp.cre x (h₂ x hx)) fun x hx => hops x (h₂ x hx)) _

/-- `e^{-T} o e^{T} = o + [o, T]`. -/
theorem hat_eq (hX : Car dim X) (hI : IsDelta I) {T : List Piece} (hT : ∀ p ∈ T, ExcPiece p) {o : Op} {ρ : Env}
    (ho : ρ o.2 < dim (o.2 % 4)) (hfree : ∀ p ∈ T, o.2 ∉ p.s) :
    evalS I X dim (hat T o) ρ
      = IsNilpotent.exp (-(evalS I X dim T ρ)) * X o.1 (val ρ o.2) * IsNilpotent.exp (evalS I X dim T ρ) := by
  have hcomm : ∀ T : List Piece, (∀ p ∈ T, ExcPiece p) → (∀ p ∈ T, o.2 ∉ p.s) →
      X o.1 (val ρ o.2) * evalS I X dim T ρ - evalS I X dim T ρ * X o.1 (val ρ o.2) ∈ Algebra.adjoin ℚ (creators dim X)
      ∧ evalS I X dim (T.flatMap (commOp o)) ρ
        = X o.1 (val ρ o.2) * evalS I X dim T ρ - evalS I X dim T ρ * X o.1 (val ρ o.2) := by
    intro T hT hfree
    induction T with
    | nil =>
      have e : evalS I X dim [] ρ = (0 : A) := rfl
      rw [List.flatMap_nil, e, mul_zero, zero_mul, sub_zero]
      exact ⟨Subalgebra.zero_mem _, rfl⟩
    | cons p T ih =>
      have hp := hT p (List.mem_cons_self ..)
      have hf := hfree p (List.mem_cons_self ..)
      obtain ⟨h₁, h₂⟩ := ih (fun q hq => hT q (List.mem_cons_of_mem _ hq)) fun q hq => hfree q (List.mem_cons_of_mem _ hq)
      have e : X o.1 (val ρ o.2) * evalS I X dim (p :: T) ρ - evalS I X dim (p :: T) ρ * X o.1 (val ρ o.2)
          = (X o.1 (val ρ o.2) * evalP I X dim p ρ - evalP I X dim p ρ * X o.1 (val ρ o.2))
            + (X o.1 (val ρ o.2) * evalS I X dim T ρ - evalS I X dim T ρ * X o.1 (val ρ o.2)) := by
        rw [evalS_cons, mul_add, add_mul]; abel
      rw [e, List.flatMap_cons, evalS_append, h₂, commOp_eq hX hI ho hp.known hp.even hf]
      exact ⟨Subalgebra.add_mem _ (comm_adjoin hX hp ho hf) h₁, rfl⟩
  obtain ⟨h₁, h₂⟩ := hcomm T hT hfree
  obtain ⟨h₃, h₄⟩ := evalS_excitation (I := I) hX hT ρ
  rw [conj_exp h₄ (commute_adjoin h₃.2 h₁).symm]
  have e : hat T o = ⟨⟨false, 1, 1⟩, [], [], [o]⟩ :: bindL (commOp o) T := rfl
  rw [e, evalS_cons, bindL_eq, h₂]
  congr 1
  simp [evalP, sumV, evalFs, evalO, Coef.val]

end Ccpy.Engine
