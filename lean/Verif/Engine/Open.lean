import Verif.Engine.Derivation
import Mathlib.LinearAlgebra.Dual.Lemmas

/-! Projections without the operators of the bra: the annihilators of a string are contracted, and the creators that remain
become the indices of an antisymmetric array, `150 + k` for `k` creators.  This array stands for the values
`φ(c₁ … cₖ)` of a linear functional `φ` that vanishes on everything that ends with an annihilator. -/

namespace Ccpy.Engine

open Ccpy.Fock Ccpy.Tensor Finset

noncomputable section

/-- The contractions of all annihilators of a string: sign, delta factors, remaining creators. -/
def owick : ℕ → List Op → List (Bool × List Factor × List Op) := fun n =>
  nrec% n, (fun l => lrec% l, [(false, [], [])], fun _ _ _ => []), fun _ ih l =>
    lrec% l, [(false, [], [])], fun o r _ =>
      brec% isAnn o,
        bindL (fun y => mapL (fun z => (xr y.1 z.1, ((0 : ℕ), [o.2, y.2.1]) :: z.2.1, z.2.2)) (ih y.2.2)) (partners o r false),
        mapL (fun z => (z.1, z.2.1, o :: z.2.2)) (ih r)

/-- The factor that stands for a string of creators. -/
def encF (l : List Op) : Factor := (Nat.add 150 (len l), opVars l)

/-- The open contractions of a piece. -/
def openPiece (p : Piece) : List Piece :=
  forceO p.o fun o => forceL p.s fun s => brec% known [] s o,
    (brec% isNil (owick (len o) o), [],
      forceF p.f fun f => mapL (fun z => killDeltas [] (len z.2.1) (p.c.flip z.1) s z.2.1 (encF z.2.2 :: f) []) (owick (len o) o)),
    [p]

/-- A string of creators as an array. -/
def enc (p : Piece) : Piece := ⟨p.c, p.s, encF p.o :: p.f, []⟩

/-- The open contractions of a product that has a chance not to vanish after the operators `bra`. -/
def opened (bra : List Op) (a : Piece) (l : List (List Piece)) : List Piece :=
  bindL openPiece (prods l (weight true bra) (weight false bra) a)

end

variable {A : Type*} [Ring A] [Algebra ℚ A]
variable {I : ℕ → List (ℕ × ℕ) → ℚ} {X : Bool → ℕ × ℕ → A} {dim : ℕ → ℕ}

/-! ### Strings of creators -/

/-- The product of the creators of the given orbitals. -/
def creProd (X : Bool → ℕ × ℕ → A) (idx : List (ℕ × ℕ)) : A := (idx.map fun x => X (x.1 % 2 == 1) x).prod

theorem cre_of_isAnn {q : Op} (h : isAnn q = false) : q.1 = (q.2 % 4 % 2 == 1) := by
  obtain ⟨b, v⟩ := q
  have hm : v % 4 % 2 = v % 2 := Nat.mod_mod_of_dvd v (by decide)
  rw [isAnn_eq] at h
  have h2 : v % 2 = 0 ∨ v % 2 = 1 := by omega
  cases b <;> rcases h2 with h2 | h2 <;> simp [hm, h2] at h ⊢

theorem evalO_cre {ρ : Env} {l : List Op} (h : AllCre l) : evalO X ρ l = creProd X (l.map fun q => val ρ q.2) := by
  induction l with
  | nil => rfl
  | cons q l ih =>
    rw [evalO_cons, ih fun x hx => h x (List.mem_cons_of_mem _ hx)]
    have := cre_of_isAnn (h q (List.mem_cons_self ..))
    unfold creProd
    rw [List.map_cons, List.map_cons, List.prod_cons]
    congr 1
    rw [val, ← this]

/-- The functionals under consideration: annihilators on the right give zero, and so do strings without the right number
of operators of every kind. -/
structure Left (dim : ℕ → ℕ) (X : Bool → ℕ × ℕ → A) (φ : A →ₗ[ℚ] ℚ) (bra : List Op) : Prop extends Car dim X where
  right : ∀ b x a, Valid dim x → isAnn (b, x.1) = true → φ (a * X b x) = 0
  balance : ∀ ρ l, OpsOk dim ρ l → weight true (bra ++ l) ≠ weight false (bra ++ l) → φ (evalO X ρ l) = 0

/-- The arrays `150 + k`. -/
def Encodes (I : ℕ → List (ℕ × ℕ) → ℚ) (dim : ℕ → ℕ) (X : Bool → ℕ × ℕ → A) (φ : A →ₗ[ℚ] ℚ) : Prop :=
  ∀ idx : List (ℕ × ℕ), (∀ x ∈ idx, Valid dim x) → I (150 + idx.length) idx = φ (creProd X idx)

theorem evalF_encF {φ : A →ₗ[ℚ] ℚ} (hI : Encodes I dim X φ) {ρ : Env} {l : List Op} (hc : AllCre l) (ho : OpsOk dim ρ l) :
    evalF I ρ (encF l) = φ (evalO X ρ l) := by
  have e : encF l = (150 + l.length, l.map Prod.snd) := by
    unfold encF opVars
    rw [len_eq, mapL_eq]
    rfl
  rw [e, evalO_cre hc]
  have h := hI (l.map fun q => val ρ q.2) fun x hx => by
    obtain ⟨q, hq, rfl⟩ := List.mem_map.1 hx
    exact valid_val (ho q hq)
  rw [List.length_map] at h
  rw [← h]
  simp only [evalF, List.map_map]
  rfl

/-! ### Contractions -/

theorem owick_nil (n : ℕ) : owick n [] = [(false, [], [])] := by cases n <;> rfl

theorem owick_cons (n : ℕ) (o : Op) (r : List Op) : owick (n + 1) (o :: r) = bif isAnn o then
    (partners o r false).flatMap (fun y => (owick n y.2.2).map fun z => (xr y.1 z.1, (0, [o.2, y.2.1]) :: z.2.1, z.2.2))
    else (owick n r).map fun z => (z.1, z.2.1, o :: z.2.2) := by
  have e : owick (n + 1) (o :: r) = (brec% isAnn o,
    bindL (fun y => mapL (fun z => (xr y.1 z.1, ((0 : ℕ), [o.2, y.2.1]) :: z.2.1, z.2.2)) (owick n y.2.2)) (partners o r false),
    mapL (fun z => (z.1, z.2.1, o :: z.2.2)) (owick n r)) := rfl
  rw [e, brec_eq, bindL_eq]
  simp only [mapL_eq]

theorem owick_mem {n : ℕ} : ∀ {l : List Op} {z : Bool × List Factor × List Op}, z ∈ owick n l → l.length ≤ n →
    AllCre z.2.2 ∧ ∀ x ∈ z.2.2, x ∈ l := by
  induction n with
  | zero =>
    intro l z hz hl
    obtain rfl := List.length_eq_zero_iff.1 (Nat.le_zero.1 hl)
    rw [owick_nil, List.mem_singleton] at hz
    subst hz
    exact ⟨fun x hx => absurd hx List.not_mem_nil, fun x hx => absurd hx List.not_mem_nil⟩
  | succ n ih =>
    intro l z hz hl
    cases l with
    | nil =>
      rw [owick_nil, List.mem_singleton] at hz
      subst hz
      exact ⟨fun x hx => absurd hx List.not_mem_nil, fun x hx => absurd hx List.not_mem_nil⟩
    | cons o r =>
      rw [owick_cons] at hz
      rw [List.length_cons] at hl
      cases ha : isAnn o with
      | true =>
        rw [ha, cond_true, List.mem_flatMap] at hz
        obtain ⟨y, hy, hz⟩ := hz
        obtain ⟨w, hw, rfl⟩ := List.mem_map.1 hz
        obtain ⟨h₁, h₂⟩ := partners_mem hy
        obtain ⟨h₃, h₄⟩ := ih hw (by omega)
        exact ⟨h₃, fun x hx => List.mem_cons_of_mem _ (h₂ x (h₄ x hx))⟩
      | false =>
        rw [ha, cond_false] at hz
        obtain ⟨w, hw, rfl⟩ := List.mem_map.1 hz
        obtain ⟨h₃, h₄⟩ := ih hw (by omega)
        refine ⟨fun x hx => ?_, fun x hx => ?_⟩
        · rcases List.mem_cons.1 hx with hx | hx
          · rw [hx, ha]
          · exact h₃ x hx
        · rcases List.mem_cons.1 hx with hx | hx
          · rw [hx]; exact List.mem_cons_self ..
          · exact List.mem_cons_of_mem _ (h₄ x hx)

theorem right_zero {φ : A →ₗ[ℚ] ℚ} (hφ : ∀ b x a, Valid dim x → isAnn (b, x.1) = true → φ (a * X b x) = 0) {ρ : Env} {o : Op}
    (ho : ρ o.2 < dim (o.2 % 4)) (h : isAnn o = true) (a : A) : φ (a * X o.1 (val ρ o.2)) = 0 :=
  hφ _ _ _ (valid_val ho) (by rw [val, isAnn_mod]; exact h)

/-- Contracting the annihilators does not change the value. -/
theorem owick_eq (hX : Car dim X) {φ : A →ₗ[ℚ] ℚ} (hφ : ∀ b x a, Valid dim x → isAnn (b, x.1) = true → φ (a * X b x) = 0)
    (hI : IsDelta I) {ρ : Env} : ∀ (n : ℕ) (l : List Op) (c : A), l.length ≤ n → OpsOk dim ρ l →
    φ (c * evalO X ρ l) = ((owick n l).map fun z => sg z.1 * evalFs I ρ z.2.1 * φ (c * evalO X ρ z.2.2)).sum := by
  intro n
  induction n with
  | zero =>
    intro l c hl _
    obtain rfl := List.length_eq_zero_iff.1 (Nat.le_zero.1 hl)
    simp [owick_nil, evalFs, sg]
  | succ n ih =>
    intro l c hl h
    cases l with
    | nil => simp [owick_nil, evalFs, sg]
    | cons o r =>
      have ho := h o (List.mem_cons_self ..)
      have hr : OpsOk dim ρ r := fun x hx => h x (List.mem_cons_of_mem _ hx)
      rw [List.length_cons] at hl
      rw [owick_cons]
      cases ha : isAnn o with
      | false =>
        rw [cond_false, List.map_map, evalO_cons, ← mul_assoc, ih r _ (by omega) hr]
        congr 1
        refine List.map_congr_left fun z _ => ?_
        rw [Function.comp_apply, evalO_cons, mul_assoc c]
      | true =>
        have hp := partners_eq hX ho r false hr
        have hs : sg false = 1 := rfl
        rw [hs, one_smul, one_mul] at hp
        rw [evalO_cons, hp, mul_add, map_add, mul_smul_comm, map_smul, ← mul_assoc, right_zero hφ ho ha, smul_zero, add_zero,
          ← List.sum_map_mul_left, map_list_sum, List.map_map, cond_true]
        have : ∀ L : List (Bool × Var × List Op), (∀ y ∈ L, y.2.2.length ≤ n ∧ OpsOk dim ρ y.2.2) →
            (L.map (φ ∘ fun y => c * (sg y.1 * dl ρ o.2 y.2.1) • evalO X ρ y.2.2)).sum
            = ((L.flatMap fun y => (owick n y.2.2).map fun z => (xr y.1 z.1, (0, [o.2, y.2.1]) :: z.2.1, z.2.2)).map
                fun z => sg z.1 * evalFs I ρ z.2.1 * φ (c * evalO X ρ z.2.2)).sum := by
          intro L
          induction L with
          | nil => intro _; rfl
          | cons y L ihL =>
            intro hL
            obtain ⟨h₁, h₂⟩ := hL y (List.mem_cons_self ..)
            rw [List.map_cons, List.sum_cons, ihL fun z hz => hL z (List.mem_cons_of_mem _ hz), List.flatMap_cons,
              List.map_append, List.sum_append, List.map_map]
            congr 1
            rw [Function.comp_apply, mul_smul_comm, map_smul, ih _ c h₁ h₂, smul_eq_mul, ← List.sum_map_mul_left]
            congr 1
            refine List.map_congr_left fun z _ => ?_
            rw [Function.comp_apply, sg_xr, evalFs_cons, evalF_delta hI, dl]
            ring
        refine this _ fun y hy => ?_
        obtain ⟨h₁, h₂⟩ := partners_mem hy
        exact ⟨by omega, fun x hx => hr x (h₂ x hx)⟩

/-! ### Pieces -/

theorem scalS_cons (p : Piece) (l : List Piece) (ρ : Env) :
    scalS I dim (p :: l) ρ = p.c.val * scal I dim p.s p.f ρ + scalS I dim l ρ := by simp [scalS]

/-- The value of a piece without operators, as a number. -/
theorem scal_evalP (p : Piece) (hp : p.o = []) (ρ : Env) :
    p.c.val * scal I dim p.s p.f ρ = evalP I (fun _ _ => (0 : ℚ)) dim p ρ := by
  unfold scal evalP
  rw [hp]
  simp [evalO]

theorem scal_killDeltas (hI : IsDelta I) (n : ℕ) (c : Coef) (s : List Var) (todo done : List Factor) {ρ : Env} :
    (killDeltas [] n c s todo done []).c.val
        * scal I dim (killDeltas [] n c s todo done []).s (killDeltas [] n c s todo done []).f ρ
      = c.val * scal I dim s (todo ++ done) ρ := by
  have hext : ExtOk dim [] ρ := fun x hx => absurd hx List.not_mem_nil
  have ho : ∀ (n : ℕ) (c : Coef) (s : List Var) (todo done : List Factor), (killDeltas [] n c s todo done []).o = [] := by
    intro n
    induction n with
    | zero => intros; rfl
    | succ n ih =>
      intro c s todo done
      cases todo with
      | nil => rfl
      | cons x r =>
        have e : killDeltas [] (n + 1) c s (x :: r) done [] = orec% asDelta x, killDeltas [] n c s r (x :: done) [], fun p =>
          @Delta.rec (fun _ => Piece) (killDeltas [] n c s r (x :: done) []) (killDeltas [] n c s r done [])
            (fun v w => killDeltas [] n c (erase v s) (substF v w r) (substF v w done) (substO v w []))
            (decideDelta [] s p.1 p.2) := rfl
        rw [e]
        cases asDelta x with
        | none => exact ih ..
        | some p =>
          show (@Delta.rec (fun _ => Piece) _ _ _ (decideDelta [] s p.1 p.2)).o = []
          cases decideDelta [] s p.1 p.2 with
          | keep => exact ih ..
          | drop => exact ih ..
          | subst v w => exact ih ..
  rw [scal_evalP _ (ho ..), killDeltas_eq hI _ _ _ _ _ _ _ hext, ← scal_evalP _ rfl]

/-- The open contractions of a piece have its value. -/
theorem openPiece_eq (hX : Car dim X) {φ : A →ₗ[ℚ] ℚ}
    (hφ : ∀ b x a, Valid dim x → isAnn (b, x.1) = true → φ (a * X b x) = 0) (hI : IsDelta I) (hE : Encodes I dim X φ)
    (p : Piece) (ρ : Env) (hc : ∀ q ∈ openPiece p, q.o = []) : scalS I dim (openPiece p) ρ = φ (evalP I X dim p ρ) := by
  have e : openPiece p = (brec% known [] p.s p.o,
    mapL (fun z => killDeltas [] (len z.2.1) (p.c.flip z.1) p.s z.2.1 (encF z.2.2 :: p.f) []) (owick (len p.o) p.o), [p]) := by
    have e' : openPiece p = forceO p.o fun o => forceL p.s fun s => brec% known [] s o,
      (brec% isNil (owick (len o) o), [],
        forceF p.f fun f => mapL (fun z => killDeltas [] (len z.2.1) (p.c.flip z.1) s z.2.1 (encF z.2.2 :: f) []) (owick (len o) o)),
      [p] := rfl
    rw [e', forceO_eq, forceL_eq, forceF_eq]
    cases owick (len p.o) p.o <;> rfl
  have hext : ExtOk dim [] ρ := fun x hx => absurd hx List.not_mem_nil
  rw [e, brec_eq] at hc ⊢
  cases hk : known [] p.s p.o with
  | false =>
    rw [hk, cond_false] at hc
    have h0 := hc p (List.mem_singleton_self _)
    rw [h0] at hk
    exact Bool.noConfusion hk
  | true =>
    rw [cond_true, mapL_eq, scalS, List.map_map]
    have hP : φ (evalP I X dim p ρ) = p.c.val * sumV dim p.s (fun ρ => evalFs I ρ p.f * φ (evalO X ρ p.o)) ρ := by
      unfold evalP
      rw [map_smul, smul_eq_mul]
      congr 1
      have := sumV_hom (dim := dim) φ.toAddMonoidHom p.s (fun ρ => evalFs I ρ p.f • evalO X ρ p.o) ρ
      simp only [LinearMap.toAddMonoidHom_coe, map_smul, smul_eq_mul] at this
      exact this
    have h₁ : sumV dim p.s (fun ρ => evalFs I ρ p.f * φ (evalO X ρ p.o)) ρ
        = sumV dim p.s (fun ρ => ((owick (len p.o) p.o).map fun z => sg z.1 * evalFs I ρ (z.2.1 ++ (encF z.2.2 :: p.f))).sum) ρ := by
      refine sumV_congr fun ρ' hr => ?_
      have hops := opsOk_of_known hk hext hr
      have hw := owick_eq hX hφ hI (len p.o) p.o 1 (by rw [len_eq]) hops
      simp only [one_mul] at hw
      rw [hw, ← List.sum_map_mul_left]
      congr 1
      refine List.map_congr_left fun z hz => ?_
      obtain ⟨hz₁, hz₂⟩ := owick_mem hz (by rw [len_eq])
      rw [evalFs_append, evalFs_cons, evalF_encF hE hz₁ fun x hx => hops x (hz₂ x hx)]
      ring
    rw [hP, h₁, sumV_list, ← List.sum_map_mul_left]
    congr 1
    refine List.map_congr_left fun z _ => ?_
    rw [Function.comp_apply, scal_killDeltas hI, Coef.val_flip]
    have := sumV_hom (dim := dim) (AddMonoidHom.mulLeft (sg z.1)) p.s (fun ρ => evalFs I ρ (z.2.1 ++ (encF z.2.2 :: p.f))) ρ
    simp only [AddMonoidHom.coe_mulLeft] at this
    rw [← this]
    unfold scal
    ring

theorem openAll_eq (hX : Car dim X) {φ : A →ₗ[ℚ] ℚ}
    (hφ : ∀ b x a, Valid dim x → isAnn (b, x.1) = true → φ (a * X b x) = 0) (hI : IsDelta I) (hE : Encodes I dim X φ)
    (l : List Piece) (ρ : Env) (hc : ∀ q ∈ l.flatMap openPiece, q.o = []) :
    scalS I dim (l.flatMap openPiece) ρ = φ (evalS I X dim l ρ) := by
  induction l with
  | nil => simp [scalS, evalS]
  | cons p l ih =>
    rw [List.flatMap_cons] at hc
    rw [List.flatMap_cons, scalS_append, evalS_cons, map_add, ih fun q hq => hc q (List.mem_append_right _ hq),
      openPiece_eq hX hφ hI hE p ρ fun q hq => hc q (List.mem_append_left _ hq)]

/-- The products that cannot contribute may be left out. -/
theorem prods_open {φ : A →ₗ[ℚ] ℚ} {bra : List Op} (hφ : Left dim X φ bra) {b w : ℕ} {kn : List Var} {ρ : Env} :
    ∀ (l : List (List Piece)) {lo : ℕ} {a : Piece}, b ≤ lo → okSlots b w kn l lo = true →
    (∀ x ∈ a.f, ∀ v ∈ x.2, v < lo) → (∀ x ∈ a.o, x.2 < lo) → (∀ x ∈ a.o, x.2 ∈ a.s) → (∀ v ∈ kn, v ∈ a.s) →
    φ (evalS I X dim (prods l (weight true (bra ++ a.o)) (weight false (bra ++ a.o)) a) ρ) = φ (nest I X dim a l ρ) := by
  intro l
  induction l with
  | nil =>
    intro lo a _ _ _ _ hk _
    have e₁ : nest I X dim a [] ρ = evalP I X dim a ρ := by simp [nest, evalP]
    have e₂ : prods [] (weight true (bra ++ a.o)) (weight false (bra ++ a.o)) a
      = (brec% Nat.beq (weight true (bra ++ a.o)) (weight false (bra ++ a.o)), [a], []) := rfl
    rw [e₁, e₂, brec_eq]
    cases hb : Nat.beq (weight true (bra ++ a.o)) (weight false (bra ++ a.o)) with
    | true => simp [evalS]
    | false =>
      have hne : weight true (bra ++ a.o) ≠ weight false (bra ++ a.o) := fun e => by
        rw [(beq_iff _ _).2 e] at hb; exact Bool.noConfusion hb
      have h0 : φ (evalP I X dim a ρ) = a.c.val * sumV dim a.s (fun ρ => evalFs I ρ a.f * φ (evalO X ρ a.o)) ρ := by
        unfold evalP
        rw [map_smul, smul_eq_mul]
        congr 1
        have := sumV_hom (dim := dim) φ.toAddMonoidHom a.s (fun ρ => evalFs I ρ a.f • evalO X ρ a.o) ρ
        simp only [LinearMap.toAddMonoidHom_coe, map_smul, smul_eq_mul] at this
        exact this
      have : sumV dim a.s (fun ρ => evalFs I ρ a.f * φ (evalO X ρ a.o)) ρ = sumV dim a.s (fun _ => 0) ρ := by
        refine sumV_congr fun ρ' hr => ?_
        rw [hφ.balance ρ' _ (fun x hx => hr.2 _ (hk x hx)) hne, mul_zero]
      rw [h0, this, sumV_zero, mul_zero]
      simp [evalS]
  | cons ps l ih =>
    intro lo a hb h hf ho hk hkn
    obtain ⟨h₁, h₂⟩ := okSlots_cons h
    have hps := okSlot_spec h₁
    rw [nest_cons hb h hf ho, prods_cons, evalS_flatMap, map_list_sum, map_list_sum, List.map_map, List.map_map]
    congr 1
    refine List.map_congr_left fun p hp => ?_
    have hp' := hps p hp
    have e : mulP a p = ⟨a.c.mul p.c, a.s ++ p.s, a.f ++ p.f, a.o ++ p.o⟩ := by
      rw [← app_eq, ← app_eq, ← app_eq]; rfl
    have hw : ∀ t, weight t p.o + weight t (bra ++ a.o) = weight t (bra ++ (mulP a p).o) := fun t => by
      rw [e, weight_append, weight_append, weight_append]; omega
    rw [Function.comp_apply, Function.comp_apply, hw, hw]
    refine ih (lo := lo + w) (a := mulP a p) (Nat.le_trans hb (Nat.le_add_right ..)) h₂ ?_ ?_ ?_ ?_ <;> rw [e]
    · intro x hx v hv
      rcases List.mem_append.1 hx with hx | hx
      · exact Nat.lt_of_lt_of_le (hf x hx v hv) (Nat.le_add_right ..)
      · rcases hp'.f x hx v hv with h | h
        · exact Nat.lt_of_lt_of_le h (Nat.le_trans hb (Nat.le_add_right ..))
        · exact h.2
    · intro x hx
      rcases List.mem_append.1 hx with hx | hx
      · exact Nat.lt_of_lt_of_le (ho x hx) (Nat.le_add_right ..)
      · rcases hp'.o x hx with h | h
        · exact Nat.lt_of_lt_of_le h (Nat.le_trans hb (Nat.le_add_right ..))
        · exact h.2
    · intro x hx
      simp only [List.mem_append]
      rcases List.mem_append.1 hx with hx | hx
      · exact Or.inl (hk x hx)
      · rcases hp'.k x hx with h | h
        · exact Or.inr h
        · exact Or.inl (hkn _ h)
    · intro v hv
      simp only [List.mem_append]
      exact Or.inl (hkn v hv)

/-- The value of a product. -/
theorem opened_eq {φ : A →ₗ[ℚ] ℚ} {bra : List Op} (hφ : Left dim X φ bra) (hI : IsDelta I) (hE : Encodes I dim X φ)
    {b w lo : ℕ} {kn : List Var} {l : List (List Piece)} {a : Piece} (ha : a.o = []) (hb : b ≤ lo)
    (hl : okSlots b w kn l lo = true) (hf : ∀ x ∈ a.f, ∀ v ∈ x.2, v < lo) (hkn : ∀ v ∈ kn, v ∈ a.s) (ρ : Env)
    (hc : ∀ q ∈ opened bra a l, q.o = []) : scalS I dim (opened bra a l) ρ = φ (nest I X dim a l ρ) := by
  have e : opened bra a l = (prods l (weight true bra) (weight false bra) a).flatMap openPiece := bindL_eq ..
  rw [e] at hc ⊢
  rw [openAll_eq hφ.toCar hφ.right hI hE _ ρ hc]
  have := prods_open (I := I) (ρ := ρ) hφ l hb hl hf (by rw [ha]; exact fun x hx => absurd hx List.not_mem_nil)
    (by rw [ha]; exact fun x hx => absurd hx List.not_mem_nil) hkn
  rw [ha, List.append_nil] at this
  exact this

end Ccpy.Engine
