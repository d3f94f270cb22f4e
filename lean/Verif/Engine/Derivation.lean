import Verif.Engine.Equations

/-! Expectation values of `P [e^{-T} H e^{T}, R] Q` for an operator `R` made of creators only.  The commutator acts on the
transformed string one operator at a time, and only the bare operators have a non-vanishing commutator with `R`, so the
terms that would cancel in the difference of products never appear. -/

namespace Ccpy.Engine

open Ccpy.Fock Ccpy.Tensor Finset

noncomputable section

/-- Odd number of operators. -/
def oddL (l : List Op) : Bool := lrec% l, false, fun _ _ ih => nt ih
def signed (b : Bool) (l : List Piece) : List Piece := brec% b, mapL negP l, l
def both (a b : Bool) : Bool := brec% a, b, false

/-- The commutators with `R`, one operator of the string at a time; `odd` is the parity of `R`. -/
def dhats (T R : ℕ → List Piece) (odd : Bool) (l : List Op) : ℕ → List (List (List Piece)) :=
  lrec% l, (fun _ => []), fun o r ih n =>
    (signed (both odd (oddL r)) (bindL (commOp o) (R n)) :: hats T r (Nat.add n 8))
      :: mapL (fun q => hat (T n) o :: q) (ih (Nat.add n 8))

/-- All pieces that occur in a place. -/
def merged (T R : ℕ → List Piece) (l : List Op) : ℕ → List (List Piece) :=
  lrec% l, (fun _ => []), fun o _ ih n => app (bindL (commOp o) (R n)) (hat (T n) o) :: ih (Nat.add n 8)

/-- Remove all delta factors. -/
def clean (ext : List Var) (p : Piece) : Piece :=
  forceF p.f fun f => forceL p.s fun s => killDeltas ext (len f) p.c s f [] p.o

/-- The contractions of `pre · [e^{-T} H e^{T}, R] · post`. -/
def dproject (T R : ℕ → List Piece) (odd : Bool) (ext : List Var) (pre : List (List Piece)) (H : List Piece)
    (post : ℕ → List (List Piece)) (n : ℕ) : List Piece :=
  bindL (fun h => bindL (fun q => bindL (wickPiece ext)
    (prods (app pre (app q (post (Nat.add n (Nat.mul 8 (len h.o)))))) 0 0 ⟨h.c, h.s, h.f, []⟩)) (dhats T R odd h.o n)) H

/-- A piece of `R`: a string of creators with its own variables and external ones. -/
def okR (odd : Bool) (ext : List Var) (b : ℕ) (l : List Piece) : Bool :=
  lrec% l, true, fun p _ ih =>
    brec% known ext p.s p.o, (brec% allCre p.o, (brec% xr odd (oddL p.o), false, (brec% outside b p.s, ih, false)), false), false
def okRs (R : ℕ → List Piece) (odd : Bool) (ext : List Var) (b : ℕ) (l : List Op) : ℕ → Bool :=
  lrec% l, (fun _ => true), fun _ _ ih n => brec% okR odd ext b (R n), ih (Nat.add n 8), false

/-- The conditions under which `dproject` is right. -/
def okDH (T R : ℕ → List Piece) (odd : Bool) (ext : List Var) (pre : List (List Piece)) (post : ℕ → List (List Piece))
    (b lo n : ℕ) (h : Piece) : Bool :=
  brec% okSlots b 32 (app h.s ext) (app pre (app (merged T R h.o n) (post (Nat.add n (Nat.mul 8 (len h.o)))))) lo,
    (brec% inF b 0 0 h.f, (brec% known [] h.s h.o, (brec% inL b 0 0 (opVars h.o), (brec% disj h.s ext, (brec% okTs T b h.o n,
      (brec% okRs R odd ext b h.o n, nt (oddL h.o), false), false), false), false), false), false), false
def okDproject (T R : ℕ → List Piece) (odd : Bool) (ext : List Var) (pre : List (List Piece)) (H : List Piece)
    (post : ℕ → List (List Piece)) (b lo n : ℕ) : Bool :=
  brec% Nat.ble b lo, (lrec% H, true, fun h _ ih => brec% okDH T R odd ext pre post b lo n h, ih, false), false

end

variable {A : Type*} [Ring A] [Algebra ℚ A]
variable {I : ℕ → List (ℕ × ℕ) → ℚ} {X : Bool → ℕ × ℕ → A} {dim : ℕ → ℕ}

theorem oddL_cons (x : Op) (l : List Op) : oddL (x :: l) = !oddL l := by
  have e : oddL (x :: l) = nt (oddL l) := rfl
  rw [e, nt_eq]

theorem sg_oddL (l : List Op) : sg (oddL l) = (-1 : ℚ) ^ l.length := by
  induction l with
  | nil => simp [sg, oddL]
  | cons x l ih =>
    have e : oddL (x :: l) = nt (oddL l) := rfl
    rw [e, sg_nt, ih, List.length_cons, pow_succ]
    ring

theorem oddL_even {l : List Op} (h : l.length % 2 = 0) : oddL l = false := by
  have := sg_oddL l
  rw [Even.neg_one_pow (Nat.even_iff.2 h)] at this
  cases hl : oddL l with
  | false => rfl
  | true => rw [hl] at this; norm_num [sg] at this

/-! ### Combinations of strings of creators of one parity -/

/-- The combinations of strings of creators with the given parity. -/
def Hom (dim : ℕ → ℕ) (X : Bool → ℕ × ℕ → A) (odd : Bool) : Submodule ℚ A :=
  Submodule.span ℚ {a | ∃ (ρ : Env) (l : List Op), AllCre l ∧ OpsOk dim ρ l ∧ oddL l = odd ∧ a = evalO X ρ l}

theorem string_comm (hX : Car dim X) {ρ ρ' : Env} {l m : List Op} (hl : AllCre l) (hm : AllCre m) (hol : OpsOk dim ρ l)
    (hom : OpsOk dim ρ' m) : evalO X ρ l * evalO X ρ' m = sg (oddL l && oddL m) • (evalO X ρ' m * evalO X ρ l) := by
  induction m with
  | nil =>
    have : oddL ([] : List Op) = false := rfl
    simp [evalO, this, sg]
  | cons x m ih =>
    have hx := creator_mem (X := X) (hm x (List.mem_cons_self ..)) (hom x (List.mem_cons_self ..))
    rw [evalO_cons, ← mul_assoc, evalO_past hX hl hol hx, smul_mul_assoc, mul_assoc,
      ih (fun y hy => hm y (List.mem_cons_of_mem _ hy)) (fun y hy => hom y (List.mem_cons_of_mem _ hy)), mul_smul_comm,
      smul_smul, mul_assoc, ← sg_oddL, oddL_cons]
    congr 1
    cases oddL l <;> cases oddL m <;> norm_num [sg]

theorem hom_comm (hX : Car dim X) {p q : Bool} {a b : A} (ha : a ∈ Hom dim X p) (hb : b ∈ Hom dim X q) :
    a * b = sg (p && q) • (b * a) := by
  induction ha using Submodule.span_induction with
  | zero => simp
  | add x y _ _ h₁ h₂ => rw [add_mul, h₁, h₂, mul_add, smul_add]
  | smul c x _ h => rw [smul_mul_assoc, h, mul_smul_comm, smul_comm]
  | mem x hx =>
    obtain ⟨ρ, l, hl, ho, rfl, rfl⟩ := hx
    induction hb using Submodule.span_induction with
    | zero => simp
    | add x y _ _ h₁ h₂ => rw [add_mul, mul_add, h₁, h₂, smul_add]
    | smul c x _ h => rw [smul_mul_assoc, mul_smul_comm, h, smul_comm]
    | mem y hy =>
      obtain ⟨ρ', m, hm, ho', rfl, rfl⟩ := hy
      exact string_comm hX hl hm ho ho'

/-- The form of a term of `R`. -/
structure HomPiece (odd : Bool) (ext : List Var) (p : Piece) : Prop where
  known : known ext p.s p.o = true
  cre : AllCre p.o
  odd : oddL p.o = odd

theorem HomPiece.of_exc {p : Piece} (h : ExcPiece p) : HomPiece false [] p := ⟨h.known, h.cre, oddL_even h.even⟩

theorem evalP_hom {odd : Bool} {ext : List Var} {p : Piece} (hp : HomPiece odd ext p) {ρ : Env} (hρ : ExtOk dim ext ρ) :
    evalP I X dim p ρ ∈ Hom dim X odd := by
  refine Submodule.smul_mem _ _ (sumV_induction (P := fun a => a ∈ Hom dim X odd) (Submodule.zero_mem _)
    (fun a b => Submodule.add_mem _) fun ρ' hr => Submodule.smul_mem _ _ (Submodule.subset_span ?_))
  exact ⟨ρ', p.o, hp.cre, opsOk_of_known hp.known hρ hr, hp.odd, rfl⟩

theorem evalS_hom {odd : Bool} {ext : List Var} {l : List Piece} (hl : ∀ p ∈ l, HomPiece odd ext p) {ρ : Env}
    (hρ : ExtOk dim ext ρ) : evalS I X dim l ρ ∈ Hom dim X odd := by
  induction l with
  | nil => exact Submodule.zero_mem _
  | cons p l ih =>
    rw [evalS_cons]
    exact Submodule.add_mem _ (evalP_hom (hl p (List.mem_cons_self ..)) hρ) (ih fun q hq => hl q (List.mem_cons_of_mem _ hq))

/-- The graded commutator of an operator with a piece. -/
theorem commOp_graded (hX : Car dim X) (hI : IsDelta I) {o : Op} {ρ : Env} (ho : ρ o.2 < dim (o.2 % 4)) {ext : List Var}
    (hρ : ExtOk dim ext ρ) {p : Piece} (hk : known ext p.s p.o = true) (hfree : o.2 ∉ p.s) :
    evalS I X dim (commOp o p) ρ
      = X o.1 (val ρ o.2) * evalP I X dim p ρ - sg (oddL p.o) • (evalP I X dim p ρ * X o.1 (val ρ o.2)) := by
  have e : commOp o p = mapL (fun y => killDeltas [o.2] 1 (p.c.flip y.1) p.s [(0, [o.2, y.2.1])] p.f y.2.2)
    (partners o p.o false) := rfl
  have hext : ExtOk dim [o.2] ρ := fun x hx => by
    obtain rfl := List.mem_singleton.1 hx
    exact ho
  have hv : ∀ ρ', Reach dim p.s ρ ρ' → val ρ' o.2 = val ρ o.2 := fun ρ' hr => by rw [val, val, hr.1 _ hfree]
  have h₁ : X o.1 (val ρ o.2) * evalP I X dim p ρ - sg (oddL p.o) • (evalP I X dim p ρ * X o.1 (val ρ o.2))
      = p.c.val • sumV dim p.s (fun ρ => ((partners o p.o false).map fun y =>
          (sg y.1 * evalFs I ρ ([(0, [o.2, y.2.1])] ++ p.f)) • evalO X ρ y.2.2).sum) ρ := by
    unfold evalP
    rw [mul_smul_comm, smul_mul_assoc, smul_comm (sg (oddL p.o)), ← smul_sub, mul_sumV, sumV_mul, smul_sumV]
    congr 1
    rw [sub_eq_iff_eq_add, ← sumV_add]
    refine sumV_congr fun ρ' hr => ?_
    have ho' : ρ' o.2 < dim (o.2 % 4) := by rw [hr.1 _ hfree]; exact ho
    have hp := partners_eq hX ho' p.o false (opsOk_of_known hk hρ hr)
    have hs : sg false = 1 := rfl
    rw [hs, one_smul, one_mul, hv ρ' hr, ← sg_oddL] at hp
    rw [mul_smul_comm, smul_mul_assoc, hp, smul_add, List.smul_sum, List.map_map, smul_comm (sg (oddL p.o))]
    congr 2
    refine List.map_congr_left fun y _ => ?_
    rw [Function.comp_apply, evalFs_append, smul_smul]
    congr 1
    rw [evalFs_cons, evalF_delta hI, dl]
    simp only [evalFs, List.map_nil, List.prod_nil]
    ring
  rw [h₁, e, mapL_eq, sumV_list, List.smul_sum, evalS, List.map_map, List.map_map]
  congr 1
  refine List.map_congr_left fun y _ => ?_
  rw [Function.comp_apply, killDeltas_eq hI _ _ _ _ _ _ _ hext, Function.comp_apply]
  unfold evalP
  simp only [Coef.val_flip, mul_smul]
  rw [smul_comm (sg y.1), smul_sumV (sg y.1)]

/-- The graded commutator of an operator with `R`. -/
theorem commAll_graded (hX : Car dim X) (hI : IsDelta I) {o : Op} {ρ : Env} (ho : ρ o.2 < dim (o.2 % 4)) {ext : List Var}
    (hρ : ExtOk dim ext ρ) {odd : Bool} {l : List Piece} (hl : ∀ p ∈ l, HomPiece odd ext p) (hfree : ∀ p ∈ l, o.2 ∉ p.s) :
    evalS I X dim (bindL (commOp o) l) ρ
      = X o.1 (val ρ o.2) * evalS I X dim l ρ - sg odd • (evalS I X dim l ρ * X o.1 (val ρ o.2)) := by
  rw [bindL_eq]
  induction l with
  | nil =>
    have e : evalS I X dim [] ρ = (0 : A) := rfl
    rw [List.flatMap_nil, e, mul_zero, zero_mul, smul_zero, sub_zero]
  | cons p l ih =>
    have hp := hl p (List.mem_cons_self ..)
    rw [List.flatMap_cons, evalS_append, ih (fun q hq => hl q (List.mem_cons_of_mem _ hq))
      (fun q hq => hfree q (List.mem_cons_of_mem _ hq)), commOp_graded hX hI ho hρ hp.known (hfree p (List.mem_cons_self ..)),
      hp.odd, evalS_cons, mul_add, add_mul, smul_add]
    abel

theorem partners_odd {o : Op} {l : List Op} : ∀ {s} {y : Bool × Var × List Op}, y ∈ partners o l s →
    oddL y.2.2 = !oddL l := by
  induction l with
  | nil => intro s y h; exact absurd h (List.not_mem_nil)
  | cons x xs ih =>
    intro s y h
    rw [partners_cons, List.mem_append] at h
    rcases h with h | h
    · cases hb : (xor x.1 o.1 && Nat.beq (x.2 % 4) (o.2 % 4)) with
      | false => rw [hb] at h; exact absurd h (List.not_mem_nil)
      | true =>
        rw [hb] at h
        have := List.mem_singleton.1 h
        subst this
        rw [oddL_cons, Bool.not_not]
    · obtain ⟨z, hz, rfl⟩ := List.mem_map.1 h
      simp only [oddL_cons, ih hz]

/-- The commutator of an operator with an even piece of creators is an odd combination. -/
theorem comm_hom (hX : Car dim X) {o : Op} {p : Piece} (hp : ExcPiece p) {ρ : Env} (ho : ρ o.2 < dim (o.2 % 4))
    (hfree : o.2 ∉ p.s) :
    X o.1 (val ρ o.2) * evalP I X dim p ρ - evalP I X dim p ρ * X o.1 (val ρ o.2) ∈ Hom dim X true := by
  unfold evalP
  rw [mul_smul_comm, smul_mul_assoc, ← smul_sub, mul_sumV, sumV_mul]
  refine Submodule.smul_mem _ _ ?_
  have : sumV dim p.s (fun ρ' => X o.1 (val ρ o.2) * (evalFs I ρ' p.f • evalO X ρ' p.o)) ρ
      - sumV dim p.s (fun ρ' => (evalFs I ρ' p.f • evalO X ρ' p.o) * X o.1 (val ρ o.2)) ρ
      = sumV dim p.s (fun ρ' => X o.1 (val ρ o.2) * (evalFs I ρ' p.f • evalO X ρ' p.o)
          - (evalFs I ρ' p.f • evalO X ρ' p.o) * X o.1 (val ρ o.2)) ρ := by
    rw [sub_eq_iff_eq_add, ← sumV_add]
    simp only [sub_add_cancel]
  rw [this]
  refine sumV_induction (P := fun a => a ∈ Hom dim X true) (Submodule.zero_mem _)
    (fun a b => Submodule.add_mem _) fun ρ' hr => ?_
  rw [mul_smul_comm, smul_mul_assoc, ← smul_sub]
  refine Submodule.smul_mem _ _ ?_
  have hops : OpsOk dim ρ' p.o := opsOk_of_known hp.known (fun x hx => absurd hx List.not_mem_nil) hr
  have hv : val ρ o.2 = val ρ' o.2 := by rw [val, val, hr.1 _ hfree]
  have ho' : ρ' o.2 < dim (o.2 % 4) := by rw [hr.1 _ hfree]; exact ho
  have h := partners_eq hX ho' p.o false hops
  have hs : sg false = 1 := rfl
  rw [hs, one_smul, one_mul, Even.neg_one_pow (Nat.even_iff.2 hp.even), one_smul] at h
  rw [hv, h, add_sub_cancel_right]
  refine list_sum_mem fun a ha => ?_
  obtain ⟨y, hy, rfl⟩ := List.mem_map.1 ha
  obtain ⟨_, h₂⟩ := partners_mem hy
  refine Submodule.smul_mem _ _ (Submodule.subset_span ⟨ρ', y.2.2, fun x hx => hp.cre x (h₂ x hx),
    fun x hx => hops x (h₂ x hx), ?_, rfl⟩)
  rw [partners_odd hy, oddL_even hp.even]
  rfl

theorem commAll_hom (hX : Car dim X) {o : Op} {T : List Piece} (hT : ∀ p ∈ T, ExcPiece p) {ρ : Env}
    (ho : ρ o.2 < dim (o.2 % 4)) (hfree : ∀ p ∈ T, o.2 ∉ p.s) :
    X o.1 (val ρ o.2) * evalS I X dim T ρ - evalS I X dim T ρ * X o.1 (val ρ o.2) ∈ Hom dim X true := by
  induction T with
  | nil =>
    have e : evalS I X dim [] ρ = (0 : A) := rfl
    rw [e, mul_zero, zero_mul, sub_zero]
    exact Submodule.zero_mem _
  | cons p T ih =>
    have e : X o.1 (val ρ o.2) * evalS I X dim (p :: T) ρ - evalS I X dim (p :: T) ρ * X o.1 (val ρ o.2)
        = (X o.1 (val ρ o.2) * evalP I X dim p ρ - evalP I X dim p ρ * X o.1 (val ρ o.2))
          + (X o.1 (val ρ o.2) * evalS I X dim T ρ - evalS I X dim T ρ * X o.1 (val ρ o.2)) := by
      rw [evalS_cons, mul_add, add_mul]; abel
    rw [e]
    exact Submodule.add_mem _ (comm_hom hX (hT p (List.mem_cons_self ..)) ho (hfree p (List.mem_cons_self ..)))
      (ih (fun q hq => hT q (List.mem_cons_of_mem _ hq)) fun q hq => hfree q (List.mem_cons_of_mem _ hq))

/-- The graded commutator of a transformed operator with `R` is the one of the bare operator. -/
theorem hat_graded (hX : Car dim X) (hI : IsDelta I) {T R : List Piece} (hT : ∀ p ∈ T, ExcPiece p) {o : Op} {ρ : Env}
    (ho : ρ o.2 < dim (o.2 % 4)) (hfT : ∀ p ∈ T, o.2 ∉ p.s) {ext : List Var} (hρ : ExtOk dim ext ρ) {odd : Bool}
    (hR : ∀ p ∈ R, HomPiece odd ext p) (hfR : ∀ p ∈ R, o.2 ∉ p.s) :
    evalS I X dim (bindL (commOp o) R) ρ
      = evalS I X dim (hat T o) ρ * evalS I X dim R ρ - sg odd • (evalS I X dim R ρ * evalS I X dim (hat T o) ρ) := by
  have e : hat T o = ⟨⟨false, 1, 1⟩, [], [], [o]⟩ :: bindL (commOp o) T := rfl
  have e₁ : evalP I X dim ⟨⟨false, 1, 1⟩, [], [], [o]⟩ ρ = X o.1 (val ρ o.2) := by
    simp [evalP, sumV, evalFs, evalO, Coef.val]
  have hn : ExtOk dim [] ρ := fun x hx => absurd hx List.not_mem_nil
  have hc := commAll_graded (I := I) hX hI ho hn (fun p hp => HomPiece.of_exc (hT p hp)) hfT
  have h1 : sg false = 1 := rfl
  rw [h1, one_smul] at hc
  rw [commAll_graded hX hI ho hρ hR hfR, e, evalS_cons, e₁, hc, add_mul, mul_add, smul_add,
    hom_comm hX (commAll_hom hX hT ho hfT) (evalS_hom (I := I) hR hρ), Bool.true_and]
  abel

/-! ### The whole string -/

theorem evalS_signed (b : Bool) (l : List Piece) (ρ : Env) : evalS I X dim (signed b l) ρ = sg b • evalS I X dim l ρ := by
  have e : signed b l = (brec% b, mapL negP l, l) := rfl
  rw [e, brec_eq]
  cases b with
  | false => simp [sg]
  | true => simp only [cond_true, mapL_eq]; rw [evalS_negP]; simp [sg]

theorem okR_spec {odd : Bool} {ext : List Var} {b : ℕ} {l : List Piece} (h : okR odd ext b l = true) :
    ∀ p ∈ l, HomPiece odd ext p ∧ ∀ v ∈ p.s, b ≤ v := by
  induction l with
  | nil => exact fun x hx => absurd hx List.not_mem_nil
  | cons q l ih =>
    have e : okR odd ext b (q :: l) = (brec% known ext q.s q.o, (brec% allCre q.o, (brec% xr odd (oddL q.o), false,
      (brec% outside b q.s, okR odd ext b l, false)), false), false) := rfl
    rw [e] at h
    have hn : ∀ (a c : Bool), (brec% a, false, c) = (!a && c) := fun a c => by cases a <;> rfl
    simp only [brec_and, hn, Bool.and_eq_true] at h
    obtain ⟨h₁, h₂, h₃, h₄, h₅⟩ := h
    intro p hp
    rcases List.mem_cons.1 hp with hp | hp
    · subst hp
      refine ⟨⟨h₁, allCre_spec h₂, ?_⟩, outside_spec h₄⟩
      rw [xr_eq] at h₃
      revert h₃
      cases odd <;> cases oddL p.o <;> simp
    · exact ih h₅ p hp

theorem dhats_prod (hX : Car dim X) (hI : IsDelta I) {T R : ℕ → List Piece} {ρ : Env} {ext : List Var} (hρ : ExtOk dim ext ρ)
    {r : A} (hr : ∀ m, evalS I X dim (R m) ρ = r) {odd : Bool} {b : ℕ} (l : List Op) : ∀ {n : ℕ}, okTs T b l n = true →
    okRs R odd ext b l n = true → (∀ x ∈ l, x.2 < b) → OpsOk dim ρ l →
    ((dhats T R odd l n).map fun q => (q.map fun ps => evalS I X dim ps ρ).prod).sum
      = ((hats T l n).map fun ps => evalS I X dim ps ρ).prod * r
        - sg (odd && oddL l) • (r * ((hats T l n).map fun ps => evalS I X dim ps ρ).prod) := by
  induction l with
  | nil =>
    intro n _ _ _ _
    have e : hats T [] n = [] := rfl
    have e' : dhats T R odd [] n = [] := rfl
    have e₂ : oddL ([] : List Op) = false := rfl
    rw [e, e', e₂, Bool.and_false]
    simp [sg]
  | cons o l ih =>
    intro n hT hR hb ho
    have e : hats T (o :: l) n = hat (T n) o :: hats T l (n + 8) := rfl
    have e' : dhats T R odd (o :: l) n = (signed (both odd (oddL l)) (bindL (commOp o) (R n)) :: hats T l (n + 8))
      :: mapL (fun q => hat (T n) o :: q) (dhats T R odd l (n + 8)) := rfl
    have eT : okTs T b (o :: l) n = (brec% okT b (T n), okTs T b l (n + 8), false) := rfl
    have eR : okRs R odd ext b (o :: l) n = (brec% okR odd ext b (R n), okRs R odd ext b l (n + 8), false) := rfl
    rw [eT, brec_and, Bool.and_eq_true] at hT
    rw [eR, brec_and, Bool.and_eq_true] at hR
    have hsT := okT_spec hT.1
    have hsR := okR_spec hR.1
    have hob := hb o (List.mem_cons_self ..)
    have ih' := ih hT.2 hR.2 (fun x hx => hb x (List.mem_cons_of_mem _ hx)) (fun x hx => ho x (List.mem_cons_of_mem _ hx))
    have hg := hat_graded (I := I) hX hI (fun p hp => (hsT p hp).1) (ho o (List.mem_cons_self ..))
      (fun p hp hm => by have := (hsT p hp).2 _ hm; omega) hρ (fun p hp => (hsR p hp).1)
      (fun p hp hm => by have := (hsR p hp).2 _ hm; omega)
    have hmap : ((mapL (fun q => hat (T n) o :: q) (dhats T R odd l (n + 8))).map fun q =>
        (q.map fun ps => evalS I X dim ps ρ).prod).sum
        = evalS I X dim (hat (T n) o) ρ * ((dhats T R odd l (n + 8)).map fun q => (q.map fun ps => evalS I X dim ps ρ).prod).sum := by
      rw [mapL_eq, List.map_map, ← List.sum_map_mul_left]
      rfl
    have hbo : both odd (oddL l) = (odd && oddL l) := brec_and ..
    rw [e', e, List.map_cons, List.sum_cons, hmap, ih', List.map_cons, List.map_cons, List.prod_cons, List.prod_cons, evalS_signed,
      hg, hr, hbo, oddL_cons]
    have hs : sg (odd && !oddL l) = sg (odd && oddL l) * sg odd := by
      cases odd <;> cases oddL l <;> norm_num [sg]
    rw [hs, mul_smul]
    simp only [smul_mul_assoc, sub_mul, mul_sub, smul_sub, mul_smul_comm, mul_assoc]
    abel

/-! ### Conditions on variables -/

/-- Everything that is right about the pieces of the second list is right about those of the first. -/
def Below (q' q : List Piece) : Prop :=
  ∀ b lo hi kn, okSlot b lo hi kn q = true → okSlot b lo hi kn q' = true

theorem okSlot_iff {b lo hi : ℕ} {kn : List Var} {l : List Piece} :
    okSlot b lo hi kn l = true ↔ ∀ p ∈ l, okPiece b lo hi kn p = true := by
  induction l with
  | nil => exact ⟨fun _ p hp => absurd hp List.not_mem_nil, fun _ => rfl⟩
  | cons q l ih =>
    have e : okSlot b lo hi kn (q :: l) = (brec% okPiece b lo hi kn q, okSlot b lo hi kn l, false) := rfl
    rw [e, brec_and, Bool.and_eq_true, ih]
    simp

theorem Below.refl (q : List Piece) : Below q q := fun _ _ _ _ h => h

theorem below_app {q' l m : List Piece} (h : (∀ p ∈ q', ∃ p' ∈ l ++ m, ∀ b lo hi kn, okPiece b lo hi kn p' = true →
    okPiece b lo hi kn p = true)) : Below q' (app l m) := fun b lo hi kn hq => by
  rw [app_eq, okSlot_iff] at hq
  rw [okSlot_iff]
  intro p hp
  obtain ⟨p', hp', hk⟩ := h p hp
  exact hk _ _ _ _ (hq p' hp')

theorem signed_below (s : Bool) (l m : List Piece) : Below (signed s l) (app l m) := by
  refine below_app fun p hp => ?_
  have e : signed s l = (brec% s, mapL negP l, l) := rfl
  rw [e, brec_eq, mapL_eq] at hp
  cases s with
  | false => exact ⟨p, List.mem_append_left _ hp, fun _ _ _ _ h => h⟩
  | true =>
    obtain ⟨p', hp', rfl⟩ := List.mem_map.1 hp
    exact ⟨p', List.mem_append_left _ hp', fun _ _ _ _ h => h⟩

theorem second_below (l m : List Piece) : Below m (app l m) :=
  below_app fun p hp => ⟨p, List.mem_append_right _ hp, fun _ _ _ _ h => h⟩

theorem okSlots_below {b w : ℕ} {kn : List Var} {l' l : List (List Piece)} (h : List.Forall₂ Below l' l) : ∀ {lo : ℕ},
    okSlots b w kn l lo = true → okSlots b w kn l' lo = true := by
  induction h with
  | nil => exact fun h => h
  | @cons q' q l' l h₁ _ ih =>
    intro lo h
    obtain ⟨h₂, h₃⟩ := okSlots_cons h
    have e : okSlots b w kn (q' :: l') lo = (brec% okSlot b lo (Nat.add lo w) kn q', okSlots b w kn l' (Nat.add lo w), false) := rfl
    rw [e, brec_and, Bool.and_eq_true]
    exact ⟨h₁ _ _ _ _ h₂, ih h₃⟩

theorem forall₂_refl (l : List (List Piece)) : List.Forall₂ Below l l := by
  induction l with
  | nil => exact .nil
  | cons q l ih => exact .cons (Below.refl q) ih

theorem forall₂_append {l₁ l₂ m₁ m₂ : List (List Piece)} (h : List.Forall₂ Below l₁ m₁) (h' : List.Forall₂ Below l₂ m₂) :
    List.Forall₂ Below (l₁ ++ l₂) (m₁ ++ m₂) := by
  induction h with
  | nil => exact h'
  | cons h₁ _ ih => exact .cons h₁ ih

theorem hats_below (T R : ℕ → List Piece) (l : List Op) : ∀ n, List.Forall₂ Below (hats T l n) (merged T R l n) := by
  induction l with
  | nil => exact fun _ => .nil
  | cons o l ih => exact fun n => .cons (second_below _ _) (ih _)

theorem dhats_below {T R : ℕ → List Piece} {odd : Bool} (l : List Op) : ∀ {n q}, q ∈ dhats T R odd l n →
    List.Forall₂ Below q (merged T R l n) := by
  induction l with
  | nil => intro n q h; exact absurd h List.not_mem_nil
  | cons o l ih =>
    intro n q h
    have e' : dhats T R odd (o :: l) n = (signed (both odd (oddL l)) (bindL (commOp o) (R n)) :: hats T l (n + 8))
      :: mapL (fun q => hat (T n) o :: q) (dhats T R odd l (n + 8)) := rfl
    rw [e', mapL_eq] at h
    rcases List.mem_cons.1 h with h | h
    · subst h
      exact .cons (signed_below _ _ _) (hats_below T R l _)
    · obtain ⟨q', hq', rfl⟩ := List.mem_map.1 h
      exact .cons (second_below _ _) (ih hq')

theorem okDH_spec {T R : ℕ → List Piece} {odd : Bool} {ext : List Var} {pre : List (List Piece)} {post : ℕ → List (List Piece)}
    {b lo n : ℕ} {h : Piece} (hh : okDH T R odd ext pre post b lo n h = true) :
    (∀ q ∈ dhats T R odd h.o n, okSlots b 32 (h.s ++ ext) (pre ++ (q ++ post (n + 8 * h.o.length))) lo = true) ∧
      (∀ x ∈ h.f, ∀ v ∈ x.2, v < b) ∧ known [] h.s h.o = true ∧
      (∀ x ∈ h.o, x.2 < b) ∧ (∀ x ∈ h.s, x ∉ ext) ∧ okTs T b h.o n = true ∧ okRs R odd ext b h.o n = true ∧ oddL h.o = false := by
  have e : okDH T R odd ext pre post b lo n h =
    (brec% okSlots b 32 (app h.s ext) (app pre (app (merged T R h.o n) (post (Nat.add n (Nat.mul 8 (len h.o)))))) lo,
    (brec% inF b 0 0 h.f, (brec% known [] h.s h.o, (brec% inL b 0 0 (opVars h.o), (brec% disj h.s ext, (brec% okTs T b h.o n,
      (brec% okRs R odd ext b h.o n, nt (oddL h.o), false), false), false), false), false), false), false) := rfl
  rw [e] at hh
  simp only [brec_and, Bool.and_eq_true, app_eq, nt_eq, len_eq, Bool.not_eq_true'] at hh
  obtain ⟨h₁, h₂, h₃, h₄, h₅, h₆, h₇, h₈⟩ := hh
  refine ⟨fun q hq => ?_, fun x hx v hv => ?_, h₃, fun x hx => ?_, disj_spec h₅, h₆, h₇, h₈⟩
  · exact okSlots_below (forall₂_append (forall₂_refl _) (forall₂_append (dhats_below _ hq) (forall₂_refl _))) h₁
  · exact (inF_spec h₂ x hx v hv).resolve_right (by omega)
  · have : x.2 ∈ opVars h.o := by rw [opVars, mapL_eq]; exact List.mem_map_of_mem hx
    exact (inL_spec h₄ _ this).resolve_right (by omega)

/-- `dproject` computes the expectation value. -/
theorem dproject_eq {E : A →ₗ[ℚ] ℚ} (hE : Vacuum dim X E) (hI : IsDelta I) {T R : ℕ → List Piece} {t r : A}
    (ht : ∀ m ρ, evalS I X dim (T m) ρ = t) (hn : IsNilpotent t) {ext : List Var} {ρ : Env} (hρ : ExtOk dim ext ρ)
    (hr : ∀ m (ρ' : Env), (∀ v ∈ ext, ρ' v = ρ v) → evalS I X dim (R m) ρ' = r) {odd : Bool}
    {pre : List (List Piece)} {post : ℕ → List (List Piece)} {b lo n : ℕ} {P Q : A}
    (hP : ∀ ρ' : Env, (∀ v ∈ ext, ρ' v = ρ v) → (pre.map fun ps => evalS I X dim ps ρ').prod = P)
    (hQ : ∀ (ρ' : Env) m, (∀ v ∈ ext, ρ' v = ρ v) → ((post m).map fun ps => evalS I X dim ps ρ').prod = Q)
    {H : List Piece} (hH : okDproject T R odd ext pre H post b lo n = true) :
    E (evalS I X dim (dproject T R odd ext pre H post n) ρ)
      = E (P * (IsNilpotent.exp (-t) * evalS I X dim H ρ * IsNilpotent.exp t * r
          - r * (IsNilpotent.exp (-t) * evalS I X dim H ρ * IsNilpotent.exp t)) * Q) := by
  have e₀ : okDproject T R odd ext pre H post b lo n =
    (brec% Nat.ble b lo, (lrec% H, true, fun h _ ih => brec% okDH T R odd ext pre post b lo n h, ih, false), false) := rfl
  rw [e₀, brec_and, Bool.and_eq_true] at hH
  obtain ⟨hbl, hH⟩ := hH
  rw [ble_iff] at hbl
  have hp : dproject T R odd ext pre H post n
      = H.flatMap fun h => (dhats T R odd h.o n).flatMap fun q =>
        (prods (pre ++ (q ++ post (n + 8 * h.o.length))) 0 0 ⟨h.c, h.s, h.f, []⟩).flatMap (wickPiece ext) := by
    unfold dproject
    rw [bindL_eq]
    simp only [bindL_eq, app_eq, len_eq]
    rfl
  rw [hp]
  clear hp e₀
  induction H with
  | nil => simp [evalS]
  | cons h H ih =>
    have e : (lrec% (h :: H), true, fun h _ ih => brec% okDH T R odd ext pre post b lo n h, ih, false)
      = (brec% okDH T R odd ext pre post b lo n h,
        (lrec% H, true, fun h _ ih => brec% okDH T R odd ext pre post b lo n h, ih, false), false) := rfl
    rw [e, brec_and, Bool.and_eq_true] at hH
    obtain ⟨h₁, h₂, h₃, h₄, h₅, h₆, h₇, h₈⟩ := okDH_spec hH.1
    rw [List.flatMap_cons, evalS_append, map_add, ih hH.2, evalS_cons, evalS_flatMap, map_list_sum, List.map_map]
    have hw : ∀ t, weight t (⟨h.c, h.s, h.f, []⟩ : Piece).o = 0 := fun t => rfl
    have key : (dhats T R odd h.o n).map (E ∘ fun q => evalS I X dim ((prods (pre ++ (q ++ post (n + 8 * h.o.length))) 0 0
        ⟨h.c, h.s, h.f, []⟩).flatMap (wickPiece ext)) ρ)
        = (dhats T R odd h.o n).map (E ∘ fun q => nest I X dim ⟨h.c, h.s, h.f, []⟩ (pre ++ (q ++ post (n + 8 * h.o.length))) ρ) := by
      refine List.map_congr_left fun q hq => ?_
      have := prods_eq (a := ⟨h.c, h.s, h.f, []⟩) hE hI hρ (pre ++ (q ++ post (n + 8 * h.o.length))) hbl (h₁ q hq)
        (fun x hx v hv => Nat.lt_of_lt_of_le (h₂ x hx v hv) hbl) (fun x hx => absurd hx List.not_mem_nil)
        (fun x hx => absurd hx List.not_mem_nil) (fun v hv => List.mem_append.1 hv)
      rw [hw, hw] at this
      rw [Function.comp_apply, Function.comp_apply, wickAll_eq hE hI hρ, this]
    rw [key, ← List.map_map, ← map_list_sum]
    have hnest : ((dhats T R odd h.o n).map fun q => nest I X dim ⟨h.c, h.s, h.f, []⟩ (pre ++ (q ++ post (n + 8 * h.o.length))) ρ).sum
        = P * (IsNilpotent.exp (-t) * evalP I X dim h ρ * IsNilpotent.exp t * r
          - r * (IsNilpotent.exp (-t) * evalP I X dim h ρ * IsNilpotent.exp t)) * Q := by
      let φ : A →ₗ[ℚ] A :=
        { toFun := fun x => P * (IsNilpotent.exp (-t) * x * IsNilpotent.exp t * r
            - r * (IsNilpotent.exp (-t) * x * IsNilpotent.exp t)) * Q
          map_add' := fun x y => by noncomm_ring
          map_smul' := fun c x => by
            simp only [mul_smul_comm, smul_mul_assoc, ← smul_sub, RingHom.id_apply] }
      have hφ : P * (IsNilpotent.exp (-t) * evalP I X dim h ρ * IsNilpotent.exp t * r
          - r * (IsNilpotent.exp (-t) * evalP I X dim h ρ * IsNilpotent.exp t)) * Q = φ (evalP I X dim h ρ) := rfl
      have hl : ((dhats T R odd h.o n).map fun q => nest I X dim ⟨h.c, h.s, h.f, []⟩ (pre ++ (q ++ post (n + 8 * h.o.length))) ρ).sum
          = h.c.val • sumV dim h.s (fun ρ => ((dhats T R odd h.o n).map fun q => evalFs I ρ h.f • (evalO X ρ [] *
            ((pre ++ (q ++ post (n + 8 * h.o.length))).map fun ps => evalS I X dim ps ρ).prod)).sum) ρ := by
        rw [sumV_list, List.smul_sum, List.map_map]
        rfl
      rw [hφ, hl]
      unfold evalP
      rw [map_smul]
      congr 1
      have := sumV_hom (dim := dim) φ.toAddMonoidHom h.s (fun ρ => evalFs I ρ h.f • evalO X ρ h.o) ρ
      refine Eq.trans ?_ this.symm
      refine sumV_congr fun ρ' hr' => ?_
      have hag : ∀ v ∈ ext, ρ' v = ρ v := fun v hv => hr'.1 v fun hs => h₅ v hs hv
      have hρ' : ExtOk dim ext ρ' := fun v hv => by rw [hag v hv]; exact hρ v hv
      have hops : OpsOk dim ρ' h.o := fun x hx => by
        rcases known_spec h₃ x hx with h | h
        · exact hr'.2 _ h
        · exact absurd h List.not_mem_nil
      have hd := dhats_prod hE.toCar hI hρ' (fun m => hr m ρ' hag) h.o h₆ h₇ h₄ hops
      rw [h₈, Bool.and_false, hats_prod hE.toCar hI ht hn h.o h₆ h₄ hops] at hd
      have h1 : sg false = 1 := rfl
      rw [h1, one_smul] at hd
      have hone : evalO X ρ' [] = (1 : A) := by simp [evalO]
      have hlist : ((dhats T R odd h.o n).map fun q => evalFs I ρ' h.f • (evalO X ρ' [] *
            ((pre ++ (q ++ post (n + 8 * h.o.length))).map fun ps => evalS I X dim ps ρ').prod)).sum
          = evalFs I ρ' h.f • (P * ((dhats T R odd h.o n).map fun q => (q.map fun ps => evalS I X dim ps ρ').prod).sum * Q) := by
        rw [← List.sum_map_mul_left, ← List.sum_map_mul_right, List.smul_sum, List.map_map]
        congr 1
        refine List.map_congr_left fun q _ => ?_
        rw [hone, one_mul, List.map_append, List.map_append, List.prod_append, List.prod_append, hP ρ' hag, hQ ρ' _ hag,
          Function.comp_apply, mul_assoc]
      rw [hlist, hd]
      show _ = φ (evalFs I ρ' h.f • evalO X ρ' h.o)
      rw [map_smul]
      rfl
    rw [hnest, ← map_add]
    congr 1
    noncomm_ring

theorem clean_eq (hI : IsDelta I) {ext : List Var} {ρ : Env} (hρ : ExtOk dim ext ρ) (p : Piece) :
    evalP I X dim (clean ext p) ρ = evalP I X dim p ρ := by
  have e : clean ext p = forceF p.f fun f => forceL p.s fun s => killDeltas ext (len f) p.c s f [] p.o := rfl
  rw [e, forceF_eq, forceL_eq, killDeltas_eq hI _ _ _ _ _ _ _ hρ, List.append_nil]

/-! ### Comparison of a program with expectation values and commutators -/

/-- One term `± ⟨P [e^{-T} H e^{T}, R] Q⟩`. -/
structure Dterm where
  neg : Bool
  odd : Bool
  pre : List (List Piece)
  R : ℕ → List Piece
  post : ℕ → List (List Piece)

noncomputable section

def dstart (t : Dterm) : ℕ := Nat.add 15 (Nat.mul 8 (len t.pre))

def dcombine (T : ℕ → List Piece) (ext : List Var) (H : List Piece) (ts : List Dterm) : List Piece :=
  bindL (fun t => signed t.neg (dproject T t.R t.odd ext t.pre H t.post (dstart t))) ts

def okDterms (T : ℕ → List Piece) (ext : List Var) (H : List Piece) (ts : List Dterm) : Bool :=
  lrec% ts, true, fun t _ ih => brec% okDproject T t.R t.odd ext t.pre H t.post 60 60 (dstart t), ih, false

def cleaned (b : Bool) (ext : List Var) (l : List Piece) : List Piece := brec% b, mapL (clean ext) l, l

/-- All conditions for the equality of a program and a combination of expectation values; `b` says whether operators of `R`
carry external variables. -/
def dcheck (G : ℕ → List ℕ) (T : ℕ → List Piece) (H : List Piece) (x : Ex) (ext : List Var) (ts : List Term) (b : Bool)
    (ds : List Dterm) : Bool :=
  brec% x.ok, (brec% okTerms T ext H ts, (brec% okDterms T ext H ds,
    (brec% agrees G x ext 6 (app (combine T ext H ts) (cleaned b ext (dcombine T ext H ds))),
      (brec% (ext.map (· % 4) == x.axes), ext.all (fun v => Nat.ble (Nat.succ v) 24), false), false), false), false), false

end

/-- What the operators of a term mean. -/
structure Dterm.Means (I : ℕ → List (ℕ × ℕ) → ℚ) (X : Bool → ℕ × ℕ → A) (dim : ℕ → ℕ)
    (ext : List Var) (ρ : Env) (t : Dterm) (P r Q : A) : Prop where
  pre : ∀ ρ' : Env, (∀ v ∈ ext, ρ' v = ρ v) → (t.pre.map fun ps => evalS I X dim ps ρ').prod = P
  r : ∀ m (ρ' : Env), (∀ v ∈ ext, ρ' v = ρ v) → evalS I X dim (t.R m) ρ' = r
  post : ∀ (ρ' : Env) m, (∀ v ∈ ext, ρ' v = ρ v) → ((t.post m).map fun ps => evalS I X dim ps ρ').prod = Q

theorem dcombine_eq {E : A →ₗ[ℚ] ℚ} (hE : Vacuum dim X E) (hI : IsDelta I) {T : ℕ → List Piece} {t : A}
    (ht : ∀ m ρ, evalS I X dim (T m) ρ = t) (hn : IsNilpotent t) {ext : List Var} {ρ : Env} (hρ : ExtOk dim ext ρ)
    {H : List Piece} {h : A} (hH : evalS I X dim H ρ = h) : ∀ {ts : List Dterm} {vs : List (A × A × A)},
    okDterms T ext H ts = true → List.Forall₂ (fun t v => Dterm.Means I X dim ext ρ t v.1 v.2.1 v.2.2) ts vs →
    E (evalS I X dim (dcombine T ext H ts) ρ) = (List.zipWith (fun s (v : A × A × A) => sg s.neg
      * E (v.1 * (IsNilpotent.exp (-t) * h * IsNilpotent.exp t * v.2.1
        - v.2.1 * (IsNilpotent.exp (-t) * h * IsNilpotent.exp t)) * v.2.2)) ts vs).sum := by
  subst hH
  intro ts
  induction ts with
  | nil =>
    intro vs _ hm
    cases hm
    simp [dcombine, bindL_eq, evalS]
  | cons s ts ih =>
    intro vs hk hm
    cases hm with
    | @cons _ v _ vs h₁ h₂ =>
    have e : okDterms T ext H (s :: ts)
      = (brec% okDproject T s.R s.odd ext s.pre H s.post 60 60 (dstart s), okDterms T ext H ts, false) := rfl
    rw [e, brec_and, Bool.and_eq_true] at hk
    have e' : dcombine T ext H (s :: ts) = app (signed s.neg (dproject T s.R s.odd ext s.pre H s.post (dstart s)))
      (dcombine T ext H ts) := rfl
    rw [e', app_eq, evalS_append, map_add, ih hk.2 h₂, List.zipWith_cons_cons, List.sum_cons, evalS_signed, map_smul,
      dproject_eq hE hI ht hn hρ h₁.r h₁.pre h₁.post hk.1, smul_eq_mul]

theorem cleaned_eq (hI : IsDelta I) {ext : List Var} {ρ : Env} (hρ : ExtOk dim ext ρ) (b : Bool) (l : List Piece) :
    evalS I X dim (cleaned b ext l) ρ = evalS I X dim l ρ := by
  have e : cleaned b ext l = (brec% b, mapL (clean ext) l, l) := rfl
  rw [e, brec_eq]
  cases b with
  | false => rfl
  | true =>
    rw [cond_true, mapL_eq, evalS, evalS, List.map_map]
    congr 1
    exact List.map_congr_left fun p _ => clean_eq hI hρ p

/-- If the comparison succeeds, the program computes the combination of expectation values. -/
theorem dcheck_sound {ι : Type*} [LinearOrder ι] {S : Orbitals ι} (h : S.Proper) {Z : Fock.Integrals} {amp : ℕ → List ℕ → ℚ}
    {G : ℕ → List ℕ} (hG : AntiSym G (elements S.na S.nb (stF S Z) (stV Z) amp)) {T : ℕ → List Piece} {t : Operator ι}
    (ht : ∀ m ρ, evalS (elements S.na S.nb (stF S Z) (stV Z) amp) (opX S) (dimS S) (T m) ρ = t) (hn : IsNilpotent t)
    {x : Ex} {ext : List Var} {ts : List Term} {b : Bool} {ds : List Dterm} {L : List Piece}
    (hx : dcheck G T L x ext ts b ds = true) {ρ : Env} {H : Operator ι}
    (hL : evalS (elements S.na S.nb (stF S Z) (stV Z) amp) (opX S) (dimS S) L ρ = H)
    (hρ : ExtOk (dimS S) ext ρ) {vs : List (Operator ι × Operator ι)} {ws : List (Operator ι × Operator ι × Operator ι)}
    (hm : List.Forall₂ (fun t v => Term.Means (elements S.na S.nb (stF S Z) (stV Z) amp) (opX S) (dimS S) ext ρ t v.1 v.2) ts vs)
    (hd : List.Forall₂ (fun t v => Dterm.Means (elements S.na S.nb (stF S Z) (stV Z) amp) (opX S) (dimS S) ext ρ t v.1 v.2.1 v.2.2)
      ds ws) :
    value S Z amp x (ext.map ρ) = (List.zipWith (fun s (v : Operator ι × Operator ι) => (if s.neg then (-1 : ℚ) else 1)
      * expect S (v.1 * (IsNilpotent.exp (-t) * H * IsNilpotent.exp t) * v.2)) ts vs).sum
      + (List.zipWith (fun s (v : Operator ι × Operator ι × Operator ι) => sg s.neg
      * expect S (v.1 * (IsNilpotent.exp (-t) * H * IsNilpotent.exp t * v.2.1
        - v.2.1 * (IsNilpotent.exp (-t) * H * IsNilpotent.exp t)) * v.2.2)) ds ws).sum := by
  have e : dcheck G T L x ext ts b ds = (brec% x.ok, (brec% okTerms T ext L ts, (brec% okDterms T ext L ds,
    (brec% agrees G x ext 6 (app (combine T ext L ts) (cleaned b ext (dcombine T ext L ds))),
      (brec% (ext.map (· % 4) == x.axes), ext.all (fun v => Nat.ble (Nat.succ v) 24), false), false), false), false), false) := rfl
  rw [e] at hx
  simp only [brec_and, Bool.and_eq_true, beq_iff_eq, List.all_eq_true] at hx
  obtain ⟨hok, hts, hds, hag, hax, hlt⟩ := hx
  have h₁ := combine_eq (fock_vacuum h) delta_elements ht hn hρ hts hm
  have h₂ := dcombine_eq (fock_vacuum h) delta_elements ht hn hρ hL hds hd
  rw [hL] at h₁
  rw [← h₁, ← h₂, ← map_add, ← cleaned_eq (X := opX S) delta_elements hρ b (dcombine T ext L ds), ← evalS_append, ← app_eq]
  exact agrees_sound (E := expect S) (X := opX S) (fock_vacuum h).one hG hok hax
    (fun v hv => by have := (ble_iff _ _).1 (hlt v hv); omega) hag ρ

end Ccpy.Engine
