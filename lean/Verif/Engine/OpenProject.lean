import Verif.Engine.Open
import Verif.Engine.Canon1

/-! Comparison of a program with the projections of `e^{-T} H e^{T}`, all projections of the same kind at once: the values of
the program, summed with the creators of its indices, against the open contractions of the transformed operator. -/

namespace Ccpy.Engine

open Ccpy.Fock Ccpy.Tensor Finset

noncomputable section

/-- The arrays `150 + k` are antisymmetric in all indices. -/
def groupsO (G : ℕ → List ℕ) (n : ℕ) : List ℕ := brec% Nat.ble 150 n, [Nat.sub n 150], G n

/-- The factors are arrays below 150. -/
def lowF (l : List Factor) : Bool := lrec% l, true, fun x _ ih => brec% Nat.ble 150 x.1, false, ih
def lowS (l : List Piece) : Bool := lrec% l, true, fun p _ ih => brec% lowF p.f, ih, false

def encPiece (p : Piece) : Piece :=
  brec% known [] p.s p.o, (brec% allCre p.o, ⟨p.c, p.s, encF p.o :: p.f, []⟩, p), p

/-- The sum of the strings of creators is zero. -/
def sameCre (G : ℕ → List ℕ) (l m : List Piece) : Bool :=
  isZero1 (groupsO G) (app (mapL encPiece l) (mapL negP (mapL encPiece m)))

/-- One of several equal contractions. -/
def commOp1 (o : Op) (p : Piece) : List Piece :=
  lrec% partners o p.o false, [], fun y r _ =>
    [killDeltas [o.2] 1 ⟨xr y.1 p.c.neg, Nat.mul p.c.n (Nat.succ (len r)), p.c.d⟩ p.s [(0, [o.2, y.2.1])] p.f y.2.2]

def hat1 (T : List Piece) (o : Op) : List Piece :=
  ⟨⟨false, 1, 1⟩, [], [], [o]⟩ :: bindL (commOp1 o) T

/-- The short form of a transformed operator is right. -/
def okHat1 (G : ℕ → List ℕ) (T : List Piece) (b : ℕ) (o : Op) : Bool :=
  brec% Nat.ble (Nat.succ o.2) b, (brec% okT b T, sameCre G (bindL (commOp o) T) (bindL (commOp1 o) T), false), false
def okHats1 (G : ℕ → List ℕ) (T : ℕ → List Piece) (b : ℕ) (l : List (ℕ × Op)) : Bool :=
  lrec% l, true, fun x _ ih => brec% okHat1 G (T x.1) b x.2, ih, false

/-- The transformed operators of a string. -/
def khats (K : ℕ → Op → List Piece) (l : List Op) : ℕ → List (List Piece) :=
  lrec% l, (fun _ => []), fun o _ ih n => K n o :: ih (Nat.add n 8)

/-- The open contractions of a transformed operator. -/
def oproject (K : ℕ → Op → List Piece) (bra : List Op) (H : List Piece) (n : ℕ) : List Piece :=
  bindL (fun h => opened bra ⟨h.c, h.s, h.f, []⟩ (khats K h.o n)) H

def memOp (good : List (ℕ × Op)) (n : ℕ) (o : Op) : Bool :=
  lrec% good, false, fun x _ ih => brec% Nat.beq x.1 n, (brec% Nat.beq x.2.2 o.2, (brec% x.2.1, (brec% o.1, true, ih), (brec% o.1, ih, true)), ih), ih
def memOps (good : List (ℕ × Op)) (l : List Op) : ℕ → Bool :=
  lrec% l, (fun _ => true), fun o _ ih n => brec% memOp good n o, ih (Nat.add n 8), false

def okOpen (K : ℕ → Op → List Piece) (good : List (ℕ × Op)) (n : ℕ) (h : Piece) : Bool :=
  brec% okSlots 60 32 h.s (khats K h.o n) 60,
    (brec% inF 60 0 0 h.f, (brec% known [] h.s h.o, memOps good h.o n, false), false), false
def okOpens (K : ℕ → Op → List Piece) (good : List (ℕ × Op)) (n : ℕ) (H : List Piece) : Bool :=
  lrec% H, true, fun h _ ih => brec% okOpen K good n h, ih, false

/-- Sum over the indices of an array, with the creators `wv`. -/
def closeP (vars wv : List Var) (p : Piece) : Piece := ⟨p.c, app vars p.s, (Nat.add 150 (len wv), wv) :: p.f, p.o⟩

/-- The comparison. -/
def ocheck (G : ℕ → List ℕ) (K : ℕ → Op → List Piece) (good : List (ℕ × Op)) (H : List Piece) (x : Ex) (vars wv : List Var)
    (bra : List Op) : Bool :=
  brec% x.ok, (brec% lowS (symE x vars 6), (brec% okOpens K good 15 H,
    (brec% isZero1 (groupsO G) (app (mapL (closeP vars wv) (symE x vars 6)) (mapL negP (oproject K bra H 15))),
    (brec% (vars.map (· % 4) == x.axes), vars.all (fun v => Nat.ble (Nat.succ v) 24), false), false), false), false), false

end

variable {A : Type*} [Ring A] [Algebra ℚ A]
variable {I : ℕ → List (ℕ × ℕ) → ℚ} {X : Bool → ℕ × ℕ → A} {dim : ℕ → ℕ}

/-! ### The interpretation of the arrays `150 + k` -/

open Classical in
/-- The arrays `I` together with the values of a functional on strings of creators. -/
noncomputable def withCre (I : ℕ → List (ℕ × ℕ) → ℚ) (dim : ℕ → ℕ) (X : Bool → ℕ × ℕ → A) (φ : A →ₗ[ℚ] ℚ) (n : ℕ)
    (idx : List (ℕ × ℕ)) : ℚ :=
  if n < 150 then I n idx
  else if 150 + idx.length = n ∧ ∀ x ∈ idx, Valid dim x then φ (creProd X idx) else 0

theorem withCre_low (φ : A →ₗ[ℚ] ℚ) {n : ℕ} (h : n < 150) : withCre I dim X φ n = I n := by
  funext idx
  exact if_pos h

theorem withCre_delta (hI : IsDelta I) (φ : A →ₗ[ℚ] ℚ) : IsDelta (withCre I dim X φ) := fun x y => by
  rw [withCre_low φ (by decide)]
  exact hI x y

theorem withCre_encodes (φ : A →ₗ[ℚ] ℚ) : Encodes (withCre I dim X φ) dim X φ := fun idx h => by
  unfold withCre
  rw [if_neg (by omega), if_pos ⟨rfl, h⟩]

theorem creProd_append (X : Bool → ℕ × ℕ → A) (l m : List (ℕ × ℕ)) : creProd X (l ++ m) = creProd X l * creProd X m := by
  simp [creProd]

theorem creProd_mem {x : ℕ × ℕ} (hx : Valid dim x) : X (x.1 % 2 == 1) x ∈ creators dim X := by
  refine ⟨_, x, hx, ?_, rfl⟩
  have : x.1 % 2 = 0 ∨ x.1 % 2 = 1 := by omega
  rw [isAnn_eq]
  rcases this with h | h <;> simp [h] <;> rfl

theorem creProd_swap (hX : Car dim X) {l₁ l₂ : List (ℕ × ℕ)} {x y : ℕ × ℕ} (hx : Valid dim x) (hy : Valid dim y) :
    creProd X (l₁ ++ x :: y :: l₂) = - creProd X (l₁ ++ y :: x :: l₂) := by
  have e : ∀ x y : ℕ × ℕ, creProd X (x :: y :: l₂) = X (x.1 % 2 == 1) x * X (y.1 % 2 == 1) y * creProd X l₂ := fun x y => by
    simp [creProd, mul_assoc]
  rw [creProd_append, creProd_append, e, e, creators_anti hX (creProd_mem hx) (creProd_mem hy)]
  noncomm_ring

theorem withCre_anti (hX : Car dim X) {G : ℕ → List ℕ} (hG : AntiSym G I) (φ : A →ₗ[ℚ] ℚ) :
    AntiSym (groupsO G) (withCre I dim X φ) := by
  intro n
  have e : groupsO G n = (brec% Nat.ble 150 n, [Nat.sub n 150], G n) := rfl
  rw [e, brec_eq]
  cases hn : Nat.ble 150 n with
  | false =>
    have : n < 150 := by
      by_contra hc
      rw [(ble_iff _ _).2 (Nat.le_of_not_lt hc)] at hn
      exact Bool.noConfusion hn
    rw [cond_false, withCre_low φ this]
    exact hG n
  | true =>
    have h150 := (ble_iff _ _).1 hn
    rw [cond_true]
    refine ⟨fun l₁ x y l₂ m hl => ?_, fun _ _ => trivial⟩
    unfold withCre
    rw [if_neg (Nat.not_lt.2 h150), if_neg (Nat.not_lt.2 h150)]
    have hperm : ((l₁ ++ y :: x :: l₂) ++ m).Perm ((l₁ ++ x :: y :: l₂) ++ m) :=
      ((List.Perm.swap x y l₂).append_left l₁).append_right m
    by_cases hc : 150 + ((l₁ ++ x :: y :: l₂) ++ m).length = n ∧ ∀ z ∈ (l₁ ++ x :: y :: l₂) ++ m, Valid dim z
    · have hc' : 150 + ((l₁ ++ y :: x :: l₂) ++ m).length = n ∧ ∀ z ∈ (l₁ ++ y :: x :: l₂) ++ m, Valid dim z :=
        ⟨by rw [hperm.length_eq]; exact hc.1, fun z hz => hc.2 z (hperm.mem_iff.1 hz)⟩
      rw [if_pos hc, if_pos hc', creProd_append X (l₁ ++ x :: y :: l₂), creProd_append X (l₁ ++ y :: x :: l₂),
        creProd_swap hX (hc.2 x (by simp)) (hc.2 y (by simp)), neg_mul, map_neg]
    · have hc' : ¬ (150 + ((l₁ ++ y :: x :: l₂) ++ m).length = n ∧ ∀ z ∈ (l₁ ++ y :: x :: l₂) ++ m, Valid dim z) :=
        fun h => hc ⟨by rw [← hperm.length_eq]; exact h.1, fun z hz => h.2 z (hperm.mem_iff.2 hz)⟩
      rw [if_neg hc, if_neg hc', neg_zero]

/-! ### Only the arrays that occur matter -/

theorem evalFs_low {I' : ℕ → List (ℕ × ℕ) → ℚ} (hI : ∀ n < 150, I' n = I n) {l : List Factor} (h : lowF l = true) (ρ : Env) :
    evalFs I' ρ l = evalFs I ρ l := by
  induction l with
  | nil => rfl
  | cons x l ih =>
    have e : lowF (x :: l) = (brec% Nat.ble 150 x.1, false, lowF l) := rfl
    rw [e, brec_eq] at h
    cases hx : Nat.ble 150 x.1 with
    | true => rw [hx] at h; exact Bool.noConfusion h
    | false =>
      rw [hx, cond_false] at h
      have : x.1 < 150 := by
        by_contra hc
        rw [(ble_iff _ _).2 (Nat.le_of_not_lt hc)] at hx
        exact Bool.noConfusion hx
      rw [evalFs_cons, evalFs_cons, ih h, evalF, evalF, hI _ this]

theorem lowS_cons {p : Piece} {l : List Piece} (h : lowS (p :: l) = true) : lowF p.f = true ∧ lowS l = true := by
  have e : lowS (p :: l) = (brec% lowF p.f, lowS l, false) := rfl
  rw [e, brec_and, Bool.and_eq_true] at h
  exact h

theorem evalS_low {I' : ℕ → List (ℕ × ℕ) → ℚ} (hI : ∀ n < 150, I' n = I n) {l : List Piece} (h : lowS l = true) (ρ : Env) :
    evalS I' X dim l ρ = evalS I X dim l ρ := by
  induction l with
  | nil => rfl
  | cons p l ih =>
    obtain ⟨h₁, h₂⟩ := lowS_cons h
    rw [evalS_cons, evalS_cons, ih h₂]
    congr 1
    unfold evalP
    congr 1
    exact sumV_congr fun ρ' _ => by rw [evalFs_low hI h₁]

theorem scalS_low {I' : ℕ → List (ℕ × ℕ) → ℚ} (hI : ∀ n < 150, I' n = I n) {l : List Piece} (h : lowS l = true) (ρ : Env) :
    scalS I' dim l ρ = scalS I dim l ρ := by
  induction l with
  | nil => rfl
  | cons p l ih =>
    obtain ⟨h₁, h₂⟩ := lowS_cons h
    rw [scalS_cons, scalS_cons, ih h₂]
    congr 2
    unfold scal
    exact sumV_congr fun ρ' _ => evalFs_low hI h₁ ρ'

/-! ### Sums of strings of creators -/

theorem encPiece_eq {φ : A →ₗ[ℚ] ℚ} (hE : Encodes I dim X φ) (p : Piece) (ρ : Env) (h : (encPiece p).o = []) :
    (encPiece p).c.val * scal I dim (encPiece p).s (encPiece p).f ρ = φ (evalP I X dim p ρ) := by
  have e : encPiece p = (brec% known [] p.s p.o, (brec% allCre p.o, ⟨p.c, p.s, encF p.o :: p.f, []⟩, p), p) := rfl
  rw [e] at h ⊢
  simp only [brec_eq] at h ⊢
  have hnil : p.o = [] → known [] p.s p.o = true ∧ allCre p.o = true := fun h => by rw [h]; exact ⟨rfl, rfl⟩
  cases hk : known [] p.s p.o with
  | false =>
    rw [hk] at h
    rw [(hnil h).1] at hk
    exact Bool.noConfusion hk
  | true =>
    cases hc : allCre p.o with
    | false =>
      rw [hk, hc] at h
      rw [(hnil h).2] at hc
      exact Bool.noConfusion hc
    | true =>
      simp only [cond_true]
      unfold evalP
      rw [map_smul, smul_eq_mul]
      congr 1
      have := sumV_hom (dim := dim) φ.toAddMonoidHom p.s (fun ρ => evalFs I ρ p.f • evalO X ρ p.o) ρ
      simp only [LinearMap.toAddMonoidHom_coe, map_smul, smul_eq_mul] at this
      rw [this]
      unfold scal
      refine sumV_congr fun ρ' hr => ?_
      rw [evalFs_cons, evalF_encF hE (allCre_spec hc)
        (opsOk_of_known hk (fun x hx => absurd hx List.not_mem_nil) hr), mul_comm]

theorem encAll_eq {φ : A →ₗ[ℚ] ℚ} (hE : Encodes I dim X φ) (l : List Piece) (ρ : Env)
    (h : ∀ q ∈ l.map encPiece, q.o = []) : scalS I dim (l.map encPiece) ρ = φ (evalS I X dim l ρ) := by
  induction l with
  | nil => simp [scalS, evalS]
  | cons p l ih =>
    rw [List.map_cons] at h
    rw [List.map_cons, scalS_cons, evalS_cons, map_add, ih fun q hq => h q (List.mem_cons_of_mem _ hq),
      encPiece_eq hE p ρ (h _ (List.mem_cons_self ..))]

/-- Two sums of strings of creators with the same normal form are equal. -/
theorem sameCre_sound (hX : Car dim X) {G : ℕ → List ℕ} (hG : AntiSym G I) {l m : List Piece} (hl : lowS l = true)
    (hm : lowS m = true) (h : sameCre G l m = true) (ρ : Env) : evalS I X dim l ρ = evalS I X dim m ρ := by
  have key : ∀ φ : A →ₗ[ℚ] ℚ, φ (evalS I X dim l ρ - evalS I X dim m ρ) = 0 := by
    intro φ
    have e : sameCre G l m = isZero1 (groupsO G) (app (mapL encPiece l) (mapL negP (mapL encPiece m))) := rfl
    rw [e, app_eq, mapL_eq, mapL_eq, mapL_eq] at h
    obtain ⟨h₁, h₂⟩ := isZero1_sound (dim := dim) (withCre_anti hX hG φ) h ρ
    have hlow : ∀ n < 150, withCre I dim X φ n = I n := fun n hn => withCre_low φ hn
    rw [scalS_append, scalS_neg, encAll_eq (withCre_encodes φ) l ρ fun q hq => h₂ q (List.mem_append_left _ hq),
      encAll_eq (withCre_encodes φ) m ρ fun q hq => h₂ (negP q) (List.mem_append_right _ (List.mem_map_of_mem hq)),
      evalS_low hlow hl, evalS_low hlow hm, ← sub_eq_add_neg, ← map_sub] at h₁
    exact h₁
  exact sub_eq_zero.1 ((Module.forall_dual_apply_eq_zero_iff ℚ _).1 key)

/-- The short form of a transformed operator. -/
theorem hat1_eq (hX : Car dim X) (hI : IsDelta I) {G : ℕ → List ℕ} (hG : AntiSym G I) {T : List Piece} {b : ℕ} {o : Op}
    (h : okHat1 G T b o = true) (hl : lowS (bindL (commOp o) T) = true) (hl' : lowS (bindL (commOp1 o) T) = true) {ρ : Env}
    (ho : ρ o.2 < dim (o.2 % 4)) : evalS I X dim (hat1 T o) ρ
      = IsNilpotent.exp (-(evalS I X dim T ρ)) * X o.1 (val ρ o.2) * IsNilpotent.exp (evalS I X dim T ρ) := by
  have e : okHat1 G T b o = (brec% Nat.ble (Nat.succ o.2) b,
    (brec% okT b T, sameCre G (bindL (commOp o) T) (bindL (commOp1 o) T), false), false) := rfl
  rw [e] at h
  simp only [brec_and, Bool.and_eq_true] at h
  obtain ⟨h₁, h₂, h₃⟩ := h
  have hs := okT_spec h₂
  have hb := (ble_iff _ _).1 h₁
  rw [← hat_eq hX hI (fun p hp => (hs p hp).1) ho fun p hp hm => by have := (hs p hp).2 _ hm; omega]
  have e₁ : hat1 T o = ⟨⟨false, 1, 1⟩, [], [], [o]⟩ :: bindL (commOp1 o) T := rfl
  have e₂ : hat T o = ⟨⟨false, 1, 1⟩, [], [], [o]⟩ :: bindL (commOp o) T := rfl
  rw [e₁, e₂, evalS_cons, evalS_cons, sameCre_sound hX hG hl hl' h₃]

theorem memOp_spec {good : List (ℕ × Op)} {n : ℕ} {o : Op} (h : memOp good n o = true) : (n, o) ∈ good := by
  induction good with
  | nil => exact Bool.noConfusion h
  | cons x g ih =>
    have e : memOp (x :: g) n o = (brec% Nat.beq x.1 n, (brec% Nat.beq x.2.2 o.2,
      (brec% x.2.1, (brec% o.1, true, memOp g n o), (brec% o.1, memOp g n o, true)), memOp g n o), memOp g n o) := rfl
    rw [e] at h
    simp only [brec_eq] at h
    obtain ⟨m, c, v⟩ := x
    obtain ⟨d, w⟩ := o
    simp only at h
    cases h₁ : Nat.beq m n with
    | false => rw [h₁] at h; exact List.mem_cons_of_mem _ (ih h)
    | true =>
      cases h₂ : Nat.beq v w with
      | false => rw [h₁, h₂] at h; exact List.mem_cons_of_mem _ (ih h)
      | true =>
        rw [h₁, h₂] at h
        obtain rfl := (beq_iff _ _).1 h₁
        obtain rfl := (beq_iff _ _).1 h₂
        cases c <;> cases d <;> simp only [cond_true, cond_false] at h
        · exact List.mem_cons_self ..
        · exact List.mem_cons_of_mem _ (ih h)
        · exact List.mem_cons_of_mem _ (ih h)
        · exact List.mem_cons_self ..

theorem okHats1_spec {G : ℕ → List ℕ} {T : ℕ → List Piece} {b : ℕ} {l : List (ℕ × Op)} (h : okHats1 G T b l = true) :
    ∀ x ∈ l, okHat1 G (T x.1) b x.2 = true := by
  induction l with
  | nil => exact fun x hx => absurd hx List.not_mem_nil
  | cons y l ih =>
    have e : okHats1 G T b (y :: l) = (brec% okHat1 G (T y.1) b y.2, okHats1 G T b l, false) := rfl
    rw [e, brec_and, Bool.and_eq_true] at h
    intro x hx
    rcases List.mem_cons.1 hx with rfl | hx
    · exact h.1
    · exact ih h.2 x hx

/-! ### Projections -/

/-- The projection on a string of operators. -/
def braOf (E : A →ₗ[ℚ] ℚ) (P : A) : A →ₗ[ℚ] ℚ := E ∘ₗ LinearMap.mulLeft ℚ P

theorem braOf_apply (E : A →ₗ[ℚ] ℚ) (P a : A) : braOf E P a = E (P * a) := rfl

theorem braOf_left {E : A →ₗ[ℚ] ℚ} (hE : Vacuum dim X E) (hI : IsDelta I) {ρ₀ : Env} {bra : List Op} (hb : OpsOk dim ρ₀ bra) :
    Left dim X (braOf E (evalO X ρ₀ bra)) bra where
  toCar := hE.toCar
  right b x a hx h := by rw [braOf_apply, ← mul_assoc]; exact hE.right b x _ hx h
  balance ρ l hl h := by
    rw [braOf_apply]
    let M := (l.map Prod.snd).sum + 1
    let σ : Env := fun v => if v < 4 * M then ρ v else ρ₀ (v - 4 * M)
    have hM : ∀ o ∈ l, o.2 < 4 * M := fun o ho => by
      have := List.le_sum_of_mem (List.mem_map_of_mem (f := Prod.snd) ho)
      show o.2 < 4 * ((l.map Prod.snd).sum + 1)
      omega
    have h₁ : ∀ m : List Op, (∀ o ∈ m, o.2 < 4 * M) → evalO X σ m = evalO X ρ m := by
      intro m
      induction m with
      | nil => intro _; rfl
      | cons o m ih =>
        intro hm
        rw [evalO_cons, evalO_cons, ih fun q hq => hm q (List.mem_cons_of_mem _ hq)]
        congr 2
        show (_, σ o.2) = (_, ρ o.2)
        have : σ o.2 = ρ o.2 := if_pos (hm o (List.mem_cons_self ..))
        rw [this]
    have hσ : ∀ v, σ (v + 4 * M) = ρ₀ v := fun v => by
      show (if v + 4 * M < 4 * M then ρ (v + 4 * M) else ρ₀ (v + 4 * M - 4 * M)) = ρ₀ v
      rw [if_neg (by omega), Nat.add_sub_cancel]
    have hmod : ∀ v : ℕ, (v + 4 * M) % 4 = v % 4 := fun v => Nat.add_mul_mod_self_left ..
    have h₂ : ∀ m : List Op, evalO X σ (m.map fun o => (o.1, o.2 + 4 * M)) = evalO X ρ₀ m := by
      intro m
      induction m with
      | nil => rfl
      | cons o m ih => rw [List.map_cons, evalO_cons, evalO_cons, ih, val, val, hσ, hmod]
    have h₃ : ∀ (t : Bool) (m : List Op), weight t (m.map fun o => (o.1, o.2 + 4 * M)) = weight t m := by
      intro t m
      induction m with
      | nil => rfl
      | cons o m ih =>
        rw [List.map_cons, weight_cons, weight_cons, ih]
        simp only [hmod]
    have h₄ : evalO X ρ₀ bra * evalO X ρ l = evalO X σ ((bra.map fun o => (o.1, o.2 + 4 * M)) ++ l) := by
      rw [evalO_append, h₂, h₁ l hM]
    rw [h₄]
    refine unbalanced hE hI (fun o ho => ?_) ?_
    · rcases List.mem_append.1 ho with ho | ho
      · obtain ⟨q, hq, rfl⟩ := List.mem_map.1 ho
        rw [hσ, hmod]
        exact hb q hq
      · have : σ o.2 = ρ o.2 := if_pos (hM o ho)
        rw [this]
        exact hl o ho
    · rw [weight_append, weight_append, h₃, h₃, ← weight_append, ← weight_append]
      exact h

/-- What the lists of transformed operators mean. -/
def Transforms (I : ℕ → List (ℕ × ℕ) → ℚ) (X : Bool → ℕ × ℕ → A) (dim : ℕ → ℕ) (K : ℕ → Op → List Piece)
    (good : List (ℕ × Op)) (t : A) : Prop :=
  ∀ x ∈ good, ∀ ρ : Env, ρ x.2.2 < dim (x.2.2 % 4) →
    evalS I X dim (K x.1 x.2) ρ = IsNilpotent.exp (-t) * X x.2.1 (val ρ x.2.2) * IsNilpotent.exp t

theorem khats_prod {K : ℕ → Op → List Piece} {good : List (ℕ × Op)} {t : A} (hK : Transforms I X dim K good t)
    (hn : IsNilpotent t) {ρ : Env} (l : List Op) : ∀ {n : ℕ}, memOps good l n = true → OpsOk dim ρ l →
    ((khats K l n).map fun ps => evalS I X dim ps ρ).prod = IsNilpotent.exp (-t) * evalO X ρ l * IsNilpotent.exp t := by
  have h1 := IsNilpotent.exp_mul_exp_neg_self hn
  have h2 := IsNilpotent.exp_neg_mul_exp_self hn
  induction l with
  | nil =>
    intro n _ _
    have e : khats K [] n = [] := rfl
    rw [e]
    simp [evalO, h2]
  | cons o l ih =>
    intro n hg ho
    have e : khats K (o :: l) n = K n o :: khats K l (n + 8) := rfl
    have e' : memOps good (o :: l) n = (brec% memOp good n o, memOps good l (n + 8), false) := rfl
    rw [e', brec_and, Bool.and_eq_true] at hg
    rw [e, List.map_cons, List.prod_cons, ih hg.2 fun x hx => ho x (List.mem_cons_of_mem _ hx),
      hK _ (memOp_spec hg.1) ρ (ho o (List.mem_cons_self ..)), evalO_cons]
    calc IsNilpotent.exp (-t) * X o.1 (val ρ o.2) * IsNilpotent.exp t * (IsNilpotent.exp (-t) * evalO X ρ l * IsNilpotent.exp t)
        = IsNilpotent.exp (-t) * X o.1 (val ρ o.2) * (IsNilpotent.exp t * IsNilpotent.exp (-t)) * evalO X ρ l
            * IsNilpotent.exp t := by noncomm_ring
      _ = _ := by rw [h1]; noncomm_ring

/-- The open contractions have the value of the functional. -/
theorem oproject_eq {φ : A →ₗ[ℚ] ℚ} {bra : List Op} (hφ : Left dim X φ bra) (hI : IsDelta I) (hE : Encodes I dim X φ)
    {K : ℕ → Op → List Piece} {good : List (ℕ × Op)} {t : A} (hK : Transforms I X dim K good t) (hn : IsNilpotent t)
    {n : ℕ} {H : List Piece} (hH : okOpens K good n H = true) (ρ : Env) (hc : ∀ q ∈ oproject K bra H n, q.o = []) :
    scalS I dim (oproject K bra H n) ρ = φ (IsNilpotent.exp (-t) * evalS I X dim H ρ * IsNilpotent.exp t) := by
  have hp : oproject K bra H n = H.flatMap fun h => opened bra ⟨h.c, h.s, h.f, []⟩ (khats K h.o n) := by
    unfold oproject
    rw [bindL_eq]
  rw [hp] at hc ⊢
  clear hp
  induction H with
  | nil => simp [scalS, evalS]
  | cons h H ih =>
    have e : okOpens K good n (h :: H) = (brec% okOpen K good n h, okOpens K good n H, false) := rfl
    rw [e, brec_and, Bool.and_eq_true] at hH
    have e' : okOpen K good n h = (brec% okSlots 60 32 h.s (khats K h.o n) 60,
      (brec% inF 60 0 0 h.f, (brec% known [] h.s h.o, memOps good h.o n, false), false), false) := rfl
    rw [e'] at hH
    simp only [brec_and, Bool.and_eq_true] at hH
    obtain ⟨⟨h₁, h₂, h₃, h₄⟩, hH⟩ := hH
    rw [List.flatMap_cons] at hc
    rw [List.flatMap_cons, scalS_append, ih hH fun q hq => hc q (List.mem_append_right _ hq), evalS_cons,
      opened_eq (a := ⟨h.c, h.s, h.f, []⟩) hφ hI hE rfl le_rfl h₁ (fun x hx v hv => (inF_spec h₂ x hx v hv).resolve_right (by omega)) (fun v hv => hv) ρ
        fun q hq => hc q (List.mem_append_left _ hq)]
    have hnest : nest I X dim ⟨h.c, h.s, h.f, []⟩ (khats K h.o n) ρ
        = IsNilpotent.exp (-t) * evalP I X dim h ρ * IsNilpotent.exp t := by
      unfold nest evalP
      rw [mul_smul_comm, smul_mul_assoc]
      congr 1
      rw [mul_sumV, sumV_mul]
      refine sumV_congr fun ρ' hr => ?_
      rw [khats_prod hK hn h.o h₄ (fun x hx => (known_spec h₃ x hx).elim (fun h => hr.2 _ h) fun h => absurd h List.not_mem_nil)]
      have : evalO X ρ' [] = (1 : A) := by simp [evalO]
      rw [this, one_mul, mul_smul_comm, smul_mul_assoc]
    rw [hnest, ← map_add]
    congr 1
    noncomm_ring

theorem scalS_closeP {vars wv : List Var} (l : List Piece) (hl : ∀ p ∈ l, ∀ v ∈ p.s, v ∉ wv) (ρ : Env) :
    scalS I dim (l.map (closeP vars wv)) ρ
      = sumV dim vars (fun ρ => scalS I dim l ρ * evalF I ρ (150 + wv.length, wv)) ρ := by
  induction l with
  | nil =>
    have : (fun ρ : Env => scalS I dim [] ρ * evalF I ρ (150 + wv.length, wv)) = fun _ => 0 := by
      funext ρ; simp [scalS]
    rw [this, sumV_zero]; rfl
  | cons p l ih =>
    have e : closeP vars wv p = ⟨p.c, vars ++ p.s, (150 + wv.length, wv) :: p.f, p.o⟩ := by
      rw [← app_eq, ← len_eq]; rfl
    rw [List.map_cons, scalS_cons, ih fun q hq => hl q (List.mem_cons_of_mem _ hq), e]
    have : (fun ρ : Env => scalS I dim (p :: l) ρ * evalF I ρ (150 + wv.length, wv))
        = fun ρ => p.c.val * (scal I dim p.s p.f ρ * evalF I ρ (150 + wv.length, wv))
          + scalS I dim l ρ * evalF I ρ (150 + wv.length, wv) := by
      funext ρ; rw [scalS_cons]; ring
    rw [this, sumV_add]
    congr 1
    have hh := sumV_hom (dim := dim) (AddMonoidHom.mulLeft p.c.val) vars
      (fun ρ => scal I dim p.s p.f ρ * evalF I ρ (150 + wv.length, wv)) ρ
    simp only [AddMonoidHom.coe_mulLeft] at hh
    rw [← hh]
    congr 1
    unfold scal
    rw [sumV_append]
    refine sumV_congr fun ρ' _ => ?_
    have hm := sumV_hom (dim := dim) (AddMonoidHom.mulRight (evalF I ρ' (150 + wv.length, wv))) p.s (fun ρ => evalFs I ρ p.f) ρ'
    simp only [AddMonoidHom.coe_mulRight] at hm
    rw [hm]
    refine sumV_congr fun σ hr => ?_
    rw [evalFs_cons, mul_comm]
    congr 1
    unfold evalF
    congr 1
    refine List.map_congr_left fun v hv => ?_
    show (_, σ v) = (_, ρ' v)
    rw [hr.1 v fun h => hl p (List.mem_cons_self ..) v h hv]

/-- If the comparison succeeds, the program holds the coefficients of the transformed operator: the sum over all its indices,
with the creators `wv`, has the same projections. -/
theorem ocheck_sound {E : A →ₗ[ℚ] ℚ} (hE : Vacuum dim X E) (hI : IsDelta I) {G : ℕ → List ℕ} (hG : AntiSym G I)
    {K : ℕ → Op → List Piece} {good : List (ℕ × Op)} {t : A}
    (hK : ∀ φ : A →ₗ[ℚ] ℚ, Transforms (withCre I dim X φ) X dim K good t) (hn : IsNilpotent t) {H : List Piece} (hH : lowS H = true)
    {x : Ex} {vars wv : List Var} (hwv : ∀ v ∈ wv, v ∈ vars) {bra : List Op} (h : ocheck G K good H x vars wv bra = true)
    {ρ₀ : Env} (hb : OpsOk dim ρ₀ bra) (ρ : Env) :
    sumV dim vars (fun ρ => x.denote dim I (vars.map ρ) * E (evalO X ρ₀ bra * creProd X (wv.map (val ρ)))) ρ
      = E (evalO X ρ₀ bra * (IsNilpotent.exp (-t) * evalS I X dim H ρ * IsNilpotent.exp t)) := by
  have e : ocheck G K good H x vars wv bra = (brec% x.ok, (brec% lowS (symE x vars 6), (brec% okOpens K good 15 H,
    (brec% isZero1 (groupsO G) (app (mapL (closeP vars wv) (symE x vars 6)) (mapL negP (oproject K bra H 15))),
    (brec% (vars.map (· % 4) == x.axes), vars.all (fun v => Nat.ble (Nat.succ v) 24), false), false), false), false), false) := rfl
  rw [e] at h
  simp only [brec_and, Bool.and_eq_true, beq_iff_eq, List.all_eq_true] at h
  obtain ⟨hok, hlow, hop, hz, hax, hlt⟩ := h
  have hlt' : ∀ v ∈ vars, v < 4 * 6 := fun v hv => by have := (ble_iff _ _).1 (hlt v hv); omega
  let φ := braOf E (evalO X ρ₀ bra)
  let J := withCre I dim X φ
  have hJ : ∀ n < 150, J n = I n := fun n hn => withCre_low φ hn
  rw [app_eq, mapL_eq, mapL_eq] at hz
  obtain ⟨h₁, h₂⟩ := isZero1_sound (dim := dim) (withCre_anti hE.toCar hG φ) hz ρ
  have hs := symE_sound (dim := dim) (I := J) x hok vars 6 hax hlt'
  have hs' := symE_sound (dim := dim) (I := I) x hok vars 6 hax hlt'
  have hcl : scalS J dim ((symE x vars 6).map (closeP vars wv)) ρ
      = sumV dim vars (fun ρ => x.denote dim I (vars.map ρ) * E (evalO X ρ₀ bra * creProd X (wv.map (val ρ)))) ρ := by
    rw [scalS_closeP]
    · refine sumV_congr fun ρ' hr => ?_
      rw [scalS_low hJ hlow, hs'.2 ρ']
      congr 1
      have := withCre_encodes (I := I) (X := X) (dim := dim) φ (wv.map (val ρ')) fun y hy => by
        obtain ⟨v, hv, rfl⟩ := List.mem_map.1 hy
        exact valid_val (hr.2 v (hwv v hv))
      rw [List.length_map] at this
      exact this
    · intro p hp v hv hw
      have := (hs.1 p hp).1 v hv
      have := hlt' v (hwv v hw)
      omega
  have hpr : scalS J dim (oproject K bra H 15) ρ
      = E (evalO X ρ₀ bra * (IsNilpotent.exp (-t) * evalS I X dim H ρ * IsNilpotent.exp t)) := by
    rw [oproject_eq (braOf_left hE hI hb) (withCre_delta hI φ) (withCre_encodes φ) (hK φ) hn hop ρ
      fun q hq => h₂ (negP q) (List.mem_append_right _ (List.mem_map_of_mem hq)), evalS_low hJ hH]
    rfl
  rw [scalS_append, scalS_neg, hcl, hpr, ← sub_eq_add_neg] at h₁
  exact sub_eq_zero.1 h₁

end Ccpy.Engine
