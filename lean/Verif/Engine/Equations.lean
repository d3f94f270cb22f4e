import Verif.Engine.FockModel

/-! From a successful comparison to an equation about the Fock space. -/

namespace Ccpy.Engine

open Ccpy.Fock Ccpy.Tensor Finset

variable {ι : Type*} [LinearOrder ι]

/-! ### Antisymmetry of the stored arrays -/

/-- The groups of antisymmetric axes, from a table. -/
def groups (t : List (ℕ × List ℕ)) (n : ℕ) : List ℕ :=
  lrec% t, [], fun e _ ih => brec% Nat.beq e.1 n, e.2, ih

theorem antiSym_groups {t : List (ℕ × List ℕ)} {I : ℕ → List (ℕ × ℕ) → ℚ} (h : ∀ e ∈ t, Anti e.2 (I e.1)) :
    AntiSym (groups t) I := by
  intro n
  induction t with
  | nil => trivial
  | cons e t ih =>
    have e₀ : groups (e :: t) n = (brec% Nat.beq e.1 n, e.2, groups t n) := rfl
    rw [e₀]
    cases hb : Nat.beq e.1 n with
    | true =>
      have := Nat.eq_of_beq_eq_true hb
      subst this
      exact h e (List.mem_cons_self ..)
    | false => exact ih fun e' he => h e' (List.mem_cons_of_mem _ he)

theorem anti_two {J : List (ℕ × ℕ) → ℚ} (h₁ : ∀ x y z w, J [x, y, z, w] = - J [y, x, z, w])
    (h₂ : ∀ x y z w, J [x, y, z, w] = - J [x, y, w, z]) (h₀ : ∀ l, l.length ≠ 4 → J l = 0) : Anti [2, 2] J := by
  refine ⟨fun l₁ x y l₂ m h => ?_, fun l hl => ⟨fun l₁ x y l₂ m h => ?_, fun _ _ => trivial⟩⟩
  · have e₁ : l₁ = [] := List.length_eq_zero_iff.1 (by simp at h; omega)
    have e₂ : l₂ = [] := List.length_eq_zero_iff.1 (by simp at h; omega)
    subst e₁ e₂
    by_cases hm : m.length = 2
    · obtain ⟨z, w, rfl⟩ := List.length_eq_two.1 hm
      exact h₁ ..
    · rw [h₀ _ (by simp; omega), h₀ _ (by simp; omega), neg_zero]
  · have e₁ : l₁ = [] := List.length_eq_zero_iff.1 (by simp at h; omega)
    have e₂ : l₂ = [] := List.length_eq_zero_iff.1 (by simp at h; omega)
    obtain ⟨z, w, rfl⟩ := List.length_eq_two.1 hl
    subst e₁ e₂
    cases m with
    | nil => exact h₂ ..
    | cons u m => show J _ = - J _; rw [h₀ _ (by simp), h₀ _ (by simp), neg_zero]

theorem antisymmetric_left {v : ℕ → ℕ → ℕ → ℕ → ℚ} (h : Antisymmetric v) (p q r s : ℕ) : v p q r s = - v q p r s := by
  rw [(h p q r s).1, neg_neg]
theorem antisymmetric_right {v : ℕ → ℕ → ℕ → ℕ → ℚ} (h : Antisymmetric v) (p q r s : ℕ) : v p q r s = - v p q s r := by
  rw [(h p q r s).2, neg_neg]

section arrays
variable {na nb : ℕ} {f : Integrals.OneBody ℚ} {v : Integrals.TwoBody ℚ} {amp : ℕ → List ℕ → ℚ}

theorem anti_aa (h : Antisymmetric v.aa) : Anti [2, 2] (elements na nb f v amp 3) := by
  refine anti_two (fun x y z w => antisymmetric_left h ..) (fun x y z w => antisymmetric_right h ..) fun l hl => ?_
  match l, hl with
  | [], _ | [_], _ | [_, _], _ | [_, _, _], _ | _ :: _ :: _ :: _ :: _ :: _, _ => rfl
  | [_, _, _, _], h => exact absurd rfl h

theorem anti_bb (h : Antisymmetric v.bb) : Anti [2, 2] (elements na nb f v amp 5) := by
  refine anti_two (fun x y z w => antisymmetric_left h ..) (fun x y z w => antisymmetric_right h ..) fun l hl => ?_
  match l, hl with
  | [], _ | [_], _ | [_, _], _ | [_, _, _], _ | _ :: _ :: _ :: _ :: _ :: _, _ => rfl
  | [_, _, _, _], h => exact absurd rfl h

/-- An array of amplitudes with two antisymmetric pairs of axes. -/
theorem anti_amp {n : ℕ} {w : ℕ → ℕ → ℕ → ℕ → ℚ} (h : Antisymmetric w) (he : ∀ a b i j, amp (n + 6) [a, b, i, j] = w a b i j)
    (h₀ : ∀ l : List ℕ, l.length ≠ 4 → amp (n + 6) l = 0) : Anti [2, 2] (elements na nb f v amp (n + 6)) := by
  have e : ∀ l, elements na nb f v amp (n + 6) l = amp (n + 6) (l.map Prod.snd) := fun _ => rfl
  refine anti_two (fun x y z w => ?_) (fun x y z w => ?_) fun l hl => ?_
  · rw [e, e]; exact (he ..).trans ((antisymmetric_left h ..).trans (congrArg _ (he ..).symm))
  · rw [e, e]; exact (he ..).trans ((antisymmetric_right h ..).trans (congrArg _ (he ..).symm))
  · rw [e]; exact h₀ _ (by rw [List.length_map]; exact hl)

end arrays

theorem delta_elements {na nb : ℕ} {f : Integrals.OneBody ℚ} {v : Integrals.TwoBody ℚ} {amp : ℕ → List ℕ → ℚ} :
    IsDelta (elements na nb f v amp) := fun _ _ => rfl

/-! ### The cluster operator -/

theorem okT_listT : okT 0 (listT 0) = true := by decide +kernel

theorem holds_amp (T : Cluster) : Holds T T.amp :=
  ⟨fun _ _ => rfl, fun _ _ => rfl, fun _ _ _ _ => rfl, fun _ _ _ _ => rfl, fun _ _ _ _ => rfl⟩

theorem cluster_nilpotent {S : Orbitals ι} (h : S.Proper) (T : Cluster) : IsNilpotent (clusterOperator S T) := by
  have := (evalS_excitation (I := elements S.na S.nb (stF S ⟨fun _ _ => 0, fun _ _ => 0, fun _ _ _ _ => 0, fun _ _ _ _ => 0,
    fun _ _ _ _ => 0⟩) ⟨fun _ _ _ _ => 0, fun _ _ _ _ => 0, fun _ _ _ _ => 0⟩ T.amp) (fock_car h)
    (fun p hp => (okT_spec okT_listT p hp).1) (fun _ => 0)).2
  rwa [evalS_listT S T (holds_amp T)] at this

/-! ### Comparison of a program with a combination of expectation values -/

/-- One term `± ⟨P e^{-T} H e^{T} Q⟩`. -/
structure Term where
  neg : Bool
  pre : List (List Piece)
  post : ℕ → List (List Piece)

noncomputable section

/-- The first identifier of the copies of the cluster operator. -/
def start (t : Term) : ℕ := Nat.add 15 (Nat.mul 8 (len t.pre))

def combine (T : ℕ → List Piece) (ext : List Var) (H : List Piece) (ts : List Term) : List Piece :=
  bindL (fun t => brec% t.neg, mapL negP (project T ext t.pre H t.post (start t)), project T ext t.pre H t.post (start t)) ts

def okTerms (T : ℕ → List Piece) (ext : List Var) (H : List Piece) (ts : List Term) : Bool :=
  lrec% ts, true, fun t _ ih => brec% okProject T ext t.pre H t.post 60 60 (start t), ih, false

/-- All conditions for the equality of a program and a combination of expectation values. -/
def check (G : ℕ → List ℕ) (T : ℕ → List Piece) (H : List Piece) (x : Ex) (ext : List Var) (ts : List Term) : Bool :=
  brec% x.ok, (brec% okTerms T ext H ts, (brec% agrees G x ext 6 (combine T ext H ts),
    (brec% (ext.map (· % 4) == x.axes), ext.all (fun v => Nat.ble (Nat.succ v) 24), false), false), false), false

/-- Operators with free variables as a slot. -/
def slot (l : List Op) : List Piece := [⟨⟨false, 1, 1⟩, [], [], l⟩]
/-- A single term without operators on the right. -/
def left (bra : List Op) : List Term := [⟨false, [slot bra], fun _ => []⟩]

end

/-- What the operators of a term mean. -/
structure Term.Means {A : Type*} [Ring A] [Algebra ℚ A] (I : ℕ → List (ℕ × ℕ) → ℚ) (X : Bool → ℕ × ℕ → A) (dim : ℕ → ℕ)
    (ext : List Var) (ρ : Env) (t : Term) (P Q : A) : Prop where
  pre : ∀ ρ' : Env, (∀ v ∈ ext, ρ' v = ρ v) → (t.pre.map fun ps => evalS I X dim ps ρ').prod = P
  post : ∀ (ρ' : Env) m, (∀ v ∈ ext, ρ' v = ρ v) → ((t.post m).map fun ps => evalS I X dim ps ρ').prod = Q

section sound
variable {A : Type*} [Ring A] [Algebra ℚ A]
variable {I : ℕ → List (ℕ × ℕ) → ℚ} {X : Bool → ℕ × ℕ → A} {dim : ℕ → ℕ}

theorem evalS_negP (l : List Piece) (ρ : Env) : evalS I X dim (l.map negP) ρ = - evalS I X dim l ρ := by
  induction l with
  | nil => simp [evalS]
  | cons p l ih =>
    rw [List.map_cons, evalS_cons, evalS_cons, ih, neg_add]
    congr 1
    have : (negP p) = ⟨p.c.flip true, p.s, p.f, p.o⟩ := rfl
    rw [this]
    unfold evalP
    rw [Coef.val_flip]
    simp [sg]

/-- The value of a combination. -/
theorem combine_eq {E : A →ₗ[ℚ] ℚ} (hE : Vacuum dim X E) (hI : IsDelta I) {T : ℕ → List Piece} {t : A}
    (ht : ∀ m ρ, evalS I X dim (T m) ρ = t) (hn : IsNilpotent t) {ext : List Var} {ρ : Env} (hρ : ExtOk dim ext ρ)
    {H : List Piece} : ∀ {ts : List Term} {vs : List (A × A)}, okTerms T ext H ts = true →
    List.Forall₂ (fun t v => Term.Means I X dim ext ρ t v.1 v.2) ts vs →
    E (evalS I X dim (combine T ext H ts) ρ) = (List.zipWith (fun s (v : A × A) => (if s.neg then (-1 : ℚ) else 1)
      * E (v.1 * (IsNilpotent.exp (-t) * evalS I X dim H ρ * IsNilpotent.exp t) * v.2)) ts vs).sum := by
  intro ts
  induction ts with
  | nil =>
    intro vs _ hm
    cases hm
    simp [combine, bindL_eq, evalS]
  | cons s ts ih =>
    intro vs hk hm
    cases hm with
    | @cons _ v _ vs h₁ h₂ =>
    have e : okTerms T ext H (s :: ts) = (brec% okProject T ext s.pre H s.post 60 60 (start s), okTerms T ext H ts, false) := rfl
    rw [e, brec_and, Bool.and_eq_true] at hk
    have e' : combine T ext H (s :: ts) = app (brec% s.neg, mapL negP (project T ext s.pre H s.post (start s)),
      project T ext s.pre H s.post (start s)) (combine T ext H ts) := rfl
    rw [e', app_eq, evalS_append, map_add, ih hk.2 h₂, List.zipWith_cons_cons, List.sum_cons]
    congr 1
    have hp := project_eq hE hI ht hn hρ h₁.pre h₁.post hk.1
    rw [brec_eq]
    cases s.neg with
    | false => simp [hp]
    | true => rw [if_pos rfl, ← hp, neg_one_mul, ← map_neg]; simp only [cond_true, mapL_eq]; rw [evalS_negP]

theorem evalO_agree {ρ ρ' : Env} (l : List Op) (h : ∀ x ∈ l, ρ' x.2 = ρ x.2) : evalO X ρ' l = evalO X ρ l := by
  induction l with
  | nil => rfl
  | cons x l ih =>
    rw [evalO_cons, evalO_cons, ih fun y hy => h y (List.mem_cons_of_mem _ hy), val, val, h x (List.mem_cons_self ..)]

theorem evalS_slot {ext : List Var} {ρ ρ' : Env} (hr : ∀ v ∈ ext, ρ' v = ρ v) {l : List Op} (hl : ∀ o ∈ l, o.2 ∈ ext) :
    evalS I X dim (slot l) ρ' = evalO X ρ l := by
  have e1 : (⟨false, 1, 1⟩ : Coef).val = 1 := by simp [Coef.val]
  simp [slot, evalS, evalP, sumV, evalFs, e1]
  exact evalO_agree l fun o ho => hr _ (hl o ho)

end sound

theorem check_sound' {S : Orbitals ι} (h : S.Proper) {Z : Fock.Integrals} {amp : ℕ → List ℕ → ℚ} {G : ℕ → List ℕ}
    (hG : AntiSym G (elements S.na S.nb (stF S Z) (stV Z) amp)) {T : ℕ → List Piece} {t : Operator ι}
    (ht : ∀ m ρ, evalS (elements S.na S.nb (stF S Z) (stV Z) amp) (opX S) (dimS S) (T m) ρ = t) (hn : IsNilpotent t)
    {x : Ex} {ext : List Var} {ts : List Term} {L : List Piece} (hx : check G T L x ext ts = true) {ρ : Env} {H : Operator ι}
    (hL : evalS (elements S.na S.nb (stF S Z) (stV Z) amp) (opX S) (dimS S) L ρ = H)
    (hρ : ExtOk (dimS S) ext ρ) {vs : List (Operator ι × Operator ι)}
    (hm : List.Forall₂ (fun t v => Term.Means (elements S.na S.nb (stF S Z) (stV Z) amp) (opX S) (dimS S) ext ρ t v.1 v.2) ts vs) :
    value S Z amp x (ext.map ρ) = (List.zipWith (fun s (v : Operator ι × Operator ι) => (if s.neg then (-1 : ℚ) else 1)
      * expect S (v.1 * (IsNilpotent.exp (-t) * H * IsNilpotent.exp t) * v.2)) ts vs).sum := by
  have e : check G T L x ext ts = (brec% x.ok, (brec% okTerms T ext L ts, (brec% agrees G x ext 6 (combine T ext L ts),
    (brec% (ext.map (· % 4) == x.axes), ext.all (fun v => Nat.ble (Nat.succ v) 24), false), false), false), false) := rfl
  rw [e] at hx
  simp only [brec_and, Bool.and_eq_true, beq_iff_eq, List.all_eq_true] at hx
  obtain ⟨hok, hts, hag, hax, hlt⟩ := hx
  have := combine_eq (fock_vacuum h) delta_elements ht hn hρ hts hm
  rw [hL] at this
  rw [← this]
  exact agrees_sound (E := expect S) (X := opX S) (fock_vacuum h).one hG hok hax
    (fun v hv => by have := (ble_iff _ _).1 (hlt v hv); omega) hag ρ

/-- If the comparison succeeds, the program computes the combination of expectation values. -/
theorem check_sound {S : Orbitals ι} (h : S.Proper) {Z : Fock.Integrals} {amp : ℕ → List ℕ → ℚ} {G : ℕ → List ℕ}
    (hG : AntiSym G (elements S.na S.nb (stF S Z) (stV Z) amp)) {T : ℕ → List Piece} {t : Operator ι}
    (ht : ∀ m ρ, evalS (elements S.na S.nb (stF S Z) (stV Z) amp) (opX S) (dimS S) (T m) ρ = t) (hn : IsNilpotent t)
    {x : Ex} {ext : List Var} {ts : List Term} (hx : check G T listH x ext ts = true) {ρ : Env}
    (hρ : ExtOk (dimS S) ext ρ) {vs : List (Operator ι × Operator ι)}
    (hm : List.Forall₂ (fun t v => Term.Means (elements S.na S.nb (stF S Z) (stV Z) amp) (opX S) (dimS S) ext ρ t v.1 v.2) ts vs) :
    value S Z amp x (ext.map ρ) = (List.zipWith (fun s (v : Operator ι × Operator ι) => (if s.neg then (-1 : ℚ) else 1)
      * expect S (v.1 * (IsNilpotent.exp (-t) * hamiltonian S Z * IsNilpotent.exp t) * v.2)) ts vs).sum :=
  check_sound' h hG ht hn hx (evalS_listH h Z amp ρ) hρ hm

/-- A projection of the transformed Hamiltonian. -/
theorem check_left {S : Orbitals ι} (h : S.Proper) {Z : Fock.Integrals} {amp : ℕ → List ℕ → ℚ} {G : ℕ → List ℕ}
    (hG : AntiSym G (elements S.na S.nb (stF S Z) (stV Z) amp)) {T : ℕ → List Piece} {t : Operator ι}
    (ht : ∀ m ρ, evalS (elements S.na S.nb (stF S Z) (stV Z) amp) (opX S) (dimS S) (T m) ρ = t) (hn : IsNilpotent t)
    {x : Ex} {ext : List Var} {bra : List Op} (hb : ∀ o ∈ bra, o.2 ∈ ext) (hx : check G T listH x ext (left bra) = true)
    {ρ : Env} (hρ : ExtOk (dimS S) ext ρ) :
    value S Z amp x (ext.map ρ) = expect S (evalO (opX S) ρ bra * (IsNilpotent.exp (-t) * hamiltonian S Z * IsNilpotent.exp t)) := by
  rw [check_sound h hG ht hn hx hρ (vs := [(evalO (opX S) ρ bra, 1)])]
  · simp [left]
  · refine .cons ⟨fun ρ' hr => ?_, fun ρ' m hr => ?_⟩ .nil
    · simp only [List.map_cons, List.map_nil, List.prod_cons, List.prod_nil, mul_one]
      exact evalS_slot hr hb
    · rfl

end Ccpy.Engine
