import Verif.Engine.Triples

/-! Expectation values of `P e^{-T} H e^{T} Q` with given transformed operators; the operator `H` may contain operators of
external indices. -/

namespace Ccpy.Engine

open Ccpy.Tensor Ccpy.Fock Finset

noncomputable section

def kslots (K : ℕ → Op → List Piece) (pre : List (List Piece)) (post : ℕ → List (List Piece)) (n : ℕ) (l : List Op) :
    List (List Piece) :=
  app pre (app (khats K l n) (post (Nat.add n (Nat.mul 8 (len l)))))

/-- The contractions of `pre · e^{-T} H e^{T} · post`. -/
def kproject (K : ℕ → Op → List Piece) (ext : List Var) (H : List Piece) (t : Term) : List Piece :=
  bindL (fun h => bindL (wickPiece ext) (prods (kslots K t.pre t.post (start t) h.o) 0 0 ⟨h.c, h.s, h.f, []⟩)) H

def kcombine (K : ℕ → Op → List Piece) (ext : List Var) (H : List Piece) (ts : List Term) : List Piece :=
  bindL (fun t => brec% t.neg, mapL negP (kproject K ext H t), kproject K ext H t) ts

def okK (K : ℕ → Op → List Piece) (good : List (ℕ × Op)) (ext : List Var) (t : Term) (h : Piece) : Bool :=
  brec% okSlots 60 32 (app h.s ext) (kslots K t.pre t.post (start t) h.o) 60,
    (brec% inF 60 0 0 h.f, (brec% known ext h.s h.o, (brec% disj h.s ext, memOps good h.o (start t), false), false), false), false
def okKs (K : ℕ → Op → List Piece) (good : List (ℕ × Op)) (ext : List Var) (t : Term) (H : List Piece) : Bool :=
  lrec% H, true, fun h _ ih => brec% okK K good ext t h, ih, false
def okKTerms (K : ℕ → Op → List Piece) (good : List (ℕ × Op)) (ext : List Var) (H : List Piece) (ts : List Term) : Bool :=
  lrec% ts, true, fun t _ ih => brec% okKs K good ext t H, ih, false

/-- All conditions for the equality of a program and a combination of expectation values. -/
def kcheck (G : ℕ → List ℕ) (K : ℕ → Op → List Piece) (good : List (ℕ × Op)) (H : List Piece) (x : Ex) (ext : List Var)
    (ts : List Term) : Bool :=
  brec% x.ok, (brec% okKTerms K good ext H ts, (brec% isZero1 G (app (symE x ext 6) (mapL negP (kcombine K ext H ts))),
    (brec% (ext.map (· % 4) == x.axes), ext.all (fun v => Nat.ble (Nat.succ v) 24), false), false), false), false

end

variable {A : Type*} [Ring A] [Algebra ℚ A]
variable {I : ℕ → List (ℕ × ℕ) → ℚ} {X : Bool → ℕ × ℕ → A} {dim : ℕ → ℕ}

/-- `kproject` computes the expectation value. -/
theorem kproject_eq {E : A →ₗ[ℚ] ℚ} (hE : Vacuum dim X E) (hI : IsDelta I) {K : ℕ → Op → List Piece} {good : List (ℕ × Op)}
    {t : A} (hK : Transforms I X dim K good t) (hn : IsNilpotent t) {ext : List Var} {ρ : Env} (hρ : ExtOk dim ext ρ)
    {s : Term} {P Q : A} (hs : Term.Means I X dim ext ρ s P Q) {H : List Piece} (hH : okKs K good ext s H = true) :
    E (evalS I X dim (kproject K ext H s) ρ)
      = E (P * (IsNilpotent.exp (-t) * evalS I X dim H ρ * IsNilpotent.exp t) * Q) := by
  have hp : kproject K ext H s
      = H.flatMap fun h => (prods (kslots K s.pre s.post (start s) h.o) 0 0 ⟨h.c, h.s, h.f, []⟩).flatMap (wickPiece ext) := by
    unfold kproject
    rw [bindL_eq]
    simp only [bindL_eq]
  rw [hp]
  clear hp
  induction H with
  | nil => simp [evalS]
  | cons h H ih =>
    have e : okKs K good ext s (h :: H) = (brec% okK K good ext s h, okKs K good ext s H, false) := rfl
    rw [e, brec_and, Bool.and_eq_true] at hH
    have e' : okK K good ext s h = (brec% okSlots 60 32 (app h.s ext) (kslots K s.pre s.post (start s) h.o) 60,
      (brec% inF 60 0 0 h.f, (brec% known ext h.s h.o, (brec% disj h.s ext, memOps good h.o (start s), false), false), false),
      false) := rfl
    rw [e'] at hH
    simp only [brec_and, Bool.and_eq_true, app_eq] at hH
    obtain ⟨⟨h₁, h₂, h₃, h₅, h₄⟩, hH⟩ := hH
    have h₅ := disj_spec h₅
    rw [List.flatMap_cons, evalS_append, map_add, ih hH, evalS_cons, wickAll_eq hE hI hρ]
    have hw : ∀ t, weight t (⟨h.c, h.s, h.f, []⟩ : Piece).o = 0 := fun t => rfl
    have := prods_eq (a := ⟨h.c, h.s, h.f, []⟩) hE hI hρ (kslots K s.pre s.post (start s) h.o) le_rfl h₁
      (fun x hx v hv => (inF_spec h₂ x hx v hv).resolve_right (by omega)) (fun x hx => absurd hx List.not_mem_nil)
      (fun x hx => absurd hx List.not_mem_nil) (fun v hv => List.mem_append.1 hv)
    rw [hw, hw] at this
    rw [this]
    have hnest : nest I X dim ⟨h.c, h.s, h.f, []⟩ (kslots K s.pre s.post (start s) h.o) ρ
        = P * (IsNilpotent.exp (-t) * evalP I X dim h ρ * IsNilpotent.exp t) * Q := by
      unfold nest evalP
      rw [mul_smul_comm, smul_mul_assoc, mul_smul_comm, smul_mul_assoc]
      congr 1
      rw [mul_sumV, sumV_mul, mul_sumV, sumV_mul]
      refine sumV_congr fun ρ' hr => ?_
      have hag : ∀ v ∈ ext, ρ' v = ρ v := fun v hv => hr.1 v fun hs => h₅ v hs hv
      have es : kslots K s.pre s.post (start s) h.o
          = s.pre ++ (khats K h.o (start s) ++ s.post (start s + 8 * h.o.length)) := by
        unfold kslots
        rw [app_eq, app_eq, len_eq]
        rfl
      rw [es, List.map_append, List.map_append, List.prod_append, List.prod_append, hs.pre ρ' hag, hs.post ρ' _ hag,
        khats_prod hK hn h.o h₄ (fun x hx => ?_)]
      · have : evalO X ρ' [] = (1 : A) := by simp [evalO]
        rw [this, one_mul, mul_smul_comm, smul_mul_assoc, mul_smul_comm, smul_mul_assoc]
        congr 1
        noncomm_ring
      · rcases known_spec h₃ x hx with h | h
        · exact hr.2 _ h
        · rw [hag _ h]; exact hρ _ h
    rw [hnest, ← map_add]
    congr 1
    noncomm_ring

/-- The value of a combination. -/
theorem kcombine_eq {E : A →ₗ[ℚ] ℚ} (hE : Vacuum dim X E) (hI : IsDelta I) {K : ℕ → Op → List Piece} {good : List (ℕ × Op)}
    {t : A} (hK : Transforms I X dim K good t) (hn : IsNilpotent t) {ext : List Var} {ρ : Env} (hρ : ExtOk dim ext ρ)
    {H : List Piece} : ∀ {ts : List Term} {vs : List (A × A)}, okKTerms K good ext H ts = true →
    List.Forall₂ (fun t v => Term.Means I X dim ext ρ t v.1 v.2) ts vs →
    E (evalS I X dim (kcombine K ext H ts) ρ) = (List.zipWith (fun s (v : A × A) => (if s.neg then (-1 : ℚ) else 1)
      * E (v.1 * (IsNilpotent.exp (-t) * evalS I X dim H ρ * IsNilpotent.exp t) * v.2)) ts vs).sum := by
  intro ts
  induction ts with
  | nil =>
    intro vs _ hm
    cases hm
    simp [kcombine, bindL_eq, evalS]
  | cons s ts ih =>
    intro vs hk hm
    cases hm with
    | @cons _ v _ vs h₁ h₂ =>
    have e : okKTerms K good ext H (s :: ts) = (brec% okKs K good ext s H, okKTerms K good ext H ts, false) := rfl
    rw [e, brec_and, Bool.and_eq_true] at hk
    have e' : kcombine K ext H (s :: ts) = app (brec% s.neg, mapL negP (kproject K ext H s), kproject K ext H s)
      (kcombine K ext H ts) := rfl
    rw [e', app_eq, evalS_append, map_add, ih hk.2 h₂, List.zipWith_cons_cons, List.sum_cons]
    congr 1
    have hp := kproject_eq hE hI hK hn hρ h₁ hk.1
    rw [brec_eq]
    cases s.neg with
    | false => simp [hp]
    | true => rw [if_pos rfl, ← hp, neg_one_mul, ← map_neg]; simp only [cond_true, mapL_eq]; rw [evalS_negP]

/-- If the comparison succeeds, the program computes the combination of expectation values. -/
theorem kcheck_sound {E : A →ₗ[ℚ] ℚ} (hE : Vacuum dim X E) (hI : IsDelta I) {G : ℕ → List ℕ} (hG : AntiSym G I)
    {K : ℕ → Op → List Piece} {good : List (ℕ × Op)} {t : A} (hK : Transforms I X dim K good t) (hn : IsNilpotent t)
    {x : Ex} {ext : List Var} {ts : List Term} {H : List Piece} (hx : kcheck G K good H x ext ts = true) {ρ : Env}
    (hρ : ExtOk dim ext ρ) {vs : List (A × A)} (hm : List.Forall₂ (fun t v => Term.Means I X dim ext ρ t v.1 v.2) ts vs) :
    x.denote dim I (ext.map ρ) = (List.zipWith (fun s (v : A × A) => (if s.neg then (-1 : ℚ) else 1)
      * E (v.1 * (IsNilpotent.exp (-t) * evalS I X dim H ρ * IsNilpotent.exp t) * v.2)) ts vs).sum := by
  have e : kcheck G K good H x ext ts = (brec% x.ok, (brec% okKTerms K good ext H ts,
    (brec% isZero1 G (app (symE x ext 6) (mapL negP (kcombine K ext H ts))),
    (brec% (ext.map (· % 4) == x.axes), ext.all (fun v => Nat.ble (Nat.succ v) 24), false), false), false), false) := rfl
  rw [e] at hx
  simp only [brec_and, Bool.and_eq_true, beq_iff_eq, List.all_eq_true] at hx
  obtain ⟨hok, hts, hag, hax, hlt⟩ := hx
  rw [← kcombine_eq hE hI hK hn hρ hts hm]
  rw [app_eq, mapL_eq] at hag
  obtain ⟨h₁, h₂⟩ := isZero1_sound (dim := dim) hG hag ρ
  rw [scalS_append, scalS_neg, (symE_sound x hok ext 6 hax fun v hv => by have := (ble_iff _ _).1 (hlt v hv); omega).2 ρ,
    scalS_of_closed (X := X) hE.one fun p hp => h₂ (negP p) (List.mem_append_right _ (List.mem_map_of_mem hp))] at h₁
  exact sub_eq_zero.1 (by rw [sub_eq_add_neg]; exact h₁)

end Ccpy.Engine
