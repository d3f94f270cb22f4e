import Verif.Engine.Program

/-! Expectation values of `P e^{-T} H e^{T} Q`. -/

namespace Ccpy.Engine

open Ccpy.Tensor Finset

noncomputable section

/-- The transformed operators of a string: the `k`-th copy of `T` has its own variables. -/
def hats (T : ℕ → List Piece) (l : List Op) : ℕ → List (List Piece) :=
  lrec% l, (fun _ => []), fun o _ ih n => hat (T n) o :: ih (Nat.add n 8)

def slots (T : ℕ → List Piece) (pre : List (List Piece)) (post : ℕ → List (List Piece)) (n : ℕ) (l : List Op) :
    List (List Piece) :=
  app pre (app (hats T l n) (post (Nat.add n (Nat.mul 8 (len l)))))

/-- The contractions of `pre · e^{-T} H e^{T} · post`. -/
def project (T : ℕ → List Piece) (ext : List Var) (pre : List (List Piece)) (H : List Piece)
    (post : ℕ → List (List Piece)) (n : ℕ) : List Piece :=
  bindL (fun h => bindL (wickPiece ext) (prods (slots T pre post n h.o) 0 0 ⟨h.c, h.s, h.f, []⟩)) H

def allCre (l : List Op) : Bool := lrec% l, true, fun x _ ih => brec% isAnn x, false, ih
def disj (l m : List Var) : Bool := lrec% l, true, fun x _ ih => brec% mem x m, false, ih
def outside (b : ℕ) (l : List Var) : Bool := lrec% l, true, fun x _ ih => brec% Nat.ble b x, ih, false

/-- A piece of `T`: an even string of creators with its own variables. -/
def okT (b : ℕ) (l : List Piece) : Bool :=
  lrec% l, true, fun p _ ih =>
    brec% known [] p.s p.o, (brec% allCre p.o, (brec% Nat.beq (Nat.mod (len p.o) 2) 0,
      (brec% isNil p.o, false, (brec% outside b p.s, ih, false)), false), false), false
def okTs (T : ℕ → List Piece) (b : ℕ) (l : List Op) : ℕ → Bool :=
  lrec% l, (fun _ => true), fun _ _ ih n => brec% okT b (T n), ih (Nat.add n 8), false

/-- The conditions under which `project` is right. -/
def okH (T : ℕ → List Piece) (ext : List Var) (pre : List (List Piece)) (post : ℕ → List (List Piece)) (b lo n : ℕ)
    (h : Piece) : Bool :=
  brec% okSlots b 32 (app h.s ext) (slots T pre post n h.o) lo,
    (brec% inF b 0 0 h.f, (brec% known [] h.s h.o, (brec% inL b 0 0 (opVars h.o), (brec% disj h.s ext, okTs T b h.o n, false),
      false), false), false), false
def okProject (T : ℕ → List Piece) (ext : List Var) (pre : List (List Piece)) (H : List Piece)
    (post : ℕ → List (List Piece)) (b lo n : ℕ) : Bool :=
  brec% Nat.ble b lo, (lrec% H, true, fun h _ ih => brec% okH T ext pre post b lo n h, ih, false), false

end

theorem allCre_spec {l : List Op} (h : allCre l = true) : AllCre l := by
  induction l with
  | nil => exact fun x hx => absurd hx List.not_mem_nil
  | cons y l ih =>
    have e : allCre (y :: l) = (brec% isAnn y, false, allCre l) := rfl
    rw [e, brec_eq] at h
    cases hy : isAnn y with
    | true => rw [hy] at h; exact Bool.noConfusion h
    | false =>
      rw [hy] at h
      intro x hx
      rcases List.mem_cons.1 hx with hx | hx
      · rw [hx, hy]
      · exact ih h x hx

theorem disj_spec {l m : List Var} (h : disj l m = true) : ∀ x ∈ l, x ∉ m := by
  induction l with
  | nil => exact fun x hx => absurd hx List.not_mem_nil
  | cons y l ih =>
    have e : disj (y :: l) m = (brec% mem y m, false, disj l m) := rfl
    rw [e, brec_eq] at h
    cases hy : mem y m with
    | true => rw [hy] at h; exact Bool.noConfusion h
    | false =>
      rw [hy] at h
      intro x hx
      rcases List.mem_cons.1 hx with hx | hx
      · rw [hx]; exact mem_false.1 hy
      · exact ih h x hx

theorem outside_spec {b : ℕ} {l : List Var} (h : outside b l = true) : ∀ x ∈ l, b ≤ x := by
  induction l with
  | nil => exact fun x hx => absurd hx List.not_mem_nil
  | cons y l ih =>
    have e : outside b (y :: l) = (brec% Nat.ble b y, outside b l, false) := rfl
    rw [e, brec_and, Bool.and_eq_true] at h
    intro x hx
    rcases List.mem_cons.1 hx with hx | hx
    · rw [hx]; exact (ble_iff _ _).1 h.1
    · exact ih h.2 x hx

theorem okT_spec {b : ℕ} {l : List Piece} (h : okT b l = true) : ∀ p ∈ l, ExcPiece p ∧ ∀ v ∈ p.s, b ≤ v := by
  induction l with
  | nil => exact fun x hx => absurd hx List.not_mem_nil
  | cons q l ih =>
    have e : okT b (q :: l) = (brec% known [] q.s q.o, (brec% allCre q.o, (brec% Nat.beq (Nat.mod (len q.o) 2) 0,
      (brec% isNil q.o, false, (brec% outside b q.s, okT b l, false)), false), false), false) := rfl
    rw [e] at h
    have hn : ∀ (a c : Bool), (brec% a, false, c) = (!a && c) := fun a c => by cases a <;> rfl
    simp only [brec_and, hn, Bool.and_eq_true] at h
    obtain ⟨h₁, h₂, h₃, h₄, h₅, h₆⟩ := h
    intro p hp
    rcases List.mem_cons.1 hp with hp | hp
    · subst hp
      refine ⟨⟨h₁, allCre_spec h₂, ?_, fun hnil => ?_⟩, outside_spec h₅⟩
      · have := (beq_iff _ _).1 h₃
        rw [len_eq] at this
        exact this
      · rw [(isNil_iff _).2 hnil] at h₄
        exact Bool.noConfusion h₄
    · exact ih h₆ p hp

variable {A : Type*} [Ring A] [Algebra ℚ A]
variable {I : ℕ → List (ℕ × ℕ) → ℚ} {X : Bool → ℕ × ℕ → A} {dim : ℕ → ℕ}

/-- The product of the transformed operators is the transformed string. -/
theorem hats_prod (hX : Car dim X) (hI : IsDelta I) {T : ℕ → List Piece} {t : A} (ht : ∀ m ρ, evalS I X dim (T m) ρ = t)
    (hn : IsNilpotent t) {b : ℕ} {ρ : Env} (l : List Op) : ∀ {n : ℕ}, okTs T b l n = true → (∀ x ∈ l, x.2 < b) →
    OpsOk dim ρ l → ((hats T l n).map fun ps => evalS I X dim ps ρ).prod
      = IsNilpotent.exp (-t) * evalO X ρ l * IsNilpotent.exp t := by
  have hc : Commute t (-t) := (Commute.refl t).neg_right
  have h1 : IsNilpotent.exp t * IsNilpotent.exp (-t) = 1 := by
    rw [← IsNilpotent.exp_add_of_commute hc hn hn.neg, add_neg_cancel, IsNilpotent.exp_zero]
  have h2 : IsNilpotent.exp (-t) * IsNilpotent.exp t = 1 := by
    rw [← IsNilpotent.exp_add_of_commute hc.symm hn.neg hn, neg_add_cancel, IsNilpotent.exp_zero]
  induction l with
  | nil =>
    intro n _ _ _
    have e : hats T [] n = [] := rfl
    rw [e]
    simp [evalO, h2]
  | cons o l ih =>
    intro n hT hb ho
    have e : hats T (o :: l) n = hat (T n) o :: hats T l (n + 8) := rfl
    have e' : okTs T b (o :: l) n = (brec% okT b (T n), okTs T b l (n + 8), false) := rfl
    rw [e', brec_and, Bool.and_eq_true] at hT
    have hs := okT_spec hT.1
    rw [e, List.map_cons, List.prod_cons, ih hT.2 (fun x hx => hb x (List.mem_cons_of_mem _ hx))
      (fun x hx => ho x (List.mem_cons_of_mem _ hx)),
      hat_eq hX hI (fun p hp => (hs p hp).1) (ho o (List.mem_cons_self ..)), ht, evalO_cons]
    · calc IsNilpotent.exp (-t) * X o.1 (val ρ o.2) * IsNilpotent.exp t * (IsNilpotent.exp (-t) * evalO X ρ l * IsNilpotent.exp t)
          = IsNilpotent.exp (-t) * X o.1 (val ρ o.2) * (IsNilpotent.exp t * IsNilpotent.exp (-t)) * evalO X ρ l
              * IsNilpotent.exp t := by noncomm_ring
        _ = _ := by rw [h1]; noncomm_ring
    · intro p hp hm
      have := (hs p hp).2 _ hm
      have := hb o (List.mem_cons_self ..)
      omega

theorem okH_spec {T : ℕ → List Piece} {ext : List Var} {pre : List (List Piece)} {post : ℕ → List (List Piece)} {b lo n : ℕ}
    {h : Piece} (hh : okH T ext pre post b lo n h = true) :
    okSlots b 32 (h.s ++ ext) (slots T pre post n h.o) lo = true ∧ (∀ x ∈ h.f, ∀ v ∈ x.2, v < b) ∧ known [] h.s h.o = true ∧
      (∀ x ∈ h.o, x.2 < b) ∧ (∀ x ∈ h.s, x ∉ ext) ∧ okTs T b h.o n = true := by
  have e : okH T ext pre post b lo n h = (brec% okSlots b 32 (app h.s ext) (slots T pre post n h.o) lo,
    (brec% inF b 0 0 h.f, (brec% known [] h.s h.o, (brec% inL b 0 0 (opVars h.o), (brec% disj h.s ext, okTs T b h.o n, false),
      false), false), false), false) := rfl
  rw [e] at hh
  simp only [brec_and, Bool.and_eq_true, app_eq] at hh
  obtain ⟨h₁, h₂, h₃, h₄, h₅, h₆⟩ := hh
  refine ⟨h₁, fun x hx v hv => ?_, h₃, fun x hx => ?_, disj_spec h₅, h₆⟩
  · exact (inF_spec h₂ x hx v hv).resolve_right (by omega)
  · have : x.2 ∈ opVars h.o := by rw [opVars, mapL_eq]; exact List.mem_map_of_mem hx
    exact (inL_spec h₄ _ this).resolve_right (by omega)

/-- `project` computes the expectation value. -/
theorem project_eq {E : A →ₗ[ℚ] ℚ} (hE : Vacuum dim X E) (hI : IsDelta I) {T : ℕ → List Piece} {t : A}
    (ht : ∀ m ρ, evalS I X dim (T m) ρ = t) (hn : IsNilpotent t) {ext : List Var} {ρ : Env} (hρ : ExtOk dim ext ρ)
    {pre : List (List Piece)} {post : ℕ → List (List Piece)} {b lo n : ℕ} {P Q : A}
    (hP : ∀ ρ' : Env, (∀ v ∈ ext, ρ' v = ρ v) → (pre.map fun ps => evalS I X dim ps ρ').prod = P)
    (hQ : ∀ (ρ' : Env) m, (∀ v ∈ ext, ρ' v = ρ v) → ((post m).map fun ps => evalS I X dim ps ρ').prod = Q)
    {H : List Piece} (hH : okProject T ext pre H post b lo n = true) :
    E (evalS I X dim (project T ext pre H post n) ρ)
      = E (P * (IsNilpotent.exp (-t) * evalS I X dim H ρ * IsNilpotent.exp t) * Q) := by
  have e₀ : okProject T ext pre H post b lo n =
    (brec% Nat.ble b lo, (lrec% H, true, fun h _ ih => brec% okH T ext pre post b lo n h, ih, false), false) := rfl
  rw [e₀, brec_and, Bool.and_eq_true] at hH
  obtain ⟨hbl, hH⟩ := hH
  rw [ble_iff] at hbl
  have hp : project T ext pre H post n
      = H.flatMap fun h => (prods (slots T pre post n h.o) 0 0 ⟨h.c, h.s, h.f, []⟩).flatMap (wickPiece ext) := by
    unfold project
    rw [bindL_eq]
    simp only [bindL_eq]
  rw [hp]
  clear hp e₀
  induction H with
  | nil => simp [evalS]
  | cons h H ih =>
    have e : (lrec% (h :: H), true, fun h _ ih => brec% okH T ext pre post b lo n h, ih, false)
      = (brec% okH T ext pre post b lo n h, (lrec% H, true, fun h _ ih => brec% okH T ext pre post b lo n h, ih, false), false) := rfl
    rw [e, brec_and, Bool.and_eq_true] at hH
    obtain ⟨h₁, h₂, h₃, h₄, h₅, h₆⟩ := okH_spec hH.1
    rw [List.flatMap_cons, evalS_append, map_add, ih hH.2, evalS_cons, wickAll_eq hE hI hρ]
    have hw : ∀ t, weight t (⟨h.c, h.s, h.f, []⟩ : Piece).o = 0 := fun t => rfl
    have := prods_eq (a := ⟨h.c, h.s, h.f, []⟩) hE hI hρ (slots T pre post n h.o) hbl h₁
      (fun x hx v hv => Nat.lt_of_lt_of_le (h₂ x hx v hv) hbl) (fun x hx => absurd hx List.not_mem_nil)
      (fun x hx => absurd hx List.not_mem_nil) (fun v hv => List.mem_append.1 hv)
    rw [hw, hw] at this
    rw [this]
    have hnest : nest I X dim ⟨h.c, h.s, h.f, []⟩ (slots T pre post n h.o) ρ
        = P * (IsNilpotent.exp (-t) * evalP I X dim h ρ * IsNilpotent.exp t) * Q := by
      unfold nest evalP
      rw [mul_smul_comm, smul_mul_assoc, mul_smul_comm, smul_mul_assoc]
      congr 1
      rw [mul_sumV, sumV_mul, mul_sumV, sumV_mul]
      refine sumV_congr fun ρ' hr => ?_
      have hag : ∀ v ∈ ext, ρ' v = ρ v := fun v hv => hr.1 v fun hs => h₅ v hs hv
      have es : slots T pre post n h.o = pre ++ (hats T h.o n ++ post (n + 8 * h.o.length)) := by
        unfold slots
        rw [app_eq, app_eq, len_eq]
        rfl
      rw [es, List.map_append, List.map_append, List.prod_append, List.prod_append, hP ρ' hag, hQ ρ' _ hag,
        hats_prod hE.toCar hI ht hn h.o h₆ h₄ (fun x hx => ?_)]
      · have : evalO X ρ' [] = (1 : A) := by simp [evalO]
        rw [this, one_mul, mul_smul_comm, smul_mul_assoc, mul_smul_comm, smul_mul_assoc]
        congr 1
        noncomm_ring
      · have := known_spec h₃ x hx
        rcases this with h | h
        · exact hr.2 _ h
        · exact absurd h List.not_mem_nil
    rw [hnest, ← map_add]
    congr 1
    noncomm_ring

theorem scalS_of_closed {E : A →ₗ[ℚ] ℚ} (h1 : E 1 = 1) {l : List Piece} (hl : ∀ p ∈ l, p.o = []) (ρ : Env) :
    scalS I dim l ρ = E (evalS I X dim l ρ) := by
  induction l with
  | nil => simp [scalS, evalS]
  | cons p l ih =>
    rw [evalS_cons, map_add, ← ih fun q hq => hl q (List.mem_cons_of_mem _ hq)]
    have : E (evalP I X dim p ρ) = p.c.val * scal I dim p.s p.f ρ := by
      rw [E_evalP, hl p (List.mem_cons_self ..)]
      unfold scal
      congr 1
      refine sumV_congr fun ρ' _ => ?_
      simp [evalO, h1]
    rw [this]
    simp [scalS]

noncomputable section
def negP (p : Piece) : Piece := ⟨p.c.flip true, p.s, p.f, p.o⟩

/-- The comparison of an expression of the program with the expectation value. -/
def agrees (G : ℕ → List ℕ) (x : Ex) (vars : List Var) (n : ℕ) (l : List Piece) : Bool :=
  isZero G (app (symE x vars n) (mapL negP l))
end

theorem scalS_neg (l : List Piece) (ρ : Env) : scalS I dim (l.map negP) ρ = - scalS I dim l ρ := by
  unfold scalS
  rw [List.map_map]
  induction l with
  | nil => simp
  | cons p l ih =>
    simp only [List.map_cons, List.sum_cons]
    rw [ih, neg_add]
    congr 1
    have : (negP p) = ⟨p.c.flip true, p.s, p.f, p.o⟩ := rfl
    rw [Function.comp_apply, this]
    simp only [Coef.val_flip, sg]
    simp

/-- If the comparison succeeds, the expression is the expectation value. -/
theorem agrees_sound {E : A →ₗ[ℚ] ℚ} (h1 : E 1 = 1) {G : ℕ → List ℕ} (hG : AntiSym G I) {x : Ex} (hok : x.ok = true)
    {vars : List Var} {n : ℕ} (hax : vars.map (· % 4) = x.axes) (hlt : ∀ v ∈ vars, v < 4 * n) {l : List Piece}
    (h : agrees G x vars n l = true) (ρ : Env) : x.denote dim I (vars.map ρ) = E (evalS I X dim l ρ) := by
  have e : agrees G x vars n l = isZero G (app (symE x vars n) (mapL negP l)) := rfl
  rw [e, app_eq, mapL_eq] at h
  obtain ⟨h₁, h₂⟩ := isZero_sound (dim := dim) hG h ρ
  rw [scalS_append, scalS_neg, (symE_sound x hok vars n hax hlt).2 ρ, scalS_of_closed (X := X) h1] at h₁
  · exact sub_eq_zero.1 (by rw [sub_eq_add_neg]; exact h₁)
  · intro p hp
    have := h₂ (negP p) (List.mem_append_right _ (List.mem_map_of_mem hp))
    exact this

end Ccpy.Engine
