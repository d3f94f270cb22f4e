import Verif.Engine.Expectation

/-! A faster normal form: one order of the summed variables instead of several. -/

namespace Ccpy.Engine

open Ccpy.Tensor

noncomputable section

/-- A variable whose key is not unique. -/
def firstTie (l : List Keyed) : Option Var :=
  lrec% l, none, fun x r ih => lrec% r, none, fun y _ _ => brec% Nat.beq x.1 y.1, some x.2, ih
def bump (v : Var) (l : List Keyed) : List Keyed := mapL (fun e => (brec% Nat.beq e.2 v, Nat.add e.1 77, e.1, e.2)) l

/-- An order of the variables by keys that do not depend on their names. -/
def cand1 (G : ℕ → List ℕ) (f : List Factor) (n : ℕ) : List Keyed → List Var :=
  nrec% n, (fun m => mapL Prod.snd (sortKey m)), fun _ ih m =>
    forceP (refine G f m) fun m' => forceP (sortKey m') fun s => orec% firstTie s, mapL Prod.snd s, fun _ =>
      forceP (sortKey (refine G f m')) fun s' => orec% firstTie s', mapL Prod.snd s', fun v => ih (bump v s')

/-- Collect the terms. -/
def addAll1 (G : ℕ → List ℕ) (l : List Piece) : Tree → Option Tree :=
  lrec% l, (fun t => some t), fun p _ ih t =>
    forceF p.f fun f => forceP (withSpace p.s) fun s =>
      brec% (brec% isNil p.o, (brec% allLtF base f, (brec% allLt base (mapL Prod.snd s), (brec% nodup (mapL Prod.snd s),
        Nat.beq (Nat.mod scale p.c.d) 0, false), false), false), false),
      (orec% best G f [cand1 G f 12 s], ih t, fun z =>
        ih (t.insert z.1 (newNames z.2.1 base) z.2.2.2 (xr p.c.neg z.2.2.1) (Nat.mul p.c.n (Nat.div scale p.c.d)))),
      none

/-- The sum of the pieces is zero. -/
def isZero1 (G : ℕ → List ℕ) (l : List Piece) : Bool :=
  orec% addAll1 G l .leaf, false, fun t => t.zero

end

theorem bump_snd (v : Var) (l : List Keyed) : (bump v l).map Prod.snd = l.map Prod.snd := by
  have e : bump v l = mapL (fun e => (brec% Nat.beq e.2 v, Nat.add e.1 77, e.1, e.2)) l := rfl
  rw [e, mapL_eq, List.map_map]
  rfl

theorem cand1_perm (G : ℕ → List ℕ) (f : List Factor) (n : ℕ) : ∀ m : List Keyed, (cand1 G f n m).Perm (m.map Prod.snd) := by
  induction n with
  | zero =>
    intro m
    have e : cand1 G f 0 m = mapL Prod.snd (sortKey m) := rfl
    rw [e, mapL_eq]
    exact (sortKey_perm m).map _
  | succ n ih =>
    intro m
    have e : cand1 G f (n + 1) m = forceP (refine G f m) fun m' => forceP (sortKey m') fun s =>
      orec% firstTie s, mapL Prod.snd s, fun _ =>
      forceP (sortKey (refine G f m')) fun s' => orec% firstTie s', mapL Prod.snd s', fun v => cand1 G f n (bump v s') := rfl
    rw [e, forceP_eq, forceP_eq]
    cases firstTie (sortKey (refine G f m)) with
    | none =>
      show (mapL Prod.snd (sortKey (refine G f m))).Perm _
      rw [mapL_eq, ← refine_snd G f m]
      exact (sortKey_perm _).map _
    | some _ =>
      show (forceP (sortKey (refine G f (refine G f m))) fun s' =>
        orec% firstTie s', mapL Prod.snd s', fun v => cand1 G f n (bump v s')).Perm _
      rw [forceP_eq, ← refine_snd G f m, ← refine_snd G f (refine G f m)]
      have hs := (sortKey_perm (refine G f (refine G f m))).map Prod.snd
      cases firstTie (sortKey (refine G f (refine G f m))) with
      | none =>
        show (mapL Prod.snd (sortKey (refine G f (refine G f m)))).Perm _
        rw [mapL_eq]
        exact hs
      | some v =>
        refine (ih _).trans ?_
        rw [bump_snd]
        exact hs

variable {I : ℕ → List (ℕ × ℕ) → ℚ} {dim : ℕ → ℕ}

theorem addAll1_sound {G : ℕ → List ℕ} (hG : AntiSym G I) (ρ : Env) (l : List Piece) : ∀ {t t' : Tree},
    addAll1 G l t = some t' →
    evalTree I dim ρ t' = evalTree I dim ρ t + scalS I dim l ρ ∧ ∀ p ∈ l, p.o = [] := by
  induction l with
  | nil =>
    intro t t' h
    have e : addAll1 G [] t = some t := rfl
    rw [e, Option.some.injEq] at h
    subst h
    exact ⟨by simp [scalS], fun p hp => absurd hp List.not_mem_nil⟩
  | cons p l ih =>
    intro t t' h
    have e : addAll1 G (p :: l) t = forceF p.f fun f => forceP (withSpace p.s) fun s =>
      brec% (brec% isNil p.o, (brec% allLtF base f, (brec% allLt base (mapL Prod.snd s), (brec% nodup (mapL Prod.snd s),
        Nat.beq (Nat.mod scale p.c.d) 0, false), false), false), false),
      (orec% best G f [cand1 G f 12 s], addAll1 G l t, fun z =>
        addAll1 G l (t.insert z.1 (newNames z.2.1 base) z.2.2.2 (xr p.c.neg z.2.2.1) (Nat.mul p.c.n (Nat.div scale p.c.d)))),
      none := rfl
    rw [e, forceF_eq, forceP_eq, mapL_eq, withSpace_snd] at h
    simp only [brec_and] at h
    simp only [brec_eq] at h
    cases hc : (isNil p.o && (allLtF base p.f && (allLt base p.s && (nodup p.s && Nat.beq (Nat.mod scale p.c.d) 0)))) with
    | false => rw [hc] at h; exact absurd h (by simp)
    | true =>
      rw [hc, cond_true] at h
      simp only [Bool.and_eq_true] at hc
      obtain ⟨h₁, h₂, h₃, h₄, h₅⟩ := hc
      have hp := cand1_perm G p.f 12 (withSpace p.s)
      rw [withSpace_snd] at hp
      have hs : scal I dim p.s p.f ρ = match best G p.f [cand1 G p.f 12 (withSpace p.s)] with
          | none => 0
          | some w => sg w.2.2.1 * scal I dim (newNames w.2.1 base) (w.2.2.2.map Prod.snd) ρ :=
        best_sound hG (nodup_spec h₄) (allLt_spec h₃) (allLtF_spec h₂) ρ _
          (fun t ht => by rw [List.mem_singleton.1 ht]; exact hp) (List.cons_ne_nil _ _)
      have hcons : scalS I dim (p :: l) ρ = p.c.val * scal I dim p.s p.f ρ + scalS I dim l ρ := by simp [scalS]
      have ho : (∀ q ∈ l, q.o = []) → ∀ q ∈ p :: l, q.o = [] := fun hl q hq => by
        rcases List.mem_cons.1 hq with hq | hq
        · subst hq; exact (isNil_iff _).1 h₁
        · exact hl q hq
      cases hb : best G p.f [cand1 G p.f 12 (withSpace p.s)] with
      | none =>
        rw [hb] at h hs
        obtain ⟨e₁, e₂⟩ := ih h
        refine ⟨?_, ho e₂⟩
        rw [hcons, hs, e₁]; ring
      | some w =>
        rw [hb] at h hs
        simp only at h hs
        obtain ⟨e₁, e₂⟩ := ih h
        refine ⟨?_, ho e₂⟩
        rw [hcons, hs, e₁, insert_sound, sg_xr]
        have hd : p.c.d ∣ scale := Nat.dvd_of_mod_eq_zero ((beq_iff _ _).1 h₅)
        have hd0 : (p.c.d : ℚ) ≠ 0 := by
          intro h0
          have h0' : p.c.d = 0 := by exact_mod_cast h0
          rw [h0'] at hd
          exact absurd (Nat.eq_zero_of_zero_dvd hd) (by decide)
        have hcv : p.c.val = sg p.c.neg * ((Nat.mul p.c.n (Nat.div scale p.c.d) : ℕ) : ℚ) / scale := by
          have h6 : ((Nat.mul p.c.n (Nat.div scale p.c.d) : ℕ) : ℚ) = (p.c.n : ℚ) * ((scale : ℚ) / p.c.d) := by
            have : Nat.mul p.c.n (Nat.div scale p.c.d) = p.c.n * (scale / p.c.d) := rfl
            rw [this, Nat.cast_mul, Nat.cast_div hd hd0]
          rw [h6]
          have hsc : (scale : ℚ) ≠ 0 := by norm_num [scale]
          unfold Coef.val sg
          field_simp
        rw [hcv]
        ring

/-- The check is sound. -/
theorem isZero1_sound {G : ℕ → List ℕ} (hG : AntiSym G I) {l : List Piece} (h : isZero1 G l = true) (ρ : Env) :
    scalS I dim l ρ = 0 ∧ ∀ p ∈ l, p.o = [] := by
  have e : isZero1 G l = (orec% addAll1 G l .leaf, false, fun t => t.zero) := rfl
  rw [e] at h
  cases ha : addAll1 G l .leaf with
  | none => rw [ha] at h; exact Bool.noConfusion h
  | some t =>
    rw [ha] at h
    obtain ⟨h₁, h₂⟩ := addAll1_sound (dim := dim) hG ρ l ha
    refine ⟨?_, h₂⟩
    rw [zero_sound ρ h] at h₁
    simpa [evalTree] using h₁.symm

end Ccpy.Engine
