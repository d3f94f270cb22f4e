import Verif.Engine.Canon1

/-! The normal form of terms when some tensors also keep their values under the exchange `p q r s → q p s r`, as those
with one index pair of each spin do for a closed shell. -/

namespace Ccpy.Engine

open Ccpy.Tensor

/-- The tensors marked by `E` do not change when both index pairs are exchanged. -/
def Exch (E : ℕ → Bool) (I : ℕ → List (ℕ × ℕ) → ℚ) : Prop := ∀ n, E n = true → ∀ p q r s, I n [p, q, r, s] = I n [q, p, s, r]

noncomputable section

universe u

/-- Do something with a list of four elements. -/
def four {β : Type u} (l : List Var) (d : β) (k : Var → Var → Var → Var → β) : β :=
  lrec% l, d, fun p l₁ _ => lrec% l₁, d, fun q l₂ _ => lrec% l₂, d, fun r l₃ _ => lrec% l₃, d, fun s l₄ _ =>
    lrec% l₄, k p q r s, fun _ _ _ => d

/-- The order that `w` chooses. -/
def swapW (w : Var → Var → Var → Var → Bool) (E : ℕ → Bool) (x : Factor) : Factor :=
  brec% E x.1, (four x.2 x fun p q r s => brec% w p q r s, x, (x.1, [q, p, s, r])), x
/-- The smaller one of the two orders. -/
def swapX : (ℕ → Bool) → Factor → Factor := swapW fun p q r s => Nat.ble (codeL [p, q, r, s]) (codeL [q, p, s, r])

def pairKey (c : Var → ℕ) (p r : Var) : ℕ := mix (Nat.add (Nat.add (c p) (Nat.mul 31 (c r))) 7)
def hashX (E : ℕ → Bool) (G : ℕ → List ℕ) (c : Var → ℕ) (x : Factor) : ℕ :=
  brec% E x.1, (four x.2 0 fun p q r s => Nat.add (pairKey c p r) (pairKey c q s)), hashI c (G x.1) x.2 1
def hashes2 (E : ℕ → Bool) (G : ℕ → List ℕ) (m : List Keyed) (f : List Factor) : List ℕ :=
  mapL (fun x => mix (Nat.add (Nat.mul 999 x.1) (hashX E G (keyOf m) x))) f
def at2 (v x : Var) (n : ℕ) : ℕ := brec% Nat.beq x v, n, 0
def weigh2 (E : ℕ → Bool) (G : ℕ → List ℕ) (c : Var → ℕ) (v : Var) (f : List Factor) : List ℕ → ℕ :=
  lrec% f, (fun _ => 0), fun x _ ih hs => lrec% hs, 0, fun h r _ =>
    Nat.add (Nat.mul h (brec% E x.1,
      (four x.2 0 fun p q r s => Nat.add
        (Nat.mul (pairKey c p r) (Nat.add (at2 v p 1) (at2 v r 31))) (Nat.mul (pairKey c q s) (Nat.add (at2 v q 1) (at2 v s 31)))),
      hashI (fun y => brec% Nat.beq y v, 1, 0) (G x.1) x.2 1)) (ih r)
def refine2 (E : ℕ → Bool) (G : ℕ → List ℕ) (f : List Factor) (m : List Keyed) : List Keyed :=
  forceL (hashes2 E G m f) fun hs => mapL (fun e => (mix (Nat.add e.1 (weigh2 E G (keyOf m) e.2 f hs)), e.2)) m

/-- An order of the variables by keys that do not depend on their names. -/
def cand2 (E : ℕ → Bool) (G : ℕ → List ℕ) (f : List Factor) (n : ℕ) : List Keyed → List Var :=
  nrec% n, (fun m => mapL Prod.snd (sortKey m)), fun _ ih m =>
    forceP (refine2 E G f m) fun m' => forceP (sortKey m') fun s => orec% firstTie s, mapL Prod.snd s, fun _ =>
      forceP (sortKey (refine2 E G f m')) fun s' => orec% firstTie s', mapL Prod.snd s', fun v => ih (bump v s')

/-- The normal form: `none` if the term vanishes. -/
def best2 (E : ℕ → Bool) (G : ℕ → List ℕ) (f : List Factor) (s : List Var) : Option (ℕ × List Var × Bool × List CFactor) :=
  orec% normF G (mapL (swapX E) (renameAll s base f)), none, fun z => some (codeT z.2, s, z)

/-- Collect the terms. -/
def addAll2 (E : ℕ → Bool) (G : ℕ → List ℕ) (l : List Piece) : Tree → Option Tree :=
  lrec% l, (fun t => some t), fun p _ ih t =>
    forceF p.f fun f => forceP (withSpace p.s) fun s =>
      brec% (brec% isNil p.o, (brec% allLtF base f, (brec% allLt base (mapL Prod.snd s), (brec% nodup (mapL Prod.snd s),
        Nat.beq (Nat.mod scale p.c.d) 0, false), false), false), false),
      (orec% best2 E G f (cand2 E G f 12 s), ih t, fun z =>
        ih (t.insert z.1 (newNames z.2.1 base) z.2.2.2 (xr p.c.neg z.2.2.1) (Nat.mul p.c.n (Nat.div scale p.c.d)))),
      none

/-- The sum of the pieces is zero. -/
def isZero2 (E : ℕ → Bool) (G : ℕ → List ℕ) (l : List Piece) : Bool :=
  orec% addAll2 E G l .leaf, false, fun t => t.zero

end

variable {I : ℕ → List (ℕ × ℕ) → ℚ} {dim : ℕ → ℕ}

theorem four_eq {β : Type*} (l : List Var) (d : β) (k : Var → Var → Var → Var → β) :
    (∃ p q r s, l = [p, q, r, s] ∧ four l d k = k p q r s) ∨ four l d k = d := by
  match l with
  | [] => exact .inr rfl
  | [_] => exact .inr rfl
  | [_, _] => exact .inr rfl
  | [_, _, _] => exact .inr rfl
  | [p, q, r, s] => exact .inl ⟨p, q, r, s, rfl, rfl⟩
  | _ :: _ :: _ :: _ :: _ :: _ => exact .inr rfl

theorem swapW_eq (w : Var → Var → Var → Var → Bool) {E : ℕ → Bool} (hE : Exch E I) (ρ : Env) (x : Factor) :
    evalF I ρ (swapW w E x) = evalF I ρ x := by
  have e : swapW w E x = (brec% E x.1, (four x.2 x fun p q r s => brec% w p q r s, x, (x.1, [q, p, s, r])), x) := rfl
  rw [e, brec_eq]
  cases hx : E x.1 with
  | false => rfl
  | true =>
    rw [cond_true]
    rcases four_eq x.2 x (fun p q r s => brec% w p q r s, x, (x.1, [q, p, s, r])) with ⟨p, q, r, s, h₁, h₂⟩ | h₂
    · rw [h₂, brec_eq]
      cases w p q r s with
      | true => rfl
      | false =>
        show I x.1 ([q, p, s, r].map (val ρ)) = I x.1 (x.2.map (val ρ))
        rw [h₁]
        exact (hE x.1 hx _ _ _ _).symm
    · rw [h₂]

theorem swapX_all {E : ℕ → Bool} (hE : Exch E I) (ρ : Env) (l : List Factor) :
    evalFs I ρ (mapL (swapX E) l) = evalFs I ρ l := by
  unfold swapX
  rw [mapL_eq]
  induction l with
  | nil => rfl
  | cons x l ih => rw [List.map_cons, evalFs_cons, evalFs_cons, ih, swapW_eq _ hE]

theorem refine2_snd (E : ℕ → Bool) (G : ℕ → List ℕ) (f : List Factor) (m : List Keyed) :
    (refine2 E G f m).map Prod.snd = m.map Prod.snd := by
  have e : refine2 E G f m = forceL (hashes2 E G m f) fun hs =>
    mapL (fun e => (mix (Nat.add e.1 (weigh2 E G (keyOf m) e.2 f hs)), e.2)) m := rfl
  rw [e, forceL_eq, mapL_eq, List.map_map]
  rfl

theorem cand2_perm (E : ℕ → Bool) (G : ℕ → List ℕ) (f : List Factor) (n : ℕ) :
    ∀ m : List Keyed, (cand2 E G f n m).Perm (m.map Prod.snd) := by
  induction n with
  | zero =>
    intro m
    have e : cand2 E G f 0 m = mapL Prod.snd (sortKey m) := rfl
    rw [e, mapL_eq]
    exact (sortKey_perm m).map _
  | succ n ih =>
    intro m
    have e : cand2 E G f (n + 1) m = forceP (refine2 E G f m) fun m' => forceP (sortKey m') fun s =>
      orec% firstTie s, mapL Prod.snd s, fun _ =>
      forceP (sortKey (refine2 E G f m')) fun s' => orec% firstTie s', mapL Prod.snd s', fun v => cand2 E G f n (bump v s') := rfl
    rw [e, forceP_eq, forceP_eq]
    cases firstTie (sortKey (refine2 E G f m)) with
    | none =>
      show (mapL Prod.snd (sortKey (refine2 E G f m))).Perm _
      rw [mapL_eq, ← refine2_snd E G f m]
      exact (sortKey_perm _).map _
    | some _ =>
      show (forceP (sortKey (refine2 E G f (refine2 E G f m))) fun s' =>
        orec% firstTie s', mapL Prod.snd s', fun v => cand2 E G f n (bump v s')).Perm _
      rw [forceP_eq, ← refine2_snd E G f m, ← refine2_snd E G f (refine2 E G f m)]
      have hs := (sortKey_perm (refine2 E G f (refine2 E G f m))).map Prod.snd
      cases firstTie (sortKey (refine2 E G f (refine2 E G f m))) with
      | none =>
        show (mapL Prod.snd (sortKey (refine2 E G f (refine2 E G f m)))).Perm _
        rw [mapL_eq]
        exact hs
      | some v =>
        refine (ih _).trans ?_
        rw [bump_snd]
        exact hs

theorem best2_sound {E : ℕ → Bool} (hE : Exch E I) {G : ℕ → List ℕ} (hG : AntiSym G I) {s : List Var} {f : List Factor}
    (hd : s.Nodup) (hs : ∀ v ∈ s, v < base) (hf : ∀ x ∈ f, ∀ v ∈ x.2, v < base) (ρ : Env) {t : List Var} (ht : t.Perm s) :
    scal I dim s f ρ = match best2 E G f t with
      | none => 0
      | some w => sg w.2.2.1 * scal I dim (newNames w.2.1 base) (w.2.2.2.map Prod.snd) ρ := by
  have e : best2 E G f t = (orec% normF G (mapL (swapX E) (renameAll t base f)), none, fun z => some (codeT z.2, t, z)) := rfl
  have h₁ : scal I dim s f ρ = scal I dim (newNames t base) (renameAll t base f) ρ := by
    unfold scal
    rw [sumV_perm ht.symm _ hd]
    exact rename_sound t [] base f ρ rfl (ht.nodup_iff.2 hd) (fun v hv => hs v (ht.mem_iff.1 hv)) hf
  rw [h₁, e]
  unfold scal
  have h₂ : ∀ ρ, evalFs I ρ (renameAll t base f) = match normF G (mapL (swapX E) (renameAll t base f)) with
      | none => 0
      | some w => sg w.1 * evalFs I ρ (w.2.map Prod.snd) := fun ρ => by
    rw [← swapX_all hE, normF_sound hG]
    cases normF G (mapL (swapX E) (renameAll t base f)) <;> rfl
  simp only [h₂]
  cases normF G (mapL (swapX E) (renameAll t base f)) with
  | none => exact sumV_zero _ _
  | some z =>
    have := sumV_hom (dim := dim) (AddMonoidHom.mulLeft (sg z.1)) (newNames t base) (fun ρ => evalFs I ρ (z.2.map Prod.snd)) ρ
    simp only [AddMonoidHom.coe_mulLeft] at this
    exact this.symm

theorem addAll2_sound {E : ℕ → Bool} (hE : Exch E I) {G : ℕ → List ℕ} (hG : AntiSym G I) (ρ : Env) (l : List Piece) :
    ∀ {t t' : Tree}, addAll2 E G l t = some t' →
    evalTree I dim ρ t' = evalTree I dim ρ t + scalS I dim l ρ ∧ ∀ p ∈ l, p.o = [] := by
  induction l with
  | nil =>
    intro t t' h
    have e : addAll2 E G [] t = some t := rfl
    rw [e, Option.some.injEq] at h
    subst h
    exact ⟨by simp [scalS], fun p hp => absurd hp List.not_mem_nil⟩
  | cons p l ih =>
    intro t t' h
    have e : addAll2 E G (p :: l) t = forceF p.f fun f => forceP (withSpace p.s) fun s =>
      brec% (brec% isNil p.o, (brec% allLtF base f, (brec% allLt base (mapL Prod.snd s), (brec% nodup (mapL Prod.snd s),
        Nat.beq (Nat.mod scale p.c.d) 0, false), false), false), false),
      (orec% best2 E G f (cand2 E G f 12 s), addAll2 E G l t, fun z =>
        addAll2 E G l (t.insert z.1 (newNames z.2.1 base) z.2.2.2 (xr p.c.neg z.2.2.1)
          (Nat.mul p.c.n (Nat.div scale p.c.d)))),
      none := rfl
    rw [e, forceF_eq, forceP_eq, mapL_eq, withSpace_snd] at h
    simp only [brec_and] at h
    simp only [brec_eq] at h
    cases hc : (isNil p.o && (allLtF base p.f && (allLt base p.s && (nodup p.s && Nat.beq (Nat.mod scale p.c.d) 0)))) with
    | false => rw [hc] at h; exact absurd h (by simp)
    | true =>
      rw [hc, cond_true] at h
      simp only [Bool.and_eq_true] at hc
      obtain ⟨h₁, h₂, h₃, h₄, h₅⟩ := hc
      have hp := cand2_perm E G p.f 12 (withSpace p.s)
      rw [withSpace_snd] at hp
      have hs := best2_sound (dim := dim) hE hG (nodup_spec h₄) (allLt_spec h₃) (allLtF_spec h₂) ρ hp
      have hcons : scalS I dim (p :: l) ρ = p.c.val * scal I dim p.s p.f ρ + scalS I dim l ρ := by simp [scalS]
      have ho : (∀ q ∈ l, q.o = []) → ∀ q ∈ p :: l, q.o = [] := fun hl q hq => by
        rcases List.mem_cons.1 hq with hq | hq
        · subst hq; exact (isNil_iff _).1 h₁
        · exact hl q hq
      cases hb : best2 E G p.f (cand2 E G p.f 12 (withSpace p.s)) with
      | none =>
        rw [hb] at h hs
        obtain ⟨e₁, e₂⟩ := ih h
        refine ⟨?_, ho e₂⟩
        rw [hcons, hs, e₁]; ring
      | some w =>
        rw [hb] at h hs
        simp only at h hs
        obtain ⟨e₁, e₂⟩ := ih h
        refine ⟨?_, ho e₂⟩
        rw [hcons, hs, e₁, insert_sound, sg_xr]
        have hd : p.c.d ∣ scale := Nat.dvd_of_mod_eq_zero ((beq_iff _ _).1 h₅)
        have hd0 : (p.c.d : ℚ) ≠ 0 := by
          intro h0
          have h0' : p.c.d = 0 := by exact_mod_cast h0
          rw [h0'] at hd
          exact absurd (Nat.eq_zero_of_zero_dvd hd) (by decide)
        have hcv : p.c.val = sg p.c.neg * ((Nat.mul p.c.n (Nat.div scale p.c.d) : ℕ) : ℚ) / scale := by
          have h6 : ((Nat.mul p.c.n (Nat.div scale p.c.d) : ℕ) : ℚ) = (p.c.n : ℚ) * ((scale : ℚ) / p.c.d) := by
            have : Nat.mul p.c.n (Nat.div scale p.c.d) = p.c.n * (scale / p.c.d) := rfl
            rw [this, Nat.cast_mul, Nat.cast_div hd hd0]
          rw [h6]
          have hsc : (scale : ℚ) ≠ 0 := by norm_num [scale]
          unfold Coef.val sg
          field_simp
        rw [hcv]
        ring

/-- The check is sound. -/
theorem isZero2_sound {E : ℕ → Bool} (hE : Exch E I) {G : ℕ → List ℕ} (hG : AntiSym G I) {l : List Piece}
    (h : isZero2 E G l = true) (ρ : Env) : scalS I dim l ρ = 0 := by
  have e : isZero2 E G l = (orec% addAll2 E G l .leaf, false, fun t => t.zero) := rfl
  rw [e] at h
  cases ha : addAll2 E G l .leaf with
  | none => rw [ha] at h; exact Bool.noConfusion h
  | some t =>
    rw [ha] at h
    obtain ⟨h₁, _⟩ := addAll2_sound (dim := dim) hE hG ρ l ha
    rw [zero_sound ρ h] at h₁
    simpa [evalTree] using h₁.symm

end Ccpy.Engine
