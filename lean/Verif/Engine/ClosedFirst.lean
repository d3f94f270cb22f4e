import Verif.Engine.ClosedShell

/-! Closed shells with two sets of amplitudes, of which only the first one is unchanged by a reversal of all spins. -/

namespace Ccpy.Engine

open Ccpy.Tensor Ccpy.Fock

noncomputable section

def copies₁ : List (ℕ × ℕ) := [(2, 1), (5, 3), (7, 6), (10, 8)]
def mixed₁ : List ℕ := [4, 9]

/-- Stored arrays in terms of those of spin up; the arrays of the second set stay. -/
def closed₁ (n : ℕ) (sp : List ℕ) : Ex := brec% Nat.beq n 0, bad sp, .arr (rename copies₁ n) (mapL sigma sp)
def isMixed₁ (n : ℕ) : Bool := mem n mixed₁

/-- Two expressions agree for closed shells and arbitrary amplitudes of the second set. -/
def equalC₁ (x : Ex) (xs : List Var) (y : Ex) (ys : List Var) : Bool := sameF closed₁ isMixed₁ (groups table3) x xs y ys

end

variable {ι : Type*} [LinearOrder ι]

section
variable {na : ℕ} {f : Integrals.OneBody ℚ} {v : Integrals.TwoBody ℚ} {l : List Cluster} {l₃ : List Triples}

theorem copies₁_eq {n : ℕ} : rename copies₁ n = if n = 2 then 1 else if n = 5 then 3 else if n = 7 then 6 else if n = 10 then 8 else n := by
  have b : ∀ (k x y : ℕ), (brec% Nat.beq n k, x, y) = if n = k then x else y := fun k x y => by
    rw [brec_eq]
    by_cases h : n = k
    · subst h; rw [Nat.beq_refl, if_pos rfl]; rfl
    · have : Nat.beq n k = false := by cases hb : Nat.beq n k with | false => rfl | true => exact absurd ((beq_iff _ _).1 hb) h
      rw [this, if_neg h]; rfl
  have e : rename copies₁ n = (brec% Nat.beq n 2, 1, (brec% Nat.beq n 5, 3, (brec% Nat.beq n 7, 6, (brec% Nat.beq n 10, 8, n)))) := rfl
  rw [e, b, b, b, b]

theorem elements_copy₁ (hf : f.b = f.a) (hv : v.bb = v.aa) {T : Cluster} (hT : T.Symmetric) {n : ℕ} (m : List (ℕ × ℕ)) :
    elements na na f v (store3 (T :: l) l₃) (rename copies₁ n) m = elements na na f v (store3 (T :: l) l₃) n m := by
  rw [copies₁_eq]
  split_ifs with h₁ h₂ h₃ h₄
  · subst h₁
    match m with
    | [] | [_] | _ :: _ :: _ :: _ => rfl
    | [x, y] => simp only [elements, hf]
  · subst h₂
    match m with
    | [] | [_] | [_, _] | [_, _, _] | _ :: _ :: _ :: _ :: _ :: _ => rfl
    | [x, y, z, w] => simp only [elements, hv]
  · subst h₃
    show T.amp 6 (m.map Prod.snd) = T.amp 7 (m.map Prod.snd)
    match m with
    | [] | [_] | _ :: _ :: _ :: _ => rfl
    | [x, y] => exact (congrFun (congrFun hT.a _) _).symm
  · subst h₄
    show T.amp 8 (m.map Prod.snd) = T.amp 10 (m.map Prod.snd)
    match m with
    | [] | [_] | [_, _] | [_, _, _] | _ :: _ :: _ :: _ :: _ :: _ => rfl
    | [x, y, z, w] => exact (congrFun (congrFun (congrFun (congrFun hT.aa _) _) _) _).symm
  · rfl

theorem closed₁_eq (n : ℕ) (sp : List ℕ) : closed₁ n sp = if n = 0 then bad sp else .arr (rename copies₁ n) (sp.map sigma) := by
  have e : closed₁ n sp = (brec% Nat.beq n 0, bad sp, .arr (rename copies₁ n) (mapL sigma sp)) := rfl
  rw [e, brec_eq, mapL_eq]
  by_cases h : n = 0
  · subst h; rfl
  · have : Nat.beq n 0 = false := by cases hb : Nat.beq n 0 with | false => rfl | true => exact absurd ((beq_iff _ _).1 hb) h
    rw [this, if_neg h]; rfl

theorem folds_closed₁ {n : ℕ} (hf : f.b = f.a) (hv : v.bb = v.aa) {T : Cluster} (hT : T.Symmetric) :
    Folds closed₁ sigma (dims n na na) (elements na na f v (store3 (T :: l) l₃)) where
  zero := rfl
  lengths s := by
    match s with
    | 0 | 1 | 2 | 3 => rfl
    | s + 4 => rw [sigma_eq, if_neg (by omega), if_neg (by omega)]
  axes m sp := by
    rw [closed₁_eq]
    split_ifs
    · rw [bad, Ex.axes, Ex.axes, mapL_eq]
    · rfl
  value m sp h idx hl := by
    rw [closed₁_eq] at h ⊢
    split_ifs at h ⊢ with h₁
    · exact absurd (h.symm.trans (bad_ok _)) (by decide)
    · show elements na na f v (store3 _ _) _ _ = _
      rw [elements_copy₁ hf hv hT, zip_sigma, elements_sigma h₁]

theorem exch_closed₁ (hm : ∀ p q r s, v.ab q p s r = v.ab p q r s) {T : Cluster} (hT : T.Symmetric) :
    Exch isMixed₁ (elements na na f v (store3 (T :: l) l₃)) := by
  intro n hn p q r s
  have hm' : n ∈ mixed₁ := (mem_iff _ _).1 hn
  have : n = 4 ∨ n = 9 := by simpa [mixed₁] using hm'
  rcases this with rfl | rfl
  · exact (hm _ _ _ _).symm
  · exact (hT.ab _ _ _ _).symm
end

theorem equalC₁_sound {S : Orbitals ι} {Z : Fock.Integrals} (hC : ClosedShell S Z) (hZ : Z.Antisym) {T : Cluster} {l : List Cluster}
    {l₃ : List Triples} (hl : ∀ t ∈ T :: l, t.Antisym) (hs : T.Symmetric) (hl₃ : ∀ t ∈ l₃, t.Antisym) {x y : Ex} {xs ys : List Var}
    (h : equalC₁ x xs y ys = true) (ρ : Env) :
    value S Z (store3 (T :: l) l₃) x (xs.map ρ) = value S Z (store3 (T :: l) l₃) y (ys.map ρ) := by
  have e : elements S.na S.nb (stF S Z) (stV Z) (store3 (T :: l) l₃) = elements S.na S.na (stF S Z) (stV Z) (store3 (T :: l) l₃) := by
    rw [hC.electrons]
  have e' : dims S.n S.na S.nb = dims S.n S.na S.na := by rw [hC.electrons]
  have := sameF_sound (folds_closed₁ (n := S.n) (na := S.na) (f := stF S Z) (v := stV Z) (fock_closed hC) hC.same hs)
    (exch_closed₁ hC.mixed hs) (antiSym_3 hZ hl hl₃) h ρ
  rw [← e, ← e'] at this
  exact this

end Ccpy.Engine
