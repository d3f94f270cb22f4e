import Verif.Engine.Products
import Mathlib.Data.List.Nodup

/-! Soundness of the normal form of terms: if `isZero` accepts a list of pieces, their sum vanishes. -/

namespace Ccpy.Engine

open Finset

variable {I : ℕ → List (ℕ × ℕ) → ℚ} {dim : ℕ → ℕ}

/-- Consecutive groups of indices, antisymmetric in each group. -/
def Anti : List ℕ → (List (ℕ × ℕ) → ℚ) → Prop
  | [], _ => True
  | g :: gs, J => (∀ l₁ x y l₂ m, (l₁ ++ x :: y :: l₂).length = g →
      J ((l₁ ++ x :: y :: l₂) ++ m) = - J ((l₁ ++ y :: x :: l₂) ++ m)) ∧ ∀ l, l.length = g → Anti gs fun m => J (l ++ m)

/-- The tensors have the antisymmetry the groups say. -/
def AntiSym (G : ℕ → List ℕ) (I : ℕ → List (ℕ × ℕ) → ℚ) : Prop := ∀ n, Anti (G n) (I n)

section sorting
variable {F : List ℕ → ℚ} {g : ℕ}

theorem ins_eq (x y : ℕ) (r : List ℕ) : ins x (y :: r) = bif Nat.ble x y then (false, x :: y :: r)
    else (nt (ins x r).1, y :: (ins x r).2) := by
  rw [← brec_eq]; rfl

theorem ins_length (x : ℕ) (l : List ℕ) : (ins x l).2.length = l.length + 1 := by
  induction l with
  | nil => rfl
  | cons y r ih =>
    rw [ins_eq]
    cases Nat.ble x y
    · simp [ih]
    · simp

theorem ins_sound (hF : ∀ l₁ x y l₂, (l₁ ++ x :: y :: l₂).length = g → F (l₁ ++ x :: y :: l₂) = - F (l₁ ++ y :: x :: l₂))
    (x : ℕ) (l : List ℕ) : ∀ pre, (pre ++ x :: l).length = g → F (pre ++ x :: l) = sg (ins x l).1 * F (pre ++ (ins x l).2) := by
  induction l with
  | nil => intro pre _; have e : ins x [] = (false, [x]) := rfl; simp [e, sg]
  | cons y r ih =>
    intro pre h
    rw [ins_eq]
    cases Nat.ble x y with
    | true => simp [sg]
    | false =>
      have := ih (pre ++ [y]) (by simpa using h)
      rw [hF _ _ _ _ h]
      simp only [List.append_assoc, List.singleton_append, cond_false, sg_nt] at this ⊢
      rw [this]
      ring

theorem sortSign_length (l : List ℕ) : (sortSign l).2.length = l.length := by
  induction l with
  | nil => rfl
  | cons x r ih =>
    have e : (sortSign (x :: r)).2 = (ins x (sortSign r).2).2 := rfl
    rw [e, ins_length, ih, List.length_cons]

theorem sortSign_sound (hF : ∀ l₁ x y l₂, (l₁ ++ x :: y :: l₂).length = g → F (l₁ ++ x :: y :: l₂) = - F (l₁ ++ y :: x :: l₂))
    (l : List ℕ) : ∀ pre, (pre ++ l).length = g → F (pre ++ l) = sg (sortSign l).1 * F (pre ++ (sortSign l).2) := by
  induction l with
  | nil => intro pre _; have e : sortSign [] = (false, []) := rfl; simp [e, sg]
  | cons x r ih =>
    intro pre h
    have e : sortSign (x :: r) = (xr (sortSign r).1 (ins x (sortSign r).2).1, (ins x (sortSign r).2).2) := rfl
    have h₁ := ih (pre ++ [x]) (by simpa using h)
    simp only [List.append_assoc, List.singleton_append] at h₁
    rw [e, h₁, ins_sound hF x (sortSign r).2 pre (by simpa [sortSign_length] using h), sg_xr]
    ring

theorem dupl_spec {l : List ℕ} (h : dupl l = true) : ∃ l₁ x l₂, l = l₁ ++ x :: x :: l₂ := by
  induction l with
  | nil => exact Bool.noConfusion h
  | cons x r ih =>
    cases r with
    | nil => exact Bool.noConfusion h
    | cons y r =>
      have e : dupl (x :: y :: r) = (brec% Nat.beq x y, true, dupl (y :: r)) := rfl
      rw [e, brec_eq] at h
      cases hb : Nat.beq x y with
      | true =>
        obtain rfl := (beq_iff _ _).1 hb
        exact ⟨[], x, r, rfl⟩
      | false =>
        rw [hb] at h
        obtain ⟨l₁, z, l₂, e⟩ := ih h
        exact ⟨x :: l₁, z, l₂, by rw [e]; rfl⟩

theorem dupl_sound (hF : ∀ l₁ x y l₂, (l₁ ++ x :: y :: l₂).length = g → F (l₁ ++ x :: y :: l₂) = - F (l₁ ++ y :: x :: l₂))
    {l : List ℕ} (hl : l.length = g) (h : dupl l = true) : F l = 0 := by
  obtain ⟨l₁, x, l₂, rfl⟩ := dupl_spec h
  have := hF l₁ x x l₂ hl
  linarith

end sorting

theorem normIdx_cons (g : ℕ) (gs l : List ℕ) : normIdx (g :: gs) l = bif Nat.ble g l.length then
    (bif dupl (sortSign (l.take g)).2 then none else (normIdx gs (l.drop g)).map fun w =>
      (xr (sortSign (l.take g)).1 w.1, (sortSign (l.take g)).2 ++ w.2)) else some (false, l) := by
  have e : normIdx (g :: gs) l = (brec% Nat.ble g (len l), (brec% dupl (sortSign (takeL g l)).2, none,
      (orec% normIdx gs (dropL g l), none, fun w => some (xr (sortSign (takeL g l)).1 w.1, app (sortSign (takeL g l)).2 w.2))),
      some (false, l)) := rfl
  rw [e]
  simp only [brec_eq, takeL_eq, dropL_eq, app_eq, len_eq]
  cases normIdx gs (l.drop g) <;> rfl

theorem normIdx_sound (ρ : Env) : ∀ (gs : List ℕ) (J : List (ℕ × ℕ) → ℚ) (l : List ℕ), Anti gs J →
    J (l.map (val ρ)) = match normIdx gs l with
      | none => 0
      | some w => sg w.1 * J (w.2.map (val ρ)) := by
  intro gs
  induction gs with
  | nil =>
    intro J l _
    have e : normIdx [] l = some (false, l) := rfl
    simp [e, sg]
  | cons g gs ih =>
    intro J l h
    rw [normIdx_cons]
    cases hb : Nat.ble g l.length with
    | false => simp [sg]
    | true =>
      have hlen : (l.take g).length = g := by
        rw [List.length_take]; exact Nat.min_eq_left ((ble_iff _ _).1 hb)
      have hF : ∀ m l₁ x y l₂, (l₁ ++ x :: y :: l₂).length = g →
          (fun l : List ℕ => J (l.map (val ρ) ++ m)) (l₁ ++ x :: y :: l₂)
            = - (fun l : List ℕ => J (l.map (val ρ) ++ m)) (l₁ ++ y :: x :: l₂) := by
        intro m l₁ x y l₂ hl
        have := h.1 (l₁.map (val ρ)) (val ρ x) (val ρ y) (l₂.map (val ρ)) m (by simpa using hl)
        simpa using this
      have hsplit : l.map (val ρ) = (l.take g).map (val ρ) ++ (l.drop g).map (val ρ) := by
        rw [← List.map_append, List.take_append_drop]
      cases hd : dupl (sortSign (l.take g)).2 with
      | true =>
        simp only [cond_true]
        rw [hsplit]
        have h₁ := sortSign_sound (F := fun l' : List ℕ => J (l'.map (val ρ) ++ (l.drop g).map (val ρ))) (hF ((l.drop g).map (val ρ))) (l.take g) [] hlen
        simp only [List.nil_append] at h₁
        rw [h₁, dupl_sound (F := fun l' : List ℕ => J (l'.map (val ρ) ++ (l.drop g).map (val ρ))) (hF _) (by rw [sortSign_length, hlen]) hd, mul_zero]
      | false =>
        simp only [cond_true, cond_false]
        have h₂ := ih (fun m => J ((sortSign (l.take g)).2.map (val ρ) ++ m)) (l.drop g)
          (h.2 _ (by rw [List.length_map, sortSign_length, hlen]))
        have h₁ := sortSign_sound (F := fun l' : List ℕ => J (l'.map (val ρ) ++ (l.drop g).map (val ρ))) (hF ((l.drop g).map (val ρ))) (l.take g) [] hlen
        simp only [List.nil_append] at h₁
        rw [hsplit, h₁, h₂]
        cases normIdx gs (l.drop g) with
        | none => simp
        | some w =>
          simp only [Option.map_some, sg_xr, List.map_append]
          ring

theorem insF_prod (ρ : Env) (x : CFactor) (l : List CFactor) :
    evalFs I ρ ((insF x l).map Prod.snd) = evalF I ρ x.2 * evalFs I ρ (l.map Prod.snd) := by
  induction l with
  | nil => rfl
  | cons y r ih =>
    have e : insF x (y :: r) = (brec% Nat.ble x.1 y.1, x :: y :: r, y :: insF x r) := rfl
    rw [e, brec_eq]
    cases Nat.ble x.1 y.1 with
    | true => rfl
    | false =>
      simp only [cond_false, List.map_cons, evalFs_cons, ih]
      ring

theorem normF_sound {G : ℕ → List ℕ} (hG : AntiSym G I) (ρ : Env) (l : List Factor) :
    evalFs I ρ l = match normF G l with
      | none => 0
      | some w => sg w.1 * evalFs I ρ (w.2.map Prod.snd) := by
  induction l with
  | nil => have e : normF G [] = some (false, []) := rfl; simp [e, sg]
  | cons x l ih =>
    have e : normF G (x :: l) = (orec% normF G l, none, fun w => orec% normIdx (G x.1) x.2, none, fun z =>
      some (xr z.1 w.1, insF (codeF (x.1, z.2), (x.1, z.2)) w.2)) := rfl
    rw [e, evalFs_cons, ih]
    cases normF G l with
    | none => simp
    | some w =>
      have h := normIdx_sound ρ (G x.1) (I x.1) x.2 (hG x.1)
      simp only
      have he : evalF I ρ x = I x.1 (x.2.map (val ρ)) := rfl
      rw [he, h]
      cases normIdx (G x.1) x.2 with
      | none => simp
      | some z =>
        simp only [insF_prod, sg_xr]
        have : evalF I ρ (x.1, z.2) = I x.1 (z.2.map (val ρ)) := rfl
        rw [this]
        ring

/-! ### Renaming -/

theorem allLt_spec {n : ℕ} {l : List Var} (h : allLt n l = true) : ∀ v ∈ l, v < n := by
  induction l with
  | nil => intro v hv; exact absurd hv List.not_mem_nil
  | cons x l ih =>
    have e : allLt n (x :: l) = (brec% Nat.ble (Nat.succ x) n, allLt n l, false) := rfl
    rw [e, brec_and, Bool.and_eq_true] at h
    intro v hv
    rcases List.mem_cons.1 hv with hv | hv
    · subst hv; exact (ble_iff _ _).1 h.1
    · exact ih h.2 v hv

theorem allLtF_spec {n : ℕ} {l : List Factor} (h : allLtF n l = true) : ∀ x ∈ l, ∀ v ∈ x.2, v < n := by
  induction l with
  | nil => intro v hv; exact absurd hv List.not_mem_nil
  | cons x l ih =>
    have e : allLtF n (x :: l) = (brec% allLt n x.2, allLtF n l, false) := rfl
    rw [e, brec_and, Bool.and_eq_true] at h
    intro v hv
    rcases List.mem_cons.1 hv with hv | hv
    · subst hv; exact allLt_spec h.1
    · exact ih h.2 v hv

theorem nodup_spec {l : List Var} (h : nodup l = true) : l.Nodup := by
  induction l with
  | nil => exact List.nodup_nil
  | cons x l ih =>
    have e : nodup (x :: l) = (brec% mem x l, false, nodup l) := rfl
    rw [e, brec_eq] at h
    cases hm : mem x l with
    | true => rw [hm] at h; exact Bool.noConfusion h
    | false => rw [hm] at h; exact List.nodup_cons.2 ⟨mem_false.1 hm, ih h⟩

theorem renameAll_cons (v : Var) (s : List Var) (n : ℕ) (f : List Factor) :
    renameAll (v :: s) n f = renameAll s (n + 4) (substF v (n + v % 4) f) := by
  have e : renameAll (v :: s) n f = forceN (Nat.add n (Nat.mod v 4)) fun w => renameAll s (Nat.add n 4) (substF v w f) := rfl
  rw [e, forceN_eq]; rfl

theorem newNames_cons (v : Var) (s : List Var) (n : ℕ) : newNames (v :: s) n = (n + v % 4) :: newNames s (n + 4) := rfl

theorem newNames_ge (s : List Var) : ∀ n, ∀ x ∈ newNames s n, n ≤ x := by
  induction s with
  | nil => intro n x hx; exact absurd hx List.not_mem_nil
  | cons v s ih =>
    intro n x hx
    rw [newNames_cons] at hx
    rcases List.mem_cons.1 hx with hx | hx
    · omega
    · have := ih _ x hx; omega

theorem substV_lt {v w n x : ℕ} (hx : x < n) (hw : w < n) : substV v w x < n := by
  have e : substV v w x = (brec% Nat.beq x v, w, x) := rfl
  rw [e, brec_eq]
  cases Nat.beq x v <;> simpa

theorem rename_sound (s : List Var) : ∀ (t : List Var) (n : ℕ) (f : List Factor) (ρ : Env), n % 4 = 0 → (t ++ s).Nodup →
    (∀ v ∈ t ++ s, v < n) → (∀ x ∈ f, ∀ v ∈ x.2, v < n) →
    sumV dim (t ++ s) (fun ρ => evalFs I ρ f) ρ
      = sumV dim (t ++ newNames s n) (fun ρ => evalFs I ρ (renameAll s n f)) ρ := by
  induction s with
  | nil => intro t n f ρ _ _ _ _; rfl
  | cons v s ih =>
    intro t n f ρ hn hd ht hf
    rw [renameAll_cons, newNames_cons]
    have hm : v % 4 = (n + v % 4) % 4 := by omega
    have hd' := List.nodup_append.1 hd
    have hvt : v ∉ t := fun h => hd'.2.2 v h v (List.mem_cons_self ..) rfl
    have hvs : v ∉ s := (List.nodup_cons.1 hd'.2.1).1
    have hws : (n + v % 4) ∉ s := fun h => by
      have := ht _ (List.mem_append_right _ (List.mem_cons_of_mem _ h)); omega
    have hwt : (n + v % 4) ∉ t := fun h => by
      have := ht _ (List.mem_append_left _ h); omega
    rw [sumV_rename hvt hvs hws hm (g := fun ρ => evalFs I ρ f) (fun ρ k => evalFs_congr fun x hx u hu =>
      Function.update_of_ne (fun e => by have := hf x hx u hu; omega) _ _)]
    simp only [← evalFs_subst hm]
    have e₁ : ∀ r : List Var, t ++ (n + v % 4) :: r = (t ++ [n + v % 4]) ++ r := fun r => by simp
    rw [e₁ s, e₁ (newNames s (n + 4))]
    refine ih (t ++ [n + v % 4]) (n + 4) _ ρ (by omega) ?_ ?_ ?_
    · have hts : (t ++ s).Nodup := by
        refine List.nodup_append.2 ⟨hd'.1, (List.nodup_cons.1 hd'.2.1).2, fun a ha b hb => ?_⟩
        exact hd'.2.2 a ha b (List.mem_cons_of_mem _ hb)
      rw [List.append_assoc, List.singleton_append, List.nodup_middle, List.nodup_cons]
      exact ⟨fun h => (List.mem_append.1 h).elim hwt hws, hts⟩
    · intro x hx
      simp only [List.mem_append, List.mem_singleton] at hx
      rcases hx with (hx | hx) | hx
      · have := ht x (List.mem_append_left _ hx); omega
      · omega
      · have := ht x (List.mem_append_right _ (List.mem_cons_of_mem _ hx)); omega
    · intro x hx u hu
      rw [substF_eq] at hx
      obtain ⟨y, hy, rfl⟩ := List.mem_map.1 hx
      simp only [substL_eq] at hu
      obtain ⟨z, hz, rfl⟩ := List.mem_map.1 hu
      exact substV_lt (by have := hf y hy z hz; omega) (by omega)

/-! ### Permutations -/

theorem insKey_perm (x : Keyed) (l : List Keyed) : (insKey x l).Perm (x :: l) := by
  induction l with
  | nil => exact List.Perm.refl _
  | cons y r ih =>
    have e : insKey x (y :: r) = (brec% Nat.ble x.1 y.1, x :: y :: r, y :: insKey x r) := rfl
    rw [e, brec_eq]
    cases Nat.ble x.1 y.1 with
    | true => exact List.Perm.refl _
    | false => exact (ih.cons y).trans (List.Perm.swap ..)

theorem sortKey_perm (l : List Keyed) : (sortKey l).Perm l := by
  induction l with
  | nil => exact List.Perm.refl _
  | cons x r ih => exact (insKey_perm x _).trans (ih.cons x)

theorem picks_perm {α : Type*} {l : List α} {y : α × List α} (h : y ∈ picks l) : (y.1 :: y.2).Perm l := by
  induction l generalizing y with
  | nil => exact absurd h List.not_mem_nil
  | cons x r ih =>
    have e : picks (x :: r) = (x, r) :: mapL (fun y => (y.1, x :: y.2)) (picks r) := rfl
    rw [e, mapL_eq] at h
    rcases List.mem_cons.1 h with h | h
    · subst h; exact List.Perm.refl _
    · obtain ⟨z, hz, rfl⟩ := List.mem_map.1 h
      exact (List.Perm.swap ..).trans ((ih hz).cons x)

theorem perms_cons (n : ℕ) (v : Keyed) (r : List Keyed) : perms (n + 1) (v :: r)
    = (picks (v :: r)).flatMap fun y => bif Nat.beq y.1.1 v.1 then (perms n y.2).map (y.1.2 :: ·) else [] := by
  have e : perms (n + 1) (v :: r) = bindL (fun y => brec% Nat.beq y.1.1 v.1, mapL (y.1.2 :: ·)
    (perms n y.2), []) (picks (v :: r)) := rfl
  rw [e, bindL_eq]
  simp only [brec_eq, mapL_eq]

theorem perms_perm {n : ℕ} : ∀ {s : List Keyed} {t : List Var}, t ∈ perms n s → t.Perm (s.map Prod.snd) := by
  induction n with
  | zero =>
    intro s t h
    have e : perms 0 s = [mapL Prod.snd s] := rfl
    rw [e, List.mem_singleton, mapL_eq] at h
    subst h; exact List.Perm.refl _
  | succ n ih =>
    intro s t h
    cases s with
    | nil =>
      have e : perms (n + 1) [] = [[]] := rfl
      rw [e, List.mem_singleton] at h
      subst h; exact List.Perm.refl _
    | cons v r =>
      rw [perms_cons] at h
      obtain ⟨y, hy, h⟩ := List.mem_flatMap.1 h
      cases hb : Nat.beq y.1.1 v.1 with
      | false => rw [hb] at h; exact absurd h List.not_mem_nil
      | true =>
        rw [hb] at h
        obtain ⟨z, hz, rfl⟩ := List.mem_map.1 h
        exact ((ih hz).cons _).trans ((picks_perm hy).map Prod.snd)

theorem perms_ne (n : ℕ) : ∀ s : List Keyed, perms n s ≠ [] := by
  suffices h : ∀ s : List Keyed, s.map Prod.snd ∈ perms n s from fun s => List.ne_nil_of_mem (h s)
  induction n with
  | zero =>
    intro s
    have e : perms 0 s = [mapL Prod.snd s] := rfl
    rw [e, mapL_eq]; exact List.mem_singleton.2 rfl
  | succ n ih =>
    intro s
    cases s with
    | nil => exact List.mem_singleton.2 rfl
    | cons v r =>
      rw [perms_cons]
      refine List.mem_flatMap.2 ⟨(v, r), List.mem_cons_self .., ?_⟩
      simp only [Nat.beq_refl, cond_true]
      exact List.mem_map_of_mem (ih r)

theorem refine_snd (G : ℕ → List ℕ) (f : List Factor) (m : List Keyed) : (refine G f m).map Prod.snd = m.map Prod.snd := by
  have e : refine G f m = forceL (hashes G m f) fun hs => mapL (fun e => (mix (Nat.add e.1 (weigh G e.2 f hs)), e.2)) m := rfl
  rw [e, forceL_eq, mapL_eq, List.map_map]
  rfl

theorem cands_spec (G : ℕ → List ℕ) (f : List Factor) (n : ℕ) : ∀ m : List Keyed,
    (∀ t ∈ cands G f n m, t.Perm (m.map Prod.snd)) ∧ cands G f n m ≠ [] := by
  have hp : ∀ m : List Keyed, (∀ t ∈ perms (len m) (sortKey m), t.Perm (m.map Prod.snd)) ∧ perms (len m) (sortKey m) ≠ [] :=
    fun m => ⟨fun t ht => (perms_perm ht).trans ((sortKey_perm m).map _), perms_ne _ _⟩
  induction n with
  | zero => exact hp
  | succ n ih =>
    intro m
    have e : cands G f (n + 1) m = brec% Nat.ble (adj (sortKey m)) 1, perms (len m) (sortKey m),
      forceP (refine G f m) (cands G f n) := rfl
    rw [e, brec_eq, forceP_eq]
    cases Nat.ble (adj (sortKey m)) 1 with
    | true => exact hp m
    | false =>
      have := ih (refine G f m)
      rw [refine_snd] at this
      exact this

theorem withSpace_snd (s : List Var) : (withSpace s).map Prod.snd = s := by
  have e : withSpace s = mapL (fun v => (Nat.mod v 4, v)) s := rfl
  rw [e, mapL_eq, List.map_map]
  exact List.map_id' s

/-- The value of a term without operators. -/
def scal (I : ℕ → List (ℕ × ℕ) → ℚ) (dim : ℕ → ℕ) (s : List Var) (f : List Factor) (ρ : Env) : ℚ :=
  sumV dim s (fun ρ => evalFs I ρ f) ρ

theorem best_sound {G : ℕ → List ℕ} (hG : AntiSym G I) {s : List Var} {f : List Factor} (hd : s.Nodup)
    (hs : ∀ v ∈ s, v < base) (hf : ∀ x ∈ f, ∀ v ∈ x.2, v < base) (ρ : Env) (l : List (List Var))
    (hl : ∀ t ∈ l, t.Perm s) (hne : l ≠ []) :
    scal I dim s f ρ = match best G f l with
      | none => 0
      | some w => sg w.2.2.1 * scal I dim (newNames w.2.1 base) (w.2.2.2.map Prod.snd) ρ := by
  induction l with
  | nil => exact absurd rfl hne
  | cons t l ih =>
    have e : best G f (t :: l) = (orec% normF G (renameAll t base f), none, fun z =>
      orec% best G f l, some (codeT z.2, t, z), fun w => brec% Nat.ble (codeT z.2) w.1, some (codeT z.2, t, z), some w) := rfl
    have ht := hl t (List.mem_cons_self ..)
    have h₁ : scal I dim s f ρ = scal I dim (newNames t base) (renameAll t base f) ρ := by
      unfold scal
      rw [sumV_perm ht.symm _ hd]
      exact rename_sound t [] base f ρ rfl (ht.nodup_iff.2 hd) (fun v hv => hs v (ht.mem_iff.1 hv)) hf
    have h₂ : scal I dim s f ρ = match normF G (renameAll t base f) with
        | none => 0
        | some z => sg z.1 * scal I dim (newNames t base) (z.2.map Prod.snd) ρ := by
      rw [h₁]
      unfold scal
      simp only [normF_sound hG _ (renameAll t base f)]
      cases normF G (renameAll t base f) with
      | none => exact sumV_zero _ _
      | some z =>
        have := sumV_hom (dim := dim) (AddMonoidHom.mulLeft (sg z.1)) (newNames t base) (fun ρ => evalFs I ρ (z.2.map Prod.snd)) ρ
        simp only [AddMonoidHom.coe_mulLeft] at this
        exact this.symm
    rw [e]
    cases hz : normF G (renameAll t base f) with
    | none => rw [hz] at h₂; exact h₂
    | some z =>
      rw [hz] at h₂
      simp only at h₂ ⊢
      by_cases hn : l = []
      · subst hn; exact h₂
      · have h₃ := ih (fun u hu => hl u (List.mem_cons_of_mem _ hu)) hn
        cases hb : best G f l with
        | none => exact h₂
        | some w =>
          rw [hb] at h₃
          simp only [brec_eq]
          cases Nat.ble (codeT z.2) w.1 with
          | true => exact h₂
          | false => exact h₃

/-! ### Collecting -/

def evalTree (I : ℕ → List (ℕ × ℕ) → ℚ) (dim : ℕ → ℕ) (ρ : Env) : Tree → ℚ
  | .leaf => 0
  | .node l _ s f p m r => evalTree I dim ρ l + evalTree I dim ρ r
      + ((p : ℚ) - m) / scale * scal I dim s (f.map Prod.snd) ρ

theorem beqL_eq (l : List ℕ) : ∀ l', beqL l l' = true → l = l' := by
  induction l with
  | nil =>
    intro l' h
    cases l' with
    | nil => rfl
    | cons _ _ => exact Bool.noConfusion h
  | cons x l ih =>
    intro l' h
    cases l' with
    | nil => exact Bool.noConfusion h
    | cons y r =>
      have e : beqL (x :: l) (y :: r) = (brec% Nat.beq x y, beqL l r, false) := rfl
      rw [e, brec_and, Bool.and_eq_true] at h
      rw [(beq_iff _ _).1 h.1, ih r h.2]

theorem beqF_eq (l : List CFactor) : ∀ l', beqF l l' = true → l.map Prod.snd = l'.map Prod.snd := by
  induction l with
  | nil =>
    intro l' h
    cases l' with
    | nil => rfl
    | cons _ _ => exact Bool.noConfusion h
  | cons x l ih =>
    intro l' h
    cases l' with
    | nil => exact Bool.noConfusion h
    | cons y r =>
      have e : beqF (x :: l) (y :: r) = (brec% Nat.beq x.2.1 y.2.1, (brec% beqL x.2.2 y.2.2, beqF l r, false), false) := rfl
      rw [e] at h
      simp only [brec_and, Bool.and_eq_true] at h
      rw [List.map_cons, List.map_cons, ih r h.2.2]
      congr 1
      exact Prod.ext ((beq_iff _ _).1 h.1) (beqL_eq _ _ h.2.1)

theorem insert_sound (k : ℕ) (s : List Var) (f : List CFactor) (neg : Bool) (a : ℕ) (ρ : Env) (t : Tree) :
    evalTree I dim ρ (t.insert k s f neg a)
      = evalTree I dim ρ t + sg neg * a / scale * scal I dim s (f.map Prod.snd) ρ := by
  induction t with
  | leaf =>
    have e : Tree.insert k s f neg a .leaf = (brec% neg, .node .leaf k s f 0 a .leaf, .node .leaf k s f a 0 .leaf) := rfl
    rw [e, brec_eq]
    cases neg <;> simp [evalTree, sg]
  | node l k' s' f' p m r il ir =>
    have e : Tree.insert k s f neg a (.node l k' s' f' p m r) =
      brec% Nat.beq k k',
        (brec% (brec% beqL s s', beqF f f', false),
          (brec% neg, .node l k' s' f' p (Nat.add a m) r, .node l k' s' f' (Nat.add a p) m r),
          .node (Tree.insert k s f neg a l) k' s' f' p m r),
        (brec% Nat.ble k k', .node (Tree.insert k s f neg a l) k' s' f' p m r,
          .node l k' s' f' p m (Tree.insert k s f neg a r)) := rfl
    rw [e]
    simp only [brec_eq]
    have hl : evalTree I dim ρ (.node (Tree.insert k s f neg a l) k' s' f' p m r)
        = evalTree I dim ρ (.node l k' s' f' p m r) + sg neg * a / scale * scal I dim s (f.map Prod.snd) ρ := by
      simp only [evalTree]; rw [il]; ring
    have hr : evalTree I dim ρ (.node l k' s' f' p m (Tree.insert k s f neg a r))
        = evalTree I dim ρ (.node l k' s' f' p m r) + sg neg * a / scale * scal I dim s (f.map Prod.snd) ρ := by
      simp only [evalTree]; rw [ir]; ring
    cases Nat.beq k k' with
    | false => cases Nat.ble k k' <;> assumption
    | true =>
      simp only [cond_true]
      cases h : (bif beqL s s' then beqF f f' else false) with
      | false => exact hl
      | true =>
        have h' : beqL s s' = true ∧ beqF f f' = true := by
          revert h; cases beqL s s' <;> simp
        have hs := beqL_eq _ _ h'.1
        have hf := beqF_eq _ _ h'.2
        have hadd : ∀ x y : ℕ, ((Nat.add x y : ℕ) : ℚ) = (x : ℚ) + y := fun x y => by
          rw [Nat.add_eq]; push_cast; ring
        rw [hs, hf]
        cases neg <;> simp only [cond_true, cond_false, evalTree, hadd, sg] <;> simp only [Bool.false_eq_true, if_false, if_true] <;> ring

theorem zero_sound (ρ : Env) {t : Tree} (h : t.zero = true) : evalTree I dim ρ t = 0 := by
  induction t with
  | leaf => rfl
  | node l k s f p m r il ir =>
    have e : Tree.zero (.node l k s f p m r) = (brec% Nat.beq p m, (brec% l.zero, r.zero, false), false) := rfl
    rw [e] at h
    simp only [brec_and, Bool.and_eq_true] at h
    simp only [evalTree, il h.2.1, ir h.2.2, (beq_iff _ _).1 h.1]
    ring

/-- The value of a list of pieces without operators. -/
def scalS (I : ℕ → List (ℕ × ℕ) → ℚ) (dim : ℕ → ℕ) (l : List Piece) (ρ : Env) : ℚ :=
  (l.map fun p => p.c.val * scal I dim p.s p.f ρ).sum

theorem addAll_sound {G : ℕ → List ℕ} (hG : AntiSym G I) (ρ : Env) (l : List Piece) : ∀ {t t' : Tree},
    addAll G l t = some t' →
    evalTree I dim ρ t' = evalTree I dim ρ t + scalS I dim l ρ ∧ ∀ p ∈ l, p.o = [] := by
  induction l with
  | nil =>
    intro t t' h
    have e : addAll G [] t = some t := rfl
    rw [e, Option.some.injEq] at h
    subst h
    exact ⟨by simp [scalS], fun p hp => absurd hp List.not_mem_nil⟩
  | cons p l ih =>
    intro t t' h
    have e : addAll G (p :: l) t = forceF p.f fun f => forceP (withSpace p.s) fun s =>
      brec% (brec% isNil p.o, (brec% allLtF base f, (brec% allLt base (mapL Prod.snd s), (brec% nodup (mapL Prod.snd s),
        Nat.beq (Nat.mod scale p.c.d) 0, false), false), false), false),
      (orec% best G f (cands G f 2 s), addAll G l t, fun z =>
        addAll G l (t.insert z.1 (newNames z.2.1 base) z.2.2.2 (xr p.c.neg z.2.2.1) (Nat.mul p.c.n (Nat.div scale p.c.d)))),
      none := rfl
    rw [e, forceF_eq, forceP_eq, mapL_eq, withSpace_snd] at h
    simp only [brec_and] at h
    simp only [brec_eq] at h
    cases hc : (isNil p.o && (allLtF base p.f && (allLt base p.s && (nodup p.s && Nat.beq (Nat.mod scale p.c.d) 0)))) with
    | false => rw [hc] at h; exact absurd h (by simp)
    | true =>
      rw [hc, cond_true] at h
      simp only [Bool.and_eq_true] at hc
      obtain ⟨h₁, h₂, h₃, h₄, h₅⟩ := hc
      have hp := cands_spec G p.f 2 (withSpace p.s)
      rw [withSpace_snd] at hp
      have hs : scal I dim p.s p.f ρ = match best G p.f (cands G p.f 2 (withSpace p.s)) with
          | none => 0
          | some w => sg w.2.2.1 * scal I dim (newNames w.2.1 base) (w.2.2.2.map Prod.snd) ρ :=
        best_sound hG (nodup_spec h₄) (allLt_spec h₃) (allLtF_spec h₂) ρ _
          hp.1 hp.2
      have hcons : scalS I dim (p :: l) ρ = p.c.val * scal I dim p.s p.f ρ + scalS I dim l ρ := by simp [scalS]
      have ho : (∀ q ∈ l, q.o = []) → ∀ q ∈ p :: l, q.o = [] := fun hl q hq => by
        rcases List.mem_cons.1 hq with hq | hq
        · subst hq; exact (isNil_iff _).1 h₁
        · exact hl q hq
      cases hb : best G p.f (cands G p.f 2 (withSpace p.s)) with
      | none =>
        rw [hb] at h hs
        obtain ⟨e₁, e₂⟩ := ih h
        refine ⟨?_, ho e₂⟩
        rw [hcons, hs, e₁]; ring
      | some w =>
        rw [hb] at h hs
        simp only at h hs
        obtain ⟨e₁, e₂⟩ := ih h
        refine ⟨?_, ho e₂⟩
        rw [hcons, hs, e₁, insert_sound, sg_xr]
        have hd : p.c.d ∣ scale := Nat.dvd_of_mod_eq_zero ((beq_iff _ _).1 h₅)
        have hd0 : (p.c.d : ℚ) ≠ 0 := by
          intro h0
          have h0' : p.c.d = 0 := by exact_mod_cast h0
          rw [h0'] at hd
          exact absurd (Nat.eq_zero_of_zero_dvd hd) (by decide)
        have hcv : p.c.val = sg p.c.neg * ((Nat.mul p.c.n (Nat.div scale p.c.d) : ℕ) : ℚ) / scale := by
          have h6 : ((Nat.mul p.c.n (Nat.div scale p.c.d) : ℕ) : ℚ) = (p.c.n : ℚ) * ((scale : ℚ) / p.c.d) := by
            have : Nat.mul p.c.n (Nat.div scale p.c.d) = p.c.n * (scale / p.c.d) := rfl
            rw [this, Nat.cast_mul, Nat.cast_div hd hd0]
          rw [h6]
          have hsc : (scale : ℚ) ≠ 0 := by norm_num [scale]
          unfold Coef.val sg
          field_simp
        rw [hcv]
        ring

/-- The check is sound. -/
theorem isZero_sound {G : ℕ → List ℕ} (hG : AntiSym G I) {l : List Piece} (h : isZero G l = true) (ρ : Env) :
    scalS I dim l ρ = 0 ∧ ∀ p ∈ l, p.o = [] := by
  have e : isZero G l = (orec% addAll G l .leaf, false, fun t => t.zero) := rfl
  rw [e] at h
  cases ha : addAll G l .leaf with
  | none => rw [ha] at h; exact Bool.noConfusion h
  | some t =>
    rw [ha] at h
    obtain ⟨h₁, h₂⟩ := addAll_sound (dim := dim) hG ρ l ha
    refine ⟨?_, h₂⟩
    rw [zero_sound ρ h] at h₁
    simpa [evalTree] using h₁.symm

end Ccpy.Engine
