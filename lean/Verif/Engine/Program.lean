import Verif.Engine.Canon
import Verif.Engine.Products
import Verif.Model.TensorProgram

/-! Symbolic execution of tensor expressions: an expression is expanded into pieces. -/

namespace Ccpy.Engine

open Ccpy.Tensor Finset

noncomputable section

def lookF (m : List (ℕ × ℕ)) (c : ℕ) : ℕ := lrec% m, 0, fun e _ ih => brec% Nat.beq c e.1, e.2, ih
def zipF (l : List ℕ) : List ℕ → List (ℕ × ℕ) :=
  lrec% l, (fun _ => []), fun c _ ih m => lrec% m, [], fun x r _ => (c, x) :: ih r

def axesF (x : Ex) : List ℕ :=
  @Ex.rec (fun _ => List ℕ) (fun _ => List (ℕ × ℕ)) (fun _ sp => sp) (fun out _ ls => mapL (lookF ls) out) (fun _ _ a _ => a)
    (fun _ _ _ _ a => a) [] (fun l _ _ a ls => app (zipF l a) ls) x
def lettersF (x : Body) : List (ℕ × ℕ) :=
  @Body.rec (fun _ => List ℕ) (fun _ => List (ℕ × ℕ)) (fun _ sp => sp) (fun out _ ls => mapL (lookF ls) out) (fun _ _ a _ => a)
    (fun _ _ _ _ a => a) [] (fun l _ _ a ls => app (zipF l a) ls) x

def summedF (l : List (ℕ × ℕ)) : List ℕ → List (ℕ × ℕ) :=
  lrec% l, (fun _ => []), fun e _ ih seen => brec% mem e.1 seen, ih seen, e :: ih (e.1 :: seen)

/-- Fresh variables for summed labels. -/
def fresh (l : List (ℕ × ℕ)) : ℕ → List (ℕ × ℕ) :=
  lrec% l, (fun _ => []), fun e _ ih n => (e.1, Nat.add (Nat.mul 4 n) e.2) :: ih (Nat.succ n)

/-- The number of fresh variables of an expression. -/
def usedE (x : Ex) : ℕ :=
  @Ex.rec (fun _ => ℕ) (fun _ => ℕ) (fun _ _ => 0) (fun out b u => Nat.add (len (summedF (lettersF b) out)) u)
    (fun _ _ a b => brec% Nat.ble a b, b, a) (fun _ _ _ _ a => a) 0 (fun _ _ _ a b => Nat.add a b) x
def usedB (x : Body) : ℕ :=
  @Body.rec (fun _ => ℕ) (fun _ => ℕ) (fun _ _ => 0) (fun out b u => Nat.add (len (summedF (lettersF b) out)) u)
    (fun _ _ a b => brec% Nat.ble a b, b, a) (fun _ _ _ _ a => a) 0 (fun _ _ _ a b => Nat.add a b) x

def oneP : Piece := ⟨⟨false, 1, 1⟩, [], [], []⟩
def addSums (s : List Var) (p : Piece) : Piece := ⟨p.c, app s p.s, p.f, p.o⟩
def scaleP (c : Coef) (p : Piece) : Piece := ⟨c.mul p.c, p.s, p.f, p.o⟩
def symE (x : Ex) : List Var → ℕ → List Piece :=
  @Ex.rec (fun _ => List Var → ℕ → List Piece) (fun _ => List (ℕ × ℕ) → ℕ → List Piece)
    (fun a _ vars _ => [⟨⟨false, 1, 1⟩, [], [(a, vars)], []⟩])
    (fun out b ih vars n => forceP (fresh (summedF (lettersF b) out) n) fun fr => forceP (app (zipF out vars) fr) fun m =>
      mapL (addSums (mapL Prod.snd fr)) (ih m (Nat.add n (len fr))))
    (fun _ _ a b vars n => app (a vars n) (b vars n))
    (fun neg k d _ a vars n => mapL (scaleP ⟨neg, k, d⟩) (a vars n))
    (fun _ _ => [oneP])
    (fun l x _ a b m n => forceL (mapL (lookF m) l) fun vs =>
      bindL (fun p => mapL (mulP p) (b m (Nat.add n (usedE x)))) (a vs n)) x

def symB (x : Body) : List (ℕ × ℕ) → ℕ → List Piece :=
  @Body.rec (fun _ => List Var → ℕ → List Piece) (fun _ => List (ℕ × ℕ) → ℕ → List Piece)
    (fun a _ vars _ => [⟨⟨false, 1, 1⟩, [], [(a, vars)], []⟩])
    (fun out b ih vars n => forceP (fresh (summedF (lettersF b) out) n) fun fr => forceP (app (zipF out vars) fr) fun m =>
      mapL (addSums (mapL Prod.snd fr)) (ih m (Nat.add n (len fr))))
    (fun _ _ a b vars n => app (a vars n) (b vars n))
    (fun neg k d _ a vars n => mapL (scaleP ⟨neg, k, d⟩) (a vars n))
    (fun _ _ => [oneP])
    (fun l x _ a b m n => forceL (mapL (lookF m) l) fun vs =>
      bindL (fun p => mapL (mulP p) (b m (Nat.add n (usedE x)))) (a vs n)) x

end

/-! ### Fast versions -/

theorem lookF_eq (m : List (ℕ × ℕ)) (c : ℕ) : lookF m c = look m c := by
  induction m with
  | nil => rfl
  | cons e m ih =>
    have h : lookF (e :: m) c = (brec% Nat.beq c e.1, e.2, lookF m c) := rfl
    obtain ⟨a, b⟩ := e
    rw [h, brec_eq, ih]
    unfold look
    simp only [List.lookup_cons]
    have hb : Nat.beq c a = (c == a) := by
      cases hh : Nat.beq c a with
      | true => rw [(beq_iff _ _).1 hh]; simp
      | false =>
        have : c ≠ a := fun e => by rw [(beq_iff _ _).2 e] at hh; exact Bool.noConfusion hh
        simp [this]
    rw [hb]
    cases c == a <;> rfl

theorem zipF_eq (l : List ℕ) : ∀ m, zipF l m = l.zip m := by
  induction l with
  | nil => intro m; rfl
  | cons c l ih =>
    intro m
    cases m with
    | nil => rfl
    | cons x r => exact congrArg ((c, x) :: ·) (ih r)

mutual
theorem axesF_eq : ∀ x : Ex, axesF x = x.axes
  | .arr n sp => by have h : axesF (.arr n sp) = sp := rfl
                    rw [h, Ex.axes]
  | .es out b => by
    have h : axesF (.es out b) = mapL (lookF (lettersF b)) out := rfl
    rw [h, Ex.axes, mapL_eq, lettersF_eq b]
    exact List.map_congr_left fun c _ => lookF_eq _ c
  | .add x y => by
    have h : axesF (.add x y) = axesF x := rfl
    rw [h, Ex.axes, axesF_eq x]
  | .smul _ _ _ x => by
    have h : ∀ a b c, axesF (.smul a b c x) = axesF x := fun _ _ _ => rfl
    rw [h, Ex.axes, axesF_eq x]
theorem lettersF_eq : ∀ b : Body, lettersF b = b.letters
  | .nil => by have h : lettersF .nil = [] := rfl
               rw [h, Body.letters]
  | .cons l x r => by
    have h : lettersF (.cons l x r) = app (zipF l (axesF x)) (lettersF r) := rfl
    rw [h, Body.letters, app_eq, zipF_eq, axesF_eq x, lettersF_eq r]
end

theorem summedF_eq (l : List (ℕ × ℕ)) : ∀ seen, summedF l seen = summed l seen := by
  induction l with
  | nil => intro seen; rfl
  | cons e l ih =>
    intro seen
    obtain ⟨c, s⟩ := e
    have h : summedF ((c, s) :: l) seen = (brec% mem c seen, summedF l seen, (c, s) :: summedF l (c :: seen)) := rfl
    rw [h, brec_eq, summed, ih, ih]
    by_cases hm : c ∈ seen
    · rw [(mem_iff _ _).2 hm]; simp [hm]
    · rw [mem_false.2 hm]; simp [hm]

theorem fresh_cons (e : ℕ × ℕ) (l : List (ℕ × ℕ)) (n : ℕ) : fresh (e :: l) n = (e.1, 4 * n + e.2) :: fresh l (n + 1) := rfl

theorem fresh_length (l : List (ℕ × ℕ)) : ∀ n, (fresh l n).length = l.length := by
  induction l with
  | nil => intro n; rfl
  | cons e l ih => intro n; rw [fresh_cons, List.length_cons, ih, List.length_cons]

theorem usedE_es (out : List ℕ) (b : Body) : usedE (.es out b) = (summed b.letters out).length + usedB b := by
  have h : usedE (.es out b) = len (summedF (lettersF b) out) + usedB b := rfl
  rw [h, len_eq, summedF_eq, lettersF_eq]

theorem symE_es (out : List ℕ) (b : Body) (vars : List ℕ) (n : ℕ) : symE (.es out b) vars n =
    (symB b (out.zip vars ++ fresh (summed b.letters out) n) (n + (summed b.letters out).length)).map
      (addSums ((fresh (summed b.letters out) n).map Prod.snd)) := by
  have h : symE (.es out b) vars n = forceP (fresh (summedF (lettersF b) out) n) fun fr => forceP (app (zipF out vars) fr) fun m =>
      mapL (addSums (mapL Prod.snd fr)) (symB b m (Nat.add n (len fr))) := rfl
  rw [h, forceP_eq, forceP_eq, mapL_eq, mapL_eq, app_eq, zipF_eq, len_eq, lettersF_eq, summedF_eq, fresh_length]
  rfl

theorem symE_add (x y : Ex) (vars : List ℕ) (n : ℕ) : symE (.add x y) vars n = symE x vars n ++ symE y vars n := by
  have h : symE (.add x y) vars n = app (symE x vars n) (symE y vars n) := rfl
  rw [h, app_eq]

theorem symE_smul (a : Bool) (k d : ℕ) (x : Ex) (vars : List ℕ) (n : ℕ) :
    symE (.smul a k d x) vars n = (symE x vars n).map (scaleP ⟨a, k, d⟩) := by
  have h : symE (.smul a k d x) vars n = mapL (scaleP ⟨a, k, d⟩) (symE x vars n) := rfl
  rw [h, mapL_eq]

theorem symB_cons (l : List ℕ) (x : Ex) (r : Body) (m : List (ℕ × ℕ)) (n : ℕ) : symB (.cons l x r) m n =
    (symE x (l.map (look m)) n).flatMap fun p => (symB r m (n + usedE x)).map (mulP p) := by
  have h : symB (.cons l x r) m n = forceL (mapL (lookF m) l) fun vs =>
      bindL (fun p => mapL (mulP p) (symB r m (n + usedE x))) (symE x vs n) := rfl
  rw [h, forceL_eq, bindL_eq, mapL_eq]
  have : lookF m = look m := funext (lookF_eq m)
  rw [this]
  simp only [mapL_eq]

/-! ### Soundness -/

variable {I : ℕ → List (ℕ × ℕ) → ℚ} {dim : ℕ → ℕ}

theorem look_cons (a b : ℕ) (m : List (ℕ × ℕ)) (c : ℕ) : look ((a, b) :: m) c = if c = a then b else look m c := by
  unfold look
  simp only [List.lookup_cons]
  by_cases h : c = a
  · simp [h]
  · have : (c == a) = false := by simp [h]
    rw [this, if_neg h]

mutual
theorem axes_lt : ∀ {x : Ex}, x.ok = true → ∀ s ∈ x.axes, s < 4
  | .arr n sp, h => by
    rw [Ex.ok, List.all_eq_true] at h
    rw [Ex.axes]
    exact fun s hs => by simpa using h s hs
  | .es out b, h => by
    rw [Ex.ok, Bool.and_eq_true, Bool.and_eq_true] at h
    rw [Ex.axes]
    intro s hs
    obtain ⟨c, _, rfl⟩ := List.mem_map.1 hs
    have hl := letters_lt h.1.1
    generalize b.letters = m at hl
    induction m with
    | nil => exact (show (0 : ℕ) < 4 by decide)
    | cons e m ih =>
      obtain ⟨a, s⟩ := e
      rw [look_cons]
      split_ifs
      · exact hl (a, s) (List.mem_cons_self ..)
      · exact ih fun e he => hl e (List.mem_cons_of_mem _ he)
  | .add x y, h => by
    rw [Ex.ok, Bool.and_eq_true, Bool.and_eq_true] at h
    rw [Ex.axes]
    exact axes_lt h.1.1
  | .smul _ _ _ x, h => by
    rw [Ex.ok] at h
    rw [Ex.axes]
    exact axes_lt h
theorem letters_lt : ∀ {b : Body}, b.ok = true → ∀ e ∈ b.letters, e.2 < 4
  | .nil, _ => by rw [Body.letters]; exact fun e he => absurd he List.not_mem_nil
  | .cons l x r, h => by
    rw [Body.ok, Bool.and_eq_true, Bool.and_eq_true] at h
    rw [Body.letters]
    intro e he
    rcases List.mem_append.1 he with he | he
    · exact axes_lt h.1.1 _ (List.of_mem_zip he).2
    · exact letters_lt h.2 e he
end

theorem body_congr {b : Body} (h : b.ok = true) {ε ε' : ℕ → ℕ} : (∀ e ∈ b.letters, ε e.1 = ε' e.1) →
    b.denote dim I ε = b.denote dim I ε' := by
  intro he
  match b with
  | .nil => rw [Body.denote, Body.denote]
  | .cons l x r =>
    rw [Body.ok, Bool.and_eq_true, Bool.and_eq_true] at h
    rw [Body.letters] at he
    rw [Body.denote, Body.denote]
    congr 1
    · congr 1
      refine List.map_congr_left fun c hc => ?_
      have hlen : l.length = x.axes.length := by simpa using h.1.2
      obtain ⟨i, hi, rfl⟩ := List.getElem_of_mem hc
      have : (l[i], x.axes[i]'(hlen ▸ hi)) ∈ l.zip x.axes :=
        List.mem_iff_getElem.2 ⟨i, by simpa [List.length_zip, hlen] using hlen ▸ hi, by simp⟩
      exact he _ (List.mem_append_left _ this)
    · exact body_congr h.2 fun e hm => he e (List.mem_append_right _ hm)

/-- The pieces of an expression: summed variables are fresh, all others are given. -/
structure Fresh (vars : List ℕ) (lo hi : ℕ) (p : Piece) : Prop where
  s : ∀ v ∈ p.s, lo ≤ v ∧ v < hi
  f : ∀ x ∈ p.f, ∀ v ∈ x.2, v ∈ vars ∨ (lo ≤ v ∧ v < hi)
  o : p.o = []

theorem scalS_append (l m : List Piece) (ρ : Env) : scalS I dim (l ++ m) ρ = scalS I dim l ρ + scalS I dim m ρ := by
  simp [scalS]

theorem scal_mul {p q : Piece} (h₁ : ∀ x ∈ p.f, ∀ v ∈ x.2, v ∉ q.s) (h₂ : ∀ x ∈ q.f, ∀ v ∈ x.2, v ∉ p.s) (ρ : Env) :
    scal I dim (p.s ++ q.s) (p.f ++ q.f) ρ = scal I dim p.s p.f ρ * scal I dim q.s q.f ρ := by
  unfold scal
  rw [sumV_append]
  have hm := sumV_hom (dim := dim) (AddMonoidHom.mulRight (sumV dim q.s (fun ρ => evalFs I ρ q.f) ρ)) p.s
    (fun ρ => evalFs I ρ p.f) ρ
  simp only [AddMonoidHom.coe_mulRight] at hm
  rw [hm]
  refine sumV_congr fun ρ₁ hr => ?_
  have hq : sumV dim q.s (fun ρ => evalFs I ρ q.f) ρ = sumV dim q.s (fun ρ => evalFs I ρ q.f) ρ₁ :=
    sumV_irrel (P := fun v => ∃ x ∈ q.f, v ∈ x.2) (fun a b h => evalFs_congr fun x hx v hv => h v ⟨x, hx, hv⟩)
      fun v hv _ => by
        obtain ⟨x, hx, hv⟩ := hv
        exact (hr.1 v (h₂ x hx v hv)).symm
  rw [hq]
  have hm2 := sumV_hom (dim := dim) (AddMonoidHom.mulLeft (evalFs I ρ₁ p.f)) q.s (fun ρ => evalFs I ρ q.f) ρ₁
  simp only [AddMonoidHom.coe_mulLeft] at hm2
  rw [hm2]
  refine sumV_congr fun ρ₂ hr₂ => ?_
  rw [evalFs_append, evalFs_congr (ρ₁ := ρ₂) (ρ₂ := ρ₁) (l := p.f) fun x hx v hv => hr₂.1 v (h₁ x hx v hv)]

/-- Sums over fresh variables are sums over labels. -/
theorem sum_fresh {b : Body} (hb : b.ok = true) {M : List (ℕ × ℕ)} : ∀ (ls : List (ℕ × ℕ)) (n : ℕ) (ρ : Env) (ε : ℕ → ℕ),
    (∀ e ∈ ls, e.2 < 4) →
    (∀ e ∈ fresh ls n, ∀ d ∈ b.letters, look M d.1 = e.2 ↔ d.1 = e.1) →
    (∀ e ∈ b.letters, e.1 ∉ ls.map Prod.fst → ε e.1 = ρ (look M e.1)) →
    sumV dim ((fresh ls n).map Prod.snd) (fun ρ' => b.denote dim I fun c => ρ' (look M c)) ρ
      = sumLetters dim ls (b.denote dim I) ε := by
  intro ls
  induction ls with
  | nil =>
    intro n ρ ε _ _ h
    exact body_congr hb fun e he => (h e he (by simp)).symm
  | cons e ls ih =>
    intro n ρ ε hlt hM h
    obtain ⟨c, s⟩ := e
    rw [fresh_cons] at hM ⊢
    have hs : s < 4 := hlt (c, s) (List.mem_cons_self ..)
    have hmod : (4 * n + s) % 4 = s := by omega
    rw [List.map_cons, sumV, sumLetters, hmod]
    refine Finset.sum_congr rfl fun k _ => ?_
    refine ih (n + 1) _ _ (fun e he => hlt e (List.mem_cons_of_mem _ he)) (fun e he => hM e (List.mem_cons_of_mem _ he)) ?_
    intro e he hne
    have hc := hM (c, 4 * n + s) (List.mem_cons_self ..)
    by_cases h1 : e.1 = c
    · have : look M e.1 = 4 * n + s := (hc e he).2 h1
      rw [this, h1, Function.update_self, Function.update_self]
    · have : look M e.1 ≠ 4 * n + s := fun hh => h1 ((hc e he).1 hh)
      rw [Function.update_of_ne h1, Function.update_of_ne this]
      exact h e he (by simp [h1]; simpa using hne)

theorem fresh_mem {ls : List (ℕ × ℕ)} : ∀ {n : ℕ} {e : ℕ × ℕ}, (∀ e ∈ ls, e.2 < 4) → e ∈ fresh ls n →
    4 * n ≤ e.2 ∧ e.2 < 4 * (n + ls.length) ∧ (e.1, e.2 % 4) ∈ ls := by
  induction ls with
  | nil => intro n e _ h; exact absurd h List.not_mem_nil
  | cons d ls ih =>
    intro n e hlt h
    rw [fresh_cons] at h
    rcases List.mem_cons.1 h with h | h
    · subst h
      have := hlt d (List.mem_cons_self ..)
      refine ⟨by simp, by simp only [List.length_cons]; omega, ?_⟩
      have : (4 * n + d.2) % 4 = d.2 := by omega
      simp [this]
    · obtain ⟨h₁, h₂, h₃⟩ := ih (fun e he => hlt e (List.mem_cons_of_mem _ he)) h
      refine ⟨by omega, by simp only [List.length_cons]; omega, List.mem_cons_of_mem _ h₃⟩

theorem fresh_fst (ls : List (ℕ × ℕ)) : ∀ n, (fresh ls n).map Prod.fst = ls.map Prod.fst := by
  induction ls with
  | nil => intro n; rfl
  | cons d ls ih => intro n; rw [fresh_cons, List.map_cons, ih, List.map_cons]

theorem fresh_inj {ls : List (ℕ × ℕ)} : ∀ {n : ℕ}, (∀ e ∈ ls, e.2 < 4) → ∀ e ∈ fresh ls n, ∀ e' ∈ fresh ls n,
    e.2 = e'.2 → e.1 = e'.1 := by
  induction ls with
  | nil => intro n _ e h; exact absurd h List.not_mem_nil
  | cons d ls ih =>
    intro n hlt e h e' h' he
    have hlt' : ∀ e ∈ ls, e.2 < 4 := fun e he => hlt e (List.mem_cons_of_mem _ he)
    have hd := hlt d (List.mem_cons_self ..)
    rw [fresh_cons] at h h'
    rcases List.mem_cons.1 h with h | h <;> rcases List.mem_cons.1 h' with h' | h'
    · rw [h, h']
    · have := (fresh_mem hlt' h').1
      rw [h] at he; simp only at he; omega
    · have := (fresh_mem hlt' h).1
      rw [h'] at he; simp only at he; omega
    · exact ih hlt' e h e' h' he

theorem look_mem {m : List (ℕ × ℕ)} {c : ℕ} (h : c ∈ m.map Prod.fst) : (c, look m c) ∈ m := by
  induction m with
  | nil => exact absurd h List.not_mem_nil
  | cons e m ih =>
    obtain ⟨a, b⟩ := e
    rw [look_cons]
    split_ifs with hc
    · subst hc; exact List.mem_cons_self ..
    · refine List.mem_cons_of_mem _ (ih ?_)
      simpa [hc] using h

theorem look_none {m : List (ℕ × ℕ)} {c : ℕ} (h : c ∉ m.map Prod.fst) : look m c = 0 := by
  induction m with
  | nil => rfl
  | cons e m ih =>
    obtain ⟨a, b⟩ := e
    rw [List.map_cons, List.mem_cons, not_or] at h
    rw [look_cons, if_neg h.1, ih h.2]

theorem look_append (m m' : List (ℕ × ℕ)) (c : ℕ) :
    look (m ++ m') c = if c ∈ m.map Prod.fst then look m c else look m' c := by
  induction m with
  | nil => simp
  | cons e m ih =>
    obtain ⟨a, b⟩ := e
    rw [List.cons_append, look_cons, look_cons (m := m), ih]
    by_cases h : c = a
    · simp [h]
    · rw [if_neg h]
      simp only [List.map_cons, List.mem_cons, h, false_or, if_false]

theorem look_zip_map (out vars : List ℕ) (h : out.length = vars.length) (ρ : Env) : ∀ {c}, c ∈ out →
    look (out.zip (vars.map ρ)) c = ρ (look (out.zip vars) c) := by
  induction out generalizing vars with
  | nil => intro c hc; exact absurd hc List.not_mem_nil
  | cons a out ih =>
    intro c hc
    cases vars with
    | nil => exact absurd h (by simp)
    | cons v vars =>
      rw [List.map_cons, List.zip_cons_cons, List.zip_cons_cons, look_cons, look_cons]
      split_ifs with hca
      · rfl
      · exact ih vars (by simpa using h) ((List.mem_cons.1 hc).resolve_left hca)

theorem summed_mem {ls : List (ℕ × ℕ)} : ∀ {seen : List ℕ} {e : ℕ × ℕ}, e ∈ summed ls seen → e ∈ ls ∧ e.1 ∉ seen := by
  induction ls with
  | nil => intro seen e h; exact absurd h List.not_mem_nil
  | cons d ls ih =>
    intro seen e h
    obtain ⟨c, s⟩ := d
    rw [summed] at h
    split_ifs at h with hc
    · exact ⟨List.mem_cons_of_mem _ (ih h).1, (ih h).2⟩
    · rcases List.mem_cons.1 h with h | h
      · subst h; exact ⟨List.mem_cons_self .., by simpa using hc⟩
      · have := ih h
        exact ⟨List.mem_cons_of_mem _ this.1, fun hs => this.2 (List.mem_cons_of_mem _ hs)⟩

theorem summed_complete {ls : List (ℕ × ℕ)} : ∀ {seen : List ℕ} {c : ℕ}, c ∈ ls.map Prod.fst → c ∉ seen →
    c ∈ (summed ls seen).map Prod.fst := by
  induction ls with
  | nil => intro seen c h; exact absurd h List.not_mem_nil
  | cons d ls ih =>
    intro seen c h hs
    obtain ⟨a, s⟩ := d
    rw [summed]
    rw [List.map_cons, List.mem_cons] at h
    by_cases hca : c = a
    · subst hca
      rw [if_neg (by simpa using hs)]
      exact List.mem_cons_self ..
    · have h' := h.resolve_left hca
      split_ifs
      · exact ih h' hs
      · exact List.mem_cons_of_mem _ (ih h' (by simp [hca, hs]))

theorem summed_nodup (ls : List (ℕ × ℕ)) : ∀ seen, ((summed ls seen).map Prod.fst).Nodup := by
  induction ls with
  | nil => intro seen; exact List.nodup_nil
  | cons d ls ih =>
    intro seen
    obtain ⟨a, s⟩ := d
    rw [summed]
    split_ifs
    · exact ih _
    · rw [List.map_cons, List.nodup_cons]
      refine ⟨fun h => ?_, ih _⟩
      obtain ⟨e, he, hea⟩ := List.mem_map.1 h
      exact (summed_mem he).2 (by rw [hea]; exact List.mem_cons_self ..)

theorem look_of_nodup {m : List (ℕ × ℕ)} (h : (m.map Prod.fst).Nodup) {e : ℕ × ℕ} (he : e ∈ m) : look m e.1 = e.2 := by
  induction m with
  | nil => exact absurd he List.not_mem_nil
  | cons d m ih =>
    obtain ⟨a, b⟩ := d
    rw [List.map_cons, List.nodup_cons] at h
    rw [look_cons]
    rcases List.mem_cons.1 he with he | he
    · subst he; rw [if_pos rfl]
    · rw [if_neg (fun hh => h.1 (List.mem_map.2 ⟨e, he, hh⟩)), ih h.2 he]

mutual
/-- Symbolic execution computes the value of an expression. -/
theorem symE_sound : ∀ (x : Ex), x.ok = true → ∀ (vars : List ℕ) (n : ℕ), vars.map (· % 4) = x.axes →
    (∀ v ∈ vars, v < 4 * n) → (∀ p ∈ symE x vars n, Fresh vars (4 * n) (4 * (n + usedE x)) p) ∧
      ∀ ρ, scalS I dim (symE x vars n) ρ = x.denote dim I (vars.map ρ)
  | .arr a sp, hok, vars, n, hax, hlt => by
    have e : symE (.arr a sp) vars n = [⟨⟨false, 1, 1⟩, [], [(a, vars)], []⟩] := rfl
    rw [e]
    constructor
    · intro p hp
      obtain rfl := List.mem_singleton.1 hp
      refine ⟨fun v hv => absurd hv List.not_mem_nil, fun x hx v hv => ?_, rfl⟩
      obtain rfl := List.mem_singleton.1 hx
      exact Or.inl hv
    · intro ρ
      rw [Ex.axes] at hax
      rw [Ex.denote, ← hax]
      have : (vars.map (· % 4)).zip (vars.map ρ) = vars.map (val ρ) := by
        rw [List.zip_map']
        rfl
      rw [this]
      simp [scalS, scal, sumV, evalFs, evalF, Coef.val]
  | .es out b, hok, vars, n, hax, hlt => by
    rw [Ex.ok, Bool.and_eq_true, Bool.and_eq_true] at hok
    obtain ⟨⟨hb, hcons⟩, hout⟩ := hok
    rw [Ex.axes] at hax
    have hlen : out.length = vars.length := by
      have := congrArg List.length hax
      simpa using this.symm
    have hcons' : ∀ e ∈ b.letters, look b.letters e.1 = e.2 := by
      intro e he
      have := List.all_eq_true.1 hcons e he
      unfold look
      rw [beq_iff_eq.1 this]
      rfl
    have hout' : ∀ c ∈ out, c ∈ b.letters.map Prod.fst := by
      intro c hc
      simpa using List.all_eq_true.1 hout c hc
    have hll := letters_lt hb
    have hus := usedE_es out b
    set ls := summed b.letters out with hls
    have hlsl : ∀ e ∈ ls, e.2 < 4 := fun e he => hll e (summed_mem he).1
    set M := out.zip vars ++ fresh ls n with hM
    have hzf : (out.zip vars).map Prod.fst = out := List.map_fst_zip (by rw [hlen])
    have hlookout : ∀ c ∈ out, look M c = look (out.zip vars) c := fun c hc => by
      rw [hM, look_append, if_pos (by rw [hzf]; exact hc)]
    have hlooksum : ∀ c, c ∉ out → look M c = look (fresh ls n) c := fun c hc => by
      rw [hM, look_append, if_neg (by rw [hzf]; exact hc)]
    have houtlt : ∀ c ∈ out, look M c < 4 * n := fun c hc => by
      rw [hlookout c hc]
      have : c ∈ (out.zip vars).map Prod.fst := by rw [hzf]; exact hc
      exact hlt _ (List.of_mem_zip (look_mem this)).2
    -- spaces of the variables of the labels
    have hspace : ∀ e ∈ b.letters, look M e.1 % 4 = e.2 := by
      intro e he
      by_cases hc : e.1 ∈ out
      · rw [hlookout _ hc]
        have h1 : ((e.1), look (out.zip vars) e.1) ∈ out.zip vars := look_mem (by rw [hzf]; exact hc)
        obtain ⟨i, hi, hie⟩ := List.getElem_of_mem h1
        rw [List.getElem_zip] at hie
        have hi1 : i < out.length := by rw [List.length_zip] at hi; omega
        have hi2 : i < vars.length := by rw [List.length_zip] at hi; omega
        have ho : out[i] = e.1 := congrArg Prod.fst hie
        have hv : vars[i] = look (out.zip vars) e.1 := congrArg Prod.snd hie
        have h2 : (vars.map (· % 4))[i]'(by simpa using hi2) = (out.map (look b.letters))[i]'(by simpa using hi1) := by
          simp only [hax]
        rw [List.getElem_map, List.getElem_map, hv, ho, hcons' e he] at h2
        exact h2
      · rw [hlooksum _ hc]
        have h1 : e.1 ∈ (fresh ls n).map Prod.fst := by
          rw [fresh_fst]
          exact summed_complete (List.mem_map_of_mem he) hc
        have h2 := (fresh_mem hlsl (look_mem h1)).2.2
        have h3 := (summed_mem h2).1
        have h4 := hcons' _ h3
        rw [hcons' e he] at h4
        exact h4.symm
    have hltM : ∀ e ∈ b.letters, look M e.1 < 4 * (n + ls.length) := by
      intro e he
      by_cases hc : e.1 ∈ out
      · have := houtlt _ hc; omega
      · rw [hlooksum _ hc]
        have h1 : e.1 ∈ (fresh ls n).map Prod.fst := by
          rw [fresh_fst]
          exact summed_complete (List.mem_map_of_mem he) hc
        exact (fresh_mem hlsl (look_mem h1)).2.1
    obtain ⟨hF, hS⟩ := symB_sound b hb M (n + ls.length) hspace hltM
    rw [symE_es, ← hls, ← hM, hus]
    constructor
    · intro p hp
      obtain ⟨q, hq, rfl⟩ := List.mem_map.1 hp
      have hq' := hF q hq
      have e : addSums ((fresh ls n).map Prod.snd) q = ⟨q.c, (fresh ls n).map Prod.snd ++ q.s, q.f, q.o⟩ := by
        rw [← app_eq]; rfl
      rw [e]
      refine ⟨fun v hv => ?_, fun x hx v hv => ?_, hq'.o⟩
      · rcases List.mem_append.1 hv with hv | hv
        · obtain ⟨d, hd, rfl⟩ := List.mem_map.1 hv
          have := fresh_mem hlsl hd
          refine ⟨this.1, ?_⟩
          have := this.2.1
          omega
        · have := hq'.s v hv
          omega
      · rcases hq'.f x hx v hv with h | h
        · obtain ⟨d, hd, rfl⟩ := List.mem_map.1 h
          by_cases hc : d.1 ∈ out
          · left
            rw [hlookout _ hc]
            exact (List.of_mem_zip (look_mem (by rw [hzf]; exact hc))).2
          · right
            rw [hlooksum _ hc]
            have h1 : d.1 ∈ (fresh ls n).map Prod.fst := by
              rw [fresh_fst]
              exact summed_complete (List.mem_map_of_mem hd) hc
            have := fresh_mem hlsl (look_mem h1)
            refine ⟨this.1, ?_⟩
            have := this.2.1
            omega
        · right; omega
    · intro ρ
      rw [Ex.denote]
      have hinj : ∀ e ∈ fresh ls n, ∀ d ∈ b.letters, look M d.1 = e.2 ↔ d.1 = e.1 := by
        intro e he d hd
        have hm := fresh_mem hlsl he
        have hnot : e.1 ∉ out := (summed_mem hm.2.2).2
        constructor
        · intro h
          by_cases hc : d.1 ∈ out
          · have := houtlt _ hc; omega
          · rw [hlooksum _ hc] at h
            have hcf : d.1 ∈ (fresh ls n).map Prod.fst := by
              rw [fresh_fst]
              exact summed_complete (List.mem_map_of_mem hd) hc
            exact fresh_inj hlsl _ (look_mem hcf) _ he h
        · intro h
          rw [h, hlooksum _ hnot]
          refine look_of_nodup ?_ he
          rw [fresh_fst]
          exact summed_nodup _ _
      rw [← sum_fresh hb ls n ρ (look (out.zip (vars.map ρ))) hlsl hinj]
      · unfold scalS
        rw [List.map_map]
        have : ∀ p : Piece, ((fun p => p.c.val * scal I dim p.s p.f ρ) ∘ addSums ((fresh ls n).map Prod.snd)) p
            = sumV dim ((fresh ls n).map Prod.snd) (fun ρ => p.c.val * scal I dim p.s p.f ρ) ρ := by
          intro p
          have e : addSums ((fresh ls n).map Prod.snd) p = ⟨p.c, (fresh ls n).map Prod.snd ++ p.s, p.f, p.o⟩ := by
            rw [← app_eq]; rfl
          rw [Function.comp_apply, e]
          unfold scal
          simp only [sumV_append]
          have := sumV_hom (dim := dim) (AddMonoidHom.mulLeft p.c.val) ((fresh ls n).map Prod.snd)
            (fun ρ => sumV dim p.s (fun ρ => evalFs I ρ p.f) ρ) ρ
          simpa only [AddMonoidHom.coe_mulLeft] using this
        rw [List.map_congr_left fun p _ => this p, ← sumV_list]
        congr 1
        funext ρ'
        exact hS ρ'
      · intro e he hne
        have hc : e.1 ∈ out := by
          by_contra hc
          exact hne (summed_complete (List.mem_map_of_mem he) hc)
        rw [look_zip_map out vars hlen ρ hc, hlookout _ hc]
  | .add x y, hok, vars, n, hax, hlt => by
    rw [Ex.ok, Bool.and_eq_true, Bool.and_eq_true, beq_iff_eq] at hok
    rw [Ex.axes] at hax
    obtain ⟨h₁, h₂⟩ := symE_sound x hok.1.1 vars n hax hlt
    obtain ⟨h₃, h₄⟩ := symE_sound y hok.1.2 vars n (by rw [hax, hok.2]) hlt
    have e : usedE (.add x y) = brec% Nat.ble (usedE x) (usedE y), usedE y, usedE x := rfl
    have h₅ : usedE x ≤ usedE (.add x y) ∧ usedE y ≤ usedE (.add x y) := by
      rw [e, brec_eq]
      cases hb : Nat.ble (usedE x) (usedE y) with
      | true => exact ⟨(ble_iff _ _).1 hb, le_rfl⟩
      | false =>
        refine ⟨le_rfl, Nat.le_of_not_le fun (h : usedE x ≤ usedE y) => ?_⟩
        rw [(ble_iff _ _).2 h] at hb
        exact Bool.noConfusion hb
    rw [symE_add]
    constructor
    · intro p hp
      rcases List.mem_append.1 hp with hp | hp
      · have := h₁ p hp
        exact ⟨fun v hv => by have := this.s v hv; omega, fun z hz v hv => (this.f z hz v hv).imp id fun h => by omega, this.o⟩
      · have := h₃ p hp
        exact ⟨fun v hv => by have := this.s v hv; omega, fun z hz v hv => (this.f z hz v hv).imp id fun h => by omega, this.o⟩
    · intro ρ
      rw [scalS_append, h₂, h₄, Ex.denote]
  | .smul neg k d x, hok, vars, n, hax, hlt => by
    rw [Ex.ok] at hok
    rw [Ex.axes] at hax
    obtain ⟨h₁, h₂⟩ := symE_sound x hok vars n hax hlt
    have e : usedE (.smul neg k d x) = usedE x := rfl
    rw [symE_smul, e]
    constructor
    · intro p hp
      obtain ⟨q, hq, rfl⟩ := List.mem_map.1 hp
      have := h₁ q hq
      exact ⟨this.s, this.f, this.o⟩
    · intro ρ
      rw [Ex.denote, ← h₂ ρ]
      unfold scalS
      rw [List.map_map, ← List.sum_map_mul_left]
      congr 1
      refine List.map_congr_left fun p _ => ?_
      have : (scaleP ⟨neg, k, d⟩ p) = ⟨(⟨neg, k, d⟩ : Coef).mul p.c, p.s, p.f, p.o⟩ := rfl
      rw [Function.comp_apply, this]
      simp only [Coef.val_mul, mul_assoc]
      unfold Coef.val
      ring
theorem symB_sound : ∀ (b : Body), b.ok = true → ∀ (M : List (ℕ × ℕ)) (n : ℕ),
    (∀ e ∈ b.letters, look M e.1 % 4 = e.2) → (∀ e ∈ b.letters, look M e.1 < 4 * n) →
    (∀ p ∈ symB b M n, Fresh (b.letters.map fun e => look M e.1) (4 * n) (4 * (n + usedB b)) p) ∧
      ∀ ρ, scalS I dim (symB b M n) ρ = b.denote dim I fun c => ρ (look M c)
  | .nil, _, M, n, _, _ => by
    have e : symB .nil M n = [oneP] := rfl
    rw [e]
    constructor
    · intro p hp
      obtain rfl := List.mem_singleton.1 hp
      exact ⟨fun v hv => absurd hv List.not_mem_nil, fun x hx => absurd hx List.not_mem_nil, rfl⟩
    · intro ρ
      rw [Body.denote]
      simp [scalS, oneP, scal, sumV, evalFs, Coef.val]
  | .cons l x r, hok, M, n, hsp, hlt => by
    rw [Body.ok, Bool.and_eq_true, Bool.and_eq_true] at hok
    obtain ⟨⟨hx, hl⟩, hr⟩ := hok
    have hl' : l.length = x.axes.length := by simpa using hl
    rw [Body.letters] at hsp hlt
    have hzip : ∀ i (hi : i < l.length), (l[i], x.axes[i]'(hl' ▸ hi)) ∈ l.zip x.axes := fun i hi =>
      List.mem_iff_getElem.2 ⟨i, by rw [List.length_zip]; omega, by simp⟩
    obtain ⟨h₁, h₂⟩ := symE_sound x hx (l.map (look M)) n
      (by
        apply List.ext_getElem (by simp [hl'])
        intro i hi hi'
        simp only [List.getElem_map]
        exact hsp _ (List.mem_append_left _ (hzip i (by simpa using hi))))
      (by
        intro v hv
        obtain ⟨c, hc, rfl⟩ := List.mem_map.1 hv
        obtain ⟨i, hi, rfl⟩ := List.getElem_of_mem hc
        exact hlt _ (List.mem_append_left _ (hzip i hi)))
    obtain ⟨h₃, h₄⟩ := symB_sound r hr M (n + usedE x) (fun e he => hsp e (List.mem_append_right _ he))
      (fun e he => by have := hlt e (List.mem_append_right _ he); omega)
    have e : usedB (.cons l x r) = usedE x + usedB r := rfl
    have hargs : ∀ v ∈ l.map (look M), v ∈ (Body.cons l x r).letters.map fun e => look M e.1 := by
      intro v hv
      obtain ⟨c, hc, rfl⟩ := List.mem_map.1 hv
      obtain ⟨i, hi, rfl⟩ := List.getElem_of_mem hc
      rw [Body.letters]
      exact List.mem_map.2 ⟨_, List.mem_append_left _ (hzip i hi), rfl⟩
    have hargs' : ∀ v ∈ (r.letters.map fun e => look M e.1), v ∈ (Body.cons l x r).letters.map fun e => look M e.1 := by
      intro v hv
      obtain ⟨d, hd, rfl⟩ := List.mem_map.1 hv
      rw [Body.letters]
      exact List.mem_map.2 ⟨d, List.mem_append_right _ hd, rfl⟩
    have hlow : ∀ v ∈ l.map (look M), v < 4 * n := by
      intro v hv
      obtain ⟨c, hc, rfl⟩ := List.mem_map.1 hv
      obtain ⟨i, hi, rfl⟩ := List.getElem_of_mem hc
      exact hlt _ (List.mem_append_left _ (hzip i hi))
    have hlow' : ∀ v ∈ (r.letters.map fun e => look M e.1), v < 4 * n := by
      intro v hv
      obtain ⟨d, hd, rfl⟩ := List.mem_map.1 hv
      exact hlt d (List.mem_append_right _ hd)
    rw [symB_cons, e]
    have em : ∀ p q : Piece, mulP p q = ⟨p.c.mul q.c, p.s ++ q.s, p.f ++ q.f, p.o ++ q.o⟩ := fun p q => by
      rw [← app_eq, ← app_eq, ← app_eq]; rfl
    constructor
    · intro p hp
      obtain ⟨q, hq, hp⟩ := List.mem_flatMap.1 hp
      obtain ⟨q', hq', rfl⟩ := List.mem_map.1 hp
      have a := h₁ q hq
      have a' := h₃ q' hq'
      rw [em]
      refine ⟨fun v hv => ?_, fun z hz v hv => ?_, by simp [a.o, a'.o]⟩
      · rcases List.mem_append.1 hv with hv | hv
        · have := a.s v hv; omega
        · have := a'.s v hv; omega
      · rcases List.mem_append.1 hz with hz | hz
        · exact (a.f z hz v hv).imp (hargs v) fun h => by omega
        · exact (a'.f z hz v hv).imp (hargs' v) fun h => by omega
    · intro ρ
      rw [Body.denote, ← h₄ ρ]
      have := h₂ ρ
      rw [List.map_map] at this
      have h5 : (l.map fun c => ρ (look M c)) = l.map (ρ ∘ look M) := rfl
      rw [h5, ← this]
      have key : ∀ L L' : List Piece, (∀ p ∈ L, p ∈ symE x (l.map (look M)) n) → (∀ q ∈ L', q ∈ symB r M (n + usedE x)) →
          scalS I dim (L.flatMap fun p => L'.map (mulP p)) ρ = scalS I dim L ρ * scalS I dim L' ρ := by
        intro L L' hL hL'
        induction L with
        | nil => simp [scalS]
        | cons p L ih =>
          rw [List.flatMap_cons, scalS_append, ih fun q hq => hL q (List.mem_cons_of_mem _ hq)]
          have h6 : scalS I dim (L'.map (mulP p)) ρ = p.c.val * scal I dim p.s p.f ρ * scalS I dim L' ρ := by
            unfold scalS
            rw [List.map_map, ← List.sum_map_mul_left]
            congr 1
            refine List.map_congr_left fun q hq => ?_
            have a := h₁ p (hL p (List.mem_cons_self ..))
            have a' := h₃ q (hL' q hq)
            rw [Function.comp_apply, em]
            simp only [Coef.val_mul]
            rw [scal_mul]
            · ring
            · intro z hz v hv hs
              have h7 := a'.s v hs
              rcases a.f z hz v hv with h | h
              · have := hlow v h; omega
              · omega
            · intro z hz v hv hs
              have h7 := a.s v hs
              rcases a'.f z hz v hv with h | h
              · have := hlow' v h; omega
              · omega
          rw [h6]
          have h8 : scalS I dim (p :: L) ρ = p.c.val * scal I dim p.s p.f ρ + scalS I dim L ρ := by simp [scalS]
          rw [h8]
          ring
      exact key _ _ (fun _ h => h) fun _ h => h
end

end Ccpy.Engine
