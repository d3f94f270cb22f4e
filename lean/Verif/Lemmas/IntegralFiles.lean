import Verif.Spec.IntegralLabels

/-! The readers and writers of integral files, step by step. -/

namespace Ccpy.IntegralFiles
open Ccpy.Spec Ccpy.Writes

variable {α : Type}

theorem lastValue_append (about : Line α → Prop) [DecidablePred about] (lines : List (Line α)) (l : Line α) :
    lastValue about (lines ++ [l]) = if about l then some l.val else lastValue about lines := by
  unfold lastValue
  rw [List.filter_append]
  by_cases h : about l
  · simp [List.filter, h]
  · simp [List.filter, h]

theorem lastValue_congr {P Q : Line α → Prop} [DecidablePred P] [DecidablePred Q] (h : ∀ l, P l ↔ Q l) (lines : List (Line α)) :
    lastValue P lines = lastValue Q lines := by
  unfold lastValue
  simp only [h]

theorem axis_ok {n x : ℕ} (h : 1 ≤ x ∧ x ≤ n) : axis n x = .ok (x - 1) := by
  unfold axis
  rw [if_neg (by omega), if_pos h.2]

theorem applyWrites_cons {K R : Type*} [DecidableEq K] (T : K → R) (w : K × R) (ws : List (K × R)) :
    applyWrites T (w :: ws) = applyWrites (Function.update T w.1 w.2) ws := rfl
theorem applyWrites_nil {K R : Type*} [DecidableEq K] (T : K → R) : applyWrites T [] = T := rfl

/-- Several writes of the same value. -/
theorem applyWrites_const {K R : Type*} [DecidableEq K] (T : K → R) (ks : List K) (x : R) (k : K) :
    applyWrites T (ks.map fun k => (k, x)) k = if k ∈ ks then x else T k := by
  induction ks generalizing T with
  | nil => simp [applyWrites_nil]
  | cons y ks ih =>
    rw [List.map_cons, applyWrites_cons, ih]
    by_cases h₁ : k ∈ ks
    · simp [h₁]
    · by_cases h₂ : k = y
      · subst h₂; simp [h₁]
      · simp [h₁, h₂, Function.update_of_ne]

/-- The eight places of an integral. -/
theorem mem_places {a b c d p q r t : ℕ} : (p, q, r, t) ∈ [(a, c, b, d), (b, c, a, d), (a, d, b, c), (b, d, a, c), (c, a, d, b),
    (c, b, d, a), (d, a, c, b), (d, b, c, a)] ↔ twoLabel (a + 1) (b + 1) (c + 1) (d + 1)
      = twoLabel (p + 1) (r + 1) (q + 1) (t + 1) := by
  unfold twoLabel
  simp only [List.mem_cons, List.not_mem_nil, or_false, Prod.mk.injEq, Sym2.eq_iff, Nat.add_right_cancel_iff]
  constructor
  · rintro (⟨rfl, rfl, rfl, rfl⟩ | ⟨rfl, rfl, rfl, rfl⟩ | ⟨rfl, rfl, rfl, rfl⟩ | ⟨rfl, rfl, rfl, rfl⟩ | ⟨rfl, rfl, rfl, rfl⟩
      | ⟨rfl, rfl, rfl, rfl⟩ | ⟨rfl, rfl, rfl, rfl⟩ | ⟨rfl, rfl, rfl, rfl⟩) <;> simp
  · rintro (⟨⟨rfl, rfl⟩ | ⟨rfl, rfl⟩, ⟨rfl, rfl⟩ | ⟨rfl, rfl⟩⟩ | ⟨⟨rfl, rfl⟩ | ⟨rfl, rfl⟩, ⟨rfl, rfl⟩ | ⟨rfl, rfl⟩⟩) <;> simp

/-- The state after the lines read so far. -/
structure Inv [Zero α] (lines : List (Line α)) (s : Loaded α) : Prop where
  e1 : ∀ p r, s.e1 (p, r) = (lastValue (AboutOne (p + 1) (r + 1)) lines).getD 0
  e2 : ∀ p q r t, s.e2 (p, q, r, t) = (lastValue (AboutTwo (p + 1) (r + 1) (q + 1) (t + 1)) lines).getD 0
  enn : s.enn = lastValue AboutConst lines

theorem step_ok [Zero α] {n : ℕ} {lines : List (Line α)} {s : Loaded α} (h : Inv lines s) {l : Line α} (hl : Regular n l) :
    ∃ s', readLine n s l = .ok s' ∧ Inv (lines ++ [l]) s' := by
  cases hl with
  | @two x a b c d ha hb hc hd =>
    refine ⟨_, by
      unfold readLine
      rw [if_pos ⟨by show c ≠ 0; omega, by show d ≠ 0; omega⟩, axis_ok ha, axis_ok hb, axis_ok hc, axis_ok hd]
      rfl, ?_, ?_, ?_⟩
    · intro p r
      rw [lastValue_append, if_neg fun h' => by have := h'.2.1; simp only at this; omega]
      exact h.e1 p r
    · intro p q r t
      rw [lastValue_append]
      have := applyWrites_const s.e2 [(a - 1, c - 1, b - 1, d - 1), (b - 1, c - 1, a - 1, d - 1), (a - 1, d - 1, b - 1, c - 1),
        (b - 1, d - 1, a - 1, c - 1), (c - 1, a - 1, d - 1, b - 1), (c - 1, b - 1, d - 1, a - 1), (d - 1, a - 1, c - 1, b - 1),
        (d - 1, b - 1, c - 1, a - 1)] x (p, q, r, t)
      refine this.trans ?_
      have key : ((p, q, r, t) ∈ [(a - 1, c - 1, b - 1, d - 1), (b - 1, c - 1, a - 1, d - 1), (a - 1, d - 1, b - 1, c - 1),
        (b - 1, d - 1, a - 1, c - 1), (c - 1, a - 1, d - 1, b - 1), (c - 1, b - 1, d - 1, a - 1), (d - 1, a - 1, c - 1, b - 1),
        (d - 1, b - 1, c - 1, a - 1)]) ↔ AboutTwo (p + 1) (r + 1) (q + 1) (t + 1) (⟨x, a, b, c, d⟩ : Line α) := by
        obtain ⟨a, rfl⟩ : ∃ a', a = a' + 1 := ⟨a - 1, by omega⟩
        obtain ⟨b, rfl⟩ : ∃ a', b = a' + 1 := ⟨b - 1, by omega⟩
        obtain ⟨c, rfl⟩ : ∃ a', c = a' + 1 := ⟨c - 1, by omega⟩
        obtain ⟨d, rfl⟩ : ∃ a', d = a' + 1 := ⟨d - 1, by omega⟩
        simp only [Nat.add_sub_cancel]
        rw [mem_places]
        exact ⟨fun h' => ⟨Nat.succ_ne_zero _, Nat.succ_ne_zero _, h'⟩, fun h' => h'.2.2⟩
      by_cases hk : AboutTwo (p + 1) (r + 1) (q + 1) (t + 1) (⟨x, a, b, c, d⟩ : Line α)
      · rw [if_pos (key.2 hk), if_pos hk]; rfl
      · rw [if_neg (fun h' => hk (key.1 h')), if_neg hk]; exact h.e2 p q r t
    · rw [lastValue_append, if_neg fun h' => by have := h'.1; simp only at this; omega]
      exact h.enn
  | @one x a b ha hb =>
    refine ⟨_, by
      unfold readLine
      rw [if_neg (fun h' => h'.1 rfl), if_pos ⟨rfl, rfl, by show a ≠ 0; omega⟩, axis_ok ha, axis_ok hb]
      rfl, ?_, ?_, ?_⟩
    · intro p r
      rw [lastValue_append]
      refine (applyWrites_const s.e1 [(a - 1, b - 1), (b - 1, a - 1)] x (p, r)).trans ?_
      have key : ((p, r) ∈ [(a - 1, b - 1), (b - 1, a - 1)]) ↔ AboutOne (p + 1) (r + 1) (⟨x, a, b, 0, 0⟩ : Line α) := by
        unfold AboutOne
        simp only [List.mem_cons, List.not_mem_nil, or_false, Prod.mk.injEq, Sym2.eq_iff, true_and]
        omega
      by_cases hk : AboutOne (p + 1) (r + 1) (⟨x, a, b, 0, 0⟩ : Line α)
      · rw [if_pos (key.2 hk), if_pos hk]; rfl
      · rw [if_neg (fun h' => hk (key.1 h')), if_neg hk]; exact h.e1 p r
    · intro p q r t
      rw [lastValue_append, if_neg fun h' => h'.1 rfl]
      exact h.e2 p q r t
    · rw [lastValue_append, if_neg fun h' => by have := h'.1; simp only at this; omega]
      exact h.enn
  | @const x =>
    refine ⟨_, by
      unfold readLine
      rw [if_neg (fun h' => h'.1 rfl), if_neg (fun h' => h'.2.2 rfl)], ?_, ?_, ?_⟩
    · intro p r
      rw [lastValue_append, if_neg fun h' => h'.1 rfl]
      exact h.e1 p r
    · intro p q r t
      rw [lastValue_append, if_neg fun h' => h'.1 rfl]
      exact h.e2 p q r t
    · rw [lastValue_append, if_pos ⟨rfl, rfl, rfl, rfl⟩]

theorem fold_ok [Zero α] {n : ℕ} (lines : List (Line α)) (h : ∀ l ∈ lines, Regular n l) :
    ∃ s, lines.foldlM (readLine n) ⟨fun _ => 0, fun _ => 0, none⟩ = .ok s ∧ Inv lines s := by
  induction lines using List.reverseRecOn with
  | nil => exact ⟨_, rfl, fun _ _ => rfl, fun _ _ _ _ => rfl, rfl⟩
  | append_singleton lines l ih =>
    obtain ⟨s, h₁, h₂⟩ := ih fun x hx => h x (List.mem_append_left _ hx)
    obtain ⟨s', h₃, h₄⟩ := step_ok h₂ (h l (by simp))
    refine ⟨s', ?_, h₄⟩
    rw [List.foldlM_append, h₁]
    show (do let x ← readLine n s l; [].foldlM (readLine n) x) = _
    rw [h₃]
    rfl

/-! ### Direct integral files -/

theorem mem_triangle {n i j : ℕ} : (i, j) ∈ triangle n ↔ i < n ∧ j ≤ i := by
  unfold triangle
  simp only [List.mem_flatMap, List.mem_range, List.mem_map, Prod.mk.injEq]
  constructor
  · rintro ⟨a, ha, b, hb, rfl, rfl⟩; omega
  · rintro ⟨h₁, h₂⟩; exact ⟨i, h₁, j, by omega, rfl, rfl⟩

/-- Reading line `ct` for the `ct`-th pair, when the lines were written in the same order. -/
theorem onebody_fold {β : Type} (parse : β → α) (f : ℕ × ℕ → β) (suf : List (ℕ × ℕ)) : ∀ (pre : List (ℕ × ℕ)) (e : Key1 → α),
    ((suf.zipIdx pre.length).foldlM (fun e1 x => match ((pre ++ suf).map f)[x.2]? with
      | none => (.error .indexError : Except Err (Key1 → α))
      | some y => .ok (applyWrites e1 [((x.1.1, x.1.2), parse y), ((x.1.2, x.1.1), parse y)])) e)
    = .ok (suf.foldl (fun e1 x => applyWrites e1 [((x.1, x.2), parse (f x)), ((x.2, x.1), parse (f x))]) e) := by
  induction suf with
  | nil => intro pre e; rfl
  | cons x suf ih =>
    intro pre e
    rw [List.zipIdx_cons, List.foldlM_cons]
    have hx : ((pre ++ x :: suf).map f)[pre.length]? = some (f x) := by simp
    simp only [hx]
    have := ih (pre ++ [x]) (applyWrites e [((x.1, x.2), parse (f x)), ((x.2, x.1), parse (f x))])
    simp only [List.append_assoc, List.singleton_append, List.length_append, List.length_singleton] at this
    exact this

theorem onebody_value {g : ℕ × ℕ → α} (l : List (ℕ × ℕ)) (hg : ∀ x ∈ l, ∀ y ∈ l, y = (x.2, x.1) → g x = g y) :
    ∀ (e : Key1 → α) (p r : ℕ), (l.foldl (fun e1 x => applyWrites e1 [((x.1, x.2), g x), ((x.2, x.1), g x)]) e) (p, r)
      = if (p, r) ∈ l then g (p, r) else if (r, p) ∈ l then g (r, p) else e (p, r) := by
  induction l using List.reverseRecOn with
  | nil => intro e p r; simp
  | append_singleton l x ih =>
    intro e p r
    rw [List.foldl_append]
    have h₁ := applyWrites_const (l.foldl (fun e1 x => applyWrites e1 [((x.1, x.2), g x), ((x.2, x.1), g x)]) e)
      [(x.1, x.2), (x.2, x.1)] (g x) (p, r)
    refine h₁.trans ?_
    rw [ih (fun x hx y hy => hg x (by simp [hx]) y (by simp [hy]))]
    obtain ⟨a, b⟩ := x
    have hgs := hg (a, b) (by simp)
    by_cases h : (p, r) ∈ [(a, b), (b, a)]
    · rw [if_pos h]
      simp only [List.mem_cons, List.not_mem_nil, or_false, Prod.mk.injEq] at h
      rcases h with ⟨rfl, rfl⟩ | ⟨rfl, rfl⟩
      · rw [if_pos (by simp)]
      · by_cases h' : (p, r) ∈ l ++ [(r, p)]
        · rw [if_pos h']; exact hgs _ h' rfl
        · rw [if_neg h', if_pos (by simp)]
    · rw [if_neg h]
      simp only [List.mem_cons, List.not_mem_nil, or_false, Prod.mk.injEq] at h
      have i₁ : (p, r) ∈ l ++ [(a, b)] ↔ (p, r) ∈ l := by
        simp only [List.mem_append, List.mem_singleton, Prod.mk.injEq]; tauto
      have i₂ : (r, p) ∈ l ++ [(a, b)] ↔ (r, p) ∈ l := by
        simp only [List.mem_append, List.mem_singleton, Prod.mk.injEq]; tauto
      simp only [i₁, i₂]

theorem twobody_fold {β : Type} (parse : β → α) {n : ℕ} (f : Key2 → β) (l : List Key2)
    (hl : ∀ k ∈ l, k.1 < n ∧ k.2.1 < n ∧ k.2.2.1 < n ∧ k.2.2.2 < n) (s : (Key2 → α) × Option α) :
    (l.map fun k => (⟨f k, k.1 + 1, k.2.1 + 1, k.2.2.1 + 1, k.2.2.2 + 1⟩ : Line β)).foldlM (readTwobody parse n) s
      = .ok (applyWrites s.1 (l.map fun k => (k, parse (f k))), s.2) := by
  induction l generalizing s with
  | nil => rfl
  | cons k l ih =>
    have hk := hl k (by simp)
    rw [List.map_cons, List.foldlM_cons]
    have hr : readTwobody parse n s ⟨f k, k.1 + 1, k.2.1 + 1, k.2.2.1 + 1, k.2.2.2 + 1⟩
        = .ok (applyWrites s.1 [(k, parse (f k))], s.2) := by
      unfold readTwobody
      rw [if_neg (by simp only; omega), axis_ok ⟨by simp, by simp only; omega⟩, axis_ok ⟨by simp, by simp only; omega⟩,
        axis_ok ⟨by simp, by simp only; omega⟩, axis_ok ⟨by simp, by simp only; omega⟩]
      rfl
    rw [hr]
    exact ih (fun k hk => hl k (by simp [hk])) _

/-- Writing the values of a function at some places. -/
theorem applyWrites_graph {K R : Type*} [DecidableEq K] (T f : K → R) (ks : List K) (k : K) :
    applyWrites T (ks.map fun k => (k, f k)) k = if k ∈ ks then f k else T k := by
  induction ks generalizing T with
  | nil => simp [applyWrites_nil]
  | cons y ks ih =>
    rw [List.map_cons, applyWrites_cons, ih]
    by_cases h₁ : k ∈ ks
    · simp [h₁]
    · by_cases h₂ : k = y
      · subst h₂; simp [h₁]
      · simp [h₁, h₂, Function.update_of_ne]

/-- The index tuples in the order of the writer's loops. -/
def tuples (n : ℕ) : List Key2 :=
  (List.range n).flatMap fun i => (List.range n).flatMap fun k => (List.range n).flatMap fun j => (List.range n).map fun l => (i, j, k, l)

theorem mem_tuples {n : ℕ} {k : Key2} : k ∈ tuples n ↔ k.1 < n ∧ k.2.1 < n ∧ k.2.2.1 < n ∧ k.2.2.2 < n := by
  obtain ⟨i, j, k, l⟩ := k
  unfold tuples
  simp only [List.mem_flatMap, List.mem_range, List.mem_map, Prod.mk.injEq]
  constructor
  · rintro ⟨a, ha, b, hb, c, hc, d, hd, rfl, rfl, rfl, rfl⟩; exact ⟨ha, hc, hb, hd⟩
  · rintro ⟨h₁, h₂, h₃, h₄⟩; exact ⟨i, h₁, k, h₃, j, h₂, l, h₄, rfl, rfl, rfl, rfl⟩

theorem dumpTwobody_eq {β : Type} (print : α → β) (n : ℕ) (e2 : Key2 → α) (x : α) : dumpTwobody print n e2 x
    = ((tuples n).map fun k => (⟨print (e2 k), k.1 + 1, k.2.1 + 1, k.2.2.1 + 1, k.2.2.2 + 1⟩ : Line β))
      ++ [⟨print x, 0, 0, 0, 0⟩] := by
  unfold dumpTwobody tuples
  simp only [List.map_flatMap, List.map_map]
  rfl

end Ccpy.IntegralFiles
