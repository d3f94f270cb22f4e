import Verif.Lemmas.KernelCalls
import Verif.Model.PSpaceDoubles

/-! Update loops that overwrite the residual they read: the same amplitudes as with two arrays. -/

namespace Ccpy.PSpace
open Ccpy.Tensor Ccpy.UpdateKernels Ccpy.Writes Ccpy.Spec Ccpy.Fortran

section
variable {K : Type*} [DecidableEq K]

theorem setSigned_other (v : ℚ) : ∀ (cs : List (K × ℤ)) (r : K → ℚ) (k : K), (∀ c ∈ cs, c.1 ≠ k) → setSigned v cs r k = r k
  | [], _, _, _ => rfl
  | c :: cs, r, k, h => by
    have := setSigned_other v cs (Function.update r c.1 ((c.2 : ℚ) * v)) k (fun d hd => h d (List.mem_cons_of_mem _ hd))
    rw [Function.update_of_ne (h c (by simp)).symm] at this
    exact this

theorem setSigned_congr (v : ℚ) : ∀ (cs : List (K × ℤ)) (r r' : K → ℚ) (k : K), (r k = r' k ∨ ∃ c ∈ cs, c.1 = k) →
    setSigned v cs r k = setSigned v cs r' k
  | [], _, _, _, h => by
    rcases h with h | ⟨c, hc, _⟩
    · exact h
    · simp at hc
  | c :: cs, r, r', k, h => by
    show setSigned v cs (Function.update r c.1 ((c.2 : ℚ) * v)) k = setSigned v cs (Function.update r' c.1 ((c.2 : ℚ) * v)) k
    apply setSigned_congr v cs
    by_cases e : k = c.1
    · left
      subst e
      simp
    · rcases h with h | ⟨d, hd, h⟩
      · left
        simp [Function.update_of_ne e, h]
      · rcases List.mem_cons.1 hd with rfl | hd
        · exact absurd h.symm e
        · exact Or.inr ⟨d, hd, h⟩

theorem signedSum_congr {X Y : K → ℚ} {ts : List (K × ℤ)} (h : ∀ c ∈ ts, X c.1 = Y c.1) : signedSum X ts = signedSum Y ts := by
  unfold signedSum
  congr 1
  exact List.map_congr_left fun c hc => by rw [h c hc]

theorem inPlace {ι : Type*} (key : ι → K) (ts cs rs : ι → List (K × ℤ)) (den : ι → ℚ) (shift : ℚ) (X : K → ℚ) :
    ∀ (items : List ι), items.Pairwise (fun x y => ∀ c ∈ ts y, ∀ c' ∈ rs x, c'.1 ≠ c.1) → ∀ (T R R' : K → ℚ),
      (∀ x ∈ items, ∀ c ∈ ts x, R c.1 = X c.1) →
      let u := items.foldl (fun s x => storeUpdate (key x) (signedSum s.2 (ts x) / (den x - shift)) (cs x) (rs x) s) (T, R)
      let v := items.foldl (fun s x => storeUpdate (key x) (signedSum X (ts x) / (den x - shift)) (cs x) (rs x) s) (T, R')
      u.1 = v.1 ∧ ∀ k, (R k = R' k ∨ ∃ x ∈ items, ∃ c ∈ rs x, c.1 = k) → u.2 k = v.2 k
  | [], _, T, R, R', _ => by
    refine ⟨rfl, fun k h => ?_⟩
    rcases h with h | ⟨x, hx, _⟩
    · exact h
    · simp at hx
  | x :: items, hp, T, R, R', hR => by
    rw [List.pairwise_cons] at hp
    have e : signedSum R (ts x) = signedSum X (ts x) := signedSum_congr (hR x (by simp))
    simp only [List.foldl_cons]
    rw [e]
    have ih := inPlace key ts cs rs den shift X items hp.2
      (storeUpdate (key x) (signedSum X (ts x) / (den x - shift)) (cs x) (rs x) (T, R)).1
      (setSigned (signedSum X (ts x) / (den x - shift)) (rs x) R) (setSigned (signedSum X (ts x) / (den x - shift)) (rs x) R')
      (fun y hy c hc => by
        rw [setSigned_other _ _ _ _ (fun c' hc' => hp.1 y hy c hc c' hc')]
        exact hR y (by simp [hy]) c hc)
    refine ⟨ih.1, fun k h => ih.2 k ?_⟩
    rcases h with h | ⟨y, hy, c, hc, h⟩
    · exact Or.inl (setSigned_congr _ _ _ _ _ (Or.inl h))
    · rcases List.mem_cons.1 hy with rfl | hy
      · exact Or.inl (setSigned_congr _ _ _ _ _ (Or.inr ⟨c, hc, h⟩))
      · exact Or.inr ⟨y, hy, c, hc, h⟩

end

section
variable {m n : ℕ} {α : Type*} [LinearOrder α] {ι : Type*} {e : ℕ → α} {sp : Fin m → Bool} {sh : Fin n → Bool} {nv no : Bool → ℕ}
  {items : List ι} {key : ι → (Fin m → ℕ) × (Fin n → ℕ)}

/-- The two kinds of update loops. -/
theorem inPlace_visits (hv : Visits e sp sh nv no items key) {pr pt : Pattern m n} (hpr : Lists sp sh pr) (hpt : Lists sp sh pt)
    {cs rs ts : ι → List (((Fin m → ℕ) × (Fin n → ℕ)) × ℤ)} (hrs : ∀ x, rs x = At (key x) pr) (hts : ∀ x, ts x = At (key x) pt)
    {den : ι → ℚ} {shift : ℚ} {X T : (Fin m → ℕ) × (Fin n → ℕ) → ℚ}
    {u v : ((Fin m → ℕ) × (Fin n → ℕ) → ℚ) × ((Fin m → ℕ) × (Fin n → ℕ) → ℚ)}
    (hu : u = items.foldl (fun s x => storeUpdate (key x) (signedSum s.2 (ts x) / (den x - shift)) (cs x) (rs x) s) (T, X))
    (hw : v = items.foldl (fun s x => storeUpdate (key x) (signedSum X (ts x) / (den x - shift)) (cs x) (rs x) s) (T, fun _ => 0)) :
    u.1 = v.1 ∧ ∀ k, InRange sp sh nv no k →
      ¬ ((∃ i j, i ≠ j ∧ sp i = sp j ∧ k.1 i = k.1 j) ∨ ∃ i j, i ≠ j ∧ sh i = sh j ∧ k.2 i = k.2 j) → u.2 k = v.2 k := by
  have hG := isGroup_spinExchange sp sh
  have := inPlace key ts cs rs den shift X items (hv.apart.imp fun {x y} h c hc c' hc' he => by
    rw [hts, At] at hc
    rw [hrs, At] at hc'
    obtain ⟨p, hp, rfl⟩ := List.mem_map.1 hc
    obtain ⟨q, hq, rfl⟩ := List.mem_map.1 hc'
    obtain ⟨g, hg, rfl⟩ := hpt.only p hp
    obtain ⟨g', hg', rfl⟩ := hpr.only q hq
    refine h (g' * g⁻¹) (hG.mul _ hg' _ (hG.inv _ hg)) ?_
    simp only [Prod.mk.injEq] at he
    refine Prod.ext ?_ ?_
    · funext i
      have := congrFun he.1 (g.1⁻¹ i)
      simpa [Function.comp] using this.symm
    · funext i
      have := congrFun he.2 (g.2⁻¹ i)
      simpa [Function.comp] using this.symm) T X (fun _ => 0) (fun _ _ _ _ => rfl)
  rw [← hu, ← hw] at this
  refine ⟨this.1, fun k hk hr => this.2 k (Or.inr ?_)⟩
  rcases hv.cases hk with h | ⟨x, hx, g, hg, rfl⟩
  · exact absurd h hr
  · refine ⟨x, hx, (((key x).1 ∘ g.1, (key x).2 ∘ g.2), sgn g), ?_, rfl⟩
    rw [hrs, At]
    exact List.mem_map.2 ⟨_, hpr.all g hg, rfl⟩

end

theorem sweepT1a_eq (d : Dims) (fA_oo fA_vv : Arr2) (shift : ℚ) (X : Arr2) (t : Key1 → ℚ) :
    (sweepT1a d fA_oo fA_vv shift X t).1 = (updateT1a d.oa d.ua fA_oo fA_vv shift (keys1 X) t).1 ∧
    ∀ k, InRange ![false] ![false] (bySpin d.ua d.ub) (bySpin d.oa d.ob) k →
      (sweepT1a d fA_oo fA_vv shift X t).2 k = (updateT1a d.oa d.ua fA_oo fA_vv shift (keys1 X) t).2 k := by
  have := inPlace_visits (visits1 false (bySpin d.ua d.ub) (bySpin d.oa d.ob)) (lists_pat1 false) (lists_pat1 false)
    (cs := fun _ => []) resids1_at terms1_at (den := fun x => fA_oo x.1 x.1 - fA_vv x.2.1 x.2.1) (shift := shift)
    (X := keys1 X) (T := t) (u := sweepT1a d fA_oo fA_vv shift X t) (v := updateT1a d.oa d.ua fA_oo fA_vv shift (keys1 X) t)
    ((runs_do fun _ => runs_do fun _ => runs_leaf _) (t, _)) ((runs_do fun _ => runs_do fun _ => runs_leaf _) (t, _))
  refine ⟨this.1, fun k hk => this.2 k hk ?_⟩
  rintro (⟨i, j, h, _⟩ | ⟨i, j, h, _⟩) <;> exact h (Subsingleton.elim i j)

theorem sweepT1b_eq (d : Dims) (fB_oo fB_vv : Arr2) (shift : ℚ) (X : Arr2) (t : Key1 → ℚ) :
    (sweepT1b d fB_oo fB_vv shift X t).1 = (updateT1b d.ob d.ub fB_oo fB_vv shift (keys1 X) t).1 ∧
    ∀ k, InRange ![true] ![true] (bySpin d.ua d.ub) (bySpin d.oa d.ob) k →
      (sweepT1b d fB_oo fB_vv shift X t).2 k = (updateT1b d.ob d.ub fB_oo fB_vv shift (keys1 X) t).2 k := by
  have := inPlace_visits (visits1 true (bySpin d.ua d.ub) (bySpin d.oa d.ob)) (lists_pat1 true) (lists_pat1 true)
    (cs := fun _ => []) resids1_at terms1_at (den := fun x => fB_oo x.1 x.1 - fB_vv x.2.1 x.2.1) (shift := shift)
    (X := keys1 X) (T := t) (u := sweepT1b d fB_oo fB_vv shift X t) (v := updateT1b d.ob d.ub fB_oo fB_vv shift (keys1 X) t)
    ((runs_do fun _ => runs_do fun _ => runs_leaf _) (t, _)) ((runs_do fun _ => runs_do fun _ => runs_leaf _) (t, _))
  refine ⟨this.1, fun k hk => this.2 k hk ?_⟩
  rintro (⟨i, j, h, _⟩ | ⟨i, j, h, _⟩) <;> exact h (Subsingleton.elim i j)

theorem sweepT2b_eq (d : Dims) (fA_oo fA_vv fB_oo fB_vv : Arr2) (shift : ℚ) (X : Arr4) (t : Key2 → ℚ) :
    (sweepT2b d fA_oo fA_vv fB_oo fB_vv shift X t).1
      = (updateT2b d.oa d.ua d.ob d.ub fA_oo fA_vv fB_oo fB_vv shift (keys2 X) t).1 ∧
    ∀ k, InRange ![false, true] ![false, true] (bySpin d.ua d.ub) (bySpin d.oa d.ob) k →
      (sweepT2b d fA_oo fA_vv fB_oo fB_vv shift X t).2 k
        = (updateT2b d.oa d.ua d.ob d.ub fA_oo fA_vv fB_oo fB_vv shift (keys2 X) t).2 k := by
  have := inPlace_visits (visits2b (bySpin d.ua d.ub) (bySpin d.oa d.ob)) lists_pat2b lists_pat2b
    (cs := fun _ => []) resids2b_at terms2b_at
    (den := fun x => fA_oo x.2.1 x.2.1 + fB_oo x.1 x.1 - fA_vv x.2.2.2.1 x.2.2.2.1 - fB_vv x.2.2.1 x.2.2.1) (shift := shift)
    (X := keys2 X) (T := t) (u := sweepT2b d fA_oo fA_vv fB_oo fB_vv shift X t)
    (v := updateT2b d.oa d.ua d.ob d.ub fA_oo fA_vv fB_oo fB_vv shift (keys2 X) t)
    ((runs_do fun _ => runs_do fun _ => runs_do fun _ => runs_do fun _ => runs_leaf _) (t, _))
    ((runs_do fun _ => runs_do fun _ => runs_do fun _ => runs_do fun _ => runs_leaf _) (t, _))
  refine ⟨this.1, fun k hk => this.2 k hk ?_⟩
  rintro (⟨i, j, h, h', _⟩ | ⟨i, j, h, h', _⟩) <;> fin_cases i <;> fin_cases j <;> simp_all

theorem zero_foldl {K : Type*} (f g : K → ℕ) (k : K) : ∀ (l : List ℕ) (r : K → ℚ),
    l.foldl (fun (r : K → ℚ) a => fun k => if f k = a ∧ g k = a then 0 else r k) r k = if f k = g k ∧ f k ∈ l then 0 else r k
  | [], r => by simp
  | a :: l, r => by
    rw [List.foldl_cons, zero_foldl f g k l]
    simp only [List.mem_cons]
    by_cases h : f k = g k
    · rw [← h]
      by_cases h' : f k = a <;> by_cases h'' : f k ∈ l <;> simp [h', h'']
    · have : ¬ (f k = a ∧ g k = a) := fun h' => h (h'.1.trans h'.2.symm)
      simp [h, this]

theorem zeroParticles_loop (nu : ℕ) (r : Key2 → ℚ) (k : Key2) :
    doLoop 1 nu (fun a r => zeroParticles a r) r k = if k.1 0 = k.1 1 ∧ 1 ≤ k.1 0 ∧ k.1 0 ≤ nu then 0 else r k := by
  have := zero_foldl (fun k : Key2 => k.1 0) (fun k => k.1 1) k (List.range' 1 (nu + 1 - 1)) r
  simp only [mem_do] at this
  exact this

theorem zeroHoles_loop (no : ℕ) (r : Key2 → ℚ) (k : Key2) :
    doLoop 1 no (fun i r => zeroHoles i r) r k = if k.2 0 = k.2 1 ∧ 1 ≤ k.2 0 ∧ k.2 0 ≤ no then 0 else r k := by
  have := zero_foldl (fun k : Key2 => k.2 0) (fun k => k.2 1) k (List.range' 1 (no + 1 - 1)) r
  simp only [mem_do] at this
  exact this

/-- The diagonals are zero anyway. -/
theorem zeroed (q : Bool) {nv no : Bool → ℕ} {eo ev : Bool → ℕ → ℚ} {shift : ℚ} {X T T' D u : Key2 → ℚ}
    (hT : AntisymUnder (SpinExchange ![q, q] ![q, q]) T) (h : JacobiStep ![q, q] ![q, q] nv no eo ev shift X T T' D)
    (hu : ∀ k, InRange ![q, q] ![q, q] nv no k →
      ¬ ((∃ i j, i ≠ j ∧ ![q, q] i = ![q, q] j ∧ k.1 i = k.1 j) ∨ ∃ i j, i ≠ j ∧ ![q, q] i = ![q, q] j ∧ k.2 i = k.2 j) → u k = D k)
    (k : Key2) (hk : InRange ![q, q] ![q, q] nv no k) :
    doLoop 1 (no q) (fun i r => zeroHoles i r) (doLoop 1 (nv q) (fun a r => zeroParticles a r) u) k = D k := by
  rw [zeroHoles_loop, zeroParticles_loop]
  have hq : ∀ i : Fin 2, ![q, q] i = q := fun i => by fin_cases i <;> rfl
  have p0 := hk.1 0; have h0 := hk.2 0
  rw [hq] at p0 h0
  by_cases h1 : k.1 0 = k.1 1
  · have z : D k = 0 := by
      rw [h.change, antisym_zero h.antisym (Or.inl ⟨0, 1, by decide, by simp, h1⟩), antisym_zero hT (Or.inl ⟨0, 1, by decide, by simp, h1⟩),
        sub_zero]
    rw [z]
    by_cases h2 : k.2 0 = k.2 1 ∧ 1 ≤ k.2 0 ∧ k.2 0 ≤ no q
    · rw [if_pos h2]
    · rw [if_neg h2, if_pos ⟨h1, p0.1, p0.2⟩]
  · by_cases h2 : k.2 0 = k.2 1
    · have z : D k = 0 := by
        rw [h.change, antisym_zero h.antisym (Or.inr ⟨0, 1, by decide, by simp, h2⟩),
          antisym_zero hT (Or.inr ⟨0, 1, by decide, by simp, h2⟩), sub_zero]
      rw [z, if_pos ⟨h2, h0.1, h0.2⟩]
    · rw [if_neg fun h => h2 h.1, if_neg fun h => h1 h.1]
      refine hu k hk ?_
      have h3 := Ne.symm h1; have h4 := Ne.symm h2
      rintro (⟨i, j, h, _, h'⟩ | ⟨i, j, h, _, h'⟩) <;> fin_cases i <;> fin_cases j <;> simp_all

/-- What a kernel with one pair of indices does to Python arrays. -/
structure Swept1 (no nu : ℕ) (den X : ℕ → ℕ → ℚ) (t : List ℕ → ℚ) (r : (List ℕ → ℚ) × (List ℕ → ℚ)) : Prop where
  step : ∀ a i, a < nu → i < no → den a i * (r.1 [a, i] - t [a, i]) = X a i
  outside : ∀ a i, ¬ (a < nu ∧ i < no) → r.1 [a, i] = t [a, i]
  other : ∀ l, l.length ≠ 2 → r.1 l = t l
  change : ∀ a i, a < nu → i < no → r.2 [a, i] = r.1 [a, i] - t [a, i]

/-- What a kernel with two pairs of indices does to Python arrays. -/
structure Swept2 (nu nu' no no' : ℕ) (den X : ℕ → ℕ → ℕ → ℕ → ℚ) (t : List ℕ → ℚ) (r : (List ℕ → ℚ) × (List ℕ → ℚ)) : Prop where
  step : ∀ a b i j, a < nu → b < nu' → i < no → j < no' → den a b i j * (r.1 [a, b, i, j] - t [a, b, i, j]) = X a b i j
  outside : ∀ a b i j, ¬ (a < nu ∧ b < nu' ∧ i < no ∧ j < no') → r.1 [a, b, i, j] = t [a, b, i, j]
  other : ∀ l, l.length ≠ 4 → r.1 l = t l
  change : ∀ a b i j, a < nu → b < nu' → i < no → j < no' → r.2 [a, b, i, j] = r.1 [a, b, i, j] - t [a, b, i, j]

section
variable (s : Setup)

theorem sweptT1a (X : Arr2) (t : List ℕ → ℚ) (hd : ∀ a i, a < s.n - s.na → i < s.na → s.dA a i ≠ 0) :
    Swept1 s.na (s.n - s.na) s.dA (fun a i => X (a + 1) (i + 1)) t
      (back1 t (sweepT1a (dimsOf s) s.foo s.fvv s.shift X (seen1 t)).1,
        back1 (fun _ => 0) (sweepT1a (dimsOf s) s.foo s.fvv s.shift X (seen1 t)).2) := by
  have hs := C43_t1a s.na (s.n - s.na) s.nb (s.n - s.nb) s.foo s.fvv s.goo s.gvv s.shift (keys1 X) (seen1 t)
    (antisym_distinct (by decide) (by decide) _) (fun k hk => by
      rw [key1_cases k] at hk ⊢
      have h1 := hk.1 0; have h2 := hk.2 0
      simp [bySpin] at h1 h2
      have := hd (k.1 0 - 1) (k.2 0 - 1) (by omega) (by omega)
      unfold Setup.dA at this
      simpa [energyDifference, diag, bySpin, Setup.foo, Setup.fvv, Setup.goo, Setup.gvv, sub_eq_zero] using this)
  have hw := sweepT1a_eq (dimsOf s) s.foo s.fvv s.shift X (seen1 t)
  simp only [dimsOf] at hw ⊢
  have hr : ∀ a i, a < s.n - s.na → i < s.na →
      InRange ![false] ![false] (bySpin (s.n - s.na) (s.n - s.nb)) (bySpin s.na s.nb) (![a + 1], ![i + 1]) := fun a i ha hi =>
    ⟨by intro k; fin_cases k; simp [bySpin]; omega, by intro k; fin_cases k; simp [bySpin]; omega⟩
  rw [hw.1]
  refine ⟨fun a i ha hi => ?_, fun a i h => ?_, fun l h => back1_other _ _ _ h, fun a i ha hi => ?_⟩
  · have := hs.step _ (hr a i ha hi)
    rw [antisymmetrize_one] at this
    simpa [energyDifference, diag, bySpin, Setup.foo, Setup.fvv, Setup.goo, Setup.gvv, seen1, keys1, back1, Setup.dA] using this
  · have := hs.outside (![a + 1], ![i + 1]) (fun hk => h ⟨by have := (hk.1 0).2; simp [bySpin] at this; omega,
      by have := (hk.2 0).2; simp [bySpin] at this; omega⟩)
    simpa [seen1, back1] using this
  · have := hs.change (![a + 1], ![i + 1])
    rw [← hw.2 _ (hr a i ha hi)] at this
    simpa [seen1, back1] using this

theorem sweptT1b (X : Arr2) (t : List ℕ → ℚ) (hd : ∀ a i, a < s.n - s.nb → i < s.nb → s.dB a i ≠ 0) :
    Swept1 s.nb (s.n - s.nb) s.dB (fun a i => X (a + 1) (i + 1)) t
      (back1 t (sweepT1b (dimsOf s) s.goo s.gvv s.shift X (seen1 t)).1,
        back1 (fun _ => 0) (sweepT1b (dimsOf s) s.goo s.gvv s.shift X (seen1 t)).2) := by
  have hs := C43_t1b s.na (s.n - s.na) s.nb (s.n - s.nb) s.foo s.fvv s.goo s.gvv s.shift (keys1 X) (seen1 t)
    (antisym_distinct (by decide) (by decide) _) (fun k hk => by
      rw [key1_cases k] at hk ⊢
      have h1 := hk.1 0; have h2 := hk.2 0
      simp [bySpin] at h1 h2
      have := hd (k.1 0 - 1) (k.2 0 - 1) (by omega) (by omega)
      unfold Setup.dB at this
      simpa [energyDifference, diag, bySpin, Setup.foo, Setup.fvv, Setup.goo, Setup.gvv, sub_eq_zero] using this)
  have hw := sweepT1b_eq (dimsOf s) s.goo s.gvv s.shift X (seen1 t)
  simp only [dimsOf] at hw ⊢
  have hr : ∀ a i, a < s.n - s.nb → i < s.nb →
      InRange ![true] ![true] (bySpin (s.n - s.na) (s.n - s.nb)) (bySpin s.na s.nb) (![a + 1], ![i + 1]) := fun a i ha hi =>
    ⟨by intro k; fin_cases k; simp [bySpin]; omega, by intro k; fin_cases k; simp [bySpin]; omega⟩
  rw [hw.1]
  refine ⟨fun a i ha hi => ?_, fun a i h => ?_, fun l h => back1_other _ _ _ h, fun a i ha hi => ?_⟩
  · have := hs.step _ (hr a i ha hi)
    rw [antisymmetrize_one] at this
    simpa [energyDifference, diag, bySpin, Setup.foo, Setup.fvv, Setup.goo, Setup.gvv, seen1, keys1, back1, Setup.dB] using this
  · have := hs.outside (![a + 1], ![i + 1]) (fun hk => h ⟨by have := (hk.1 0).2; simp [bySpin] at this; omega,
      by have := (hk.2 0).2; simp [bySpin] at this; omega⟩)
    simpa [seen1, back1] using this
  · have := hs.change (![a + 1], ![i + 1])
    rw [← hw.2 _ (hr a i ha hi)] at this
    simpa [seen1, back1] using this

theorem sweptT2a (X : Arr4) (t : List ℕ → ℚ) {w : ℕ → ℕ → ℕ → ℕ → ℚ} (hw : Fock.Antisymmetric w) (ht : ∀ a b i j, t [a, b, i, j] = w a b i j)
    (hd : ∀ a b i j, a < s.n - s.na → b < s.n - s.na → i < s.na → j < s.na → s.dAA a b i j ≠ 0) :
    Swept2 (s.n - s.na) (s.n - s.na) s.na s.na s.dAA
      (fun a b i j => X (a + 1) (b + 1) (i + 1) (j + 1) - X (b + 1) (a + 1) (i + 1) (j + 1) - X (a + 1) (b + 1) (j + 1) (i + 1)
        + X (b + 1) (a + 1) (j + 1) (i + 1)) t
      (back2 t (sweepT2a (dimsOf s) s.foo s.fvv s.shift X (seen2 t)).1,
        back2 (fun _ => 0) (sweepT2a (dimsOf s) s.foo s.fvv s.shift X (seen2 t)).2) := by
  have hs := C43_t2a s.na (s.n - s.na) s.nb (s.n - s.nb) s.foo s.fvv s.goo s.gvv s.shift (keys2 X) (seen2 t)
    (seen2_antisym _ hw ht) (fun k hk => by
      rw [key2_cases k] at hk ⊢
      have h1 := hk.1 0; have h2 := hk.2 0; have h3 := hk.1 1; have h4 := hk.2 1
      simp [bySpin] at h1 h2 h3 h4
      have := hd (k.1 0 - 1) (k.1 1 - 1) (k.2 0 - 1) (k.2 1 - 1) (by omega) (by omega) (by omega) (by omega)
      unfold Setup.dAA at this
      intro he
      apply this
      simp [energyDifference, diag, bySpin, Setup.foo, Setup.fvv, Setup.goo, Setup.gvv] at he
      linarith)
  have hu := inPlace_visits (visits2 false (bySpin (s.n - s.na) (s.n - s.nb)) (bySpin s.na s.nb)) (lists_pat2 false) (lists_pat2 false)
    (cs := fun x => copiesT2a x.2.2.1 x.2.2.2.1 x.1 x.2.1) resids2_at terms2_at
    (den := fun x => s.foo x.1 x.1 + s.foo x.2.1 x.2.1 - s.fvv x.2.2.1 x.2.2.1 - s.fvv x.2.2.2.1 x.2.2.2.1) (shift := s.shift)
    (X := keys2 X) (T := seen2 t)
    (u := doLoop 1 s.na (fun i => doLoop (i + 1) s.na fun j => doLoop 1 (s.n - s.na) fun a => doLoop (a + 1) (s.n - s.na) fun b s' =>
      storeUpdate (![b, a], ![j, i]) (signedSum s'.2 (termsT2a a b i j) / (s.foo i i + s.foo j j - s.fvv a a - s.fvv b b - s.shift))
        (copiesT2a a b i j) (residsT2a a b i j) s') (seen2 t, keys2 X))
    ((runs_do fun _ => runs_do fun _ => runs_do fun _ => runs_do fun _ => runs_leaf _) (seen2 t, _))
    (v := updateT2a s.na (s.n - s.na) s.foo s.fvv s.shift (keys2 X) (seen2 t))
    ((runs_do fun _ => runs_do fun _ => runs_do fun _ => runs_do fun _ => runs_leaf _) (seen2 t, _))
  have e1 : (sweepT2a (dimsOf s) s.foo s.fvv s.shift X (seen2 t)).1
      = (updateT2a s.na (s.n - s.na) s.foo s.fvv s.shift (keys2 X) (seen2 t)).1 := hu.1
  have e2 := zeroed false (seen2_antisym false hw ht) hs hu.2
  have hr : ∀ a b i j, a < s.n - s.na → b < s.n - s.na → i < s.na → j < s.na →
      InRange ![false, false] ![false, false] (bySpin (s.n - s.na) (s.n - s.nb)) (bySpin s.na s.nb) (![a + 1, b + 1], ![i + 1, j + 1]) :=
    fun a b i j ha hb hi hj => ⟨by intro k; fin_cases k <;> simp [bySpin] <;> omega,
      by intro k; fin_cases k <;> simp [bySpin] <;> omega⟩
  rw [e1]
  refine ⟨fun a b i j ha hb hi hj => ?_, fun a b i j h => ?_, fun l h => back2_other _ _ _ h, fun a b i j ha hb hi hj => ?_⟩
  · have := hs.step _ (hr a b i j ha hb hi hj)
    rw [antisymmetrize_two] at this
    simp [energyDifference, diag, bySpin, Setup.foo, Setup.fvv, Setup.goo, Setup.gvv, seen2, keys2, back2, Setup.dAA] at this ⊢
    rw [← this]
    ring
  · have := hs.outside (![a + 1, b + 1], ![i + 1, j + 1]) (fun hk => h ⟨by have := (hk.1 0).2; simp [bySpin] at this; omega,
      by have := (hk.1 1).2; simp [bySpin] at this; omega, by have := (hk.2 0).2; simp [bySpin] at this; omega,
      by have := (hk.2 1).2; simp [bySpin] at this; omega⟩)
    simpa [seen2, back2] using this
  · have h1 := hs.change (![a + 1, b + 1], ![i + 1, j + 1])
    have h2 := e2 _ (hr a b i j ha hb hi hj)
    have h3 : (sweepT2a (dimsOf s) s.foo s.fvv s.shift X (seen2 t)).2 (![a + 1, b + 1], ![i + 1, j + 1])
      = (updateT2a s.na (s.n - s.na) s.foo s.fvv s.shift (keys2 X) (seen2 t)).2 (![a + 1, b + 1], ![i + 1, j + 1]) := h2
    rw [← h3] at h1
    simpa [seen2, back2] using h1

theorem sweptT2c (X : Arr4) (t : List ℕ → ℚ) {w : ℕ → ℕ → ℕ → ℕ → ℚ} (hw : Fock.Antisymmetric w) (ht : ∀ a b i j, t [a, b, i, j] = w a b i j)
    (hd : ∀ a b i j, a < s.n - s.nb → b < s.n - s.nb → i < s.nb → j < s.nb → s.dBB a b i j ≠ 0) :
    Swept2 (s.n - s.nb) (s.n - s.nb) s.nb s.nb s.dBB
      (fun a b i j => X (a + 1) (b + 1) (i + 1) (j + 1) - X (b + 1) (a + 1) (i + 1) (j + 1) - X (a + 1) (b + 1) (j + 1) (i + 1)
        + X (b + 1) (a + 1) (j + 1) (i + 1)) t
      (back2 t (sweepT2c (dimsOf s) s.goo s.gvv s.shift X (seen2 t)).1,
        back2 (fun _ => 0) (sweepT2c (dimsOf s) s.goo s.gvv s.shift X (seen2 t)).2) := by
  have hs := C43_t2c s.na (s.n - s.na) s.nb (s.n - s.nb) s.foo s.fvv s.goo s.gvv s.shift (keys2 X) (seen2 t)
    (seen2_antisym _ hw ht) (fun k hk => by
      rw [key2_cases k] at hk ⊢
      have h1 := hk.1 0; have h2 := hk.2 0; have h3 := hk.1 1; have h4 := hk.2 1
      simp [bySpin] at h1 h2 h3 h4
      have := hd (k.1 0 - 1) (k.1 1 - 1) (k.2 0 - 1) (k.2 1 - 1) (by omega) (by omega) (by omega) (by omega)
      unfold Setup.dBB at this
      intro he
      apply this
      simp [energyDifference, diag, bySpin, Setup.foo, Setup.fvv, Setup.goo, Setup.gvv] at he
      linarith)
  have hu := inPlace_visits (visits2 true (bySpin (s.n - s.na) (s.n - s.nb)) (bySpin s.na s.nb)) (lists_pat2 true) (lists_pat2 true)
    (cs := fun x => copiesT2c x.2.2.1 x.2.2.2.1 x.1 x.2.1) resids2_at terms2_at
    (den := fun x => s.goo x.1 x.1 + s.goo x.2.1 x.2.1 - s.gvv x.2.2.1 x.2.2.1 - s.gvv x.2.2.2.1 x.2.2.2.1) (shift := s.shift)
    (X := keys2 X) (T := seen2 t)
    (u := doLoop 1 s.nb (fun i => doLoop (i + 1) s.nb fun j => doLoop 1 (s.n - s.nb) fun a => doLoop (a + 1) (s.n - s.nb) fun b s' =>
      storeUpdate (![b, a], ![j, i]) (signedSum s'.2 (termsT2c a b i j) / (s.goo i i + s.goo j j - s.gvv a a - s.gvv b b - s.shift))
        (copiesT2c a b i j) (residsT2c a b i j) s') (seen2 t, keys2 X))
    ((runs_do fun _ => runs_do fun _ => runs_do fun _ => runs_do fun _ => runs_leaf _) (seen2 t, _))
    (v := updateT2c s.nb (s.n - s.nb) s.goo s.gvv s.shift (keys2 X) (seen2 t))
    ((runs_do fun _ => runs_do fun _ => runs_do fun _ => runs_do fun _ => runs_leaf _) (seen2 t, _))
  have e1 : (sweepT2c (dimsOf s) s.goo s.gvv s.shift X (seen2 t)).1
      = (updateT2c s.nb (s.n - s.nb) s.goo s.gvv s.shift (keys2 X) (seen2 t)).1 := hu.1
  have e2 := zeroed true (seen2_antisym true hw ht) hs hu.2
  have hr : ∀ a b i j, a < s.n - s.nb → b < s.n - s.nb → i < s.nb → j < s.nb →
      InRange ![true, true] ![true, true] (bySpin (s.n - s.na) (s.n - s.nb)) (bySpin s.na s.nb) (![a + 1, b + 1], ![i + 1, j + 1]) :=
    fun a b i j ha hb hi hj => ⟨by intro k; fin_cases k <;> simp [bySpin] <;> omega,
      by intro k; fin_cases k <;> simp [bySpin] <;> omega⟩
  rw [e1]
  refine ⟨fun a b i j ha hb hi hj => ?_, fun a b i j h => ?_, fun l h => back2_other _ _ _ h, fun a b i j ha hb hi hj => ?_⟩
  · have := hs.step _ (hr a b i j ha hb hi hj)
    rw [antisymmetrize_two] at this
    simp [energyDifference, diag, bySpin, Setup.foo, Setup.fvv, Setup.goo, Setup.gvv, seen2, keys2, back2, Setup.dBB] at this ⊢
    rw [← this]
    ring
  · have := hs.outside (![a + 1, b + 1], ![i + 1, j + 1]) (fun hk => h ⟨by have := (hk.1 0).2; simp [bySpin] at this; omega,
      by have := (hk.1 1).2; simp [bySpin] at this; omega, by have := (hk.2 0).2; simp [bySpin] at this; omega,
      by have := (hk.2 1).2; simp [bySpin] at this; omega⟩)
    simpa [seen2, back2] using this
  · have h1 := hs.change (![a + 1, b + 1], ![i + 1, j + 1])
    have h2 := e2 _ (hr a b i j ha hb hi hj)
    have h3 : (sweepT2c (dimsOf s) s.goo s.gvv s.shift X (seen2 t)).2 (![a + 1, b + 1], ![i + 1, j + 1])
      = (updateT2c s.nb (s.n - s.nb) s.goo s.gvv s.shift (keys2 X) (seen2 t)).2 (![a + 1, b + 1], ![i + 1, j + 1]) := h2
    rw [← h3] at h1
    simpa [seen2, back2] using h1

theorem sweptT2b (X : Arr4) (t : List ℕ → ℚ)
    (hd : ∀ a b i j, a < s.n - s.na → b < s.n - s.nb → i < s.na → j < s.nb → s.dAB a b i j ≠ 0) :
    Swept2 (s.n - s.na) (s.n - s.nb) s.na s.nb s.dAB (fun a b i j => X (a + 1) (b + 1) (i + 1) (j + 1)) t
      (back2 t (sweepT2b (dimsOf s) s.foo s.fvv s.goo s.gvv s.shift X (seen2 t)).1,
        back2 (fun _ => 0) (sweepT2b (dimsOf s) s.foo s.fvv s.goo s.gvv s.shift X (seen2 t)).2) := by
  have hs := C43_t2b s.na (s.n - s.na) s.nb (s.n - s.nb) s.foo s.fvv s.goo s.gvv s.shift (keys2 X) (seen2 t)
    (antisym_distinct (by decide) (by decide) _) (fun k hk => by
      rw [key2_cases k] at hk ⊢
      have h1 := hk.1 0; have h2 := hk.2 0; have h3 := hk.1 1; have h4 := hk.2 1
      simp [bySpin] at h1 h2 h3 h4
      have := hd (k.1 0 - 1) (k.1 1 - 1) (k.2 0 - 1) (k.2 1 - 1) (by omega) (by omega) (by omega) (by omega)
      unfold Setup.dAB at this
      intro he
      apply this
      simp [energyDifference, diag, bySpin, Setup.foo, Setup.fvv, Setup.goo, Setup.gvv] at he
      linarith)
  have hw := sweepT2b_eq (dimsOf s) s.foo s.fvv s.goo s.gvv s.shift X (seen2 t)
  simp only [dimsOf] at hw ⊢
  have hr : ∀ a b i j, a < s.n - s.na → b < s.n - s.nb → i < s.na → j < s.nb →
      InRange ![false, true] ![false, true] (bySpin (s.n - s.na) (s.n - s.nb)) (bySpin s.na s.nb) (![a + 1, b + 1], ![i + 1, j + 1]) :=
    fun a b i j ha hb hi hj => ⟨by intro k; fin_cases k <;> simp [bySpin] <;> omega,
      by intro k; fin_cases k <;> simp [bySpin] <;> omega⟩
  rw [hw.1]
  refine ⟨fun a b i j ha hb hi hj => ?_, fun a b i j h => ?_, fun l h => back2_other _ _ _ h, fun a b i j ha hb hi hj => ?_⟩
  · have := hs.step _ (hr a b i j ha hb hi hj)
    rw [antisymmetrize_ab] at this
    simp [energyDifference, diag, bySpin, Setup.foo, Setup.fvv, Setup.goo, Setup.gvv, seen2, keys2, back2, Setup.dAB] at this ⊢
    rw [← this]
    ring
  · have := hs.outside (![a + 1, b + 1], ![i + 1, j + 1]) (fun hk => h ⟨by have := (hk.1 0).2; simp [bySpin] at this; omega,
      by have := (hk.1 1).2; simp [bySpin] at this; omega, by have := (hk.2 0).2; simp [bySpin] at this; omega,
      by have := (hk.2 1).2; simp [bySpin] at this; omega⟩)
    simpa [seen2, back2] using this
  · have := hs.change (![a + 1, b + 1], ![i + 1, j + 1])
    rw [← hw.2 _ (hr a b i j ha hb hi hj)] at this
    simpa [seen2, back2] using this

end

theorem Swept1.fixed_iff {no nu : ℕ} {den X : ℕ → ℕ → ℚ} {t : List ℕ → ℚ} {r : (List ℕ → ℚ) × (List ℕ → ℚ)}
    (h : Swept1 no nu den X t r) (hd : ∀ a i, a < nu → i < no → den a i ≠ 0) :
    r.1 = t ↔ ∀ a i, a < nu → i < no → X a i = 0 :=
  Called1.fixed_iff (X := fun l => X (l.getD 0 0) (l.getD 1 0)) (r := (r.1, fun l => r.1 l - t l))
    ⟨h.step, h.outside, h.other, fun _ _ => rfl⟩ hd

theorem Swept2.fixed_iff {nu nu' no no' : ℕ} {den X : ℕ → ℕ → ℕ → ℕ → ℚ} {t : List ℕ → ℚ} {r : (List ℕ → ℚ) × (List ℕ → ℚ)}
    (h : Swept2 nu nu' no no' den X t r) (hd : ∀ a b i j, a < nu → b < nu' → i < no → j < no' → den a b i j ≠ 0) :
    r.1 = t ↔ ∀ a b i j, a < nu → b < nu' → i < no → j < no' → X a b i j = 0 :=
  Called2.fixed_iff (X := fun l => X (l.getD 0 0) (l.getD 1 0) (l.getD 2 0) (l.getD 3 0)) (sum := noExchange)
    (r := (r.1, fun l => r.1 l - t l)) ⟨h.step, h.outside, h.other, fun _ _ _ _ => rfl⟩ hd

end Ccpy.PSpace
