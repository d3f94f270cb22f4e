import Verif.Lemmas.Hilbert

/-! Bit strings of excitations, and excitations of the reference determinant. -/

namespace Ccpy.Hilbert

theorem testBit_add_pow (i : ℕ) : ∀ (v j : ℕ), v.testBit i = false → (v + 2 ^ i).testBit j = (v.testBit j || decide (j = i)) := by
  induction i with
  | zero =>
    intro v j h
    rw [Nat.testBit_zero] at h
    have hv : v % 2 = 0 := by simpa using h
    cases j with
    | zero => simp [Nat.testBit_zero]; omega
    | succ j =>
      rw [Nat.testBit_succ, Nat.testBit_succ, show (v + 2 ^ 0) / 2 = v / 2 by simp; omega]
      simp
  | succ i ih =>
    intro v j h
    rw [Nat.testBit_succ] at h
    have hp : 2 ^ (i + 1) = 2 * 2 ^ i := by rw [Nat.pow_succ]; ring
    cases j with
    | zero => rw [Nat.testBit_zero, Nat.testBit_zero, hp]; simp [Nat.add_mul_mod_self_left]
    | succ j =>
      rw [Nat.testBit_succ, Nat.testBit_succ, hp, Nat.add_mul_div_left _ _ (by norm_num), ih _ j h]
      simp

/-- The bits of the words `b` are the orbitals in `s`. -/
def Bits (len : ℕ) (b s : List ℕ) : Prop := ∀ w k, (b.getD w 0).testBit k = decide (k < len ∧ w * len + k ∈ s)

theorem bits_fold (n len : ℕ) (hlen : 0 < len) (l : List ℕ) : ∀ (b s : List ℕ), b.length = n → Bits len b s → (∀ x ∈ l, x / len < n) →
    l.Nodup → (∀ x ∈ l, x ∉ s) → ∃ c, l.foldlM (fun b x => if x / len < b.length then
      (Except.ok (b.set (x / len) (b.getD (x / len) 0 + 2 ^ (x % len))) : Except Err (List ℕ)) else .error .index) b = .ok c ∧
      c.length = n ∧ Bits len c (s ++ l) := by
  induction l with
  | nil => intro b s hb hbits _ _ _; exact ⟨b, rfl, hb, by simpa using hbits⟩
  | cons x l ih =>
    intro b s hb hbits hx hn hs
    rw [List.nodup_cons] at hn
    have hxn := hx x (by simp)
    have hdm : x / len * len + x % len = x := by rw [mul_comm]; exact Nat.div_add_mod x len
    have hml := Nat.mod_lt x hlen
    have hfree : (b.getD (x / len) 0).testBit (x % len) = false := by
      rw [hbits, hdm]
      simp [hs x (by simp)]
    have hnew : Bits len (b.set (x / len) (b.getD (x / len) 0 + 2 ^ (x % len))) (s ++ [x]) := by
      intro w k
      by_cases hw : w = x / len
      · subst hw
        rw [List.getD_eq_getElem?_getD, List.getElem?_set_self (by omega), Option.getD_some, testBit_add_pow _ _ _ hfree, hbits,
          Bool.eq_iff_iff]
        simp only [Bool.or_eq_true, decide_eq_true_eq, List.mem_append, List.mem_singleton]
        constructor
        · rintro (⟨h1, h2⟩ | rfl)
          · exact ⟨h1, Or.inl h2⟩
          · exact ⟨hml, Or.inr hdm⟩
        · rintro ⟨h1, h2 | h2⟩
          · exact Or.inl ⟨h1, h2⟩
          · right
            omega
      · rw [List.getD_eq_getElem?_getD, List.getElem?_set_ne (Ne.symm hw), ← List.getD_eq_getElem?_getD, hbits, Bool.eq_iff_iff]
        simp only [decide_eq_true_eq, List.mem_append, List.mem_singleton]
        constructor
        · rintro ⟨h1, h2⟩; exact ⟨h1, Or.inl h2⟩
        · rintro ⟨h1, h2 | h2⟩
          · exact ⟨h1, h2⟩
          · exfalso
            apply hw
            rw [← h2, mul_comm, Nat.mul_add_div hlen, Nat.div_eq_of_lt h1, add_zero]
    obtain ⟨c, h1, h2, h3⟩ := ih _ (s ++ [x]) (by rw [List.length_set]; exact hb) hnew (fun y hy => hx y (by simp [hy])) hn.2
      (fun y hy => by
        rw [List.mem_append, List.mem_singleton, not_or]
        exact ⟨hs y (by simp [hy]), fun e => hn.1 (e ▸ hy)⟩)
    refine ⟨c, ?_, h2, by simpa using h3⟩
    rw [List.foldlM_cons, if_pos (by omega)]
    exact h1

theorem bitstring_spec (norb len : ℕ) (hlen : 0 < len) (l : List ℕ) (hn : l.Nodup) (hl : ∀ x ∈ l, x < norb) :
    ∃ b, bitstring (words norb len) len l = .ok b ∧ ∀ w k, (b.getD w 0).testBit k = decide (k < len ∧ w * len + k ∈ l) := by
  obtain ⟨b, h1, _, h3⟩ := bits_fold (words norb len) len hlen l (List.replicate (words norb len) 0) [] (by simp)
    (by
      intro w k
      rw [List.getD_eq_getElem?_getD, List.getElem?_replicate]
      split <;> simp)
    (fun x hx => by
      unfold words
      have h := hl x hx
      have : x / len ≤ (norb - 1) / len := Nat.div_le_div_right (by omega)
      omega) hn (by simp)
  rw [List.nil_append] at h3
  exact ⟨b, h1, h3⟩

/-! ### Excitations of the reference -/

theorem mem_set_idxOf {occ : List ℕ} (hn : occ.Nodup) {h p : ℕ} (hh : h ∈ occ) (hp : p ∉ occ) :
    (occ.set (occ.idxOf h) p).Nodup ∧ ∀ x, x ∈ occ.set (occ.idxOf h) p ↔ (x ∈ occ ∧ x ≠ h) ∨ x = p := by
  induction occ with
  | nil => simp at hh
  | cons y occ ih =>
    rw [List.nodup_cons] at hn
    rw [List.mem_cons, not_or] at hp
    by_cases hy : y = h
    · subst hy
      rw [List.idxOf_cons_self, List.set_cons_zero]
      refine ⟨List.nodup_cons.2 ⟨hp.2, hn.2⟩, fun x => ?_⟩
      simp only [List.mem_cons]
      constructor
      · rintro (h | h)
        · exact Or.inr h
        · exact Or.inl ⟨Or.inr h, fun e => hn.1 (e ▸ h)⟩
      · rintro (⟨h1 | h1, h2⟩ | h)
        · exact absurd h1 h2
        · exact Or.inr h1
        · exact Or.inl h
    · have hh' : h ∈ occ := by simpa [Ne.symm hy] using hh
      rw [List.idxOf_cons_ne _ hy, List.set_cons_succ]
      obtain ⟨i1, i2⟩ := ih hn.2 hh' hp.2
      refine ⟨List.nodup_cons.2 ⟨?_, i1⟩, fun x => ?_⟩
      · rw [i2]
        rintro (⟨h1, _⟩ | h1)
        · exact hn.1 h1
        · exact hp.1 h1.symm
      · simp only [List.mem_cons, i2]
        constructor
        · rintro (h | ⟨h1, h2⟩ | h)
          · exact Or.inl ⟨Or.inl h, by rw [h]; exact hy⟩
          · exact Or.inl ⟨Or.inr h1, h2⟩
          · exact Or.inr h
        · rintro (⟨h1 | h1, h2⟩ | h)
          · exact Or.inl h1
          · exact Or.inr (Or.inl ⟨h1, h2⟩)
          · exact Or.inr (Or.inr h)

theorem replace_spec (l : List (ℕ × ℕ)) : ∀ (occ : List ℕ), occ.Nodup → (l.map Prod.fst).Nodup → (l.map Prod.snd).Nodup →
    (∀ x ∈ l.map Prod.fst, x ∈ occ) → (∀ x ∈ l.map Prod.snd, x ∉ occ) →
    ∃ c, replace occ l = .ok c ∧ c.Nodup ∧ ∀ x, x ∈ c ↔ (x ∈ occ ∧ x ∉ l.map Prod.fst) ∨ x ∈ l.map Prod.snd := by
  induction l with
  | nil => intro occ hn _ _ _ _; exact ⟨occ, rfl, hn, by simp⟩
  | cons hp l ih =>
    obtain ⟨h, p⟩ := hp
    intro occ hn h1 h2 h3 h4
    simp only [List.map_cons, List.nodup_cons] at h1 h2
    have hh : h ∈ occ := h3 h (by simp)
    have hp : p ∉ occ := h4 p (by simp)
    obtain ⟨m1, m2⟩ := mem_set_idxOf hn hh hp
    obtain ⟨c, c1, c2, c3⟩ := ih (occ.set (occ.idxOf h) p) m1 h1.2 h2.2
      (fun x hx => (m2 x).2 (Or.inl ⟨h3 x (by simp only [List.map_cons, List.mem_cons]; exact Or.inr hx), fun e => h1.1 (e ▸ hx)⟩))
      (fun x hx hc => by
        rcases (m2 x).1 hc with ⟨hc, _⟩ | hc
        · exact h4 x (by simp only [List.map_cons, List.mem_cons]; exact Or.inr hx) hc
        · exact h2.1 (hc ▸ hx))
    refine ⟨c, by rw [replace, if_pos hh]; exact c1, c2, fun x => ?_⟩
    rw [c3, m2]
    simp only [List.map_cons, List.mem_cons, not_or]
    constructor
    · rintro (⟨⟨a1, a2⟩ | a, b⟩ | b)
      · exact Or.inl ⟨a1, a2, b⟩
      · exact Or.inr (Or.inl a)
      · exact Or.inr (Or.inr b)
    · rintro (⟨a1, a2, b⟩ | a | b)
      · exact Or.inl ⟨Or.inl ⟨a1, a2⟩, b⟩
      · by_cases hx : x ∈ l.map Prod.fst
        · exfalso
          exact h4 x (by simp [a]) (h3 x (by simp only [List.map_cons, List.mem_cons]; exact Or.inr hx))
        · exact Or.inl ⟨Or.inr a, hx⟩
      · exact Or.inr b

/-- Excitations from the reference of a closed shell, with orbitals counted as `get_determinant` does: particles from the first
unoccupied orbital. -/
structure Proper (m : ℕ) (x : Excitation) : Prop where
  lenA : x.toA.length = x.fromA.length
  lenB : x.toB.length = x.fromB.length
  fromA : x.fromA.Pairwise (· < ·)
  fromB : x.fromB.Pairwise (· < ·)
  toA : x.toA.Pairwise (· < ·)
  toB : x.toB.Pairwise (· < ·)
  ltA : ∀ i ∈ x.fromA, i < m
  ltB : ∀ i ∈ x.fromB, i < m

theorem map_fst_zip' {α β γ : Type} (f : α → γ) (g : β → γ) (l : List α) (k : List β) (h : k.length = l.length) :
    ((l.zip k).map fun (i, a) => (f i, g a)).map Prod.fst = l.map f ∧
    ((l.zip k).map fun (i, a) => (f i, g a)).map Prod.snd = k.map g := by
  induction l generalizing k with
  | nil => rw [List.length_nil, List.length_eq_zero_iff] at h; subst h; simp
  | cons x l ih =>
    cases k with
    | nil => simp at h
    | cons y k =>
      obtain ⟨h1, h2⟩ := ih k (by simpa using h)
      simp only [List.zip_cons_cons, List.map_cons]
      exact ⟨by rw [h1], by rw [h2]⟩

theorem getDeterminant_spec {m : ℕ} {x : Excitation} (h : Proper m x) :
    ∃ d, getDeterminant m m x = .ok d ∧ Wf d ∧ d.occA.length = m ∧ d.occB.length = m ∧
      (∀ i, i ∈ d.occA ↔ (i < m ∧ i ∉ x.fromA) ∨ i ∈ x.toA.map (· + m)) ∧
      (∀ i, i ∈ d.occB ↔ (i < m ∧ i ∉ x.fromB) ∨ i ∈ x.toB.map (· + m)) := by
  have hr : ∀ y, y ∈ List.range' 1 (m + m) ↔ 1 ≤ y ∧ y ≤ m + m := by
    intro y; rw [List.mem_range'_1]; omega
  obtain ⟨e1, e2⟩ := map_fst_zip' (fun i => 2 * (i + 1) - 1) (fun a => 2 * (a + 1 + m) - 1) x.fromA x.toA h.lenA
  obtain ⟨e3, e4⟩ := map_fst_zip' (fun i => 2 * (i + 1)) (fun a => 2 * (a + 1 + m)) x.fromB x.toB h.lenB
  obtain ⟨c, c1, c2, c3⟩ := replace_spec ((x.fromA.zip x.toA).map fun (i, a) => (2 * (i + 1) - 1, 2 * (a + 1 + m) - 1)) (List.range' 1 (m + m))
    List.nodup_range'
    (by rw [e1, List.Nodup, List.pairwise_map]; exact h.fromA.imp fun h => by omega)
    (by rw [e2, List.Nodup, List.pairwise_map]; exact h.toA.imp fun h => by omega)
    (by
      rw [e1]
      intro y hy
      obtain ⟨i, hi, rfl⟩ := List.mem_map.1 hy
      have := h.ltA i hi
      rw [hr]; omega)
    (by
      rw [e2]
      intro y hy
      obtain ⟨i, hi, rfl⟩ := List.mem_map.1 hy
      rw [hr]; omega)
  rw [e1, e2] at c3
  obtain ⟨c', c1', c2', c3'⟩ := replace_spec ((x.fromB.zip x.toB).map fun (i, a) => (2 * (i + 1), 2 * (a + 1 + m))) c c2
    (by rw [e3, List.Nodup, List.pairwise_map]; exact h.fromB.imp fun h => by omega)
    (by rw [e4, List.Nodup, List.pairwise_map]; exact h.toB.imp fun h => by omega)
    (by
      rw [e3]
      intro y hy
      obtain ⟨i, hi, rfl⟩ := List.mem_map.1 hy
      have := h.ltB i hi
      rw [c3, hr]
      left
      refine ⟨by omega, fun hm => ?_⟩
      obtain ⟨j, _, hj⟩ := List.mem_map.1 hm
      omega)
    (by
      rw [e4]
      intro y hy
      obtain ⟨i, hi, rfl⟩ := List.mem_map.1 hy
      rw [c3, hr]
      rintro (⟨h1, _⟩ | hm)
      · omega
      · obtain ⟨j, _, hj⟩ := List.mem_map.1 hm
        omega)
  rw [e3, e4] at c3'
  -- membership of the odd and even spin orbitals
  have odd : ∀ i, 2 * i + 1 ∈ c' ↔ (i < m ∧ i ∉ x.fromA) ∨ i ∈ x.toA.map (· + m) := by
    intro i
    rw [c3', c3, hr]
    simp only [List.mem_map]
    constructor
    · rintro (⟨⟨h1, h2⟩ | ⟨a, ha, e⟩, _⟩ | ⟨a, _, e⟩)
      · exact Or.inl ⟨by omega, fun hi => h2 ⟨i, hi, by omega⟩⟩
      · exact Or.inr ⟨a, ha, by omega⟩
      · omega
    · rintro (⟨h1, h2⟩ | ⟨a, ha, e⟩)
      · refine Or.inl ⟨Or.inl ⟨by omega, ?_⟩, ?_⟩
        · rintro ⟨j, hj, e⟩; exact h2 (by rwa [show i = j by omega])
        · rintro ⟨j, hj, e⟩; omega
      · refine Or.inl ⟨Or.inr ⟨a, ha, by omega⟩, ?_⟩
        rintro ⟨j, hj, e⟩; omega
  have even : ∀ i, 2 * i + 2 ∈ c' ↔ (i < m ∧ i ∉ x.fromB) ∨ i ∈ x.toB.map (· + m) := by
    intro i
    rw [c3', c3, hr]
    simp only [List.mem_map]
    constructor
    · rintro (⟨⟨h1, h2⟩ | ⟨a, ha, e⟩, h3⟩ | ⟨a, ha, e⟩)
      · exact Or.inl ⟨by omega, fun hi => h3 ⟨i, hi, by omega⟩⟩
      · omega
      · exact Or.inr ⟨a, ha, by omega⟩
    · rintro (⟨h1, h2⟩ | ⟨a, ha, e⟩)
      · refine Or.inl ⟨Or.inl ⟨by omega, ?_⟩, ?_⟩
        · rintro ⟨j, hj, e⟩; omega
        · rintro ⟨j, hj, e⟩; exact h2 (by rwa [show i = j by omega])
      · exact Or.inr ⟨a, ha, by omega⟩
  have pos : 0 ∉ c' := by
    rw [c3', c3, hr]
    simp only [List.mem_map]
    rintro (⟨⟨h1, h2⟩ | ⟨a, ha, e⟩, h3⟩ | ⟨a, ha, e⟩) <;> omega
  -- the lists handed to the constructor
  have nodA : ((c'.filter (· % 2 = 1)).map spatial).Nodup := by
    refine List.Nodup.map_on ?_ (c2'.filter _)
    intro a ha b hb hab
    have ha' : a % 2 = 1 := by simpa using (List.mem_filter.1 ha).2
    have hb' : b % 2 = 1 := by simpa using (List.mem_filter.1 hb).2
    unfold spatial at hab
    rw [if_pos ha', if_pos hb'] at hab
    omega
  have nodB : ((c'.filter (· % 2 = 0)).map spatial).Nodup := by
    refine List.Nodup.map_on ?_ (c2'.filter _)
    intro a ha b hb hab
    have ha' : a % 2 = 0 := by simpa using (List.mem_filter.1 ha).2
    have hb' : b % 2 = 0 := by simpa using (List.mem_filter.1 hb).2
    unfold spatial at hab
    rw [if_neg (by omega), if_neg (by omega)] at hab
    omega
  have memA : ∀ i, i + 1 ∈ (c'.filter (· % 2 = 1)).map spatial ↔ 2 * i + 1 ∈ c' := by
    intro i
    simp only [List.mem_map, List.mem_filter, decide_eq_true_eq]
    constructor
    · rintro ⟨a, ⟨h1, h2⟩, h3⟩
      unfold spatial at h3
      rw [if_pos h2] at h3
      rwa [show 2 * i + 1 = a by omega]
    · intro hi
      refine ⟨_, ⟨hi, by omega⟩, ?_⟩
      unfold spatial
      rw [if_pos (by omega)]; omega
  have memB : ∀ i, i + 1 ∈ (c'.filter (· % 2 = 0)).map spatial ↔ 2 * i + 2 ∈ c' := by
    intro i
    simp only [List.mem_map, List.mem_filter, decide_eq_true_eq]
    constructor
    · rintro ⟨a, ⟨h1, h2⟩, h3⟩
      unfold spatial at h3
      rw [if_neg (by omega)] at h3
      rwa [show 2 * i + 2 = a by omega]
    · intro hi
      refine ⟨_, ⟨hi, by omega⟩, ?_⟩
      unfold spatial
      rw [if_neg (by omega)]; omega
  have zA : 0 ∉ (c'.filter (· % 2 = 1)).map spatial := by
    simp only [List.mem_map, List.mem_filter, decide_eq_true_eq, not_exists, not_and, and_imp]
    intro a _ h2 h3
    unfold spatial at h3
    rw [if_pos h2] at h3
    omega
  have zB : 0 ∉ (c'.filter (· % 2 = 0)).map spatial := by
    simp only [List.mem_map, List.mem_filter, decide_eq_true_eq, not_exists, not_and, and_imp]
    intro a h1 h2 h3
    unfold spatial at h3
    rw [if_neg (by omega)] at h3
    have : a = 0 := by omega
    exact pos (this ▸ h1)
  have count : ∀ (l f t : List ℕ), l.Nodup → 0 ∉ l → f.Pairwise (· < ·) → t.Pairwise (· < ·) → t.length = f.length → (∀ i ∈ f, i < m) →
      (∀ i, i + 1 ∈ l ↔ (i < m ∧ i ∉ f) ∨ i ∈ t.map (· + m)) → l.length = m := by
    intro l f t hl hz hf ht hlen hfm hmem
    have h1 : l.toFinset = ((Finset.range m \ f.toFinset) ∪ (t.map (· + m)).toFinset).image (· + 1) := by
      ext y
      simp only [List.mem_toFinset, Finset.mem_image, Finset.mem_union, Finset.mem_sdiff, Finset.mem_range]
      constructor
      · intro hy
        have : y ≠ 0 := fun e => hz (e ▸ hy)
        refine ⟨y - 1, ?_, by omega⟩
        rw [← hmem, Nat.sub_add_cancel (by omega)]
        exact hy
      · rintro ⟨i, hi, rfl⟩
        exact (hmem i).2 hi
    rw [← List.toFinset_card_of_nodup hl, h1, Finset.card_image_of_injective _ (add_left_injective 1), Finset.card_union_of_disjoint,
      Finset.card_sdiff_of_subset, List.toFinset_card_of_nodup (hf.imp fun h => h.ne), List.toFinset_card_of_nodup, List.length_map,
      Finset.card_range, hlen]
    · have : f.length ≤ m := by
        rw [← List.toFinset_card_of_nodup (hf.imp fun h => h.ne), ← Finset.card_range m]
        apply Finset.card_le_card
        intro i hi
        rw [List.mem_toFinset] at hi
        exact Finset.mem_range.2 (hfm i hi)
      omega
    · rw [List.Nodup, List.pairwise_map]; exact ht.imp fun h => by omega
    · intro i hi
      rw [List.mem_toFinset] at hi
      exact Finset.mem_range.2 (hfm i hi)
    · rw [Finset.disjoint_left]
      intro i hi hi'
      rw [Finset.mem_sdiff, Finset.mem_range] at hi
      rw [List.mem_toFinset, List.mem_map] at hi'
      obtain ⟨a, _, rfl⟩ := hi'
      omega
  have lenA := count _ _ _ nodA zA h.fromA h.toA h.lenA h.ltA (fun i => (memA i).trans (odd i))
  have lenB := count _ _ _ nodB zB h.fromB h.toB h.lenB h.ltB (fun i => (memB i).trans (even i))
  have hd : ∃ d, determinant m m ((c'.filter (· % 2 = 1)).map spatial) ((c'.filter (· % 2 = 0)).map spatial) = .ok d := by
    unfold determinant
    rw [if_pos ⟨lenA, lenB⟩]
    exact ⟨_, rfl⟩
  obtain ⟨d, hd⟩ := hd
  obtain ⟨w1, w2, w3, w4, w5⟩ := wf_determinant hd nodA nodB zA zB
  refine ⟨d, ?_, w1, w4, w5, fun i => ?_, fun i => ?_⟩
  · unfold getDeterminant
    simp only [c1, bind, Except.bind]
    rw [c1']
    exact hd
  · rw [w2, memA, odd]
  · rw [w3, memB, even]

end Ccpy.Hilbert
