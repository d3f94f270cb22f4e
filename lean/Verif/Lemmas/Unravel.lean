import Verif.Model.Unravel
import Verif.Lemmas.Sweep
import Mathlib.Tactic.FinCases

namespace Ccpy.Unravel
open Ccpy.Spec Ccpy.Writes Equiv

variable {m n : ℕ} {R : Type*}

theorem resolve_nat {d p : ℕ} (h : p < d) : resolve d (p : ℤ) = some p := by
  unfold resolve
  rw [if_pos ⟨by omega, by omega⟩]
  simp

theorem resolve_ge {d p : ℕ} (h : d ≤ p) : resolve d (p : ℤ) = none := by
  unfold resolve
  rw [if_neg (by omega), if_neg (by omega)]

theorem resolveTuple_nat {dims : Fin m → ℕ} {P : Fin m → ℕ} (h : ∀ i, P i < dims i) :
    resolveTuple dims (fun i => (P i : ℤ)) = some P := by
  unfold resolveTuple
  have e : ∀ i, resolve (dims i) (P i : ℤ) = some (P i) := fun i => resolve_nat (h i)
  rw [if_pos (fun i => by rw [e i]; rfl)]
  congr 1
  funext i
  rw [e i]; rfl

/-- integer version of an index tuple -/
def castKey (k : (Fin m → ℕ) × (Fin n → ℕ)) : (Fin m → ℤ) × (Fin n → ℤ) :=
  (fun i => (k.1 i : ℤ), fun i => (k.2 i : ℤ))

theorem assignAll_cast (s : Shape m n) (ws : List (((Fin m → ℕ) × (Fin n → ℕ)) × R)) :
    ∀ T, (∀ w ∈ ws, (∀ i, w.1.1 i < s.particles i) ∧ ∀ i, w.1.2 i < s.holes i) →
      assignAll s (ws.map fun w => (castKey w.1, w.2)) T = .ok (applyWrites T ws) := by
  induction ws with
  | nil => intro T _; rfl
  | cons w ws ih =>
    intro T h
    have hw := h w (by simp)
    rw [List.map_cons, assignAll]
    have e : assign s T (castKey w.1, w.2) = .ok (Function.update T w.1 w.2) := by
      unfold assign castKey
      simp only
      rw [resolveTuple_nat hw.1, resolveTuple_nat hw.2]
      simp only [Except.ok.injEq]
      funext k
      by_cases hk : k = w.1
      · rw [hk, Function.update_self, if_pos rfl]
      · rw [Function.update_of_ne hk, if_neg hk]
    rw [e]
    exact ih _ (fun v hv => h v (List.mem_cons_of_mem _ hv))

/-- the block of assignments of a spin case follows the position pattern `pat` -/
def Follows [AddCommGroup R] (block : List ℤ → Option (R → List (((Fin m → ℤ) × (Fin n → ℤ)) × R)))
    (pat : Pattern m n) : Prop :=
  ∀ (P : Fin m → ℕ) (H : Fin n → ℕ),
    block ((rowOf P H).map fun x => (x : ℤ) - 1) =
      some fun x => pat.map fun e => (castKey (P ∘ e.1, H ∘ e.2.1), e.2.2 • x)

/-- a pattern lists exactly the spin exchanges with their signs -/
structure Enumerates (sp : Fin m → Bool) (sh : Fin n → Bool) (pat : Pattern m n) : Prop where
  all : ∀ g ∈ SpinExchange sp sh, ((⇑g.1, ⇑g.2, ((Perm.sign g.1 * Perm.sign g.2 : ℤˣ) : ℤ)) :
      (Fin m → Fin m) × (Fin n → Fin n) × ℤ) ∈ pat
  only : ∀ e ∈ pat, ∃ g ∈ SpinExchange sp sh,
    e = (⇑g.1, ⇑g.2, ((Perm.sign g.1 * Perm.sign g.2 : ℤˣ) : ℤ))

/-- axes of equal spin have equal length -/
def Uniform (sp : Fin m → Bool) (sh : Fin n → Bool) (s : Shape m n) : Prop :=
  (∀ i j, sp i = sp j → s.particles i = s.particles j) ∧
    ∀ i j, sh i = sh j → s.holes i = s.holes j

theorem unravelLoop_sweeps [AddCommGroup R] {sp : Fin m → Bool} {sh : Fin n → Bool} (s : Shape m n)
    {block : List ℤ → Option (R → List (((Fin m → ℤ) × (Fin n → ℤ)) × R))} {pat : Pattern m n}
    (hb : Follows block pat) (hp : Enumerates sp sh pat) (hs : Uniform sp sh s)
    (entries : List ((Fin m → ℕ) × (Fin n → ℕ) × R)) :
    ∀ T, (∀ e ∈ entries, OrderedWithin sp e.1 ∧ OrderedWithin sh e.2.1) →
      (∀ e ∈ entries, (∀ i, e.1 i < s.particles i) ∧ ∀ i, e.2.1 i < s.holes i) →
      (entries.map fun e => (e.1, e.2.1)).Nodup →
      ∃ T', (∀ rows rest, unravelLoop s block ((entries.map fun e => rowOf e.1 e.2.1) ++ rows)
          ((entries.map fun e => e.2.2) ++ rest) T = unravelLoop s block rows rest T') ∧
        Sweeps (SpinExchange sp sh) entries T T' := by
  induction entries with
  | nil => intro T _ _ _; exact ⟨T, fun _ _ => rfl, sweeps_nil _ _⟩
  | cons e es ih =>
    intro T ho hr hn
    simp only [List.map_cons, List.nodup_cons] at hn
    have hoe := ho e (by simp)
    have hre := hr e (by simp)
    have hc : Covers (SpinExchange sp sh) e.1 e.2.1 e.2.2
        (pat.map fun p => ((e.1 ∘ p.1, e.2.1 ∘ p.2.1), p.2.2 • e.2.2)) :=
      covers_of_pattern _ _ _ _ pat _ rfl hp.all hp.only
    have hG := isGroup_spinExchange sp sh
    have hst := covers_stores hG hc (free_ordered hoe.1 hoe.2) T
    obtain ⟨T', hT', hsw⟩ := ih
      (applyWrites T (pat.map fun p => ((e.1 ∘ p.1, e.2.1 ∘ p.2.1), p.2.2 • e.2.2)))
      (fun e' he' => ho e' (List.mem_cons_of_mem _ he'))
      (fun e' he' => hr e' (List.mem_cons_of_mem _ he')) hn.2
    refine ⟨T', ?_, sweeps_cons hG hst hsw ?_⟩
    · intro rows rest
      simp only [List.map_cons, List.cons_append]
      rw [unravelLoop, hb e.1 e.2.1]
      have ha := assignAll_cast s (pat.map fun p => ((e.1 ∘ p.1, e.2.1 ∘ p.2.1), p.2.2 • e.2.2)) T
        (by
          intro w hw
          obtain ⟨g, hg, rfl⟩ := hc.only w hw
          refine ⟨fun i => ?_, fun i => ?_⟩
          · rw [hs.1 i (g.1 i) (hg.1 i).symm]; exact hre.1 (g.1 i)
          · rw [hs.2 i (g.2 i) (hg.2 i).symm]; exact hre.2 (g.2 i))
      rw [List.map_map] at ha
      simp only
      have ha' : assignAll s (pat.map fun p => (castKey (e.1 ∘ p.1, e.2.1 ∘ p.2.1), p.2.2 • e.2.2)) T =
        .ok (applyWrites T (pat.map fun p => ((e.1 ∘ p.1, e.2.1 ∘ p.2.1), p.2.2 • e.2.2))) := ha
      rw [ha']
      exact hT' rows rest
    · intro e' he' g hg heq
      simp only [Prod.mk.injEq] at heq
      have hoe' := ho e' (List.mem_cons_of_mem _ he')
      have := ordered_unique hoe'.1 hoe'.2 hoe.1 hoe.2 hg heq.1 heq.2
      apply hn.1
      rw [List.mem_map]
      exact ⟨e', he', by rw [this.1, this.2]⟩

theorem unravelCase_expands [AddCommGroup R] {sp : Fin m → Bool} {sh : Fin n → Bool}
    (s : Shape m n)
    {block : List ℤ → Option (R → List (((Fin m → ℤ) × (Fin n → ℤ)) × R))} {pat : Pattern m n}
    (hb : Follows block pat) (hp : Enumerates sp sh pat) (hs : Uniform sp sh s)
    (entries : List ((Fin m → ℕ) × (Fin n → ℕ) × R)) (rest : List R)
    (ho : ∀ e ∈ entries, OrderedWithin sp e.1 ∧ OrderedWithin sh e.2.1)
    (hr : ∀ e ∈ entries, (∀ i, e.1 i < s.particles i) ∧ ∀ i, e.2.1 i < s.holes i)
    (hn : (entries.map fun e => (e.1, e.2.1)).Nodup) :
    ∃ T', unravelCase s block true (entries.map fun e => rowOf e.1 e.2.1)
        ((entries.map fun e => e.2.2) ++ rest) = .ok T' ∧ Expands sp sh entries T' := by
  obtain ⟨T', h1, h2⟩ := unravelLoop_sweeps s hb hp hs entries (fun _ => 0) ho hr hn
  refine ⟨T', ?_, h2.expands⟩
  have := h1 [] rest
  rw [List.append_nil] at this
  exact this

theorem unravelCase_short [AddCommGroup R] {sp : Fin m → Bool} {sh : Fin n → Bool}
    (s : Shape m n)
    {block : List ℤ → Option (R → List (((Fin m → ℤ) × (Fin n → ℤ)) × R))} {pat : Pattern m n}
    (hb : Follows block pat) (hp : Enumerates sp sh pat) (hs : Uniform sp sh s)
    (entries : List ((Fin m → ℕ) × (Fin n → ℕ) × R))
    (ho : ∀ e ∈ entries, OrderedWithin sp e.1 ∧ OrderedWithin sh e.2.1)
    (hr : ∀ e ∈ entries, (∀ i, e.1 i < s.particles i) ∧ ∀ i, e.2.1 i < s.holes i)
    (hn : (entries.map fun e => (e.1, e.2.1)).Nodup) (P : Fin m → ℕ) (H : Fin n → ℕ)
    (rows : List (List ℕ)) :
    unravelCase s block true ((entries.map fun e => rowOf e.1 e.2.1) ++ rowOf P H :: rows)
        (entries.map fun e => e.2.2) = .error .indexError := by
  obtain ⟨T', h1, _⟩ := unravelLoop_sweeps s hb hp hs entries (fun _ => 0) ho hr hn
  have := h1 (rowOf P H :: rows) []
  rw [List.append_nil] at this
  rw [unravelCase, if_pos rfl, this, unravelLoop, hb P H]

theorem resolveTuple_ge {dims : Fin m → ℕ} {P : Fin m → ℕ} (h : ∃ i, dims i ≤ P i) :
    resolveTuple dims (fun i => (P i : ℤ)) = none := by
  obtain ⟨i, hi⟩ := h
  unfold resolveTuple
  rw [if_neg (fun hc => ?_)]
  have := hc i
  rw [resolve_ge hi] at this
  simp at this

theorem unravelCase_range [AddCommGroup R] {sp : Fin m → Bool} {sh : Fin n → Bool}
    (s : Shape m n)
    {block : List ℤ → Option (R → List (((Fin m → ℤ) × (Fin n → ℤ)) × R))} {pat : Pattern m n}
    (hb : Follows block pat) (hp : Enumerates sp sh pat) (hs : Uniform sp sh s)
    (entries : List ((Fin m → ℕ) × (Fin n → ℕ) × R))
    (ho : ∀ e ∈ entries, OrderedWithin sp e.1 ∧ OrderedWithin sh e.2.1)
    (hr : ∀ e ∈ entries, (∀ i, e.1 i < s.particles i) ∧ ∀ i, e.2.1 i < s.holes i)
    (hn : (entries.map fun e => (e.1, e.2.1)).Nodup) (P : Fin m → ℕ) (H : Fin n → ℕ)
    (hout : (∃ i, s.particles i ≤ P i) ∨ ∃ i, s.holes i ≤ H i)
    (rows : List (List ℕ)) (vals : List R) :
    unravelCase s block true ((entries.map fun e => rowOf e.1 e.2.1) ++ rowOf P H :: rows)
        ((entries.map fun e => e.2.2) ++ vals) = .error .indexError := by
  obtain ⟨T', h1, _⟩ := unravelLoop_sweeps s hb hp hs entries (fun _ => 0) ho hr hn
  rw [unravelCase, if_pos rfl, h1 (rowOf P H :: rows) vals, unravelLoop, hb P H]
  cases vals with
  | nil => rfl
  | cons x vals =>
    simp only
    obtain ⟨e, he⟩ : ∃ e, assignAll s
        (pat.map fun e => (castKey (P ∘ e.1, H ∘ e.2.1), e.2.2 • x)) T' = .error e ∧
          e = .indexError := by
      have hbad : ∀ e ∈ pat, (∃ i, s.particles i ≤ (P ∘ e.1) i) ∨ ∃ i, s.holes i ≤ (H ∘ e.2.1) i := by
        intro e he
        obtain ⟨g, hg, rfl⟩ := hp.only e he
        rcases hout with ⟨i, hi⟩ | ⟨i, hi⟩
        · refine Or.inl ⟨g.1.symm i, ?_⟩
          have h2 := hg.1 (g.1.symm i)
          simp only [Equiv.apply_symm_apply] at h2
          rw [hs.1 _ i h2.symm]
          simpa using hi
        · refine Or.inr ⟨g.2.symm i, ?_⟩
          have h2 := hg.2 (g.2.symm i)
          simp only [Equiv.apply_symm_apply] at h2
          rw [hs.2 _ i h2.symm]
          simpa using hi
      have hne : pat ≠ [] := fun hc => by
        have := hp.all 1 (isGroup_spinExchange sp sh).one
        rw [hc] at this
        simp at this
      obtain ⟨e, es, rfl⟩ := List.exists_cons_of_ne_nil hne
      refine ⟨.indexError, ?_, rfl⟩
      rw [List.map_cons, assignAll]
      have : assign s T' (castKey (P ∘ e.1, H ∘ e.2.1), e.2.2 • x) = .error .indexError := by
        unfold assign castKey
        simp only
        rcases hbad e (by simp) with h | h
        · rw [resolveTuple_ge h]
        · rw [resolveTuple_ge h]
          cases resolveTuple s.particles fun i => ((P ∘ e.1) i : ℤ) <;> rfl
      rw [this]
    rw [he.1, he.2]

theorem castvec3 (P : Fin 3 → ℕ) (p q r : Fin 3) :
    (fun i => ((P ∘ ![p, q, r]) i : ℤ)) = ![(P p : ℤ), (P q : ℤ), (P r : ℤ)] := by
  funext i
  match i with
  | 0 => rfl
  | 1 => rfl
  | 2 => rfl

theorem castvec2 (P : Fin 2 → ℕ) (p q : Fin 2) :
    (fun i => ((P ∘ ![p, q]) i : ℤ)) = ![(P p : ℤ), (P q : ℤ)] := by
  funext i
  match i with
  | 0 => rfl
  | 1 => rfl

theorem row33 (P H : Fin 3 → ℕ) : ((rowOf P H).map fun x => (x : ℤ) - 1) =
    [(P 0 : ℤ), (P 1 : ℤ), (P 2 : ℤ), (H 0 : ℤ), (H 1 : ℤ), (H 2 : ℤ)] := by
  simp [rowOf, List.ofFn_succ]

theorem row32 (P : Fin 3 → ℕ) (H : Fin 2 → ℕ) : ((rowOf P H).map fun x => (x : ℤ) - 1) =
    [(P 0 : ℤ), (P 1 : ℤ), (P 2 : ℤ), (H 0 : ℤ), (H 1 : ℤ)] := by
  simp [rowOf, List.ofFn_succ]

theorem row23 (P : Fin 2 → ℕ) (H : Fin 3 → ℕ) : ((rowOf P H).map fun x => (x : ℤ) - 1) =
    [(P 0 : ℤ), (P 1 : ℤ), (H 0 : ℤ), (H 1 : ℤ), (H 2 : ℤ)] := by
  simp [rowOf, List.ofFn_succ]

/-- all 36 exchanges, particles outermost -/
def patAaa : Pattern 3 3 :=
  [(![0,1,2], 1), (![0,2,1], -1), (![1,2,0], 1), (![1,0,2], -1), (![2,0,1], 1), (![2,1,0], -1)].flatMap
    fun (p : (Fin 3 → Fin 3) × ℤ) =>
      [(![0,1,2], 1), (![0,2,1], -1), (![1,0,2], -1), (![1,2,0], 1), (![2,0,1], 1), (![2,1,0], -1)].map
        fun (h : (Fin 3 → Fin 3) × ℤ) => (p.1, h.1, p.2 * h.2)

def patEaAaa : Pattern 3 2 :=
  [(![0,1], 1), (![1,0], -1)].flatMap
    fun (h : (Fin 2 → Fin 2) × ℤ) =>
      [(![0,1,2], 1), (![0,2,1], -1), (![1,2,0], 1), (![1,0,2], -1), (![2,0,1], 1), (![2,1,0], -1)].map
        fun (p : (Fin 3 → Fin 3) × ℤ) => (p.1, h.1, p.2 * h.2)

def patEaAab : Pattern 3 2 :=
  [(![0,1,2], ![0,1], 1), (![1,0,2], ![0,1], -1)]

def patEaAbb : Pattern 3 2 :=
  [(![0,1,2], ![0,1], 1), (![0,2,1], ![0,1], -1), (![0,1,2], ![1,0], -1), (![0,2,1], ![1,0], 1)]

def patIpAaa : Pattern 2 3 :=
  [(![0,1], 1), (![1,0], -1)].flatMap
    fun (p : (Fin 2 → Fin 2) × ℤ) =>
      [(![0,1,2], 1), (![0,2,1], -1), (![1,2,0], 1), (![1,0,2], -1), (![2,0,1], 1), (![2,1,0], -1)].map
        fun (h : (Fin 3 → Fin 3) × ℤ) => (p.1, h.1, p.2 * h.2)

def patIpAab : Pattern 2 3 :=
  [(![0,1], ![0,1,2], 1), (![0,1], ![1,0,2], -1)]

section follow
variable [AddCommGroup R]

theorem follows_aaa : Follows (R := R) blockAaa patAaa := by
  intro P H
  rw [row33]
  simp only [blockAaa, patAaa, List.flatMap_cons, List.flatMap_nil, List.map_cons, List.map_nil,
    List.cons_append, List.nil_append, List.append_nil, castKey, castvec3]
  simp

theorem follows_bbb : Follows (R := R) blockBbb patAaa := by
  intro P H
  rw [row33]
  simp only [blockBbb, patAaa, List.flatMap_cons, List.flatMap_nil, List.map_cons, List.map_nil,
    List.cons_append, List.nil_append, List.append_nil, castKey, castvec3]
  simp

theorem follows_aab : Follows (R := R) blockAab patternAab := by
  intro P H
  rw [row33]
  simp only [blockAab, patternAab, List.map_cons, List.map_nil, castKey, castvec3]
  simp

theorem follows_abb : Follows (R := R) blockAbb patternAbb := by
  intro P H
  rw [row33]
  simp only [blockAbb, patternAbb, List.map_cons, List.map_nil, castKey, castvec3]
  simp

theorem follows_eaAaa : Follows (R := R) blockEaAaa patEaAaa := by
  intro P H
  rw [row32]
  simp only [blockEaAaa, patEaAaa, List.flatMap_cons, List.flatMap_nil, List.map_cons, List.map_nil,
    List.cons_append, List.nil_append, List.append_nil, castKey, castvec3, castvec2]
  simp

theorem follows_eaAab : Follows (R := R) blockEaAab patEaAab := by
  intro P H
  rw [row32]
  simp only [blockEaAab, patEaAab, List.map_cons, List.map_nil, castKey, castvec3, castvec2]
  simp

theorem follows_eaAbb : Follows (R := R) blockEaAbb patEaAbb := by
  intro P H
  rw [row32]
  simp only [blockEaAbb, patEaAbb, List.map_cons, List.map_nil, castKey, castvec3, castvec2]
  simp

theorem follows_ipAaa : Follows (R := R) blockIpAaa patIpAaa := by
  intro P H
  rw [row23]
  simp only [blockIpAaa, patIpAaa, List.flatMap_cons, List.flatMap_nil, List.map_cons, List.map_nil,
    List.cons_append, List.nil_append, List.append_nil, castKey, castvec3, castvec2]
  simp

theorem follows_ipAab : Follows (R := R) blockIpAab patIpAab := by
  intro P H
  rw [row23]
  simp only [blockIpAab, patIpAab, List.map_cons, List.map_nil, castKey, castvec3, castvec2]
  simp

end follow

theorem enumerates_of {sp : Fin m → Bool} {sh : Fin n → Bool} {pat : Pattern m n}
    (h1 : ∀ g : Perm (Fin m) × Perm (Fin n), ((∀ i, sp (g.1 i) = sp i) ∧ ∀ i, sh (g.2 i) = sh i) →
      ((⇑g.1, ⇑g.2, ((Perm.sign g.1 * Perm.sign g.2 : ℤˣ) : ℤ)) :
      (Fin m → Fin m) × (Fin n → Fin n) × ℤ) ∈ pat)
    (h2 : ∀ e ∈ pat, ∃ g : Perm (Fin m) × Perm (Fin n),
      ((∀ i, sp (g.1 i) = sp i) ∧ ∀ i, sh (g.2 i) = sh i) ∧
      e = (⇑g.1, ⇑g.2, ((Perm.sign g.1 * Perm.sign g.2 : ℤˣ) : ℤ))) : Enumerates sp sh pat :=
  ⟨h1, h2⟩

theorem enum_aaa : Enumerates ![false, false, false] ![false, false, false] patAaa :=
  enumerates_of (by decide +kernel) (by decide +kernel)

theorem enum_bbb : Enumerates ![true, true, true] ![true, true, true] patAaa :=
  enumerates_of (by decide +kernel) (by decide +kernel)

theorem enum_aab : Enumerates ![false, false, true] ![false, false, true] patternAab :=
  enumerates_of (by decide +kernel) (by decide +kernel)

theorem enum_abb : Enumerates ![false, true, true] ![false, true, true] patternAbb :=
  enumerates_of (by decide +kernel) (by decide +kernel)

theorem enum_eaAaa : Enumerates ![false, false, false] ![false, false] patEaAaa :=
  enumerates_of (by decide +kernel) (by decide +kernel)

theorem enum_eaAab : Enumerates ![false, false, true] ![false, true] patEaAab :=
  enumerates_of (by decide +kernel) (by decide +kernel)

theorem enum_eaAbb : Enumerates ![false, true, true] ![true, true] patEaAbb :=
  enumerates_of (by decide +kernel) (by decide +kernel)

theorem enum_ipAaa : Enumerates ![false, false] ![false, false, false] patIpAaa :=
  enumerates_of (by decide +kernel) (by decide +kernel)

theorem enum_ipAab : Enumerates ![false, true] ![false, false, true] patIpAab :=
  enumerates_of (by decide +kernel) (by decide +kernel)

/-- the shape of a tensor whose axes follow the spins -/
def spinShape (sp : Fin m → Bool) (sh : Fin n → Bool) (z : Sizes) : Shape m n :=
  ⟨fun i => if sp i then z.nub else z.nua, fun i => if sh i then z.nob else z.noa⟩

theorem uniform_spinShape (sp : Fin m → Bool) (sh : Fin n → Bool) (z : Sizes) :
    Uniform sp sh (spinShape sp sh z) :=
  ⟨fun i j h => by simp only [spinShape, h], fun i j h => by simp only [spinShape, h]⟩

theorem fin3_ext {α : Type*} {f g : Fin 3 → α} (h0 : f 0 = g 0) (h1 : f 1 = g 1) (h2 : f 2 = g 2) :
    f = g := by
  funext i
  match i with
  | 0 => exact h0
  | 1 => exact h1
  | 2 => exact h2

theorem fin2_ext {α : Type*} {f g : Fin 2 → α} (h0 : f 0 = g 0) (h1 : f 1 = g 1) : f = g := by
  funext i
  match i with
  | 0 => exact h0
  | 1 => exact h1

theorem shape_aaa (z : Sizes) : shapeAaa z = spinShape ![false, false, false] ![false, false, false] z := by
  simp only [shapeAaa, spinShape, Shape.mk.injEq]
  exact ⟨fin3_ext rfl rfl rfl, fin3_ext rfl rfl rfl⟩

theorem shape_aab (z : Sizes) : shapeAab z = spinShape ![false, false, true] ![false, false, true] z := by
  simp only [shapeAab, spinShape, Shape.mk.injEq]
  exact ⟨fin3_ext rfl rfl rfl, fin3_ext rfl rfl rfl⟩

theorem shape_abb (z : Sizes) : shapeAbb z = spinShape ![false, true, true] ![false, true, true] z := by
  simp only [shapeAbb, spinShape, Shape.mk.injEq]
  exact ⟨fin3_ext rfl rfl rfl, fin3_ext rfl rfl rfl⟩

theorem shape_bbb (z : Sizes) : shapeBbb z = spinShape ![true, true, true] ![true, true, true] z := by
  simp only [shapeBbb, spinShape, Shape.mk.injEq]
  exact ⟨fin3_ext rfl rfl rfl, fin3_ext rfl rfl rfl⟩

theorem shape_eaAaa (z : Sizes) : shapeEaAaa z = spinShape ![false, false, false] ![false, false] z := by
  simp only [shapeEaAaa, spinShape, Shape.mk.injEq]
  exact ⟨fin3_ext rfl rfl rfl, fin2_ext rfl rfl⟩

theorem shape_eaAab (z : Sizes) : shapeEaAab z = spinShape ![false, false, true] ![false, true] z := by
  simp only [shapeEaAab, spinShape, Shape.mk.injEq]
  exact ⟨fin3_ext rfl rfl rfl, fin2_ext rfl rfl⟩

theorem shape_eaAbb (z : Sizes) : shapeEaAbb z = spinShape ![false, true, true] ![true, true] z := by
  simp only [shapeEaAbb, spinShape, Shape.mk.injEq]
  exact ⟨fin3_ext rfl rfl rfl, fin2_ext rfl rfl⟩

theorem shape_ipAaa (z : Sizes) : shapeIpAaa z = spinShape ![false, false] ![false, false, false] z := by
  simp only [shapeIpAaa, spinShape, Shape.mk.injEq]
  exact ⟨fin2_ext rfl rfl, fin3_ext rfl rfl rfl⟩

theorem shape_ipAab (z : Sizes) : shapeIpAab z = spinShape ![false, true] ![false, false, true] z := by
  simp only [shapeIpAab, spinShape, Shape.mk.injEq]
  exact ⟨fin2_ext rfl rfl, fin3_ext rfl rfl rfl⟩

end Ccpy.Unravel
