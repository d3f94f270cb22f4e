import Verif.Model.PSpaceIteration
import Verif.Spec.PSpaceEquations
import Verif.Lemmas.PSpaceLow
import Verif.Props.CcsdtP

/-! When an iteration of CCSDT(P) is at rest. -/

namespace Ccpy.PSpace
open Ccpy.Tensor Ccpy.Fock Ccpy.Ccsdt Ccpy.Engine Ccpy.Ccsd

variable {ι : Type*} [LinearOrder ι]

/-! ### Single and double excitations -/

def lowProgram (s : Setup) (X : Ints) (L : Lists) : List (Memory → (List ℕ → ℚ) × (List ℕ → ℚ)) :=
  [fun m => callT1a s m amplitudes3.toAmps (ints1 X) stored L.aaa.buffer L.aab.buffer L.abb.buffer (m 6),
   fun m => callT1b s m stage1.toAmps (ints1 X) stored L.aab.buffer L.abb.buffer L.bbb.buffer (m 7),
   fun m => callT2a s m stage2.toAmps (ints2 X) stored L.aaa.buffer L.aab.buffer (m 8),
   fun m => callT2b s m stage3.toAmps (ints2 X) stored L.aab.buffer L.abb.buffer (m 9),
   fun m => callT2c s m stage4.toAmps (ints2 X) stored L.abb.buffer L.bbb.buffer (m 10)]

theorem updateLow_eq (s : Setup) (X : Ints) (m : Memory) (L : Lists) :
    updateLow s X m L = (stages m (lowProgram s X L) 1, stage5.toAmps, ints2 X) := by
  delta updateLow
  extract_lets T X₁ m₁ T₁ m₂ T₂ X₂ m₃ T₃ m₄ T₄ m₅ T₅
  have e₁ : stages m (lowProgram s X L) 1 = stages m₁ ((lowProgram s X L).drop 1) 2 := rfl
  have e₂ : stages m₁ ((lowProgram s X L).drop 1) 2 = stages m₂ ((lowProgram s X L).drop 2) 3 := rfl
  have e₃ : stages m₂ ((lowProgram s X L).drop 2) 3 = stages m₃ ((lowProgram s X L).drop 3) 4 := rfl
  have e₄ : stages m₃ ((lowProgram s X L).drop 3) 4 = stages m₄ ((lowProgram s X L).drop 4) 5 := rfl
  have e₅ : stages m₄ ((lowProgram s X L).drop 4) 5 = m₅ := rfl
  rw [e₁, e₂, e₃, e₄, e₅]
  rfl

/-! ### Lists -/

theorem list_perm_fst {t : Buffer} {s : State} (hf : s.Full) (hl : t.amps.length = t.excits.length)
    {g : List ℕ × ℚ → ℚ × ℚ} (hp : s.records.Perm (t.list.map fun x => (x.1, g x))) : s.excits.Perm t.excits := by
  have h₁ : s.records.map Prod.fst = s.excits := List.map_fst_zip (by
    rw [List.length_zip, hf.amps, hf.resid, Nat.min_self])
  have h₂ : (t.list.map fun x => (x.1, g x)).map Prod.fst = t.excits := by
    rw [List.map_map]
    exact List.map_fst_zip hl.ge
  have := hp.map Prod.fst
  rwa [h₁, h₂] at this

theorem list_records {s : State} (hf : s.Full) : s.buffer.list = s.records.map fun x => (x.1, x.2.1) := by
  unfold State.buffer Buffer.list State.records
  have : s.amps = (s.amps.zip s.resid).map Prod.fst := (List.map_fst_zip (by rw [hf.amps, hf.resid])).symm
  conv_lhs => rw [this]
  rw [List.zip_map_right]
  rfl

/-- A list is at rest exactly when the projections on its excitations vanish. -/
theorem list_rest {t : TripleList} (hn : (t.map Prod.fst).Nodup) {l : List (List ℕ × ℚ × ℚ)} {f den : List ℕ → ℚ}
    (hden : ∀ x ∈ t, den x.1 ≠ 0) (hp : l.Perm (t.map fun x => (x.1, x.2 + f x.1 / den x.1, f x.1 / den x.1))) :
    (l.map fun x => (x.1, x.2.1)).Perm t ↔ ∀ x ∈ t, f x.1 = 0 := by
  have hp' := hp.map fun x => (x.1, x.2.1)
  rw [List.map_map] at hp'
  constructor
  · intro h x hx
    have h' : (x.1, x.2 + f x.1 / den x.1) ∈ t := (hp'.symm.trans h).mem_iff.1 (List.mem_map.2 ⟨x, hx, rfl⟩)
    have : (x.1, x.2 + f x.1 / den x.1) = x := List.inj_on_of_nodup_map hn h' hx rfl
    have e := congrArg Prod.snd this
    simp only [add_eq_left, div_eq_zero_iff] at e
    exact e.resolve_right (hden x hx)
  · intro h
    refine hp'.trans (List.Perm.of_eq ((List.map_congr_left fun x hx => ?_).trans (List.map_id t)))
    simp [h x hx]

theorem ofThree_perm {t u : TripleList} (h : t.Perm u) : t.ofThree = u.ofThree := by
  funext a b c i j k
  exact (h.map _).sum_eq
theorem ofTwoOne_perm {t u : TripleList} (h : t.Perm u) : t.ofTwoOne = u.ofTwoOne := by
  funext a b c i j k
  exact (h.map _).sum_eq
theorem ofOneTwo_perm {t u : TripleList} (h : t.Perm u) : t.ofOneTwo = u.ofOneTwo := by
  funext a b c i j k
  exact (h.map _).sum_eq

theorem listed3_perm {a b c d a' b' c' d' : TripleList} (ha : a'.Perm a) (hb : b'.Perm b) (hc : c'.Perm c) (hd : d'.Perm d) :
    listed3 a' b' c' d' = listed3 a b c d := by
  unfold listed3
  rw [ofThree_perm ha, ofTwoOne_perm hb, ofOneTwo_perm hc, ofThree_perm hd]

theorem usable_perm {t s : State} {P : List ℕ → Prop} (hl : s.amps.length = s.excits.length) (hp : s.excits.Perm t.excits)
    (h : t.excits ≠ [] ∧ t.excits ≠ [[1, 1, 1, 1, 1, 1]] ∧ ∀ q ∈ t.excits, P q) : s.buffer.Usable P := by
  refine ⟨hl, Or.inr ⟨fun e => ?_, fun e => h.2.1 ?_, fun q hq => h.2.2 q (hp.mem_iff.1 hq)⟩⟩
  · have e : s.excits = [] := e
    rw [e] at hp
    exact h.1 hp.symm.eq_nil
  · have e : s.excits = [[1, 1, 1, 1, 1, 1]] := e
    rw [e] at hp
    exact List.perm_singleton.1 hp.symm

/-- A list with excitations. -/
theorem active_rows {t : State} {P : List ℕ → Prop} (h : t.buffer.Usable P) (hP : ¬ P [1, 1, 1, 1, 1, 1]) :
    (t.active = some false ∧ t.excits = [[1, 1, 1, 1, 1, 1]])
      ∨ (t.active = some true ∧ t.excits ≠ [] ∧ t.excits ≠ [[1, 1, 1, 1, 1, 1]] ∧ ∀ q ∈ t.excits, P q) := by
  rcases h.rows with ⟨h₁, h₂⟩ | ⟨h₁, h₂, h₃⟩
  · left
    have h₁ : t.excits = [[1, 1, 1, 1, 1, 1]] := h₁
    exact ⟨by rw [State.active, h₁]; decide, h₁⟩
  · right
    refine ⟨?_, h₁, h₂, h₃⟩
    obtain ⟨q, l, hq⟩ := List.exists_cons_of_ne_nil h₁
    have hq : t.excits = q :: l := hq
    rw [State.active, hq]
    simp only [List.head?_cons, Option.map_some, Option.some.injEq, decide_eq_true_eq]
    exact fun e => hP (e ▸ h₃ q (by show q ∈ t.excits; rw [hq]; simp))

theorem not_aaa (u n : ℕ) : ¬ ListedAAA u n [1, 1, 1, 1, 1, 1] := by
  rintro ⟨a, b, c, i, j, k, h, _⟩
  simp only [List.cons.injEq] at h
  omega
theorem not_aab (ua ub na nb : ℕ) : ¬ ListedAAB ua ub na nb [1, 1, 1, 1, 1, 1] := by
  rintro ⟨a, b, c, i, j, k, h, _⟩
  simp only [List.cons.injEq] at h
  omega
theorem not_abb (ua ub na nb : ℕ) : ¬ ListedABB ua ub na nb [1, 1, 1, 1, 1, 1] := by
  rintro ⟨a, b, c, i, j, k, h, _⟩
  simp only [List.cons.injEq] at h
  omega

theorem excits_list {t : State} (h : t.amps.length = t.excits.length) : t.buffer.list.map Prod.fst = t.excits := List.map_fst_zip h.ge

/-- One update of a list, which before has been reordered at most. -/
theorem step_rest {P : List ℕ → Prop} {t₀ t₁ s : State} {f den : List ℕ → ℚ} (hr : ∀ q ∈ t₀.excits, P q)
    (hl₀ : t₀.amps.length = t₀.excits.length) (hl₁ : t₁.amps.length = t₁.excits.length) (hn : t₀.excits.Nodup)
    (h₁ : t₁.buffer.list.Perm t₀.buffer.list) (hden : ∀ q ∈ t₀.excits, P q → den q ≠ 0) (hf : s.Full)
    (hp : s.records.Perm (t₁.buffer.list.map fun x => (x.1, x.2 + f x.1 / den x.1, f x.1 / den x.1))) :
    (s.buffer.list.Perm t₀.buffer.list ↔ ∀ q ∈ t₀.excits, P q → f q = 0) ∧ s.excits.Perm t₀.excits := by
  have hx : t₁.excits.Perm t₀.excits := by
    have := h₁.map Prod.fst
    rwa [excits_list hl₀, excits_list hl₁] at this
  have hm : ∀ x ∈ t₁.buffer.list, x.1 ∈ t₀.excits := fun x h => hx.mem_iff.1 (excits_list hl₁ ▸ List.mem_map_of_mem h)
  refine ⟨?_, (list_perm_fst (t := t₁.buffer) hf hl₁ (g := fun x => (x.2 + f x.1 / den x.1, f x.1 / den x.1)) hp).trans hx⟩
  have key := list_rest (t := t₁.buffer.list) (by rw [excits_list hl₁]; exact hx.nodup_iff.2 hn)
    (fun x h => hden _ (hm x h) (hr _ (hm x h))) hp
  rw [← list_records hf] at key
  refine (Iff.trans ⟨fun h => h.trans h₁.symm, fun h => h.trans h₁⟩ key).trans ⟨fun h q hq _ => ?_, fun h x hx => h _ (hm x hx) (hr _ (hm x hx))⟩
  obtain ⟨x, hx', rfl⟩ := List.mem_map.1 ((excits_list hl₁).symm ▸ hx.mem_iff.2 hq : q ∈ t₁.buffer.list.map Prod.fst)
  exact h x hx'

/-- Lists that are a reordering of other lists. -/
structure Near (S : Orbitals ι) (L L₁ : Lists) : Prop where
  ua : L₁.aaa.buffer.Usable (ListedAAA S.ua S.na)
  ub : L₁.aab.buffer.Usable (ListedAAB S.ua S.ub S.na S.nb)
  uc : L₁.abb.buffer.Usable (ListedABB S.ua S.ub S.na S.nb)
  ud : L₁.bbb.buffer.Usable (ListedAAA S.ub S.nb)
  aaa : L₁.aaa.buffer.list.Perm L.aaa.buffer.list
  aab : L₁.aab.buffer.list.Perm L.aab.buffer.list
  abb : L₁.abb.buffer.list.Perm L.abb.buffer.list
  bbb : L₁.bbb.buffer.list.Perm L.bbb.buffer.list

/-- The rows of a list with excitations. -/
def Rows (t : State) (P : List ℕ → Prop) : Prop := t.excits ≠ [] ∧ t.excits ≠ [[1, 1, 1, 1, 1, 1]] ∧ ∀ q ∈ t.excits, P q

/-- What is known about a flag. -/
def Flag (f : Bool) (t : State) (P : List ℕ → Prop) : Prop := (f = false ∧ t.excits = [[1, 1, 1, 1, 1, 1]]) ∨ (f = true ∧ Rows t P)

theorem rows_perm {t s : State} {P : List ℕ → Prop} (ht : t.amps.length = t.excits.length) (hs : s.amps.length = s.excits.length)
    (hp : s.buffer.list.Perm t.buffer.list) (h : Rows t P) : Rows s P := by
  have hx : s.excits.Perm t.excits := by
    have := hp.map Prod.fst
    rwa [excits_list ht, excits_list hs] at this
  refine ⟨fun e => ?_, fun e => h.2.1 ?_, fun q hq => h.2.2 q (hx.mem_iff.1 hq)⟩
  · rw [e] at hx
    exact h.1 hx.symm.eq_nil
  · rw [e] at hx
    exact List.perm_singleton.1 hx.symm

section
variable {S : Orbitals ι} (h : S.Proper) {Z : Fock.Integrals} (hZ : Z.Antisym) {T : Cluster} (hT : T.Antisym) (shift : ℚ)
  {m : Memory} (hm : ∀ n, 6 ≤ n → n ≤ 10 → m n = T.amp n) {L : Lists}
  (hL : ProperLists S L.aaa.buffer L.aab.buffer L.abb.buffer L.bbb.buffer)
  (hd : ListedDenominators S Z shift L.aaa.buffer L.aab.buffer L.abb.buffer L.bbb.buffer)

/-- The projections with the amplitudes of four lists. -/
noncomputable abbrev projected (S : Orbitals ι) (Z : Fock.Integrals) (T : Cluster) (L : Lists) : Operator ι :=
  transformed3 S Z T (listed3 L.aaa.buffer.list L.aab.buffer.list L.abb.buffer.list L.bbb.buffer.list)

theorem Near.projected {L L₁ : Lists} (h : Near S L L₁) : PSpace.projected S Z T L₁ = PSpace.projected S Z T L := by
  unfold PSpace.projected
  rw [listed3_perm h.aaa h.aab h.abb h.bbb]

theorem near_refl (hL : ProperLists S L.aaa.buffer L.aab.buffer L.abb.buffer L.bbb.buffer) : Near S L L :=
  ⟨hL.aaa, hL.aab, hL.abb, hL.bbb, List.Perm.refl _, List.Perm.refl _, List.Perm.refl _, List.Perm.refl _⟩

section
include h hZ hT hm hL hd
theorem stepA {f : Bool} (hf : Flag f L.aaa (ListedAAA S.ua S.na)) {L₁ : Lists} (n : Near S L L₁) :
    ∃ L₂, onlyIf f (L₁.stepA (dimsOf (setup S Z shift)) (dressed (setup S Z shift) m amplitudes3.toAmps hbar2)) L₁ = some L₂
      ∧ (L₂.aaa.buffer.list.Perm L.aaa.buffer.list ↔ ∀ q ∈ L.aaa.excits, ListedAAA S.ua S.na q →
        atRow (fun a b c i j k => S.element (S.tripleAAA a b c i j k) (projected S Z T L)) q = 0)
      ∧ (L₂.aaa.buffer.list.Perm L.aaa.buffer.list → Near S L L₂) := by
  rcases hf with ⟨rfl, e⟩ | ⟨rfl, hr⟩
  · refine ⟨L₁, rfl, ⟨fun _ q hq hP => absurd hP ?_, fun _ => n.aaa⟩, fun _ => n⟩
    rw [e, List.mem_singleton] at hq
    rw [hq]
    exact not_aaa _ _
  · have r₁ := rows_perm hL.aaa.length n.ua.length n.aaa hr
    obtain ⟨s, e, full, hp⟩ := C82_t3a h hZ hT shift stored hm L₁.aaa.buffer L₁.aab.buffer L₁.abb.buffer L₁.bbb.buffer r₁.1 r₁.2.2
      n.ua.length n.ub n.uc n.ud
    rw [dressed_start] at e
    have c := step_rest (P := ListedAAA S.ua S.na) (t₀ := L.aaa) (t₁ := L₁.aaa) (s := s)
      (f := atRow fun a b c i j k => S.element (S.tripleAAA a b c i j k) (projected S Z T L₁))
      (den := fun q => atRow (tripleGapAAA S Z) q - shift) hr.2.2 hL.aaa.length n.ua.length hL.aaa_once n.aaa hd.aaa full hp
    rw [n.projected] at c
    refine ⟨{ L₁ with aaa := s }, ?_, c.1, fun g => ?_⟩
    · simp only [onlyIf, if_true, Lists.stepA, e, Option.bind_eq_bind, Option.bind_some]
    · exact ⟨usable_perm full.amps c.2 hr, n.ub, n.uc, n.ud, g, n.aab, n.abb, n.bbb⟩
end

theorem keepA {d : Dims} {D : Dressed} {f : Bool} {L₁ L₂ : Lists} (h : onlyIf f (L₁.stepA d D) L₁ = some L₂) :
    L₂.aab = L₁.aab ∧ L₂.abb = L₁.abb ∧ L₂.bbb = L₁.bbb := by
  cases f
  · cases h
    exact ⟨rfl, rfl, rfl⟩
  · simp only [onlyIf, if_true, Lists.stepA, Option.bind_eq_bind, Option.bind_eq_some_iff] at h
    obtain ⟨s, _, e⟩ := h
    cases e
    exact ⟨rfl, rfl, rfl⟩

section
include h hZ hT hm hL hd
theorem stepB (hn : S.nb ≤ S.na) {f : Bool} (hf : Flag f L.aab (ListedAAB S.ua S.ub S.na S.nb)) {L₁ : Lists} (n : Near S L L₁) :
    ∃ L₂, onlyIf f (L₁.stepB (dimsOf (setup S Z shift)) (dressed (setup S Z shift) m amplitudes3.toAmps hbar2)) L₁ = some L₂
      ∧ (L₂.aab.buffer.list.Perm L.aab.buffer.list ↔ ∀ q ∈ L.aab.excits, ListedAAB S.ua S.ub S.na S.nb q →
        atRow (fun a b c i j k => S.element (S.tripleAAB a b c i j k) (projected S Z T L)) q = 0)
      ∧ (L₂.aab.buffer.list.Perm L.aab.buffer.list → Near S L L₂) := by
  rcases hf with ⟨rfl, e⟩ | ⟨rfl, hr⟩
  · refine ⟨L₁, rfl, ⟨fun _ q hq hP => absurd hP ?_, fun _ => n.aab⟩, fun _ => n⟩
    rw [e, List.mem_singleton] at hq
    rw [hq]
    exact not_aab _ _ _ _
  · have r₁ := rows_perm hL.aab.length n.ub.length n.aab hr
    obtain ⟨s, e, full, hp⟩ := C82_t3b h hZ hT shift stored hm L₁.aaa.buffer L₁.aab.buffer L₁.abb.buffer L₁.bbb.buffer hn r₁.1 r₁.2.2
      n.ub.length n.ua n.uc n.ud
    rw [dressed_start] at e
    have c := step_rest (P := ListedAAB S.ua S.ub S.na S.nb) (t₀ := L.aab) (t₁ := L₁.aab) (s := s)
      (f := atRow fun a b c i j k => S.element (S.tripleAAB a b c i j k) (projected S Z T L₁))
      (den := fun q => atRow (tripleGapAAB S Z) q - shift) hr.2.2 hL.aab.length n.ub.length hL.aab_once n.aab hd.aab full hp
    rw [n.projected] at c
    refine ⟨{ L₁ with aab := s }, ?_, c.1, fun g => ?_⟩
    · simp only [onlyIf, if_true, Lists.stepB, e, Option.bind_eq_bind, Option.bind_some]
    · exact ⟨n.ua, usable_perm full.amps c.2 hr, n.uc, n.ud, n.aaa, g, n.abb, n.bbb⟩
end

theorem keepB {d : Dims} {D : Dressed} {f : Bool} {L₁ L₂ : Lists} (h : onlyIf f (L₁.stepB d D) L₁ = some L₂) :
    L₂.aaa = L₁.aaa ∧ L₂.abb = L₁.abb ∧ L₂.bbb = L₁.bbb := by
  cases f
  · cases h
    exact ⟨rfl, rfl, rfl⟩
  · simp only [onlyIf, if_true, Lists.stepB, Option.bind_eq_bind, Option.bind_eq_some_iff] at h
    obtain ⟨s, _, e⟩ := h
    cases e
    exact ⟨rfl, rfl, rfl⟩

section
include h hZ hT hm hL hd
theorem stepC {f : Bool} (hf : Flag f L.abb (ListedABB S.ua S.ub S.na S.nb)) {L₁ : Lists} (n : Near S L L₁) :
    ∃ L₂, onlyIf f (L₁.stepC (dimsOf (setup S Z shift)) (dressed (setup S Z shift) m amplitudes3.toAmps hbar2)) L₁ = some L₂
      ∧ (L₂.abb.buffer.list.Perm L.abb.buffer.list ↔ ∀ q ∈ L.abb.excits, ListedABB S.ua S.ub S.na S.nb q →
        atRow (fun a b c i j k => S.element (S.tripleABB a b c i j k) (projected S Z T L)) q = 0)
      ∧ (L₂.abb.buffer.list.Perm L.abb.buffer.list → Near S L L₂) := by
  rcases hf with ⟨rfl, e⟩ | ⟨rfl, hr⟩
  · refine ⟨L₁, rfl, ⟨fun _ q hq hP => absurd hP ?_, fun _ => n.abb⟩, fun _ => n⟩
    rw [e, List.mem_singleton] at hq
    rw [hq]
    exact not_abb _ _ _ _
  · have r₁ := rows_perm hL.abb.length n.uc.length n.abb hr
    obtain ⟨s, e, full, hp⟩ := C82_t3c h hZ hT shift stored hm L₁.aaa.buffer L₁.aab.buffer L₁.abb.buffer L₁.bbb.buffer r₁.1 r₁.2.2
      n.uc.length n.ua n.ub n.ud
    rw [dressed_start] at e
    have c := step_rest (P := ListedABB S.ua S.ub S.na S.nb) (t₀ := L.abb) (t₁ := L₁.abb) (s := s)
      (f := atRow fun a b c i j k => S.element (S.tripleABB a b c i j k) (projected S Z T L₁))
      (den := fun q => atRow (tripleGapABB S Z) q - shift) hr.2.2 hL.abb.length n.uc.length hL.abb_once n.abb hd.abb full hp
    rw [n.projected] at c
    refine ⟨{ L₁ with abb := s }, ?_, c.1, fun g => ?_⟩
    · simp only [onlyIf, if_true, Lists.stepC, e, Option.bind_eq_bind, Option.bind_some]
    · exact ⟨n.ua, n.ub, usable_perm full.amps c.2 hr, n.ud, n.aaa, n.aab, g, n.bbb⟩
end

theorem keepC {d : Dims} {D : Dressed} {f : Bool} {L₁ L₂ : Lists} (h : onlyIf f (L₁.stepC d D) L₁ = some L₂) :
    L₂.aaa = L₁.aaa ∧ L₂.aab = L₁.aab ∧ L₂.bbb = L₁.bbb := by
  cases f
  · cases h
    exact ⟨rfl, rfl, rfl⟩
  · simp only [onlyIf, if_true, Lists.stepC, Option.bind_eq_bind, Option.bind_eq_some_iff] at h
    obtain ⟨s, _, e⟩ := h
    cases e
    exact ⟨rfl, rfl, rfl⟩

section
include h hZ hT hm hL hd
theorem stepD {f : Bool} (hf : Flag f L.bbb (ListedAAA S.ub S.nb)) {L₁ : Lists} (n : Near S L L₁) :
    ∃ L₂, onlyIf f (L₁.stepD (dimsOf (setup S Z shift)) (dressed (setup S Z shift) m amplitudes3.toAmps hbar2)) L₁ = some L₂
      ∧ (L₂.bbb.buffer.list.Perm L.bbb.buffer.list ↔ ∀ q ∈ L.bbb.excits, ListedAAA S.ub S.nb q →
        atRow (fun a b c i j k => S.element (S.tripleBBB a b c i j k) (projected S Z T L)) q = 0)
      ∧ (L₂.bbb.buffer.list.Perm L.bbb.buffer.list → Near S L L₂) := by
  rcases hf with ⟨rfl, e⟩ | ⟨rfl, hr⟩
  · refine ⟨L₁, rfl, ⟨fun _ q hq hP => absurd hP ?_, fun _ => n.bbb⟩, fun _ => n⟩
    rw [e, List.mem_singleton] at hq
    rw [hq]
    exact not_aaa _ _
  · have r₁ := rows_perm hL.bbb.length n.ud.length n.bbb hr
    obtain ⟨s, e, full, hp⟩ := C82_t3d h hZ hT shift stored hm L₁.aaa.buffer L₁.aab.buffer L₁.abb.buffer L₁.bbb.buffer r₁.1 r₁.2.2
      n.ud.length n.ua n.ub n.uc
    rw [dressed_start] at e
    have c := step_rest (P := ListedAAA S.ub S.nb) (t₀ := L.bbb) (t₁ := L₁.bbb) (s := s)
      (f := atRow fun a b c i j k => S.element (S.tripleBBB a b c i j k) (projected S Z T L₁))
      (den := fun q => atRow (tripleGapBBB S Z) q - shift) hr.2.2 hL.bbb.length n.ud.length hL.bbb_once n.bbb hd.bbb full hp
    rw [n.projected] at c
    refine ⟨{ L₁ with bbb := s }, ?_, c.1, fun g => ?_⟩
    · simp only [onlyIf, if_true, Lists.stepD, e, Option.bind_eq_bind, Option.bind_some]
    · exact ⟨n.ua, n.ub, n.uc, usable_perm full.amps c.2 hr, n.aaa, n.aab, n.abb, g⟩
end

theorem keepD {d : Dims} {D : Dressed} {f : Bool} {L₁ L₂ : Lists} (h : onlyIf f (L₁.stepD d D) L₁ = some L₂) :
    L₂.aaa = L₁.aaa ∧ L₂.aab = L₁.aab ∧ L₂.abb = L₁.abb := by
  cases f
  · cases h
    exact ⟨rfl, rfl, rfl⟩
  · simp only [onlyIf, if_true, Lists.stepD, Option.bind_eq_bind, Option.bind_eq_some_iff] at h
    obtain ⟨s, _, e⟩ := h
    cases e
    exact ⟨rfl, rfl, rfl⟩

/-- The four updates of lists. -/
def listUpdate (d : Dims) (D : Dressed) (fa fb fc fd : Bool) (L : Lists) : Option Lists := do
  let L ← onlyIf fa (L.stepA d D) L
  let L ← onlyIf fb (L.stepB d D) L
  let L ← onlyIf fc (L.stepC d D) L
  onlyIf fd (L.stepD d D) L

/-- The lists are the old ones up to their order. -/
structure Reordered (L L' : Lists) : Prop where
  aaa : L'.aaa.buffer.list.Perm L.aaa.buffer.list
  aab : L'.aab.buffer.list.Perm L.aab.buffer.list
  abb : L'.abb.buffer.list.Perm L.abb.buffer.list
  bbb : L'.bbb.buffer.list.Perm L.bbb.buffer.list

include h hZ hT hm hL hd
theorem listUpdate_rest (hn : S.nb ≤ S.na) {fa fb fc fd : Bool} (ha : Flag fa L.aaa (ListedAAA S.ua S.na))
    (hb : Flag fb L.aab (ListedAAB S.ua S.ub S.na S.nb)) (hc : Flag fc L.abb (ListedABB S.ua S.ub S.na S.nb))
    (hd' : Flag fd L.bbb (ListedAAA S.ub S.nb)) :
    (∃ L', listUpdate (dimsOf (setup S Z shift)) (dressed (setup S Z shift) m amplitudes3.toAmps hbar2) fa fb fc fd L = some L' ∧ Reordered L L')
      ↔ (∀ q ∈ L.aaa.excits, ListedAAA S.ua S.na q →
          atRow (fun a b c i j k => S.element (S.tripleAAA a b c i j k) (projected S Z T L)) q = 0)
        ∧ (∀ q ∈ L.aab.excits, ListedAAB S.ua S.ub S.na S.nb q →
          atRow (fun a b c i j k => S.element (S.tripleAAB a b c i j k) (projected S Z T L)) q = 0)
        ∧ (∀ q ∈ L.abb.excits, ListedABB S.ua S.ub S.na S.nb q →
          atRow (fun a b c i j k => S.element (S.tripleABB a b c i j k) (projected S Z T L)) q = 0)
        ∧ ∀ q ∈ L.bbb.excits, ListedAAA S.ub S.nb q →
          atRow (fun a b c i j k => S.element (S.tripleBBB a b c i j k) (projected S Z T L)) q = 0 := by
  obtain ⟨L₁, e₁, i₁, n₁⟩ := stepA h hZ hT shift hm hL hd ha (near_refl hL)
  simp only [listUpdate, e₁, Option.bind_eq_bind, Option.bind_some, Option.bind_eq_some_iff]
  constructor
  · rintro ⟨L', ⟨L₂, e₂, L₃, e₃, e₄⟩, r⟩
    have k₂ := keepB e₂
    have k₃ := keepC e₃
    have k₄ := keepD e₄
    have ra : L₁.aaa.buffer.list.Perm L.aaa.buffer.list := by
      rw [← k₂.1, ← k₃.1, ← k₄.1]; exact r.aaa
    obtain ⟨_, e₂', i₂, n₂⟩ := stepB h hZ hT shift hm hL hd hn hb (n₁ ra)
    rw [e₂] at e₂'
    cases e₂'
    have rb : L₂.aab.buffer.list.Perm L.aab.buffer.list := by
      rw [← k₃.2.1, ← k₄.2.1]; exact r.aab
    obtain ⟨_, e₃', i₃, n₃⟩ := stepC h hZ hT shift hm hL hd hc (n₂ rb)
    rw [e₃] at e₃'
    cases e₃'
    have rc : L₃.abb.buffer.list.Perm L.abb.buffer.list := by
      rw [← k₄.2.2]; exact r.abb
    obtain ⟨_, e₄', i₄, n₄⟩ := stepD h hZ hT shift hm hL hd hd' (n₃ rc)
    rw [e₄] at e₄'
    cases e₄'
    exact ⟨i₁.1 ra, i₂.1 rb, i₃.1 rc, i₄.1 r.bbb⟩
  · rintro ⟨qa, qb, qc, qd⟩
    obtain ⟨L₂, e₂, i₂, n₂⟩ := stepB h hZ hT shift hm hL hd hn hb (n₁ (i₁.2 qa))
    obtain ⟨L₃, e₃, i₃, n₃⟩ := stepC h hZ hT shift hm hL hd hc (n₂ (i₂.2 qb))
    obtain ⟨L₄, e₄, i₄, n₄⟩ := stepD h hZ hT shift hm hL hd hd' (n₃ (i₃.2 qc))
    have n := n₄ (i₄.2 qd)
    exact ⟨L₄, ⟨L₂, e₂, L₃, e₃, e₄⟩, n.aaa, n.aab, n.abb, n.bbb⟩

end

end Ccpy.PSpace
