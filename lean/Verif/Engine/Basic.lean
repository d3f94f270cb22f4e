import Verif.Engine.Rec

/-! Symbolic tensor algebra, executed inside the kernel.

A *piece* stands for `c · Σ_s Π f · (string of operators o)`: a number, a list of summed variables, a list of tensors
with variables as indices, and a list of creation (`true`) and annihilation (`false`) operators.  A variable is a number
`4 · id + space`; the spaces are 0 (occupied, spin up), 1 (unoccupied, up), 2 (occupied, down), 3 (unoccupied, down).

Everything here is a proof tool: the meaning of pieces and the soundness of every function are in the other files of
this directory.  The functions are written with recursors because the kernel evaluates those fastest. -/

namespace Ccpy.Engine

/-- Variables are numbers. -/
scoped macro "Var" : term => `(ℕ)
abbrev Factor := ℕ × List Var
abbrev Op := Bool × Var

/-- `± n / d` -/
structure Coef where
  neg : Bool
  n : ℕ
  d : ℕ

structure Piece where
  c : Coef
  s : List Var
  f : List Factor
  o : List Op

noncomputable section

universe u w
variable {α : Type u} {β : Type w}

def app (l m : List α) : List α := lrec% l, m, fun x _ ih => x :: ih
def mapL (g : α → β) (l : List α) : List β := lrec% l, [], fun x _ ih => g x :: ih
def bindL (g : α → List β) (l : List α) : List β := lrec% l, [], fun x _ ih => app (g x) ih
def len (l : List α) : ℕ := lrec% l, 0, fun _ _ ih => Nat.succ ih
def isNil (l : List α) : Bool := lrec% l, true, fun _ _ _ => false
def takeL (n : ℕ) : List α → List α := nrec% n, (fun _ => []), fun _ ih l => lrec% l, [], fun x r _ => x :: ih r
def dropL (n : ℕ) : List α → List α := nrec% n, (fun l => l), fun _ ih l => lrec% l, [], fun _ r _ => ih r
def nt (b : Bool) : Bool := brec% b, false, true
def xr (a b : Bool) : Bool := brec% a, (brec% b, false, true), b

/-- Pass the value of a number to a function. -/
def forceN (x : ℕ) (k : ℕ → α) : α := nrec% Nat.succ x, k 0, fun n _ => k n
def forceL (l : List ℕ) : (List ℕ → α) → α :=
  lrec% l, (fun k => k []), fun x _ ih k => forceN x fun x => ih fun r => k (x :: r)
def forceF (l : List Factor) : (List Factor → α) → α :=
  lrec% l, (fun k => k []), fun x _ ih k => forceN x.1 fun n => forceL x.2 fun y => ih fun r => k ((n, y) :: r)

def forceP (l : List (ℕ × ℕ)) : (List (ℕ × ℕ) → α) → α :=
  lrec% l, (fun k => k []), fun x _ ih k => forceN x.1 fun a => forceN x.2 fun b => ih fun r => k ((a, b) :: r)
def forceB (b : Bool) (k : Bool → α) : α := brec% b, k true, k false
def forceO (l : List Op) : (List Op → α) → α :=
  lrec% l, (fun k => k []), fun x _ ih k => forceB x.1 fun b => forceN x.2 fun v => ih fun r => k ((b, v) :: r)

def Coef.mul (x y : Coef) : Coef := ⟨xr x.neg y.neg, Nat.mul x.n y.n, Nat.mul x.d y.d⟩
def Coef.flip (b : Bool) (x : Coef) : Coef := ⟨xr b x.neg, x.n, x.d⟩

def substV (v w x : Var) : Var := brec% Nat.beq x v, w, x
def substL (v w : Var) (l : List Var) : List Var := lrec% l, [], fun x _ ih => substV v w x :: ih
def substF (v w : Var) (l : List Factor) : List Factor := lrec% l, [], fun x _ ih => (x.1, substL v w x.2) :: ih
def substO (v w : Var) (l : List Op) : List Op := lrec% l, [], fun x _ ih => (x.1, substV v w x.2) :: ih
def mem (v : Var) (l : List Var) : Bool := lrec% l, false, fun x _ ih => brec% Nat.beq x v, true, ih
def erase (v : Var) (l : List Var) : List Var := lrec% l, [], fun x xs ih => brec% Nat.beq x v, xs, x :: ih

/-- What to do with a factor `δ(v, w)`: nothing, drop it, or replace a summed variable. -/
inductive Delta where
  | keep
  | drop
  | subst (v w : Var)

/-- Decide about `δ(v, w)` under sums `s`, external variables `ext`. -/
def decideDelta (ext s : List Var) (v w : Var) : Delta :=
  brec% Nat.beq v w, .drop,
    brec% Nat.beq (Nat.mod v 4) (Nat.mod w 4),
      (brec% mem v s,
        (brec% mem v (erase v s), .keep, (brec% mem w s, .subst v w, (brec% mem w ext, .subst v w, .keep))),
        (brec% mem w s,
          (brec% mem w (erase w s), .keep, (brec% mem v ext, .subst w v, .keep)), .keep)),
      .keep

/-- The pair of a delta factor. -/
def asDelta (x : Factor) : Option (Var × Var) :=
  brec% Nat.beq x.1 0,
    (lrec% x.2, none, fun v r _ => lrec% r, none, fun w r' _ => lrec% r', some (v, w), fun _ _ _ => none), none

/-- Remove the delta factors in `todo`, collecting the other factors in `done`. -/
def killDeltas (ext : List Var) : ℕ → Coef → List Var → List Factor → List Factor → List Op → Piece :=
  fun n => nrec% n, (fun c s todo done o => ⟨c, s, app todo done, o⟩), fun _ ih c s todo done o =>
    lrec% todo, ⟨c, s, done, o⟩, fun x r _ =>
      orec% asDelta x, ih c s r (x :: done) o, fun p =>
        @Delta.rec (fun _ => Piece) (ih c s r (x :: done) o) (ih c s r done o)
          (fun v w => ih c (erase v s) (substF v w r) (substF v w done) (substO v w o)) (decideDelta ext s p.1 p.2)

/-- Does the operator annihilate the reference? -/
def isAnn (o : Op) : Bool := brec% o.1, Nat.beq (Nat.mod o.2 2) 0, Nat.beq (Nat.mod o.2 2) 1

/-- The operators a given one can be contracted with: sign, variable, rest. -/
def partners (o : Op) (l : List Op) : Bool → List (Bool × Var × List Op) :=
  lrec% l, (fun _ => []), fun x xs ih sg =>
    brec% (brec% x.1, (brec% o.1, false, true), (brec% o.1, true, false)),
      (brec% Nat.beq (Nat.mod x.2 4) (Nat.mod o.2 4),
        (sg, x.2, xs) :: mapL (fun y => (y.1, y.2.1, x :: y.2.2)) (ih (nt sg)),
        mapL (fun y => (y.1, y.2.1, x :: y.2.2)) (ih (nt sg))),
      mapL (fun y => (y.1, y.2.1, x :: y.2.2)) (ih (nt sg))

/-- All full contractions of a string: sign and delta factors. -/
def wick : ℕ → List Op → List (Bool × List Factor) := fun n =>
  nrec% n, (fun l => lrec% l, [(false, [])], fun _ _ _ => []), fun _ ih l =>
    lrec% l, [(false, [])], fun o r _ =>
      brec% isAnn o,
        bindL (fun y => mapL (fun z => (xr y.1 z.1, (0, [o.2, y.2.1]) :: z.2)) (ih y.2.2)) (partners o r false), []

/-- Number of operators of kind `t` in every space, in one number. -/
def weight (t : Bool) (l : List Op) : ℕ :=
  lrec% l, 0, fun x _ ih => brec% (brec% x.1, t, nt t), Nat.add (Nat.pow 256 (Nat.mod x.2 4)) ih, ih

/-- Every operator variable is summed or external. -/
def known (ext s : List Var) (l : List Op) : Bool :=
  lrec% l, true, fun x _ ih => brec% mem x.2 s, ih, (brec% mem x.2 ext, ih, false)

/-- Vacuum expectation value of a piece. -/
def wickPiece (ext : List Var) (p : Piece) : List Piece :=
  forceO p.o fun o => forceL p.s fun s => brec% known ext s o,
    (brec% isNil (wick (len o) o), [],
      forceF p.f fun f => mapL (fun z => killDeltas ext (len z.2) (p.c.flip z.1) s z.2 f []) (wick (len o) o)),
    [p]

/-- Commutator of an operator with a piece that has an even number of operators. -/
def commOp (o : Op) (p : Piece) : List Piece :=
  mapL (fun y => killDeltas [o.2] 1 (p.c.flip y.1) p.s [(0, [o.2, y.2.1])] p.f y.2.2) (partners o p.o false)

def mulP (p q : Piece) : Piece := ⟨p.c.mul q.c, app p.s q.s, app p.f q.f, app p.o q.o⟩

/-- `o + [o, T]` -/
def hat (T : List Piece) (o : Op) : List Piece :=
  ⟨⟨false, 1, 1⟩, [], [], [o]⟩ :: bindL (commOp o) T

/-- Products of one piece from every list, those with a chance to have an expectation value. -/
def prods (l : List (List Piece)) : ℕ → ℕ → Piece → List Piece :=
  lrec% l, (fun x y a => brec% Nat.beq x y, [a], []), fun ps _ ih x y a =>
    bindL (fun p => ih (Nat.add (weight true p.o) x) (Nat.add (weight false p.o) y) (mulP a p)) ps

def allLt (n : ℕ) (l : List Var) : Bool := lrec% l, true, fun x _ ih => brec% Nat.ble (Nat.succ x) n, ih, false
def allLtF (n : ℕ) (l : List Factor) : Bool := lrec% l, true, fun x _ ih => brec% allLt n x.2, ih, false
def nodup (l : List Var) : Bool := lrec% l, true, fun x xs ih => brec% mem x xs, false, ih

/-- Insertion with the parity of the number of steps. -/
def ins (x : ℕ) (l : List ℕ) : Bool × List ℕ :=
  lrec% l, (false, [x]), fun y r ih => brec% Nat.ble x y, (false, x :: y :: r), (nt ih.1, y :: ih.2)

def sortSign (l : List ℕ) : Bool × List ℕ :=
  lrec% l, (false, []), fun x _ ih => ((xr ih.1 (ins x ih.2).1), (ins x ih.2).2)

/-- Two equal neighbours. -/
def dupl (l : List ℕ) : Bool := lrec% l, false, fun x r ih => lrec% r, false, fun y _ _ => brec% Nat.beq x y, true, ih

/-- Sort the consecutive groups of antisymmetric indices; `none` if the tensor vanishes. -/
def normIdx (gs : List ℕ) : List ℕ → Option (Bool × List ℕ) :=
  lrec% gs, (fun l => some (false, l)), fun g _ ih l =>
    brec% Nat.ble g (len l), (brec% dupl (sortSign (takeL g l)).2, none,
      (orec% ih (dropL g l), none, fun w => some (xr (sortSign (takeL g l)).1 w.1, app (sortSign (takeL g l)).2 w.2))),
      some (false, l)

def codeL (l : List ℕ) : ℕ := lrec% l, 0, fun x _ ih => Nat.add (Nat.succ x) (Nat.mul 1024 ih)
def codeF (x : Factor) : ℕ := Nat.add x.1 (Nat.mul 64 (codeL x.2))

/-- Factors with their codes. -/
abbrev CFactor := ℕ × Factor

def insF (x : CFactor) (l : List CFactor) : List CFactor :=
  lrec% l, [x], fun y r ih => brec% Nat.ble x.1 y.1, x :: y :: r, y :: ih

def normF (G : ℕ → List ℕ) (l : List Factor) : Option (Bool × List CFactor) :=
  lrec% l, some (false, []), fun x _ ih =>
    orec% ih, none, fun w => orec% normIdx (G x.1) x.2, none, fun z =>
      some (xr z.1 w.1, insF (codeF (x.1, z.2), (x.1, z.2)) w.2)

def codeT (l : List CFactor) : ℕ := lrec% l, 0, fun x _ ih => Nat.add x.1 (Nat.mul (Nat.pow 2 128) ih)

/-- All ways of picking one element. -/
def picks (l : List α) : List (α × List α) :=
  lrec% l, [], fun x r ih => (x, r) :: mapL (fun y => (y.1, x :: y.2)) ih

/-- Variables with keys. -/
abbrev Keyed := ℕ × Var

/-- Permutations that keep the keys of the positions. -/
def perms : ℕ → List Keyed → List (List Var) := fun n =>
  nrec% n, (fun s => [mapL Prod.snd s]), fun _ ih s => lrec% s, [[]], fun v _ _ =>
    bindL (fun y => brec% Nat.beq y.1.1 v.1, mapL (y.1.2 :: ·) (ih y.2), []) (picks s)

/-- Insertion sort by key. -/
def insKey (x : Keyed) (l : List Keyed) : List Keyed :=
  lrec% l, [x], fun y r ih => brec% Nat.ble x.1 y.1, x :: y :: r, y :: ih
def sortKey (l : List Keyed) : List Keyed := lrec% l, [], fun x _ ih => insKey x ih
/-- The number of equal neighbours. -/
def adj (l : List Keyed) : ℕ :=
  lrec% l, 0, fun x r ih => lrec% r, 0, fun y _ _ => brec% Nat.beq x.1 y.1, Nat.succ ih, ih

/-! Keys that do not depend on names, so that few permutations remain: every tensor gets a number from the keys of its
variables, and every variable a number from its tensors. -/

def hashG (c : Var → ℕ) (l : List Var) (w : ℕ) : ℕ := lrec% l, 0, fun x _ ih => Nat.add (Nat.mul w (c x)) ih
def hashI (c : Var → ℕ) (gs : List ℕ) : List Var → ℕ → ℕ :=
  lrec% gs, (fun l => lrec% l, (fun _ => 0), fun x _ ih w => Nat.add (Nat.mul w (c x)) (ih (Nat.mul 31 w))),
    fun g _ ih l w => Nat.add (hashG c (takeL g l) w) (ih (dropL g l) (Nat.mul 31 w))
def keyOf (m : List Keyed) (x : Var) : ℕ := lrec% m, Nat.add 101 (Nat.mul x x), fun e _ ih => brec% Nat.beq x e.2, e.1, ih
def mix (h : ℕ) : ℕ := Nat.mod (Nat.mul h (Nat.add h 12345)) 1000003
def hashes (G : ℕ → List ℕ) (m : List Keyed) (f : List Factor) : List ℕ :=
  mapL (fun x => mix (Nat.add (Nat.mul 999 x.1) (hashI (keyOf m) (G x.1) x.2 1))) f
def weigh (G : ℕ → List ℕ) (v : Var) (f : List Factor) : List ℕ → ℕ :=
  lrec% f, (fun _ => 0), fun x _ ih hs => lrec% hs, 0, fun h r _ =>
    Nat.add (Nat.mul h (hashI (fun y => brec% Nat.beq y v, 1, 0) (G x.1) x.2 1)) (ih r)
def refine (G : ℕ → List ℕ) (f : List Factor) (m : List Keyed) : List Keyed :=
  forceL (hashes G m f) fun hs => mapL (fun e => (mix (Nat.add e.1 (weigh G e.2 f hs)), e.2)) m

/-- The orders of the variables to be tried. -/
def cands (G : ℕ → List ℕ) (f : List Factor) (n : ℕ) : List Keyed → List (List Var) :=
  nrec% n, (fun m => perms (len m) (sortKey m)), fun _ ih m =>
    brec% Nat.ble (adj (sortKey m)) 1, perms (len m) (sortKey m), forceP (refine G f m) ih
def withSpace (s : List Var) : List Keyed := mapL (fun v => (Nat.mod v 4, v)) s

/-- Rename the summed variables in order to `n, n + 4, …` plus their space. -/
def renameAll (s : List Var) : ℕ → List Factor → List Factor :=
  lrec% s, (fun _ f => f), fun v _ ih n f => forceN (Nat.add n (Nat.mod v 4)) fun w => ih (Nat.add n 4) (substF v w f)
def newNames (s : List Var) : ℕ → List Var :=
  lrec% s, (fun _ => []), fun v _ ih n => Nat.add n (Nat.mod v 4) :: ih (Nat.add n 4)

/-- Names for canonical summed variables start here. -/
abbrev base : ℕ := 400

/-- The normal form with the smallest code: `none` if the term vanishes. -/
def best (G : ℕ → List ℕ) (f : List Factor) (l : List (List Var)) : Option (ℕ × List Var × Bool × List CFactor) :=
  lrec% l, none, fun s _ ih =>
    orec% normF G (renameAll s base f), none, fun z =>
      orec% ih, some (codeT z.2, s, z), fun w => brec% Nat.ble (codeT z.2) w.1, some (codeT z.2, s, z), some w

inductive Tree where
  | leaf
  | node (l : Tree) (k : ℕ) (s : List Var) (f : List CFactor) (p m : ℕ) (r : Tree)

def beqL (l : List ℕ) : List ℕ → Bool :=
  lrec% l, (fun l' => lrec% l', true, fun _ _ _ => false), fun x _ ih l' =>
    lrec% l', false, fun y r _ => brec% Nat.beq x y, ih r, false
def beqF (l : List CFactor) : List CFactor → Bool :=
  lrec% l, (fun l' => lrec% l', true, fun _ _ _ => false), fun x _ ih l' =>
    lrec% l', false, fun y r _ => brec% Nat.beq x.2.1 y.2.1, (brec% beqL x.2.2 y.2.2, ih r, false), false

def Tree.insert (k : ℕ) (s : List Var) (f : List CFactor) (neg : Bool) (a : ℕ) (t : Tree) : Tree :=
  @Tree.rec (fun _ => Tree) (brec% neg, .node .leaf k s f 0 a .leaf, .node .leaf k s f a 0 .leaf)
    (fun l k' s' f' p m r il ir =>
      brec% Nat.beq k k',
        (brec% (brec% beqL s s', beqF f f', false),
          (brec% neg, .node l k' s' f' p (Nat.add a m) r, .node l k' s' f' (Nat.add a p) m r),
          .node il k' s' f' p m r),
        (brec% Nat.ble k k', .node il k' s' f' p m r, .node l k' s' f' p m ir)) t

def Tree.zero (t : Tree) : Bool :=
  @Tree.rec (fun _ => Bool) true (fun _ _ _ _ p m _ il ir => brec% Nat.beq p m, (brec% il, ir, false), false) t

/-- All coefficients are multiples of `1 / scale`. -/
abbrev scale : ℕ := 82944

/-- Collect the terms. -/
def addAll (G : ℕ → List ℕ) (l : List Piece) : Tree → Option Tree :=
  lrec% l, (fun t => some t), fun p _ ih t =>
    forceF p.f fun f => forceP (withSpace p.s) fun s =>
      brec% (brec% isNil p.o, (brec% allLtF base f, (brec% allLt base (mapL Prod.snd s), (brec% nodup (mapL Prod.snd s),
        Nat.beq (Nat.mod scale p.c.d) 0, false), false), false), false),
      (orec% best G f (cands G f 2 s), ih t, fun z =>
        ih (t.insert z.1 (newNames z.2.1 base) z.2.2.2 (xr p.c.neg z.2.2.1) (Nat.mul p.c.n (Nat.div scale p.c.d)))),
      none

/-- The sum of the pieces is zero. -/
def isZero (G : ℕ → List ℕ) (l : List Piece) : Bool :=
  orec% addAll G l .leaf, false, fun t => t.zero

end

end Ccpy.Engine
