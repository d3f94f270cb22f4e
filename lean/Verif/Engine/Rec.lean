import Mathlib.Init
import Mathlib.Data.Nat.Notation

/-! Notation for recursors, used by the programs that the kernel runs. -/

namespace Ccpy.Engine

/-- `brec% b, t, e`: if `b` then `t` else `e`. -/
macro "brec% " b:term:51 ", " t:term:51 ", " e:term:51 : term => `(@Bool.rec (fun _ => _) $e $t $b)
/-- `lrec% l, nil, cons`: recursion on a list. -/
macro "lrec% " l:term:51 ", " n:term:51 ", " c:term:51 : term => `(@List.rec _ (fun _ => _) $n $c $l)
/-- `nrec% n, zero, succ`: recursion on a number. -/
macro "nrec% " l:term:51 ", " n:term:51 ", " c:term:51 : term => `(@Nat.rec (fun _ => _) $n $c $l)
/-- `orec% x, none, some`: cases of an option. -/
macro "orec% " l:term:51 ", " n:term:51 ", " c:term:51 : term => `(@Option.rec _ (fun _ => _) $n $c $l)

end Ccpy.Engine
