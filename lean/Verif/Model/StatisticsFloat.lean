import Verif.Model.Statistics
import Verif.Model.HistogramFloat

/-!
# Model of mean, variance and quantiles with rounding

`postpic/particles/particles.py:961-1010` once more, every operation followed by the rounding `rnd` (a parameter). `data` and `w` are the
finite values of the expression and of `weight * (weights)`. The order in which numpy adds is a parameter, because it depends on
the length of the array and on the processor.
-/

set_option autoImplicit false

namespace Postpic.Statistics

open Postpic Postpic.Histogram

/-- An order of additions. -/
inductive SumTree where
  | empty
  | leaf (i : ℕ)
  | node (l r : SumTree)

/-- The entries which are added, from left to right. -/
def SumTree.leaves : SumTree → List ℕ
  | .empty => []
  | .leaf i => [i]
  | .node l r => l.leaves ++ r.leaves

/-- The largest number of additions an entry takes part in. -/
def SumTree.depth : SumTree → ℕ
  | .empty => 0
  | .leaf _ => 0
  | .node l r => max l.depth r.depth + 1

section
variable {K : Type} [Field K] [LinearOrder K] [FloorRing K]

/-- `np.sum(xs)`. -/
def sumF (rnd : K → Dbl K) (xs : List (Dbl K)) : SumTree → Dbl K
  | .empty => .fin 0
  | .leaf i => xs.getD i (.fin 0)
  | .node l r => Dbl.add rnd (sumF rnd xs l) (sumF rnd xs r)

/-- `np.average(data, weights=w)`: ZeroDivisionError if the weights sum up to zero. -/
def averageF (rnd : K → Dbl K) (t : SumTree) (data w : List (Dbl K)) : Res (Dbl K) :=
  if sumF rnd w t = .fin 0 then .error .zeroDivisionError
  else Dbl.div rnd (sumF rnd (List.zipWith (Dbl.mul rnd) data w) t) (sumF rnd w t)

/-- `mean`. `particles.py:961-970`. -/
def meanF (rnd : K → Dbl K) (t : SumTree) (data w : List K) : Res (Dbl K) := averageF rnd t (data.map .fin) (w.map .fin)

/-- `var`. `particles.py:972-982`. -/
def varF (rnd : K → Dbl K) (t : SumTree) (data w : List K) : Res (Dbl K) := do
  let m ← averageF rnd t (data.map .fin) (w.map .fin)
  averageF rnd t (data.map fun x => Dbl.mul rnd (Dbl.sub rnd (.fin x) m) (Dbl.sub rnd (.fin x) m)) (w.map .fin)

/-- The entries of `np.cumsum` after the one with the value `acc`. -/
def scanF (rnd : K → Dbl K) (acc : Dbl K) : List K → List (Dbl K)
  | [] => []
  | a :: l => Dbl.add rnd acc (.fin a) :: scanF rnd (Dbl.add rnd acc (.fin a)) l

/-- `np.cumsum`. -/
def cumsumF (rnd : K → Dbl K) : List K → List (Dbl K)
  | [] => []
  | a :: l => .fin a :: scanF rnd (.fin a) l

/-- `quantile` for one `q`. `particles.py:984-1001`. `sortidx` is what `np.argsort(data)` returned. -/
def quantileF (rnd : K → Dbl K) (data w : List K) (sortidx : List ℕ) (q : K) : Res K :=
  if q < 0 ∨ 1 < q then .error .valueError else do
    let ws ← sortidx.mapM (at? w)
    let wcs := cumsumF rnd ws
    let last ← match wcs.getLast? with
      | some a => (.ok a : Res (Dbl K))
      | none => .error .indexError
    let idx := (wcs.takeWhile fun a => a.lt (Dbl.mul rnd last (.fin q))).length
    let i ← at? sortidx idx
    at? data i

end

end Postpic.Statistics
