import Mathlib.Algebra.Order.Field.Basic
import Mathlib.Algebra.BigOperators.Group.List.Basic
import Verif.Py.Err

/-!
# Model of mean, variance and quantiles of particle properties

`postpic/particles/particles.py:961-1010`. Numbers are elements of an ordered field (no rounding).
`data` are the values of the expression and `w` the values of `weight * (weights)`, both read from
the collection, which are arrays of equal length.
-/

set_option autoImplicit false

namespace Postpic.Statistics

open Postpic

variable {K : Type} [Field K] [LinearOrder K]

/-- `np.average(data, weights=w)`: ZeroDivisionError if the weights sum up to zero. -/
def average (data w : List K) : Res K :=
  if w.sum = 0 then .error .zeroDivisionError
  else .ok ((List.zipWith (· * ·) data w).sum / w.sum)

/-- `mean`. `particles.py:961-970`. -/
def mean (data w : List K) : Res K := average data w

/-- `var`. `particles.py:972-982`. -/
def var (data w : List K) : Res K := do
  let m ← average data w
  average (data.map fun x => (x - m) ^ 2) w

/-- `np.cumsum`, `acc` being the sum so far. -/
def cumsum (acc : K) : List K → List K
  | [] => []
  | a :: l => (acc + a) :: cumsum (acc + a) l

/-- Element access `l[i]`. -/
def at? {α : Type} (l : List α) (i : ℕ) : Res α :=
  match l[i]? with
  | some a => .ok a
  | none => .error .indexError

/-- `quantile` for one `q`. `particles.py:984-1001`. `sortidx` is what `np.argsort(data)` returned;
numpy does not promise an order for equal values, so this is a parameter. `searchsorted` is
modelled for ascending arrays (non negative weights). -/
def quantile (data w : List K) (sortidx : List ℕ) (q : K) : Res K :=
  if q < 0 ∨ 1 < q then .error .valueError else do
    let ws ← sortidx.mapM (at? w)
    let wcs := cumsum 0 ws
    let last ← match wcs.getLast? with
      | some a => (.ok a : Res K)
      | none => .error .indexError
    let idx := (wcs.takeWhile fun a => decide (a < last * q)).length
    let i ← at? sortidx idx
    at? data i

/-- `median`. `particles.py:1003-1010`. -/
def median (data w : List K) (sortidx : List ℕ) : Res K := quantile data w sortidx (1 / 2)

end Postpic.Statistics
