import Verif.Model.Histogram

/-!
# Model of the particle deposition loops with floating point numbers

The loops of `postpic/particles/_particlestogrid.pyx` once more, for doubles with infinities, NaN and rounding.
The result of every operation on finite numbers is the exact one rounded by `rnd`, which is a parameter
(so nothing is assumed about the format or the mode of rounding); `rnd` may also return an infinity (overflow).
The operations on infinities and NaN are those of IEEE 754.

Simplifications: the sign of zero is not modelled; `x**2` is `x * x`; the edges of the bins are not computed here.
The C cast of a NaN, an infinity or a number which does not fit in 32 bits is undefined in C; the model uses what x86
does (`-2^31`).
-/

set_option autoImplicit false

namespace Postpic.Histogram

open Postpic

/-- A double. -/
inductive Dbl (K : Type) where
  | nan
  | inf (negative : Bool)
  | fin (x : K)
  deriving DecidableEq

section
variable {K : Type} [Field K] [LinearOrder K] [FloorRing K]

namespace Dbl

/-- `-a`. -/
def neg : Dbl K → Dbl K
  | nan => nan
  | inf s => inf !s
  | fin x => fin (-x)

/-- `a + b`. -/
def add (rnd : K → Dbl K) : Dbl K → Dbl K → Dbl K
  | fin x, fin y => rnd (x + y)
  | inf s, fin _ => inf s
  | fin _, inf s => inf s
  | inf s, inf t => if s = t then inf s else nan
  | _, _ => nan

/-- `a - b`. -/
def sub (rnd : K → Dbl K) (a b : Dbl K) : Dbl K := add rnd a (neg b)

/-- `a * b`. -/
def mul (rnd : K → Dbl K) : Dbl K → Dbl K → Dbl K
  | fin x, fin y => rnd (x * y)
  | inf s, fin y => if y = 0 then nan else inf (s != decide (y < 0))
  | fin x, inf s => if x = 0 then nan else inf (s != decide (x < 0))
  | inf s, inf t => inf (s != t)
  | _, _ => nan

/-- `a / b`; Cython raises a ZeroDivisionError for `b == 0`. -/
def div (rnd : K → Dbl K) : Dbl K → Dbl K → Res (Dbl K)
  | nan, fin y => if y = 0 then .error .zeroDivisionError else .ok nan
  | inf s, fin y => if y = 0 then .error .zeroDivisionError else .ok (inf (s != decide (y < 0)))
  | fin x, fin y => if y = 0 then .error .zeroDivisionError else .ok (rnd (x / y))
  | fin _, inf _ => .ok (fin 0)
  | _, _ => .ok nan

/-- `a < b`; false if one of them is NaN. -/
def lt : Dbl K → Dbl K → Bool
  | fin x, fin y => decide (x < y)
  | inf s, fin _ => s
  | fin _, inf s => !s
  | inf s, inf t => s && !t
  | _, _ => false

/-- `a <= b`; false if one of them is NaN. -/
def le : Dbl K → Dbl K → Bool
  | fin x, fin y => decide (x ≤ y)
  | inf s, fin _ => s
  | fin _, inf s => !s
  | inf s, inf t => s || !t
  | _, _ => false

/-- `np.abs(a)`. -/
def abs : Dbl K → Dbl K
  | nan => nan
  | inf _ => inf false
  | fin x => fin |x|

/-- The C cast `<int>a` on x86. -/
def cast : Dbl K → ℤ
  | fin x => cInt x
  | _ => -2 ^ 31

end Dbl

open Dbl

variable (rnd : K → Dbl K)

local infixl:65 " ⊞ " => Dbl.add rnd
local infixl:65 " ⊟ " => Dbl.sub rnd
local infixl:70 " ⊠ " => Dbl.mul rnd

/-- The constants `0.5`, `1.`, ... -/
def half : Dbl K := fin (1 / 2)

/-- `xr`. `_particlestogrid.pyx:74 (`<int>x`), 84, 99, 117`. -/
def cellRefF : Shape → Dbl K → ℤ
  | .ngp, x => x.cast
  | .tophat, x => (x ⊞ half).cast
  | .triangle, x => x.cast
  | .spline3, x => (x ⊞ half).cast

/-- The weights of a particle, in the order of the cells they go to. `./6.` and `./2.` divide by constants.
1D: `_particlestogrid.pyx:73-76, 86-91, 102-109, 120-129`; 2D: `:201-204, :229-234, :259-266`;
3D: `:364-369, :400-408, :439-450`. -/
def wtsF : Shape → Dbl K → List (Dbl K)
  | .ngp, _ => [fin 1]
  | .tophat, x =>
    let xr : Dbl K := fin (cellRefF rnd .tophat x : K)
    [half ⊟ x ⊞ xr, half ⊞ x ⊟ xr]
  | .triangle, x =>
    let xd := x ⊟ fin (cellRefF rnd .triangle x : K)
    [half ⊠ ((fin 1 ⊟ xd) ⊠ (fin 1 ⊟ xd)), half ⊞ xd ⊟ xd ⊠ xd, half ⊠ (xd ⊠ xd)]
  | .spline3, x =>
    let xd := x ⊟ fin (cellRefF rnd .spline3 x : K) ⊞ half
    let sixth := rnd (1 / 6)
    let over (c : K) (a : Dbl K) : Dbl K := match a with
      | fin y => rnd (y / c)
      | a => a
    [sixth ⊞ xd ⊠ (fin (-(1 / 2)) ⊞ (half ⊟ over 6 xd) ⊠ xd),
     rnd (2 / 3) ⊞ (fin (-1) ⊞ over 2 xd) ⊠ xd ⊠ xd,
     sixth ⊞ xd ⊠ (half ⊞ (half ⊟ over 2 xd) ⊠ xd),
     over 6 (xd ⊠ xd ⊠ xd)]

/-- Index of the first cell written. -/
def firstCellF (s : Shape) (x : Dbl K) : ℤ :=
  cellRefF rnd s x + match s with
    | .ngp => 0
    | .tophat => (supp .tophat : ℤ) - 1
    | .triangle => (supp .triangle : ℤ) - 1
    | .spline3 => (supp .spline3 : ℤ) - 2

/-- The cells touched along one axis with their weights. -/
def cellsF (s : Shape) (x : Dbl K) : List (ℤ × Dbl K) :=
  (wtsF rnd s x).zipIdx.map fun vk => (firstCellF rnd s x + (vk.2 : ℤ), vk.1)

/-! ### Guards -/

/-- `_particlestogrid.pyx:72, 85, 101, 119`. -/
def guardF1 (s : Shape) (bins : ℕ) (x : Dbl K) : Bool :=
  match s with
  | .ngp => (fin 0).lt x && x.lt (fin bins)
  | s => decide (0 ≤ cellRefF rnd s x) && decide (cellRefF rnd s x ≤ bins)

/-- `_particlestogrid.pyx:184, 200, 228, 258`. -/
def guardF2 (s : Shape) (xbins ybins : ℕ) (x y : Dbl K) : Bool :=
  match s with
  | .ngp => (fin 0).lt x && (fin 0).lt y && x.lt (fin xbins) && y.lt (fin ybins)
  | s => decide (0 ≤ cellRefF rnd s x) && (fin 0).le y && decide (cellRefF rnd s x ≤ xbins) &&
      decide (cellRefF rnd s y ≤ ybins)

/-- `_particlestogrid.pyx:345, 363, 399, 438`. -/
def guardF3 (s : Shape) (xbins ybins zbins : ℕ) (x y z : Dbl K) : Bool :=
  match s with
  | .ngp => (fin 0).lt x && (fin 0).lt y && (fin 0).lt z && x.lt (fin xbins) && y.lt (fin ybins) && z.lt (fin zbins)
  | .tophat => decide (0 ≤ cellRefF rnd .tophat x) && (fin 0).le y && decide (cellRefF rnd .tophat x ≤ xbins) &&
      decide (cellRefF rnd .tophat y ≤ ybins) && (fin 0).le z && decide (cellRefF rnd .tophat z ≤ zbins)
  | s => decide (0 ≤ cellRefF rnd s x) && (fin 0).le y && decide (0 ≤ cellRefF rnd s z) &&
      decide (cellRefF rnd s x ≤ xbins) && decide (cellRefF rnd s y ≤ ybins) && decide (cellRefF rnd s z ≤ zbins)

/-! ### Memory -/

/-- `ret[i] += v` without bounds check. -/
def addAtF {ι : Type} [DecidableEq ι] (inb : ι → Bool) (m : ι → Dbl K) (iv : ι × Dbl K) : Res (ι → Dbl K) :=
  if inb iv.1 then .ok (Function.update m iv.1 (m iv.1 ⊞ iv.2)) else .error .undefinedBehaviour

/-- `weights[i]` without bounds check. -/
def weightAtF (weights : Option (List (Dbl K))) (i : ℕ) : Res (Dbl K) :=
  match weights with
  | none => .ok (fin 1)
  | some l => match l[i]? with
    | some w => .ok w
    | none => .error .undefinedBehaviour

/-- The particle loop. -/
def loopF {ι α : Type} [DecidableEq ι] (inb : ι → Bool) (act : α → Res (List (ι × Dbl K))) (ps : List α) :
    Res (ι → Dbl K) :=
  ps.foldlM (fun m p => do (← act p).foldlM (addAtF rnd inb) m) (fun _ => fin 0)

/-- `sx = np.spacing(xmax); if np.abs(xmax-xmin) < sx: ...`. `_particlestogrid.pyx:53-57, 155-163, 307-319`. -/
def fixRangeF (spacing : Dbl K → Dbl K) (r : Dbl K × Dbl K) : Dbl K × Dbl K :=
  if (r.2 ⊟ r.1).abs.lt (spacing r.2) then (r.1 ⊟ spacing r.2, r.2 ⊞ spacing r.2) else r

/-- `dx = 1.0 / (xmax - xmin) * bins`. `_particlestogrid.pyx:60, 168-169, 326-328`. -/
def invSpacingF (r : Dbl K × Dbl K) (bins : ℕ) : Res (Dbl K) := do
  return (← Dbl.div rnd (fin 1) (r.2 ⊟ r.1)) ⊠ fin bins

/-! ### The histograms -/

/-- Writes of particle number `i` at position `d` in 1D. With `weights=None` the factor is `1.0`. -/
def actF1 (s : Shape) (bins : ℕ) (xmin dx : Dbl K) (weights : Option (List (Dbl K))) (di : Dbl K × ℕ) :
    Res (List (ℤ × Dbl K)) :=
  let x := (di.1 ⊟ xmin) ⊠ dx
  if guardF1 rnd s bins x then do
    let w ← weightAtF weights di.2
    return (cellsF rnd s x).map fun c => (c.1, c.2 ⊠ w)
  else return []

/-- `histogram` (1D), without the edges. `_particlestogrid.pyx:36-130`. -/
def histogramF (spacing : Dbl K → Dbl K) (s : Shape) (data : List (Dbl K)) (range : Dbl K × Dbl K) (bins : ℕ)
    (weights : Option (List (Dbl K))) : Res (List (Dbl K)) := do
  let r := fixRangeF rnd spacing range
  let dx ← invSpacingF rnd r bins
  let ret ← loopF rnd (inRange (bins + 2 * supp s)) (actF1 rnd s bins r.1 dx weights) data.zipIdx
  return (List.range bins).map (fun i : ℕ => ret ((supp s : ℤ) + i))

/-- Writes of one particle in 2D. -/
def actF2 (s : Shape) (xbins ybins : ℕ) (xmin dx ymin dy : Dbl K) (weights : Option (List (Dbl K)))
    (di : (Dbl K × Dbl K) × ℕ) : Res (List ((ℤ × ℤ) × Dbl K)) :=
  let x := (di.1.1 ⊟ xmin) ⊠ dx
  let y := (di.1.2 ⊟ ymin) ⊠ dy
  if guardF2 rnd s xbins ybins x y then do
    let w ← weightAtF weights di.2
    return (cellsF rnd s x).flatMap fun cx => (cellsF rnd s y).map fun cy => ((cx.1, cy.1), cx.2 ⊠ cy.2 ⊠ w)
  else return []

/-- `histogram2d`, without the edges. `_particlestogrid.pyx:133-278`. -/
def histogram2dF (spacing : Dbl K → Dbl K) (s : Shape) (datax datay : List (Dbl K)) (rx ry : Dbl K × Dbl K)
    (xbins ybins : ℕ) (weights : Option (List (Dbl K))) : Res (List (List (Dbl K))) := do
  if datax.length ≠ datay.length then throw .valueError
  let rx := fixRangeF rnd spacing rx
  let ry := fixRangeF rnd spacing ry
  let dx ← invSpacingF rnd rx xbins
  let dy ← invSpacingF rnd ry ybins
  let ret ← loopF rnd (fun ij : ℤ × ℤ => inRange (xbins + 2 * supp s) ij.1 && inRange (ybins + 2 * supp s) ij.2)
    (actF2 rnd s xbins ybins rx.1 dx ry.1 dy weights) (datax.zip datay).zipIdx
  return (List.range xbins).map (fun i : ℕ => (List.range ybins).map fun j : ℕ =>
      ret ((supp s : ℤ) + i, (supp s : ℤ) + j))

/-- Writes of one particle in 3D. -/
def actF3 (s : Shape) (xbins ybins zbins : ℕ) (xmin dx ymin dy zmin dz : Dbl K) (weights : Option (List (Dbl K)))
    (di : (Dbl K × Dbl K × Dbl K) × ℕ) : Res (List ((ℤ × ℤ × ℤ) × Dbl K)) :=
  let x := (di.1.1 ⊟ xmin) ⊠ dx
  let y := (di.1.2.1 ⊟ ymin) ⊠ dy
  let z := (di.1.2.2 ⊟ zmin) ⊠ dz
  if guardF3 rnd s xbins ybins zbins x y z then do
    let w ← weightAtF weights di.2
    return (cellsF rnd s x).flatMap fun cx => (cellsF rnd s y).flatMap fun cy =>
      (cellsF rnd s z).map fun cz => ((cx.1, cy.1, cz.1), cx.2 ⊠ cy.2 ⊠ cz.2 ⊠ w)
  else return []

/-- `histogram3d`, without the edges. `_particlestogrid.pyx:282-465`. -/
def histogram3dF (spacing : Dbl K → Dbl K) (s : Shape) (datax datay dataz : List (Dbl K)) (rx ry rz : Dbl K × Dbl K)
    (xbins ybins zbins : ℕ) (weights : Option (List (Dbl K))) : Res (List (List (List (Dbl K)))) := do
  if datax.length ≠ datay.length then throw .valueError
  if datax.length ≠ dataz.length then throw .valueError
  let rx := fixRangeF rnd spacing rx
  let ry := fixRangeF rnd spacing ry
  let rz := fixRangeF rnd spacing rz
  let dx ← invSpacingF rnd rx xbins
  let dy ← invSpacingF rnd ry ybins
  let dz ← invSpacingF rnd rz zbins
  let ret ← loopF rnd (fun ij : ℤ × ℤ × ℤ => inRange (xbins + 2 * supp s) ij.1 &&
      (inRange (ybins + 2 * supp s) ij.2.1 && inRange (zbins + 2 * supp s) ij.2.2))
    (actF3 rnd s xbins ybins zbins rx.1 dx ry.1 dy rz.1 dz weights) (datax.zip (datay.zip dataz)).zipIdx
  return (List.range xbins).map (fun i : ℕ => (List.range ybins).map fun j : ℕ => (List.range zbins).map fun k : ℕ =>
      ret ((supp s : ℤ) + i, (supp s : ℤ) + j, (supp s : ℤ) + k))

end

end Postpic.Histogram
