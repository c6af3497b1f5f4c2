import Mathlib.Algebra.Order.Floor.Ring
import Mathlib.Algebra.Order.Field.Basic
import Verif.Py.Err

/-!
# Model of the particle deposition loops

`postpic/particles/_particlestogrid.pyx` (Cython, compiled with `boundscheck(False)` and
`wraparound(False)`).

Simplifications: doubles are elements of an ordered field `K` with floor; no NaN or infinity.
The C cast `<int>x` of a value that does not fit in 32 bits is undefined in C; the model uses
what x86 does (the result is `-2^31`).
-/

set_option autoImplicit false

namespace Postpic.Histogram

open Postpic

variable {K : Type*} [Field K] [LinearOrder K] [FloorRing K]

/-- The particle shapes. `_particlestogrid.pyx:29-34` (`shapes`). -/
inductive Shape where
  | ngp | tophat | triangle | spline3
  deriving DecidableEq, Repr

/-- The values of the `shape` argument that select a shape (the numbers; the strings
`'NGP'`, `'tophat'`, ... are synonyms). `_particlestogrid.pyx:29-34`. -/
def Shape.ofCode : ℕ → Option Shape
  | 0 => some .ngp
  | 1 => some .tophat
  | 2 => some .triangle
  | 3 => some .spline3
  | _ => none

/-- Truncation towards zero. -/
def trunc (x : K) : ℤ := if 0 ≤ x then ⌊x⌋ else ⌈x⌉

/-- The C cast `<int>x` from double to 32 bit int on x86: truncation towards zero, `-2^31` if the
result does not fit. Used in `_particlestogrid.pyx:74, 84, 99, 117` and the 2D/3D loops. -/
def cInt (x : K) : ℤ :=
  if -2 ^ 31 ≤ trunc x ∧ trunc x < 2 ^ 31 then trunc x else -2 ^ 31

/-- `shape_supp`: number of ghost cells on each side. `_particlestogrid.pyx:68, 79, 94, 112`. -/
def supp : Shape → ℕ
  | .ngp => 0 | .tophat => 1 | .triangle => 2 | .spline3 => 3

/-- `xr`: the reference cell of a particle at scaled position `x`.
`_particlestogrid.pyx:74 (`<int>x`), 84, 99, 117`. -/
def cellRef : Shape → K → ℤ
  | .ngp, x => cInt x
  | .tophat, x => cInt (x + 1 / 2)
  | .triangle, x => cInt x
  | .spline3, x => cInt (x + 1 / 2)

/-- The weights `wx[0], wx[1], ...` of a particle, in the order of the cells they go to.
1D: `_particlestogrid.pyx:73-76, 86-91, 102-109, 120-129`; 2D: `:201-204, :229-234, :259-266`;
3D: the same formulae `:364-369, :400-408, :439-450`. -/
def wts : Shape → K → List K
  | .ngp, _ => [1]
  | .tophat, x =>
    let xr : K := cellRef .tophat x
    [1 / 2 - x + xr, 1 / 2 + x - xr]
  | .triangle, x =>
    let xd : K := x - cellRef .triangle x
    [1 / 2 * (1 - xd) ^ 2, 1 / 2 + xd - xd ^ 2, 1 / 2 * xd ^ 2]
  | .spline3, x =>
    let xd : K := x - cellRef .spline3 x + 1 / 2
    [1 / 6 + xd * (-(1 / 2) + (1 / 2 - xd / 6) * xd),
     2 / 3 + (-1 + xd / 2) * xd * xd,
     1 / 6 + xd * (1 / 2 + (1 / 2 - xd / 2) * xd),
     xd * xd * xd / 6]

/-- Index of the first cell written, in the ghost padded array:
`<int>x`, `xr + shape_supp - 1`, `xr + shape_supp - 1`, `xr + shape_supp - 2`. -/
def firstCell (s : Shape) (x : K) : ℤ :=
  cellRef s x + match s with
    | .ngp => 0
    | .tophat => (supp .tophat : ℤ) - 1
    | .triangle => (supp .triangle : ℤ) - 1
    | .spline3 => (supp .spline3 : ℤ) - 2

/-- The cells touched along one axis with their weights. -/
def cells (s : Shape) (x : K) : List (ℤ × K) :=
  (wts s x).zipIdx.map fun vk => (firstCell s x + (vk.2 : ℤ), vk.1)

/-! ### Guards (which particles are deposited) -/

/-- `_particlestogrid.pyx:72, 85, 101, 119`. -/
def guard1 (s : Shape) (bins : ℕ) (x : K) : Bool :=
  match s with
  | .ngp => decide (0 < x) && decide (x < bins)
  | s => decide (0 ≤ cellRef s x) && decide (cellRef s x ≤ bins)

/-- `_particlestogrid.pyx:184, 200, 228, 258`: note `y >= 0` (the position) where `yr >= 0` would
be the counterpart of `xr >= 0`. -/
def guard2 (s : Shape) (xbins ybins : ℕ) (x y : K) : Bool :=
  match s with
  | .ngp => decide (0 < x) && decide (0 < y) && decide (x < xbins) && decide (y < ybins)
  | s => decide (0 ≤ cellRef s x) && decide (0 ≤ y) && decide (cellRef s x ≤ xbins) &&
      decide (cellRef s y ≤ ybins)

/-- `_particlestogrid.pyx:345, 363, 399, 438`: `z >= 0` for tophat, `zr >= 0` for triangle and
spline3. -/
def guard3 (s : Shape) (xbins ybins zbins : ℕ) (x y z : K) : Bool :=
  match s with
  | .ngp => decide (0 < x) && decide (0 < y) && decide (0 < z) && decide (x < xbins) &&
      decide (y < ybins) && decide (z < zbins)
  | .tophat => decide (0 ≤ cellRef .tophat x) && decide (0 ≤ y) &&
      decide (cellRef .tophat x ≤ xbins) && decide (cellRef .tophat y ≤ ybins) &&
      decide (0 ≤ z) && decide (cellRef .tophat z ≤ zbins)
  | s => decide (0 ≤ cellRef s x) && decide (0 ≤ y) && decide (0 ≤ cellRef s z) &&
      decide (cellRef s x ≤ xbins) && decide (cellRef s y ≤ ybins) &&
      decide (cellRef s z ≤ zbins)

/-! ### Memory -/

/-- `ret[i] += v` without bounds check: an index outside of the allocated array is undefined
behaviour. `inb` says which indices are allocated. -/
def addAt {ι : Type*} [DecidableEq ι] (inb : ι → Bool) (m : ι → K) (iv : ι × K) : Res (ι → K) :=
  if inb iv.1 then .ok (Function.update m iv.1 (m iv.1 + iv.2)) else .error .undefinedBehaviour

/-- `weights[i]` without bounds check; `weights=None` means weight `1.0`. -/
def weightAt (weights : Option (List K)) (i : ℕ) : Res K :=
  match weights with
  | none => .ok 1
  | some l => match l[i]? with
    | some w => .ok w
    | none => .error .undefinedBehaviour

/-- The particle loop: each particle `p` yields a list of writes, which are executed in turn on
the array, initially all zero (`np.zeros`). -/
def loop {ι α : Type*} [DecidableEq ι] (inb : ι → Bool) (act : α → Res (List (ι × K)))
    (ps : List α) : Res (ι → K) :=
  ps.foldlM (fun m p => do (← act p).foldlM (addAt inb) m) (fun _ => 0)

/-! ### Range handling -/

/-- `sx = np.spacing(xmax); if np.abs(xmax-xmin) < sx: xmax += sx; xmin -= sx`.
`_particlestogrid.pyx:53-57, 155-163, 307-319`. `spacing` is `np.spacing`, a parameter. -/
def fixRange (spacing : K → K) (r : K × K) : K × K :=
  if |r.2 - r.1| < spacing r.2 then (r.1 - spacing r.2, r.2 + spacing r.2) else r

/-- `dx = 1.0 / (xmax - xmin) * bins`; Cython checks for division by zero.
`_particlestogrid.pyx:60, 168-169, 326-328`. -/
def invSpacing (r : K × K) (bins : ℕ) : Res K :=
  if r.2 - r.1 = 0 then .error .zeroDivisionError else .ok (1 / (r.2 - r.1) * bins)

/-- `np.linspace(xmin, xmax, bins+1)`. `_particlestogrid.pyx:58, 166-167, 323-325`. -/
def edges (r : K × K) (bins : ℕ) : List K :=
  (List.range (bins + 1)).map fun i : ℕ => r.1 + (i : K) * ((r.2 - r.1) / bins)

/-! ### The histograms -/

/-- Writes of particle number `i` at position `d` in 1D. -/
def act1 (s : Shape) (bins : ℕ) (xmin dx : K) (weights : Option (List K)) (di : K × ℕ) :
    Res (List (ℤ × K)) :=
  let x := (di.1 - xmin) * dx
  if guard1 s bins x then do
    let w ← weightAt weights di.2
    return (cells s x).map fun c => (c.1, c.2 * w)
  else return []

/-- Allocated indices of an array axis of length `n`. -/
def inRange (n : ℕ) (i : ℤ) : Bool := decide (0 ≤ i) && decide (i < n)

/-- `histogram` (1D). `_particlestogrid.pyx:36-130`. -/
def histogram (spacing : K → K) (s : Shape) (data : List K) (range : K × K) (bins : ℕ)
    (weights : Option (List K)) : Res (List K × List K) := do
  let r := fixRange spacing range
  let dx ← invSpacing r bins
  let ret ← loop (inRange (bins + 2 * supp s)) (act1 s bins r.1 dx weights) data.zipIdx
  return ((List.range bins).map (fun i : ℕ => ret ((supp s : ℤ) + i)), edges r bins)

/-- Writes of one particle in 2D: nested loops over `xs`, `ys`. -/
def act2 (s : Shape) (xbins ybins : ℕ) (xmin dx ymin dy : K) (weights : Option (List K))
    (di : (K × K) × ℕ) : Res (List ((ℤ × ℤ) × K)) :=
  let x := (di.1.1 - xmin) * dx
  let y := (di.1.2 - ymin) * dy
  if guard2 s xbins ybins x y then do
    let w ← weightAt weights di.2
    return (cells s x).flatMap fun cx => (cells s y).map fun cy =>
      ((cx.1, cy.1), cx.2 * cy.2 * w)
  else return []

/-- `histogram2d`. `_particlestogrid.pyx:133-278`. -/
def histogram2d (spacing : K → K) (s : Shape) (datax datay : List K) (rx ry : K × K)
    (xbins ybins : ℕ) (weights : Option (List K)) :
    Res (List (List K) × List K × List K) := do
  if datax.length ≠ datay.length then throw .valueError
  let rx := fixRange spacing rx
  let ry := fixRange spacing ry
  let dx ← invSpacing rx xbins
  let dy ← invSpacing ry ybins
  let ret ← loop (fun ij : ℤ × ℤ => inRange (xbins + 2 * supp s) ij.1 &&
      inRange (ybins + 2 * supp s) ij.2)
    (act2 s xbins ybins rx.1 dx ry.1 dy weights) (datax.zip datay).zipIdx
  return ((List.range xbins).map (fun i : ℕ => (List.range ybins).map fun j : ℕ =>
      ret ((supp s : ℤ) + i, (supp s : ℤ) + j)), edges rx xbins, edges ry ybins)

/-- Writes of one particle in 3D: nested loops over `xs`, `ys`, `zs`. -/
def act3 (s : Shape) (xbins ybins zbins : ℕ) (xmin dx ymin dy zmin dz : K)
    (weights : Option (List K)) (di : (K × K × K) × ℕ) : Res (List ((ℤ × ℤ × ℤ) × K)) :=
  let x := (di.1.1 - xmin) * dx
  let y := (di.1.2.1 - ymin) * dy
  let z := (di.1.2.2 - zmin) * dz
  if guard3 s xbins ybins zbins x y z then do
    let w ← weightAt weights di.2
    return (cells s x).flatMap fun cx => (cells s y).flatMap fun cy =>
      (cells s z).map fun cz => ((cx.1, cy.1, cz.1), cx.2 * cy.2 * cz.2 * w)
  else return []

/-- `histogram3d`. `_particlestogrid.pyx:282-465`. -/
def histogram3d (spacing : K → K) (s : Shape) (datax datay dataz : List K)
    (rx ry rz : K × K) (xbins ybins zbins : ℕ) (weights : Option (List K)) :
    Res (List (List (List K)) × List K × List K × List K) := do
  if datax.length ≠ datay.length then throw .valueError
  if datax.length ≠ dataz.length then throw .valueError
  let rx := fixRange spacing rx
  let ry := fixRange spacing ry
  let rz := fixRange spacing rz
  let dx ← invSpacing rx xbins
  let dy ← invSpacing ry ybins
  let dz ← invSpacing rz zbins
  let ret ← loop (fun ij : ℤ × ℤ × ℤ => inRange (xbins + 2 * supp s) ij.1 &&
      (inRange (ybins + 2 * supp s) ij.2.1 && inRange (zbins + 2 * supp s) ij.2.2))
    (act3 s xbins ybins zbins rx.1 dx ry.1 dy rz.1 dz weights)
    (datax.zip (datay.zip dataz)).zipIdx
  return ((List.range xbins).map (fun i : ℕ => (List.range ybins).map fun j : ℕ =>
      (List.range zbins).map fun k : ℕ =>
        ret ((supp s : ℤ) + i, (supp s : ℤ) + j, (supp s : ℤ) + k)),
    edges rx xbins, edges ry ybins, edges rz zbins)

end Postpic.Histogram
