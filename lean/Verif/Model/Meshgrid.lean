import Verif.Model.Field

/-!
# Meshes of coordinates

`Field.meshgrid` and the replacements for `meshgrid` and `broadcast_to` in old versions of numpy.
-/

set_option autoImplicit false

namespace Postpic.Compat

open Postpic

/-- The array number `k` of `np.meshgrid(*grids, indexing='ij', sparse=sparse)`. -/
def meshArray {K : Type} [Zero K] (grids : List (List K)) (sparse : Bool) (k : ℕ) : Arr K where
  shape := if sparse then grids.mapIdx fun i g => if i = k then g.length else 1 else grids.map List.length
  at' idx := (grids.getD k []).getD (idx.getD k 0) 0

/-- `np.meshgrid(*grids, indexing='ij', sparse=sparse)` of numpy. -/
def npMeshgrid {K : Type} [Zero K] (grids : List (List K)) (sparse : Bool) : List (Arr K) :=
  (List.range grids.length).map (meshArray grids sparse)

/-- The replacement for numpy before 1.9, which refused less than two arguments. `_compat/functions.py:36-45`. -/
def meshgridOld {K : Type} [Zero K] (grids : List (List K)) (sparse : Bool) : List (Arr K) :=
  match grids with
  | [] => []
  | [g] => [⟨[g.length], fun idx => g.getD (idx.getD 0 0) 0⟩]
  | _ => npMeshgrid grids sparse

/-- `np.broadcast_to(a, shape)` of numpy. -/
def npBroadcastTo {V : Type} (a : Arr V) (shape : List ℕ) : Res (Arr V) :=
  if bshape a.shape shape = some shape then .ok ⟨shape, fun idx => a.at' (bindex a.shape idx)⟩ else .error .valueError

/-- The replacement for numpy before 1.10: the first of `np.broadcast_arrays(a, np.empty(shape))`.
`_compat/functions.py:48-51`. -/
def broadcastToOld {V : Type} (a : Arr V) (shape : List ℕ) : Res (Arr V) :=
  match bshape a.shape shape with
  | some r => .ok ⟨r, fun idx => a.at' (bindex a.shape idx)⟩
  | none => .error .valueError

end Postpic.Compat

namespace Postpic.Fields

open Postpic Postpic.Axes Postpic.Compat

/-- `Field.meshgrid(sparse)`, with numpy before 1.9 (`old`) or later. `datahandling.py:976-977`, `_compat/__init__.py`. -/
def Field.meshgrid {K V : Type} [Zero K] (f : Field K V) (old sparse : Bool) : List (Arr K) :=
  if old then meshgridOld (f.axes.map (·.grid)) sparse else npMeshgrid (f.axes.map (·.grid)) sparse

end Postpic.Fields
