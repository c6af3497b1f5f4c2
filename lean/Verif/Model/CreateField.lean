import Verif.Model.Histogramdd
import Verif.Model.Io
import Verif.Model.ReaderGrid

/-!
# Model of `createField` of a collection of particles

`postpic/particles/particles.py:44-57, 397-415, 1014-1166` and the part of the constructor of `Field`
used there, `postpic/datahandling.py:561-612, 890-912`.

The evaluation of scalars is given from outside (it is modelled in `Model/ScalarEval.lean` and
`Model/Particles.lean`). The deprecated keyword `optargsh`, unknown keywords and the attribute
`infos` of the result are not modelled. The number of bins is a list in the model; the code also
accepts arrays, with the same effect.
-/

set_option autoImplicit false

namespace Postpic.Particles

open Postpic Postpic.Axes Postpic.Fields Postpic.Histogram Postpic.Io

/-- What `createField` uses of a collection: the values of a scalar, `self('weight * (w)')`, the
extents reported by the readers of its parts, the number of grid points reported by the reader of
the first part, the attributes of scalars, the name of the species,
number of particles and species. -/
structure Collection (S K : Type) where
  eval : S → Res (List K)
  weight : Option S → Res (List K)
  extents : S → List (Res (K × K))
  gridpoints : S → Res ℕ
  scalarName : S → Option String
  scalarUnit : S → Option String
  species : String
  npart : ℕ
  nspecies : ℕ

/-- The arguments of `createField` besides the scalars. -/
structure CreateArgs (S K : Type) where
  name : String := "distfn"
  title : Option String := none
  simextent : Bool := false
  simgrid : Bool := false
  rangex : Option (End K × End K) := none
  rangey : Option (End K × End K) := none
  rangez : Option (End K × End K) := none
  weights : Option S := none
  force : Bool := false
  bins : BinsArg := .none
  shape : Option ℕ := none

/-- `_findscalarattr`: `'unknown'` if there is no such attribute. `particles.py:44-57`. -/
def findAttr (a : Option String) : String := a.getD "unknown"

variable {S K : Type} [_root_.Field K] [LinearOrder K] [FloorRing K]

/-- `simextent`: smallest and largest end of all parts; `np.min` of an empty list raises a
ValueError. `particles.py:397-404`. -/
def simextent (c : Collection S K) (sp : S) : Res (K × K) := do
  let l ← (c.extents sp).mapM id
  let lo ← npMin (l.map (·.1))
  let hi ← npMax (l.map (·.2))
  return (lo, hi)

/-- The list `ranges` after `simextent`. `particles.py:1075-1078`. -/
def setRanges (c : Collection S K) : List S → List (Option (End K × End K)) →
    Res (List (Option (End K × End K)))
  | sp :: sps, _ :: rs => do
    let r ← simextent c sp
    let rest ← setRanges c sps rs
    return some (some r.1, some r.2) :: rest
  | _, rs => .ok rs

/-- `simgridpoints`: there is no `return` after the `try` statement, so that the value is always
`None`. `particles.py:406-415`. -/
def simgridpoints (c : Collection S K) (sp : S) : Res (Option ℕ) :=
  match c.gridpoints sp with
  | .ok _ => .ok none
  | .error e => if e = .attributeError ∨ e = .keyError then .ok none else .error e

/-- `bins[i] = n`: only a list can be changed. -/
def setBin (bins : BinsArg) (i n : ℕ) : Res BinsArg :=
  match bins with
  | .many l => if i < l.length then .ok (.many (l.set i n)) else .error .indexError
  | _ => .error .typeError

/-- The loop over the scalars for `simgrid`. `particles.py:1079-1083`. -/
def setBins (c : Collection S K) : ℕ → List S → BinsArg → Res BinsArg
  | _, [], bins => .ok bins
  | i, sp :: sps, bins => do
    let bins ← match ← simgridpoints c sp with
      | none => pure bins
      | some n => setBin bins i n
    setBins c (i + 1) sps bins

/-- `createedges`. `particles.py:1087-1091`. Missing ends raise a TypeError. -/
def createEdges (r : Option (End K × End K)) (n : ℕ) : Res (List K) :=
  match r with
  | some (some a, some b) => .ok (linspace a b (n + 1))
  | some _ => .error .typeError
  | none => .ok (linspace 0 1 (n + 1))

/-- The edges of the empty histogram: `zip(range(len(h)), ranges)`, `bins[i]`. `particles.py:1093`. -/
def emptyEdges (bins : List ℕ) : ℕ → List (Option (End K × End K)) → Res (List (List K))
  | _, [] => .ok []
  | i, r :: rs => do
    let n ← binAt bins i
    let e ← createEdges r n
    let rest ← emptyEdges bins (i + 1) rs
    return e :: rest

/-- The branch for a collection without particles. `particles.py:1084-1094`. `np.zeros(None)` has no
dimension, `len` of it raises a TypeError; a single number of bins cannot be indexed, which also
raises a TypeError unless there are no bins. -/
def emptyHistogram (bins : BinsArg) (ranges : List (Option (End K × End K))) :
    Res (Arr K × List (List K)) :=
  match bins with
  | .none => .error .typeError
  | .int 0 => .ok (⟨[0], fun _ => 0⟩, [])
  | .int _ => .error .typeError
  | .many [] => .error .typeError
  | .many (n :: l) => do
    let e ← emptyEdges (n :: l) 0 (ranges.take n)
    return (⟨n :: l, fun _ => 0⟩, e)

/-- The histogram as an array. -/
def Hist.arr : Hist K → Arr K × List (List K)
  | .h1 h e => (⟨[h.length], fun idx => h.getD (idx.getD 0 0) 0⟩, [e])
  | .h2 h e f => (⟨[h.length, (h.headD []).length],
      fun idx => (h.getD (idx.getD 0 0) []).getD (idx.getD 1 0) 0⟩, [e, f])
  | .h3 h e f g => (⟨[h.length, (h.headD []).length, ((h.headD []).headD []).length],
      fun idx => ((h.getD (idx.getD 0 0) []).getD (idx.getD 1 0) []).getD (idx.getD 2 0) 0⟩, [e, f, g])

/-- `edge[1] - edge[0]`. -/
def firstCell : List K → Res K
  | a :: b :: _ => .ok (b - a)
  | _ => .error .indexError

/-- `np.prod([edge[1] - edge[0] for edge in edges])`. `particles.py:1100`. -/
def cellVolume (edges : List (List K)) : Res K := do
  let l ← edges.mapM firstCell
  return l.prod

/-- `data`. `particles.py:1064-1070`. -/
def histData (c : Collection S K) (force : Bool) (sps : List S) : Res (List (List K)) :=
  match sps.mapM c.eval with
  | .ok d => .ok d
  | .error e => if force ∧ e = .keyError then .ok [[]] else .error e

/-- `ranges` as used for the histogram; `simgrid` implies `simextent`. `particles.py:1062-1063,
1074-1078`. -/
def usedRanges (c : Collection S K) (sps : List S) (a : CreateArgs S K) :
    Res (List (Option (End K × End K))) :=
  if a.simgrid || a.simextent then setRanges c sps [a.rangex, a.rangey, a.rangez]
  else .ok [a.rangex, a.rangey, a.rangez]

/-- `bins` as used for the histogram. `particles.py:1079-1083`. -/
def usedBins (c : Collection S K) (sps : List S) (a : CreateArgs S K) : Res BinsArg :=
  if a.simgrid then setBins c 0 sps a.bins else .ok a.bins

/-- `_createHistgram`. `particles.py:1014-1102`. -/
def createHistogram (spacing : K → K) (c : Collection S K) (sps : List S) (a : CreateArgs S K) :
    Res (Arr K × List (List K)) := do
  if 3 < sps.length then throw .typeError
  let data ← histData c a.force sps
  let ranges ← usedRanges c sps a
  let bins ← usedBins c sps a
  match data with
  | [] => throw .indexError
  | [] :: _ => emptyHistogram bins ranges
  | _ => do
    let w ← c.weight a.weights
    let h ← histogramdd spacing (.seq data) (.many ranges) bins (some w) a.shape
    let (m, edges) := Hist.arr h
    let dV ← cellVolume edges
    return (⟨m.shape, fun idx => m.at' idx / dV⟩, edges)

/-- One dimension of `Field(matrix, xedges=..., yedges=..., zedges=...)`: `_addaxisnodes`, or
`_addaxis((0, 1))` if there are no edges for this dimension. `datahandling.py:583-594, 890-912`. -/
def edgeAxis (spl : Splines K) (shape : List ℕ) (i : ℕ) (name : String) (e : Option (List K)) :
    Res (List (Axis K)) :=
  match e with
  | some e => do
    let ax ← mkAxis spl { name := name, gridNode := some e }
    match shape[i]? with
    | none => throw .indexError
    | some n => if n = ax.len then return [ax] else throw .valueError
  | none =>
    if 0 ∉ shape ∧ i < shape.length then do
      let ax ← mkAxis spl { name := name, extent := some (0, 1), n := some ((shape.getD i 0 : ℕ) : ℤ) }
      if shape.getD i 0 = ax.len then return [ax] else throw .valueError
    else return []

/-- `Field(matrix, xedges=..., yedges=..., zedges=...)`; without `xedges` the dimensions of length one
are removed. `datahandling.py:561-612`. -/
def fieldFromEdges (spl : Splines K) (m : Arr K) (edges : List (List K)) : Res (Fields.Field K K) := do
  let m := if edges = [] then Readers.Arr.squeeze m else m
  let ax ← edgeAxis spl m.shape 0 "x" edges[0]?
  let ay ← edgeAxis spl m.shape 1 "y" edges[1]?
  let az ← edgeAxis spl m.shape 2 "z" edges[2]?
  return ⟨"", "", m, ax ++ ay ++ az, m.shape.map fun _ => some false, m.shape.map fun _ => none⟩

/-- `ret.axes[i].unit = ...; ret.axes[i].name = ...`. `particles.py:1161-1163`. -/
def labelAxes (c : Collection S K) : List S → List (Axis K) → Res (List (Axis K))
  | [], axes => .ok axes
  | _ :: _, [] => .error .indexError
  | sp :: sps, ax :: axes => do
    let rest ← labelAxes c sps axes
    return { ax with unit := findAttr (c.scalarUnit sp), name := findAttr (c.scalarName sp) } :: rest

/-- The name of the field. `particles.py:1150, 1156-1160`. An empty title counts as no title. -/
def fieldName (c : Collection S K) (a : CreateArgs S K) : String :=
  let name := match a.weights with
    | some w => findAttr (c.scalarName w)
    | none => a.name
  match a.title with
  | some t => if t ≠ "" then t else name ++ c.species
  | none => name ++ c.species

/-- `createField`. `particles.py:1104-1166`. -/
def createField (spl : Splines K) (spacing : K → K) (c : Collection S K) (sps : List S)
    (a : CreateArgs S K) : Res (LField K K) := do
  let (h, edges) ← createHistogram spacing c sps a
  let ret ← fieldFromEdges spl h edges
  let axes ← labelAxes c sps ret.axes
  return ⟨{ ret with name := fieldName c a, axes := axes }, some c.species,
    toString c.npart ++ " npart in " ++ toString c.nspecies ++ " species"⟩

end Postpic.Particles
