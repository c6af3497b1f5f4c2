import Verif.Model.Field

/-!
# Model of csv files and images

`postpic/io/csv.py:31-61`, `postpic/io/image.py:30-128`. A text file is the list of its lines. Numbers are printed by a function
(`'%.18e'`) and read by another one, which gives `none` for a text which is no number (`nan`). The decoder of images is a parameter.
-/

set_option autoImplicit false

namespace Postpic.Io

open Postpic Postpic.Axes Postpic.Fields

variable {K V : Type} [_root_.Field K] [LinearOrder K]

/-- `text.split(d)` for a single character. -/
def splitOn (d : Char) : List Char → List (List Char)
  | [] => [[]]
  | c :: l => if c = d then [] :: splitOn d l else match splitOn d l with
    | [] => [[c]]
    | p :: ps => (c :: p) :: ps

/-- `d.join(cells)`. -/
def joinWith (d : Char) : List (List Char) → List Char
  | [] => []
  | [p] => p
  | p :: ps => p ++ d :: joinWith d ps

/-- `text.strip(' \r\n')`. -/
def stripBlank (l : List Char) : List Char :=
  let blank := fun c : Char => c == ' ' || c == '\r' || c == '\n'
  ((l.dropWhile blank).reverse.dropWhile blank).reverse

/-- The rows which `np.savetxt` writes: one number per line for one dimension; other dimensions than one and two raise ValueError. -/
def savetxtRows (a : Arr K) : Res (List (List K)) :=
  match a.shape with
  | [n] => .ok ((List.range n).map fun i => [a.at' [i]])
  | [n, m] => .ok ((List.range n).map fun i => (List.range m).map fun j => a.at' [i, j])
  | _ => .error .valueError

/-- `_export_field_csv`: the lines of the header (version, time, extent), then the rows with blanks between the numbers.
`csv.py:31-40`. -/
def exportCsv (print : K → List Char) (header : List (List Char)) (a : Arr K) : Res (List (List Char)) := do
  let rows ← savetxtRows a
  return (header.map fun l => '#' :: ' ' :: l) ++ rows.map fun r => joinWith ' ' (r.map print)

/-- The cells of a line for `np.genfromtxt`: comments are removed, a line without text has none. -/
def lineCells (d : Char) (l : List Char) : List (List Char) :=
  let s := stripBlank ((splitOn '#' l).headD [])
  if s.isEmpty then [] else splitOn d s

/-- `np.squeeze` of a shape. -/
def squeezeShape (shape : List ℕ) : List ℕ := shape.filter (· ≠ 1)

/-- `np.genfromtxt(filename, delimiter=d)`: all lines must have the same number of cells; dimensions of length one are removed. -/
def genfromtxt (read : List Char → Option K) (d : Char) (lines : List (List Char)) : Res (Arr (Option K)) :=
  let rows := (lines.map (lineCells d)).filter fun r => !r.isEmpty
  let n := rows.length
  match rows with
  | [] => .ok ⟨[0], fun _ => none⟩
  | r :: _ =>
    let m := r.length
    if rows.all fun r => r.length == m then
      let value := fun i j => read ((rows.getD i []).getD j [])
      .ok ⟨squeezeShape [n, m], fun idx =>
        if n = 1 then (if m = 1 then value 0 0 else value 0 (idx.headD 0))
        else if m = 1 then value (idx.headD 0) 0 else value (idx.headD 0) (idx.tail.headD 0)⟩
    else .error .valueError

/-- `osp.basename`. -/
def basename (s : String) : String := String.ofList (s.toList.reverse.takeWhile (· ≠ '/')).reverse

/-- `Axis(name=name, unit=unit, grid=np.linspace(0, n-1, n))`. `csv.py:58`, `image.py:55-56`. -/
def pixelAxis (spl : Splines K) (name unit : String) (n : ℕ) : Res (Axis K) :=
  mkAxis spl { name := name, unit := unit, grid := some (linspace 0 ((n : K) - 1) n) }

/-- `_import_field_csv`. `csv.py:43-61`. -/
def importCsv (spl : Splines K) (read : List Char → Option K) (filename : String) (d : Char := ',')
    (lines : List (List Char)) : Res (Fields.Field K (Option K)) := do
  let ret ← genfromtxt read d lines
  let axes ← [("x", 0), ("y", 1)].mapM fun p => do
    let n ← pyGet ret.shape p.2
    pixelAxis spl p.1 "px" n
  mkField ret (basename filename) "?" axes (ret.shape.map fun _ => some false) (ret.shape.map fun _ => none)

/-- `scipy.ndimage.morphology.grey_opening(data, size=(3, 3))`: for two dimensions only. `opening` is its result. -/
def greyOpening (opening : Arr V → Arr V) (a : Arr V) : Res (Arr V) :=
  if a.shape.length = 2 then .ok (opening a) else .error .runtimeError

/-- `data[..., i]`. -/
def channel (a : Arr V) (i : ℕ) : Arr V := ⟨a.shape.dropLast, fun idx => a.at' (idx ++ [i])⟩

/-- `data[..., i] = b`. -/
def setChannel (a : Arr V) (i : ℕ) (b : Arr V) : Arr V :=
  ⟨a.shape, fun idx => if idx.getLast? = some i then b.at' idx.dropLast else a.at' idx⟩

/-- The loop over the channels. `image.py:44-45`. -/
def openChannels (opening : Arr V → Arr V) : List ℕ → Arr V → Res (Arr V)
  | [], a => .ok a
  | i :: l, a => do
    let b ← greyOpening opening (channel a i)
    openChannels opening l (setChannel a i b)

/-- `if hotpixelremove: ...`: the `else` belongs to the loop, which never breaks, so that it is always executed after the loop.
`image.py:40-47`. -/
def removeHotPixels (opening : Arr V → Arr V) (a : Arr V) : Res (Arr V) :=
  match a.shape with
  | [_, _, c] =>
    if c < 5 then do
      let b ← openChannels opening (List.range c) a
      greyOpening opening b
    else .ok a
  | _ => .ok a

/-- `np.moveaxis(data, 0, 1)[:, ::-1, ...]`. `image.py:51`. -/
def turnImage (a : Arr V) : Res (Arr V) :=
  if a.shape.length < 2 then .error .indexError
  else .ok ((a.transpose (1 :: 0 :: (List.range a.shape.length).drop 2)).flip 1)

/-- `_import_field_image` after the image has been read. `image.py:30-60`. -/
def importImage (spl : Splines K) (opening : Arr V → Arr V) (filename : String) (hotpixelremove : Bool) (data : Arr V) :
    Res (Fields.Field K V) := do
  let data ← if hotpixelremove then removeHotPixels opening data else pure data
  let data ← turnImage data
  let axes ← ([("x", "px"), ("y", "px"), ("channel", "")].zip data.shape).mapM fun p => pixelAxis spl p.1.1 p.1.2 p.2
  mkField data (basename filename) "counts" axes (data.shape.map fun _ => some false) (data.shape.map fun _ => none)

/-- `_readpng`: `pypng` tells whether the package `png` can be imported, `sbit` is the content of the chunk sBIT (one byte for each
channel). `image.py:63-100`. Numbers of bits above 16 do not occur in png files. -/
def readPng (pypng : Bool) (sbit : Option (List ℕ)) (data : Arr ℕ) : Res (Arr ℕ) :=
  if pypng then
    match sbit with
    | none => .ok data
    | some [s] => .ok ⟨data.shape, fun idx => data.at' idx >>> (16 - s)⟩
    | some _ => .error .typeError
  else .ok data

end Postpic.Io
