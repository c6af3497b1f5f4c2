import Mathlib.Data.Nat.Notation
import Verif.Py.Err

/-!
# Model of the wrapper of the Fourier library

`postpic/helper_fft.py:35-95`. The library (pyFFTW's copy of `numpy.fft`, or `numpy.fft`) is given by the names of its functions with the names of
their parameters; observed is which call the library receives. Values of arguments are of any type `V`. Not modelled: what the
library computes, and `functools.wraps` (names and documentation of the functions).
-/

set_option autoImplicit false

namespace Postpic.HelperFft

open Postpic

variable {V : Type}

/-- `kwargs`, in the order in which they were given. -/
abbrev Kw (V : Type) := List (String × V)

/-- `d[k] = v`. -/
def kwSet (d : Kw V) (k : String) (v : V) : Kw V :=
  if d.any (fun p => p.1 == k) then d.map fun p => if p.1 == k then (k, v) else p else d ++ [(k, v)]

/-- `d.update(e)`. -/
def kwUpdate (d e : Kw V) : Kw V := e.foldl (fun d p => kwSet d p.1 p.2) d

/-- Python's rules for `f(*args, **kw)`, if `f` has the given parameters (all of them have default values): too many arguments, unknown keywords and
keywords for parameters which have a value already are refused. -/
def bindCall (params : List String) (args : List V) (kw : Kw V) : Res (Kw V) :=
  if params.length < args.length then .error .typeError
  else if kw.any (fun p => !(params.drop args.length).contains p.1) then .error .typeError
  else .ok (params.zip args ++ kw)

/-- A library: its functions and their parameters. -/
abbrev FftLib := List (String × List String)

/-- `fft_kwargs` with and without pyFFTW; `estimate` is `'FFTW_ESTIMATE'` and `one` is 1 (`nproc` is overwritten with it). `helper_fft.py:37-70`. -/
def fftDefaults (pyfftw : Bool) (estimate one : V) : Kw V := if pyfftw then [("planner_effort", estimate), ("threads", one)] else []

/-- `_fft_functions`. `helper_fft.py:72-74`. -/
def fftFunctions : List String :=
  ["fft", "ifft", "fft2", "ifft2", "fftn", "ifftn", "rfft", "irfft", "rfft2", "irfft2", "irfftn", "hfft", "ihfft"]

/-- The object `fft`: the class attributes and the names of the attributes set in `__init__`. -/
structure FftObject (V : Type) where
  lib : FftLib
  kwargs : Kw V
  wrapped : List String

/-- `_fft()`. `helper_fft.py:90-92`. -/
def fftInit (lib : FftLib) (kwargs : Kw V) : Res (FftObject V) :=
  if fftFunctions.all (fun f => (lib.lookup f).isSome) then .ok ⟨lib, kwargs, fftFunctions⟩ else .error .attributeError

/-- `fft.name(*args, **kwargs)`: the arguments which the function of the library gets, and the object afterwards. `helper_fft.py:76-88`. -/
def fftCall (o : FftObject V) (name : String) (args : List V) (kwargs : Kw V) : Res (Kw V) × FftObject V :=
  match o.lib.lookup name with
  | none => (.error .attributeError, o)
  | some params =>
    if o.wrapped.contains name then
      let kws := kwUpdate o.kwargs kwargs
      (bindCall params args kws, o)
    else (bindCall params args kwargs, o)

/-- Several calls, one after the other. -/
def fftCalls (o : FftObject V) : List (String × List V × Kw V) → List (Res (Kw V)) × FftObject V
  | [] => ([], o)
  | (name, args, kw) :: cs =>
    let (r, o) := fftCall o name args kw
    let (rs, o) := fftCalls o cs
    (r :: rs, o)

end Postpic.HelperFft
