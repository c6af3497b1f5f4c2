import Mathlib.Data.Rat.Defs
import Mathlib.Algebra.Field.Rat
import Mathlib.Data.Nat.Notation
import Verif.Py.Err

/-!
# Model of the identification of species by name

`postpic/particles/_routines.py:153-321`. Masses are in units of the electron mass and charges in
units of the elementary charge; decimal numbers are exact.

Python's `re` finds the first match in the order of preference of its alternatives; a pattern is
modelled by the function from a text to all its matches in this order, each given by the matched
part and the rest of the text.
-/

set_option autoImplicit false

namespace Postpic.Species

open Postpic

/-! ## Regular expressions -/

/-- The unicode tables behind `\\w` and `\\d`: word characters, and the value of a decimal digit. -/
structure Classes where
  word : Char → Bool
  digit : Char → Option ℕ

/-- All matches at the beginning of a text in order of preference. -/
abbrev Rx := List Char → List (List Char × List Char)

/-- A character of a class. -/
def Rx.one (p : Char → Bool) : Rx
  | [] => []
  | c :: s => if p c then [([c], s)] else []

/-- A literal text. -/
def Rx.lit (t : List Char) : Rx :=
  fun s => if t.isPrefixOf s then [(t, s.drop t.length)] else []

/-- One pattern after the other. -/
def Rx.seq (a b : Rx) : Rx :=
  fun s => (a s).flatMap fun p => (b p.2).map fun q => (p.1 ++ q.1, q.2)

/-- `a?` -/
def Rx.opt (a : Rx) : Rx := fun s => a s ++ [([], s)]

/-- At most `n` repetitions, as many as possible preferred. -/
def Rx.starN (a : Rx) : ℕ → Rx
  | 0 => fun s => [([], s)]
  | n + 1 => fun s =>
    ((a s).flatMap fun p => (Rx.starN a n p.2).map fun q => (p.1 ++ q.1, q.2)) ++ [([], s)]

/-- `a*` for a pattern which does not match the empty text: there are at most as many repetitions
as characters. -/
def Rx.star (a : Rx) : Rx := fun s => Rx.starN a s.length s

/-- `a*?` for a class of characters: as few as possible preferred. -/
def Rx.lazyStar (p : Char → Bool) : Rx
  | [] => [([], [])]
  | c :: s => ([], c :: s) :: if p c then (Rx.lazyStar p s).map fun q => (c :: q.1, q.2) else []

/-- `.*_` -/
def praeWord : Rx := Rx.seq (Rx.star (Rx.one (· != '\n'))) (Rx.lit ['_'])

/-- `(?!El)[A-Z][a-z]?` -/
def elemRx : Rx := fun s =>
  if "El".toList.isPrefixOf s then []
  else Rx.seq (Rx.one fun c => decide ('A' ≤ c ∧ c ≤ 'Z'))
    (Rx.opt (Rx.one fun c => decide ('a' ≤ c ∧ c ≤ 'z'))) s

/-- `\\d*` -/
def digitsRx (cl : Classes) : Rx := Rx.star (Rx.one fun c => (cl.digit c).isSome)

/-- `\\d+` -/
def digits1Rx (cl : Classes) : Rx := Rx.seq (Rx.one fun c => (cl.digit c).isSome) (digitsRx cl)

/-- What the middle of the name says: `elem` and `elem_c`, or `ionmc` with mass and charge. -/
inductive Core where
  | none
  | elem (symbol charge : List Char)
  | ionmc (mass charge : List Char)
  deriving DecidableEq

/-- `ionc(?P<c1>\\d+)m(?P<m2>\\d+)` and `ionm(?P<m1>\\d+)c(?P<c2>\\d+)`: a literal, digits, a
letter, digits. -/
def ionRx (cl : Classes) (head letter : String) (s : List Char) :
    List ((List Char × List Char) × List Char) :=
  (Rx.lit head.toList s).flatMap fun h => (digits1Rx cl h.2).flatMap fun a =>
    (Rx.lit letter.toList a.2).flatMap fun l => (digits1Rx cl l.2).map fun b => ((a.1, b.1), b.2)

/-- The optional group in the middle. `_routines.py:263-266`. -/
def coreRx (cl : Classes) (s : List Char) : List (Core × List Char) :=
  ((elemRx s).flatMap fun e => (digitsRx cl e.2).map fun d => (Core.elem e.1 d.1, d.2)) ++
  ((ionRx cl "ionc" "m" s).map fun r => (Core.ionmc r.1.2 r.1.1, r.2)) ++
  ((ionRx cl "ionm" "c" s).map fun r => (Core.ionmc r.1.1 r.1.2, r.2)) ++
  [(Core.none, s)]

/-- `[Ee]le[ck]` -/
def electronRx : Rx :=
  Rx.seq (Rx.one fun c => c == 'E' || c == 'e')
    (Rx.seq (Rx.lit ['l', 'e']) (Rx.one fun c => c == 'c' || c == 'k'))

/-- `$`: the end, or a newline at the end. -/
def atEnd (s : List Char) : Bool := s == [] || s == ['\n']

/-- The groups of the match. -/
structure Groups where
  prae : List Char
  core : Core
  plus : List Char
  electron : List Char
  deriving DecidableEq

/-- All matches of the pattern. `_routines.py:262-269`. -/
def nameRx (cl : Classes) (s : List Char) : List Groups :=
  (Rx.star praeWord s).flatMap fun p => (coreRx cl p.2).flatMap fun c =>
    (Rx.star (Rx.lit "Plus".toList) c.2).flatMap fun pl => (Rx.opt electronRx pl.2).flatMap fun el =>
      ((Rx.lazyStar cl.word el.2).filter fun su => atEnd su.2).map fun _ =>
        ⟨p.1, c.1, pl.1, el.1⟩

/-! ## The tables -/

/-- `_specdict`. `_routines.py:160-163`. -/
structure SpecDict where
  mass : ℚ
  charge : ℚ
  ision : Bool
  deriving DecidableEq

/-- `_defaults`. `_routines.py:166-189`. -/
def defaults : List (String × SpecDict) := [
  ("electrongold", ⟨1, -1, false⟩),
  ("proton", ⟨18362 / 10 * 1, 1, true⟩),
  ("Proton", ⟨18362 / 10 * 1, 1, true⟩),
  ("ionp", ⟨18362 / 10, 1, true⟩),
  ("ion", ⟨18362 / 10 * 12, 1, true⟩),
  ("c6", ⟨18362 / 10 * 12, 1, true⟩),
  ("ionf", ⟨18362 / 10 * 19, 1, true⟩),
  ("Palladium", ⟨18362 / 10 * 106, 0, true⟩),
  ("Palladium1", ⟨18362 / 10 * 106, 1, true⟩),
  ("Palladium2", ⟨18362 / 10 * 106, 2, true⟩),
  ("Ion", ⟨18362 / 10, 1, true⟩),
  ("Photon", ⟨0, 0, false⟩),
  ("Positron", ⟨1, 1, false⟩),
  ("positron", ⟨1, 1, false⟩),
  ("bw_positron", ⟨1, 1, false⟩),
  ("bw_electron", ⟨1, -1, false⟩),
  ("photon", ⟨0, 0, false⟩),
  ("gold1", ⟨18362 / 10 * 197, 1, true⟩),
  ("gold3", ⟨18362 / 10 * 197, 3, true⟩),
  ("gold4", ⟨18362 / 10 * 197, 4, true⟩),
  ("gold2", ⟨18362 / 10 * 197, 2, true⟩),
  ("gold7", ⟨18362 / 10 * 197, 7, true⟩),
  ("gold10", ⟨18362 / 10 * 197, 10, true⟩),
  ("gold20", ⟨18362 / 10 * 197, 20, true⟩)]

/-- `_masslistelement`; the later of two entries with the same key counts. `_routines.py:192-219`. -/
def masslist : List (String × ℚ) := [
  ("H", 1008 / 1000), ("He", 4003 / 1000), ("Li", 6941 / 1000), ("Be", 9012 / 1000),
  ("B", 10811 / 1000), ("C", 12011 / 1000), ("N", 14007 / 1000), ("O", 15999 / 1000),
  ("F", 18998 / 1000), ("Ne", 20180 / 1000), ("Na", 22990 / 1000), ("Mg", 24305 / 1000),
  ("Al", 26982 / 1000), ("Si", 28086 / 1000), ("P", 30974 / 1000), ("S", 32066 / 1000),
  ("Cl", 35453 / 1000), ("Ar", 39948 / 1000), ("K", 39098 / 1000), ("Ca", 40078 / 1000),
  ("Sc", 44956 / 1000), ("Ti", 47867 / 1000), ("V", 50942 / 1000), ("Cr", 51996 / 1000),
  ("Mn", 54938 / 1000), ("Ff", 55845 / 1000), ("Co", 58933 / 1000), ("Ni", 58693 / 1000),
  ("Cu", 63546 / 1000), ("Zn", 6538 / 100), ("Ga", 69723 / 1000), ("Ge", 72631 / 1000),
  ("As", 74922 / 1000), ("Se", 78971 / 1000), ("Br", 79904 / 1000), ("Kr", 84798 / 1000),
  ("Rb", 84468 / 1000), ("Sr", 8762 / 100), ("Y", 88906 / 1000), ("Zr", 91224 / 1000),
  ("Nb", 92906 / 1000), ("Mo", 9595 / 100), ("Tc", 98907 / 1000), ("Ru", 10107 / 100),
  ("Rh", 102906 / 1000), ("Pd", 10642 / 100), ("Ag", 107868 / 1000), ("Cd", 112414 / 1000),
  ("In", 114818 / 1000), ("Sm", 118711 / 1000), ("Sb", 121760 / 1000), ("Te", 1267 / 10),
  ("I", 126904 / 1000), ("Xe", 131294 / 1000), ("Cs", 132905 / 1000), ("Ba", 137328 / 1000),
  ("La", 138905 / 1000), ("Ce", 140116 / 1000), ("Pr", 140908 / 1000), ("Nd", 144243 / 1000),
  ("Pm", 144913 / 1000), ("Sm", 15036 / 100), ("Eu", 151964 / 1000), ("Gd", 15725 / 100),
  ("Tb", 158925 / 1000), ("Dy", 162500 / 1000), ("Ho", 164930 / 1000), ("Er", 167259 / 1000),
  ("Tm", 168934 / 1000), ("Yb", 173055 / 1000), ("Lu", 174967 / 1000), ("Hf", 17849 / 100),
  ("Ta", 180948 / 1000), ("W", 18384 / 100), ("Rr", 186207 / 1000), ("Os", 19023 / 100),
  ("Ir", 192217 / 1000), ("Pt", 195085 / 1000), ("Au", 196967 / 1000), ("Hg", 200592 / 1000),
  ("Tl", 204383 / 1000), ("Pb", 2072 / 10), ("Bi", 208980 / 1000), ("Po", 208982 / 1000),
  ("At", 209987 / 1000), ("Rn", 222081 / 1000), ("Fr", 223020 / 1000), ("Ra", 226025 / 1000),
  ("Ac", 227028 / 1000), ("Th", 232038 / 1000), ("Pa", 231036 / 1000), ("U", 238029 / 1000),
  ("Np", 237), ("Pu", 244), ("Am", 243), ("Cm", 247), ("Bk", 247), ("Ct", 251), ("Es", 252),
  ("Fm", 257), ("Md", 258), ("No", 259), ("Lr", 262), ("Rf", 261), ("Db", 262), ("Sg", 266),
  ("Bh", 264), ("Hs", 269), ("Mt", 268), ("Ds", 271), ("Rg", 272), ("Cn", 285), ("Nh", 284),
  ("Fl", 289), ("Mc", 288), ("Lv", 292), ("Ts", 294), ("Og", 294)]

/-- `cls._masslistelement[symbol]`, `none` for KeyError. -/
def massOf (symbol : String) : Option ℚ := masslist.reverse.lookup symbol

/-! ## Identification -/

/-- Values in the returned dictionary. -/
inductive Val where
  | num (q : ℚ)
  | bool (b : Bool)
  | str (s : String)
  deriving DecidableEq

/-- The returned dictionary; `none` for missing keys. -/
abbrev Dict := String → Option Val

/-- `ret[key] = v`. -/
def Dict.set (d : Dict) (key : String) (v : Val) : Dict := fun k => if k = key then some v else d k

/-- `float(digits)`. -/
def numeral (cl : Classes) (l : List Char) : ℚ :=
  (l.foldl (fun n c => 10 * n + (cl.digit c).getD 0) 0 : ℕ)

/-- `text.split('_')`. -/
def splitUnderscore : List Char → List (List Char)
  | [] => [[]]
  | c :: s =>
    if c = '_' then [] :: splitUnderscore s
    else match splitUnderscore s with
      | w :: ws => (c :: w) :: ws
      | [] => [[c]]

/-- The words of the prefix become keys. `_routines.py:279-283`. -/
def setWords (prae : List Char) (ret : Dict) : Dict :=
  (splitUnderscore prae).foldl
    (fun ret w => if w = [] then ret else ret.set (String.ofList w) (.bool true)) ret

/-- `_routines.py:287-306`. -/
def setCore (cl : Classes) (core : Core) (ret : Dict) : Res Dict :=
  match core with
  | .none => .ok ret
  | .elem symbol charge => match massOf (String.ofList symbol) with
    | none => .error .keyError
    | some m => .ok (((ret.set "mass" (.num (m * (18362 / 10)))).set "charge"
        (.num (if charge = [] then 0 else numeral cl charge))).set "ision" (.bool true))
  | .ionmc mass charge =>
    .ok (((ret.set "mass" (.num (numeral cl mass * (18362 / 10)))).set "charge"
      (.num (numeral cl charge))).set "ision" (.bool true))

/-- `_routines.py:309-312`. -/
def setPlus (plus : List Char) (ret : Dict) : Res Dict :=
  if plus = [] then .ok ret
  else match ret "charge" with
    | none => .error .keyError
    | some v => .ok (if v = .num 0 ∨ v = .bool false then ret.set "charge" (.num (plus.length / 4))
        else ret)

/-- `_routines.py:315-318`. -/
def setElectron (electron : List Char) (ret : Dict) : Dict :=
  if electron = [] then ret
  else ((ret.set "mass" (.num 1)).set "charge" (.num (-1))).set "ision" (.bool false)

/-- `species.replace('/', '_')`. -/
def underscores (species : String) : List Char :=
  species.toList.map fun c => if c = '/' then '_' else c

/-- `identifyspecies`. `_routines.py:232-323`. -/
def identify (cl : Classes) (species : String) : Res Dict :=
  let ret : Dict := fun k =>
    if k = "tracer" ∨ k = "ejected" then some (.bool false)
    else if k = "name" then some (.str species) else none
  let s := underscores species
  match defaults.lookup (String.ofList s) with
  | some d => .ok (((ret.set "mass" (.num d.mass)).set "charge" (.num d.charge)).set "ision"
      (.bool d.ision))
  | none => match (nameRx cl s).head? with
    | none => .error .genericException
    | some g => do
      let ret := setWords g.prae ret
      let ret ← setCore cl g.core ret
      let ret ← setPlus g.plus ret
      let ret := setElectron g.electron ret
      if (ret "mass").isNone ∨ (ret "charge").isNone ∨ (ret "ision").isNone then
        throw .genericException
      return ret

/-- `isejected`. `_routines.py:221-225`. -/
def isEjected (species : String) : Bool :=
  "ejected_".toList.isPrefixOf (species.toList.filter (· ≠ '/'))

/-- `identifyspecies(species)['ision']`, `['ejected']`: the truth of the entry. -/
def flag (cl : Classes) (species key : String) : Res Bool := do
  let d ← identify cl species
  match d key with
  | some (.bool b) => return b
  | some (.num q) => return decide (q ≠ 0)
  | some (.str s) => return decide (s ≠ "")
  | none => throw .keyError

end Postpic.Species
