import Verif.Model.ScalarEval

/-!
# Model of the methods which read one property of the particles

`postpic/particles/particles.py:686-958`: `X()`, `Px()`, `Ekin_MeV()`, ... of `MultiSpecies`, with the decorator `deprecated` and the
attributes `name` and `unit` used for labels.
-/

set_option autoImplicit false

namespace Postpic.Scalars

open Postpic

/-- A statement in the body of the class: a method with the message of its decorator which returns `self(text)`, or the assignment of
an attribute. -/
inductive ClassStmt where
  | method (name message text : String)
  | setattr (target attr value : String)
  deriving DecidableEq, Repr

/-- The statements of the class. `particles.py:688-956`. -/
def classBody : List ClassStmt := [
  .method "time" "Use self(\"{name}\") instead." "time",
  .setattr "time" "name" "time",
  .setattr "time" "unit" "s",
  .method "weight" "Use self(\"{name}\") instead." "weight",
  .setattr "weight" "name" "Particle weight",
  .setattr "weight" "unit" "npartpermacro",
  .method "ID" "Use self(\"id\") instead." "id",
  .method "mass" "Use self(\"{name}\") instead." "mass",
  .setattr "mass" "unit" "kg",
  .setattr "mass" "name" "m",
  .method "mass_u" "Use self(\"{name}\") instead." "mass_u",
  .setattr "mass_u" "unit" "u",
  .setattr "mass_u" "name" "m",
  .method "charge" "Use self(\"{name}\") instead." "charge",
  .setattr "charge" "unit" "C",
  .setattr "charge" "name" "q",
  .method "charge_e" "Use self(\"{name}\") instead." "charge_e",
  .setattr "charge" "unit" "qe",
  .setattr "charge" "name" "q",
  .method "Eruhe" "Use self(\"{name}\") instead." "Eruhe",
  .method "Px" "Use self(\"px\") instead." "px",
  .setattr "Px" "unit" "",
  .setattr "Px" "name" "Px",
  .method "Py" "Use self(\"py\") instead." "py",
  .setattr "Py" "unit" "",
  .setattr "Py" "name" "Py",
  .method "Pz" "Use self(\"pz\") instead." "pz",
  .setattr "Pz" "unit" "",
  .setattr "Pz" "name" "Pz",
  .method "P" "Use self(\"p\") instead." "p",
  .setattr "P" "unit" "",
  .setattr "P" "name" "P",
  .method "X" "Use self(\"x\") instead." "x",
  .setattr "X" "unit" "m",
  .setattr "X" "name" "X",
  .method "X_um" "Use self(\"x_um\") instead." "x_um",
  .setattr "X_um" "unit" "$\\mu m$",
  .setattr "X_um" "name" "X",
  .method "Y" "Use self(\"y\") instead." "y",
  .setattr "Y" "unit" "m",
  .setattr "Y" "name" "Y",
  .method "Y_um" "Use self(\"Y_mu\") instead." "y_um",
  .setattr "Y_um" "unit" "$\\mu m$",
  .setattr "Y_um" "name" "Y",
  .method "Z" "Use self(\"z\") instead." "z",
  .setattr "Z" "unit" "m",
  .setattr "Z" "name" "Z",
  .method "Z_um" "Use self(\"z_um\") instead." "z_um",
  .setattr "Z_um" "unit" "$\\mu m$",
  .setattr "Z_um" "name" "Z",
  .method "beta" "Use self(\"{name}\") instead." "beta",
  .setattr "beta" "unit" "$\\beta$",
  .setattr "beta" "name" "beta",
  .method "betax" "Use self(\"{name}\") instead." "betax",
  .setattr "betax" "unit" "$\\beta$",
  .setattr "betax" "name" "betax",
  .method "betay" "Use self(\"{name}\") instead." "betay",
  .setattr "betay" "unit" "$\\beta$",
  .setattr "betay" "name" "betay",
  .method "betaz" "Use self(\"{name}\") instead." "betaz",
  .setattr "betaz" "unit" "$\\beta$",
  .setattr "betaz" "name" "betaz",
  .method "V" "Use self(\"v\") instead." "v",
  .setattr "V" "unit" "m/s",
  .setattr "V" "name" "V",
  .method "Vx" "Use self(\"vx\") instead." "vx",
  .setattr "Vx" "unit" "m/s",
  .setattr "Vx" "name" "Vx",
  .method "Vy" "Use self(\"vy\") instead." "vy",
  .setattr "Vy" "unit" "m/s",
  .setattr "Vy" "name" "Vy",
  .method "Vz" "Use self(\"vz\") instead." "vz",
  .setattr "Vz" "unit" "m/s",
  .setattr "Vz" "name" "Vz",
  .method "gamma" "Use self(\"{name}\") instead." "gamma",
  .setattr "gamma" "unit" "$\\gamma$",
  .setattr "gamma" "name" "gamma",
  .method "gamma_m1" "Use self(\"{name}\") instead." "gamma_m1",
  .setattr "gamma_m1" "unit" "$\\gamma - 1$",
  .setattr "gamma_m1" "name" "gamma_m1",
  .method "Ekin" "Use self(\"{name}\") instead." "Ekin",
  .setattr "Ekin" "unit" "J",
  .setattr "Ekin" "name" "Ekin",
  .method "Ekin_MeV" "Use self(\"{name}\") instead." "Ekin_MeV",
  .setattr "Ekin_MeV" "unit" "MeV",
  .setattr "Ekin_MeV" "name" "Ekin",
  .method "Ekin_MeV_amu" "Use self(\"{name}\") instead." "Ekin_MeV_amu",
  .setattr "Ekin_MeV_amu" "unit" "MeV / amu",
  .setattr "Ekin_MeV_amu" "name" "Ekin / amu",
  .method "Ekin_MeV_qm" "Use self(\"{name}\") instead." "Ekin_MeV_qm",
  .setattr "Ekin_MeV_qm" "unit" "MeV*q/m",
  .setattr "Ekin_MeV_qm" "name" "Ekin * q/m",
  .method "Ekin_keV" "Use self(\"{name}\") instead." "Ekin_keV",
  .setattr "Ekin_keV" "unit" "keV",
  .setattr "Ekin_keV" "name" "Ekin",
  .method "Ekin_keV_amu" "Use self(\"{name}\") instead." "Ekin_keV_amu",
  .setattr "Ekin_keV_amu" "unit" "keV / amu",
  .setattr "Ekin_keV_amu" "name" "Ekin / amu",
  .method "Ekin_keV_qm" "Use self(\"{name}\") instead." "Ekin_keV_qm",
  .setattr "Ekin_keV_qm" "unit" "keV*q/m",
  .setattr "Ekin_keV_qm" "name" "Ekin * q/m",
  .method "angle_xy" "Use self(\"{name}\") instead." "angle_xy",
  .setattr "angle_xy" "unit" "rad",
  .setattr "angle_xy" "name" "anglexy",
  .method "angle_yz" "Use self(\"{name}\") instead." "ange_yz",
  .setattr "angle_yz" "unit" "rad",
  .setattr "angle_yz" "name" "angleyz",
  .method "angle_zx" "Use self(\"{name}\") instead." "angle_zx",
  .setattr "angle_zx" "unit" "rad",
  .setattr "angle_zx" "name" "anglezx",
  .method "angle_yx" "Use self(\"{name}\") instead." "angle_yx",
  .setattr "angle_yx" "unit" "rad",
  .setattr "angle_yx" "name" "angleyx",
  .method "angle_zy" "Use self(\"{name}\") instead." "angle_zy",
  .setattr "angle_zy" "unit" "rad",
  .setattr "angle_zy" "name" "anglezy",
  .method "angle_xz" "Use self(\"{name}\") instead." "angle_xz",
  .setattr "angle_xz" "unit" "rad",
  .setattr "angle_xz" "name" "anglexz",
  .method "angle_xaxis" "Use self(\"{name}\") instead." "angle_xaxis",
  .setattr "angle_xaxis" "unit" "rad",
  .setattr "angle_xaxis" "name" "angle_xaxis",
  .method "r_xy" "Use self(\"{name}\") instead." "r_xy",
  .setattr "r_xy" "unit" "m",
  .setattr "r_xy" "name" "r_xy",
  .method "r_yz" "Use self(\"{name}\") instead." "r_yz",
  .setattr "r_yz" "unit" "m",
  .setattr "r_yz" "name" "r_yz",
  .method "r_zx" "Use self(\"{name}\") instead." "r_zx",
  .setattr "r_zx" "unit" "m",
  .setattr "r_zx" "name" "r_zx",
  .method "r_xyz" "Use self(\"{name}\") instead." "r_xyz",
  .setattr "r_xyz" "unit" "m",
  .setattr "r_xyz" "name" "r_xyz"]

/-- The names of the methods. -/
def methodNames (body : List ClassStmt) : List String :=
  body.filterMap fun
    | .method name _ _ => some name
    | .setattr _ _ _ => none

/-- The text which a method reads; `none` if there is no such method. The last definition counts. -/
def methodText (body : List ClassStmt) (name : String) : Option String :=
  body.foldl (fun acc s => match s with
    | .method n _ text => if n = name then some text else acc
    | .setattr _ _ _ => acc) none

/-- The argument of the decorator. -/
def methodMessage (body : List ClassStmt) (name : String) : Option String :=
  body.foldl (fun acc s => match s with
    | .method n message _ => if n = name then some message else acc
    | .setattr _ _ _ => acc) none

/-- An attribute of a method after the class has been created: the last assignment counts, a new definition removes all. -/
def methodAttr (body : List ClassStmt) (name attr : String) : Option String :=
  body.foldl (fun acc s => match s with
    | .method n _ _ => if n = name then none else acc
    | .setattr t a v => if t = name ∧ a = attr then some v else acc) none

/-- `str.format(name=name)` for messages whose only braces are `{name}`. -/
def formatName (name : List Char) : List Char → List Char
  | '{' :: 'n' :: 'a' :: 'm' :: 'e' :: '}' :: rest => name ++ formatName name rest
  | c :: rest => c :: formatName name rest
  | [] => []

/-- The text of the warning of the decorator `deprecated`; the message is formatted a second time. `helper.py:97-112`. -/
def warningText (name message : String) : String :=
  String.ofList (formatName name.toList ("The function ".toList ++ name.toList ++ " is deprecated. ".toList ++ message.toList))

/-- Call a method: `self(text)`. `none` if there is no such method. `particles.py:688-956`. -/
noncomputable def callMethod (order : Expr → List String) (r : Registry) (src : Sources) (fuel : ℕ) (name : String) :
    Option (Res ℝ) :=
  (methodText classBody name).bind (readText order r src fuel)

end Postpic.Scalars
