import Mathlib.Tactic.NormNum
import Mathlib.Tactic.Linarith
import Mathlib.Data.Rat.Floor
import Verif.Lemmas.DumpSpecies

/-!
# The particle data in the dumps
-/

set_option autoImplicit false
set_option linter.unusedSectionVars false

namespace Postpic.Props

open Postpic Postpic.Particles Postpic.Species Postpic.Readers Postpic.Spec

variable {K : Type} [_root_.Field K] [LinearOrder K] [IsStrictOrderedRing K] [FloorRing K]

/-! ## C71: properties of particles are those of single particles in SI units -/

theorem truncate_int (n : ℤ) : truncate (n : K) = n := by
  unfold truncate
  split_ifs <;> simp

theorem h5GetSpecies_ok (weights : String) (f : H5File K) (species : String) (k : Key) (p : String)
    (hp : standardPath weights k = some p) (c : Component K) (hc : f ("particles/" ++ species ++ "/" ++ p) = some c) (u : K)
    (hu : c.unitSI = some u) (hs : SmallIntegers c) (N : ℕ) (hN : Describes c N) (hw : c.macroWeighted = false)
    (hoff : ∀ o, offsetPath k = some o → ∃ c' u', f ("particles/" ++ species ++ "/" ++ o) = some c' ∧ c'.unitSI = some u' ∧
      SmallIntegers c' ∧ Describes c' N ∧ c'.macroWeighted = false) :
    ∃ e, h5GetSpecies weights f species (.str (keyName k)) = .ok e ∧ HasLength e N ∧ ∀ i < N, ∀ w,
      entryAt e i = match (offsetPath k).bind fun o => f ("particles/" ++ species ++ "/" ++ o) with
        | none => siValue c w i
        | some c' => do return (← siValue c w i) + (← siValue c' w i) := by
  obtain ⟨id, i1, i2, i3⟩ := attribidentify_key k weights species p hp
  obtain ⟨e, e1, e2, e3⟩ := h5Data_ok f _ c hc u hu hs N hN
  unfold h5GetSpecies
  simp only [i1, i2, i3, orKeyError, e1, bind, Except.bind]
  cases ho : offsetPath k with
  | none =>
    refine ⟨e, rfl, e2, ?_⟩
    intro i _ w
    simp only [Option.bind]
    rw [e3, siValue_plain hu hw]
  | some o =>
    obtain ⟨c', u', h1, h2, h3, h4, h5⟩ := hoff o ho
    obtain ⟨e', q1, q2, q3⟩ := h5Data_ok f _ c' h1 u' h2 h3 N h4
    obtain ⟨r, r1, r2, r3⟩ := addInPlace_ok e e' N e2 q2
    refine ⟨r, ?_, r2, ?_⟩
    · simp only [Option.map_some, q1, r1]
    · intro i hi w
      rw [r3 i hi, e3, q3]
      simp only [Option.bind, h1]
      rw [siValue_plain hu hw, siValue_plain h2 h5]
      rfl

/-- C71: every property of a species in an openPMD file (`weights` is `weighting`) or a Smilei file (`weights` is `weight`) is the value
of a single particle in SI units, for all particles; positions are the sum of the two records; constant components give one value.
Partial: no components which are written for whole macro-particles (see `momentum_weighted_violated`), integers below `2^53` (see
`ids_large_violated`); ids are integers without unit. -/
theorem h5_property_partial (weights : String) (f : H5File K) (species : String) (time : Res K) (me qe : K) (identified : Res Dict)
    (k : Key) (p : String) (hp : standardPath weights k = some p) (c : Component K)
    (hc : f ("particles/" ++ species ++ "/" ++ p) = some c) (u : K) (hu : c.unitSI = some u) (hs : SmallIntegers c) (N : ℕ)
    (hN : Describes c N) (hw : c.macroWeighted = false)
    (hoff : ∀ o, offsetPath k = some o → ∃ c' u', f ("particles/" ++ species ++ "/" ++ o) = some c' ∧ c'.unitSI = some u' ∧
      SmallIntegers c' ∧ Describes c' N ∧ c'.macroWeighted = false)
    (hid : k = .id → u = 1 ∧ ∃ l, c.content = .array (.ints l)) :
    ∃ e, readProperty (h5GetSpecies weights f species) time me qe identified k = .ok e ∧ HasLength e N ∧ ∀ i < N, ∀ w,
      entryAt e i = match (offsetPath k).bind fun o => f ("particles/" ++ species ++ "/" ++ o) with
        | none => siValue c w i
        | some c' => do return (← siValue c w i) + (← siValue c' w i) := by
  obtain ⟨e, e1, e2, e3⟩ := h5GetSpecies_ok weights f species k p hp c hc u hu hs N hN hw hoff
  by_cases hk : k = .id
  · subst hk
    obtain ⟨rfl, l, hl⟩ := hid rfl
    have hv : ∀ i < N, entryAt e i = (l[i]?).map fun n => (n : K) := by
      intro i hi
      rw [e3 i hi 1]
      simp only [offsetPath, Option.bind]
      rw [siValue_plain hu hw]
      simp only [storedValue, hl, mul_one]
      cases l[i]? <;> rfl
    have hlN : l.length = N := by
      unfold Describes at hN
      rw [hl] at hN
      exact hN
    have e1' : h5GetSpecies weights f species (.str "id") = .ok e := e1
    unfold readProperty
    rw [e1']
    cases e with
    | scalar v =>
      refine ⟨.scalar (truncate v), rfl, trivial, ?_⟩
      intro i hi w
      rw [← e3 i hi w]
      have := hv i hi
      rw [List.getElem?_eq_getElem (by omega)] at this
      simp only [entryAt, Option.map_some] at this ⊢
      rw [Option.some.inj this, truncate_int]
    | array a =>
      refine ⟨.array (a.map truncate), rfl, by simpa [HasLength] using e2, ?_⟩
      intro i hi w
      rw [← e3 i hi w]
      have := hv i hi
      rw [List.getElem?_eq_getElem (by omega)] at this
      simp only [entryAt, Option.map_some, List.getElem?_map] at this ⊢
      rw [this]
      exact congrArg some (truncate_int _)
  · refine ⟨e, ?_, e2, e3⟩
    cases k with
    | id => exact absurd rfl hk
    | time => simp [standardPath] at hp
    | mass =>
      have e1' : h5GetSpecies weights f species (.str "mass") = .ok e := e1
      simp only [readProperty, e1']
    | charge =>
      have e1' : h5GetSpecies weights f species (.str "charge") = .ok e := e1
      simp only [readProperty, e1']
    | _ => exact e1

/-- C71: a property which is not in the file raises a KeyError, except for mass and charge, which are then deduced from the name of the
species. -/
theorem h5_missing (weights : String) (f : H5File K) (species : String) (time : Res K) (me qe : K) (identified : Res Dict)
    (k : Key) (p : String) (hp : standardPath weights k = some p) (hc : f ("particles/" ++ species ++ "/" ++ p) = none) :
    readProperty (h5GetSpecies weights f species) time me qe identified k = match k with
      | .mass => deduced me identified "mass"
      | .charge => deduced qe identified "charge"
      | _ => .error .keyError := by
  have key : h5GetSpecies weights f species (.str (keyName k)) = .error .keyError := by
    obtain ⟨id, i1, i2, i3⟩ := attribidentify_key k weights species p hp
    unfold h5GetSpecies
    simp only [i1, i2, orKeyError, h5Data, hc, bind, Except.bind]
  cases k with
  | time => simp [standardPath] at hp
  | id =>
    have key' : h5GetSpecies weights f species (.str "id") = .error .keyError := key
    simp only [readProperty, key']
  | mass =>
    have key' : h5GetSpecies weights f species (.str "mass") = .error .keyError := key
    simp only [readProperty, key']
  | charge =>
    have key' : h5GetSpecies weights f species (.str "charge") = .error .keyError := key
    simp only [readProperty, key']
  | _ => exact key

/-- The data of an EPOCH dump: the data set of each property, as EPOCH names it. -/
def epochData (f : SdfFile K) (species : String) : Key → Option (Entry K)
  | .weight => f.data ("Particles/Weight/" ++ species)
  | .x => do return .array (← (← f.positions ("Grid/Particles/" ++ species))[0]?)
  | .y => do return .array (← (← f.positions ("Grid/Particles/" ++ species))[1]?)
  | .z => do return .array (← (← f.positions ("Grid/Particles/" ++ species))[2]?)
  | .px => f.data ("Particles/Px/" ++ species)
  | .py => f.data ("Particles/Py/" ++ species)
  | .pz => f.data ("Particles/Pz/" ++ species)
  | .mass => f.data ("Particles/Mass/" ++ species)
  | .charge => f.data ("Particles/Charge/" ++ species)
  | .id => f.data ("Particles/ID/" ++ species)
  | .time => none

theorem sdfGetSpecies_eq (f : SdfFile K) (species : String) (k : Key) (hk : k ≠ .time) :
    sdfGetSpecies f species (.str (keyName k)) = orKeyError (epochData f species k) := by
  cases k with
  | time => exact absurd rfl hk
  | x =>
    show (do
      let l ← orKeyError (f.positions ("Grid/Particles/" ++ species))
      let x ← orKeyError l[0]?
      return .array x : Res (Entry K)) = _
    simp only [epochData, bind, Except.bind, orKeyError]
    cases f.positions ("Grid/Particles/" ++ species) with
    | none => rfl
    | some l => simp only [Option.bind]; cases l[0]? <;> rfl
  | y =>
    show (do
      let l ← orKeyError (f.positions ("Grid/Particles/" ++ species))
      let x ← orKeyError l[1]?
      return .array x : Res (Entry K)) = _
    simp only [epochData, bind, Except.bind, orKeyError]
    cases f.positions ("Grid/Particles/" ++ species) with
    | none => rfl
    | some l => simp only [Option.bind]; cases l[1]? <;> rfl
  | z =>
    show (do
      let l ← orKeyError (f.positions ("Grid/Particles/" ++ species))
      let x ← orKeyError l[2]?
      return .array x : Res (Entry K)) = _
    simp only [epochData, bind, Except.bind, orKeyError]
    cases f.positions ("Grid/Particles/" ++ species) with
    | none => rfl
    | some l => simp only [Option.bind]; cases l[2]? <;> rfl
  | _ => rfl

/-- C71: for EPOCH, every property is the data set of the file, which is in SI units; positions are those of the dimension asked for.
What is missing, such as positions of dimensions which are not simulated, raises a KeyError, except for mass and charge. -/
theorem epoch_property (f : SdfFile K) (species : String) (time : Res K) (me qe : K) (identified : Res Dict) (k : Key)
    (hk : k ≠ .time)
    (hid : k = .id → ∃ l : List ℤ, f.data ("Particles/ID/" ++ species) = some (.array (l.map fun n : ℤ => (n : K)))) :
    readProperty (sdfGetSpecies f species) time me qe identified k = match epochData f species k with
      | some e => .ok e
      | none => match k with
        | .mass => deduced me identified "mass"
        | .charge => deduced qe identified "charge"
        | _ => .error .keyError := by
  have key := sdfGetSpecies_eq f species k hk
  cases k with
  | time => exact absurd rfl hk
  | id =>
    obtain ⟨l, hl⟩ := hid rfl
    have key' : sdfGetSpecies f species (.str "id") = .ok (.array (l.map fun n : ℤ => (n : K))) := by
      refine key.trans ?_
      simp only [epochData, hl, orKeyError]
    simp only [readProperty, key', epochData, hl]
    have : (l.map fun n : ℤ => (n : K)).map truncate = l.map fun n : ℤ => (n : K) := by
      rw [List.map_map]
      exact List.map_congr_left fun n _ => truncate_int (K := K) n
    rw [this]
  | mass =>
    have key' : sdfGetSpecies f species (.str "mass") = orKeyError (epochData f species .mass) := key
    simp only [readProperty, key', epochData]
    cases f.data ("Particles/Mass/" ++ species) <;> rfl
  | charge =>
    have key' : sdfGetSpecies f species (.str "charge") = orKeyError (epochData f species .charge) := key
    simp only [readProperty, key', epochData]
    cases f.data ("Particles/Charge/" ++ species) <;> rfl
  | _ =>
    refine key.trans ?_
    cases h : epochData f species _ <;> rfl

/-- C71: the names of the properties, as the documentation of `getSpecies` lists them, in all their spellings. -/
def spellings : Key → List String
  | .weight => ["weight", "w"]
  | .x => ["x", "X"] | .y => ["y", "Y"] | .z => ["z", "Z"]
  | .px => ["px", "Px", "PX"] | .py => ["py", "Py", "PY"] | .pz => ["pz", "Pz", "PZ"]
  | .mass => ["mass", "m", "Mass"]
  | .charge => ["charge", "c", "Charge", "q"]
  | .id => ["id", "ID"]
  | .time => []

/-- C71: all spellings of a name give the same data, for all readers. -/
theorem property_spellings (f : H5File K) (g : SdfFile K) (species : String) (k : Key) (name : String) (h : name ∈ spellings k) :
    pmdGetSpecies f species (.str name) = pmdGetSpecies f species (.str (keyName k)) ∧
      smileiGetSpecies f species (.str name) = smileiGetSpecies f species (.str (keyName k)) ∧
      sdfGetSpecies g species (.str name) = sdfGetSpecies g species (.str (keyName k)) := by
  have key : attribidentify (.str name) = attribidentify (.str (keyName k)) := by
    have all : ∀ l : List String, (∀ n ∈ l, attribidentify (.str n) = attribidentify (.str (keyName k))) → name ∈ l →
        attribidentify (.str name) = attribidentify (.str (keyName k)) := fun l hl hn => hl name hn
    exact all (spellings k) (by cases k <;> decide) h
  unfold pmdGetSpecies smileiGetSpecies h5GetSpecies sdfGetSpecies
  rw [key]
  exact ⟨rfl, rfl, rfl⟩

/-- C71: openPMD and Smilei call the weights differently; both are found. -/
theorem weight_records (f : H5File K) (species : String) (time : Res K) (me qe : K) (identified : Res Dict) (c : Component K) (u : K)
    (hu : c.unitSI = some u) (hs : SmallIntegers c) (N : ℕ) (hN : Describes c N) (hw : c.macroWeighted = false) :
    (f ("particles/" ++ species ++ "/" ++ "weighting") = some c →
      ∃ e, readProperty (pmdGetSpecies f species) time me qe identified .weight = .ok e ∧ HasLength e N ∧
        ∀ i < N, entryAt e i = siValue c 1 i) ∧
    (f ("particles/" ++ species ++ "/" ++ "weight") = some c →
      ∃ e, readProperty (smileiGetSpecies f species) time me qe identified .weight = .ok e ∧ HasLength e N ∧
        ∀ i < N, entryAt e i = siValue c 1 i) := by
  refine ⟨fun hc => ?_, fun hc => ?_⟩
  · obtain ⟨e, h1, h2, h3⟩ := h5_property_partial "weighting" f species time me qe identified .weight "weighting" rfl c hc u hu hs N hN
      hw (by intro o ho; cases ho) (by intro h; cases h)
    exact ⟨e, h1, h2, fun i hi => h3 i hi 1⟩
  · obtain ⟨e, h1, h2, h3⟩ := h5_property_partial "weight" f species time me qe identified .weight "weight" rfl c hc u hu hs N hN
      hw (by intro o ho; cases ho) (by intro h; cases h)
    exact ⟨e, h1, h2, fun i hi => h3 i hi 1⟩

/-- C71: only a missing entry is replaced by what the name of the species tells; every other exception of the reader reaches the
user. -/
theorem property_errors (get : AxisKey → Res (Entry K)) (time : Res K) (me qe : K) (identified : Res Dict) (k : Key) (hk : k ≠ .time)
    (e : Err) (he : get (.str (keyName k)) = .error e) (hne : e ≠ .keyError) :
    readProperty get time me qe identified k = .error e := by
  cases k with
  | time => exact absurd rfl hk
  | mass =>
    have he' : get (.str "mass") = .error e := he
    unfold readProperty
    simp only [he']
    cases e <;> first | rfl | exact absurd rfl hne
  | charge =>
    have he' : get (.str "charge") = .error e := he
    unfold readProperty
    simp only [he']
    cases e <;> first | rfl | exact absurd rfl hne
  | id =>
    have he' : get (.str "id") = .error e := he
    unfold readProperty
    simp only [he']
  | _ => exact he

/-- C71: ids which are stored as floating point numbers are cut off towards zero. -/
theorem id_cut_off (x : K) : ∃ n : ℤ, truncate x = n ∧ |(n : K)| ≤ |x| ∧ |x| < |(n : K)| + 1 ∧ 0 ≤ n * x := by
  unfold truncate
  split_ifs with h
  · refine ⟨⌊x⌋, rfl, ?_, ?_, ?_⟩
    · have h0 : (0 : K) ≤ (⌊x⌋ : K) := by exact_mod_cast Int.floor_nonneg.2 h
      rw [abs_of_nonneg h, abs_of_nonneg h0]
      exact Int.floor_le x
    · have h0 : (0 : K) ≤ (⌊x⌋ : K) := by exact_mod_cast Int.floor_nonneg.2 h
      rw [abs_of_nonneg h, abs_of_nonneg h0]
      exact Int.lt_floor_add_one x
    · exact mul_nonneg (by exact_mod_cast Int.floor_nonneg.2 h) h
  · have hx := (not_le.1 h).le
    have h0 : (⌈x⌉ : K) ≤ 0 := by exact_mod_cast Int.ceil_le.2 (by simpa using hx)
    refine ⟨⌈x⌉, rfl, ?_, ?_, ?_⟩
    · rw [abs_of_nonpos hx, abs_of_nonpos h0]
      exact neg_le_neg (Int.le_ceil x)
    · rw [abs_of_nonpos hx, abs_of_nonpos h0]
      have := Int.ceil_lt_add_one x
      linarith
    · exact mul_nonneg_of_nonpos_of_nonpos h0 hx

/-- The species as `Verif.Model.Particles` sees it. -/
def speciesDump (get : AxisKey → Res (Entry K)) (time me qe : K) (identified : Res Dict) : Particles.Dump K where
  get := fun k => match readProperty get (.ok time) me qe (.error .keyError) k with
    | .ok e => some e
    | .error _ => none
  time := time
  deduce := fun k => do
    match ← deduced (if k = .mass then me else qe) identified (keyName k) with
    | .scalar v => return v
    | .array _ => throw .typeError

/-- The histories of filters and selections (C08 - C12) are about these data. -/
theorem fetch_speciesDump (get : AxisKey → Res (Entry K)) (time me qe : K) (identified : Res Dict)
    (hget : ∀ a e, get a = .error e → e = .keyError) (k : Key) :
    fetch (speciesDump get time me qe identified) k = readProperty get (.ok time) me qe identified k := by
  have hd : ∀ (unit : K) (key : String), (do
      match ← deduced unit identified key with
      | .scalar v => return v
      | .array _ => throw .typeError : Res K) = (match deduced unit identified key with
        | .ok (.scalar v) => .ok v
        | .ok (.array _) => .error .typeError
        | .error e => .error e) := by
    intro unit key
    cases deduced unit identified key with
    | error e => rfl
    | ok e => cases e <;> rfl
  have hscalar : ∀ (unit : K) (key : String) (l : List K), deduced unit identified key ≠ .ok (.array l) := by
    intro unit key l h
    unfold deduced at h
    cases identified with
    | error e => cases h
    | ok d =>
      simp only [bind, Except.bind] at h
      cases hdk : d key with
      | none => rw [hdk] at h; cases h
      | some v => rw [hdk] at h; cases v <;> cases h
  cases k with
  | time => rfl
  | mass =>
    simp only [fetch, speciesDump, readProperty]
    cases hg : get (.str "mass") with
    | ok e => rfl
    | error e =>
      obtain rfl := hget _ _ hg
      simp only [deduced, bind, Except.bind, keyName, if_true]
      have := hd me "mass"
      simp only [bind, Except.bind] at this
      cases hq : deduced me identified "mass" with
      | error e => simp only [deduced, bind, Except.bind] at hq; rw [hq]
      | ok e =>
        cases e with
        | array l => exact absurd hq (hscalar _ _ _)
        | scalar v => simp only [deduced, bind, Except.bind] at hq; rw [hq]; rfl
  | charge =>
    simp only [fetch, speciesDump, readProperty]
    cases hg : get (.str "charge") with
    | ok e => rfl
    | error e =>
      obtain rfl := hget _ _ hg
      simp only [deduced, bind, Except.bind, keyName]
      rw [if_neg (by decide)]
      cases hq : deduced qe identified "charge" with
      | error e => simp only [deduced, bind, Except.bind] at hq; rw [hq]
      | ok e =>
        cases e with
        | array l => exact absurd hq (hscalar _ _ _)
        | scalar v => simp only [deduced, bind, Except.bind] at hq; rw [hq]; rfl
  | id =>
    simp only [fetch, speciesDump, readProperty]
    cases hg : get (.str "id") with
    | ok e => cases e <;> rfl
    | error e =>
      obtain rfl := hget _ _ hg
      rfl
  | _ =>
    simp only [fetch, speciesDump, readProperty]
    cases hg : get (.str _) with
    | ok e => rfl
    | error e =>
      obtain rfl := hget _ _ hg
      rfl

/-! ### Examples and violations -/

/-- Three electrons: positions in micrometres with an offset, a constant mass, ids. -/
def h5Example : H5File ℚ := fun key =>
  if key = "particles/electrons/position/x" then some ⟨.array (.floats [1, 2, 3]), some (1 / 1000000), false, 0⟩
  else if key = "particles/electrons/positionOffset/x" then some ⟨.const 10, some (1 / 1000000), false, 0⟩
  else if key = "particles/electrons/id" then some ⟨.array (.ints [7, 5, 6]), some 1, false, 0⟩
  else if key = "particles/electrons/weighting" then some ⟨.const 100, some 1, true, 1⟩
  else none

example : ∃ e, readProperty (pmdGetSpecies h5Example "electrons") (.ok 0) 1 1 (.error .keyError) .x = .ok e ∧ HasLength e 3 ∧
    entryAt e 2 = some (13 / 1000000) := by
  obtain ⟨e, h1, h2, h3⟩ := h5_property_partial "weighting" h5Example "electrons" (.ok 0) 1 1 (.error .keyError) .x "position/x" rfl
    ⟨.array (.floats [1, 2, 3]), some (1 / 1000000), false, 0⟩ (by decide +kernel) _ rfl (by intro l hl; cases hl) 3 rfl rfl
    (by
      intro o ho
      cases ho
      exact ⟨⟨.const 10, some (1 / 1000000), false, 0⟩, _, by decide +kernel, rfl, (by intro l hl; cases hl), trivial, rfl⟩)
    (by intro h; cases h)
  refine ⟨e, h1, h2, ?_⟩
  rw [h3 2 (by omega) 1]
  decide +kernel

example : readProperty (pmdGetSpecies h5Example "electrons") (.ok 0) (9 / 10 ^ 31) 1
    (identify ⟨fun _ => false, fun _ => none⟩ "electrongold") .mass = .ok (.scalar (9 / 10 ^ 31)) := by
  decide +kernel

example : readProperty (pmdGetSpecies h5Example "electrons") (.ok 0) 1 1 (.error .keyError) .pz = .error .keyError :=
  h5_missing "weighting" h5Example "electrons" _ _ _ _ .pz _ rfl (by decide +kernel)

/-- An EPOCH dump of a two dimensional simulation. -/
def sdfExample : SdfFile ℚ where
  data := fun key => if key = "Particles/Px/electron" then some (.array [1, 2]) else none
  positions := fun key => if key = "Grid/Particles/electron" then some [[0, 1], [5, 6]] else none

example : readProperty (sdfGetSpecies sdfExample "electron") (.ok 0) 1 1 (.error .keyError) .y = .ok (.array [5, 6]) := by
  rw [epoch_property sdfExample "electron" (.ok 0) 1 1 (.error .keyError) .y (by decide) (by intro h; cases h)]
  decide +kernel

example : readProperty (sdfGetSpecies sdfExample "electron") (.ok 0) 1 1 (.error .keyError) .z = .error .keyError := by
  rw [epoch_property sdfExample "electron" (.ok 0) 1 1 (.error .keyError) .z (by decide) (by intro h; cases h)]
  decide +kernel

example := property_spellings h5Example sdfExample "electrons" .px "PX" (by decide)

example := (weight_records (fun key => if key = "particles/e/weight" then some ⟨.const 100, some 1, false, 0⟩ else none) "e"
  (.ok (0 : ℚ)) 1 1 (.error .keyError) ⟨.const 100, some 1, false, 0⟩ 1 rfl (by intro l hl; cases hl) 3 trivial rfl).2
  (by decide +kernel)

example : readProperty (fun _ => .error .indexError) (.ok (0 : ℚ)) 1 1 (.error .keyError) .mass = .error .indexError :=
  property_errors _ _ _ _ _ _ (by decide) _ rfl (by decide)

/-- C71 violated: integers are converted to floating point numbers. Two particles with the different ids `2^53` and `2^53 + 1` have the
same id afterwards, so that both are selected by `2^53`, and nothing by `2^53 + 1`. -/
theorem ids_large_violated :
    ∃ (f : H5File ℚ) (c : Component ℚ), f "particles/e/id" = some c ∧
      siValue c 1 0 = some (2 ^ 53) ∧ siValue c 1 1 = some (2 ^ 53 + 1) ∧
      readProperty (pmdGetSpecies f "e") (.ok 0) 1 1 (.error .keyError) .id = .ok (.array [2 ^ 53, 2 ^ 53]) :=
  ⟨fun key => if key = "particles/e/id" then some ⟨.array (.ints [2 ^ 53, 2 ^ 53 + 1]), some 1, false, 0⟩ else none,
    ⟨.array (.ints [2 ^ 53, 2 ^ 53 + 1]), some 1, false, 0⟩, by decide +kernel, by decide +kernel, by decide +kernel, by decide +kernel⟩

/-- C71 violated: a component which is written for whole macro-particles, as PIConGPU does for momenta, is not divided by the weights:
the momentum of a particle is too large by the number of particles in its macro-particle. -/
theorem momentum_weighted_violated :
    ∃ (f : H5File ℚ) (w p : Component ℚ), f "particles/e/weighting" = some w ∧ f "particles/e/momentum/x" = some p ∧
      storedValue w 0 = some 100 ∧ siValue p 100 0 = some 2 ∧
      readProperty (pmdGetSpecies f "e") (.ok 0) 1 1 (.error .keyError) .px = .ok (.array [200]) :=
  ⟨fun key => if key = "particles/e/weighting" then some ⟨.array (.floats [100]), some 1, true, 1⟩
      else if key = "particles/e/momentum/x" then some ⟨.array (.floats [200]), some 1, true, 1⟩ else none,
    ⟨.array (.floats [100]), some 1, true, 1⟩, ⟨.array (.floats [200]), some 1, true, 1⟩,
    by decide +kernel, by decide +kernel, by decide +kernel, by decide +kernel, by decide +kernel⟩

/-- C71 violated: the numbers of the properties are accepted instead of names, 3 and 4 for two components of the momentum, but not 5 for
the third (the table has `9: 9` in its place). -/
theorem attribute_number_violated (f : H5File K) (species : String) :
    (∀ k : ℕ, k ∈ [0, 1, 2, 3, 4, 9, 10] → attribidentify (.int k) = .ok k) ∧ attribidentify (.str "pz") = .ok 5 ∧
      pmdGetSpecies f species (.int 5) = .error .keyError := by
  refine ⟨by decide, rfl, rfl⟩

end Postpic.Props
