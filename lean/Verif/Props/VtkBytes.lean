import Verif.Lemmas.VtkBytes
import Verif.Props.Io

/-!
# Properties of the bytes of VTK files

C87 and C88. `ReadsValues` and `Understands` relate the representation of numbers to the one of the reader; `readVtk` is a reader written after the description of the
format.
-/

set_option autoImplicit false

namespace Postpic.Props

open Postpic Postpic.Spec Postpic.Io Postpic.Fields Postpic.Axes

section
variable {K V : Type} [_root_.Field K] [LinearOrder K] [IsStrictOrderedRing K] [Inhabited V] {P : K → Prop} {wk : NumWriter K} {rk : NumReader K}
  {roundK : VtkType → K → K} {wv : NumWriter V} {rv : NumReader V} {roundV : VtkType → V → V}

/-- C87: the file written for up to four scalar fields with the same axes is a file of the legacy VTK format, whatever was there before. A reader finds
the name (blanks replaced), the type, the numbers of points, and for every point its coordinates and its values, rounded to the type. Coordinates of even
grids are exact. Partial: names which are not empty, ascii and without line breaks or tabs, see `vtk_name_violated`; axes as in `vtk_scalars_partial`. -/
theorem vtk_file_partial (hk : Understands P wk rk roundK) (hv : ReadsValues wv rv roundV) (spl : Splines K)
    (unst : List (Field K V) → Res (List (Field K V))) (args : VtkArgs) (t : VtkType) (ht : args.type = t.text) (fields : List (Field K V))
    (f0 : Field K V) (hf0 : fields.head? = some f0) (h4 : fields.length ≤ 4) (shape : List ℕ) (axes : List (Axis K))
    (hs : ∀ f ∈ fields, f.Sound ∧ f.shape = shape ∧ f.axes = axes) (hdim : shape.length = 2 ∨ shape.length = 3)
    (hax : (∀ ax ∈ axes, ∃ e0 h, EvenAxis ax e0 h ∧ 0 < h) ∨ ∃ ax ∈ axes, ax.isLinear = false)
    (h0 : P 0) (h1 : P 1) (hP : (∀ ax ∈ axes, ax.isLinear = true) → ∀ ax ∈ axes, ∀ x, pyGet ax.grid 0 = .ok x ∨ ax.spacing = .ok x → P x)
    (hname : WritableName (exportName args.name f0.name)) (old : Option Bytes) :
    ∃ file c, exportScalarsFile wk wv spl unst args fields old = (some file, none) ∧ readVtk rk rv file = some c ∧ c.kind = .scalars ∧
      c.name = (exportName args.name f0.name).map (fun c => if c = ' ' then '_' else c) ∧ c.type = t ∧ c.components = fields.length ∧
      c.points = shape.foldr (· * ·) 1 ∧ c.data.length = c.points * c.components ∧
      vtkDimensions c.dataset = shape ++ List.replicate (3 - shape.length) 1 ∧
      ∀ idx, InBounds shape idx →
        (∀ (j : ℕ) (f : Field K V), fields[j]? = some f →
          c.data[vtkPoint shape idx * fields.length + j]? = some (roundV t (f.matrix.at' idx))) ∧
        ∀ (d i : ℕ) (ax : Axis K), idx[d]? = some i → axes[d]? = some ax →
          (vtkCoordinates c.dataset (idx ++ List.replicate (3 - shape.length) 0))[d]? =
            (ax.grid[i]?).map fun x => if axes.all (fun ax => ax.isLinear) then x else roundK t x := by
  unfold exportScalarsFile
  rw [if_neg (by omega)]
  exact export_file_sound hk hv spl unst .scalars args t ht fields f0 hf0 shape axes hs hdim (by rw [if_neg (by decide)]; exact h4) hax h0 h1 hP hname old

/-- C87 for the components of a vector; missing components are zero. Partial as `vtk_file_partial`. -/
theorem vtk_vector_file_partial [Zero V] (hk : Understands P wk rk roundK) (hv : ReadsValues wv rv roundV) (spl : Splines K)
    (unst : List (Field K V) → Res (List (Field K V))) (args : VtkArgs) (t : VtkType) (ht : args.type = t.text) (fields : List (Field K V))
    (f0 : Field K V) (hf0 : fields.head? = some f0) (h3 : fields.length ≤ 3) (shape : List ℕ) (axes : List (Axis K))
    (hs : ∀ f ∈ fields, f.Sound ∧ f.shape = shape ∧ f.axes = axes) (hdim : shape.length = 2 ∨ shape.length = 3)
    (hax : (∀ ax ∈ axes, ∃ e0 h, EvenAxis ax e0 h ∧ 0 < h) ∨ ∃ ax ∈ axes, ax.isLinear = false)
    (h0 : P 0) (h1 : P 1) (hP : (∀ ax ∈ axes, ax.isLinear = true) → ∀ ax ∈ axes, ∀ x, pyGet ax.grid 0 = .ok x ∨ ax.spacing = .ok x → P x)
    (hname : WritableName (exportName args.name f0.name)) (old : Option Bytes) :
    ∃ file c, exportVectorFile wk wv spl unst args fields old = (some file, none) ∧ readVtk rk rv file = some c ∧ c.kind = .vectors ∧
      c.name = (exportName args.name f0.name).map (fun c => if c = ' ' then '_' else c) ∧ c.type = t ∧ c.components = 3 ∧
      c.points = shape.foldr (· * ·) 1 ∧ c.data.length = c.points * 3 ∧
      vtkDimensions c.dataset = shape ++ List.replicate (3 - shape.length) 1 ∧
      ∀ idx, InBounds shape idx →
        (∀ j, j < 3 → c.data[vtkPoint shape idx * 3 + j]? =
          some (roundV t (match fields[j]? with | some f => f.matrix.at' idx | none => 0))) ∧
        ∀ (d i : ℕ) (ax : Axis K), idx[d]? = some i → axes[d]? = some ax →
          (vtkCoordinates c.dataset (idx ++ List.replicate (3 - shape.length) 0))[d]? =
            (ax.grid[i]?).map fun x => if axes.all (fun ax => ax.isLinear) then x else roundK t x := by
  obtain ⟨fs, rfl⟩ : ∃ fs, fields = f0 :: fs := by
    cases fields with
    | nil => cases hf0
    | cons a l =>
      cases hf0
      exact ⟨l, rfl⟩
  obtain ⟨s0, sh0, ax0⟩ := hs f0 (by simp)
  set z : Field K V := ⟨f0.name, f0.unit, ⟨f0.shape, fun _ => 0⟩, f0.axes, f0.ats, f0.tao⟩ with hz
  have zs : z.Sound := ⟨s0.ok, s0.valid, s0.nonempty⟩
  have hm : (List.range (3 - (f0 :: fs).length)).mapM (fun (_ : ℕ) => do
      let f0 ← pyGet (f0 :: fs) 0
      f0.replaceData ⟨f0.shape, fun _ => (0 : V)⟩) =
      .ok (List.replicate (3 - (f0 :: fs).length) z) := by
    apply mapM_of_get (by simp)
    intro k a r hk hr
    rw [List.getElem?_replicate] at hr
    split_ifs at hr
    rw [Option.some.injEq] at hr
    rw [← hr, pyGet_zero (l := f0 :: fs) (a := f0) rfl]
    show f0.replaceData _ = _
    unfold Field.replaceData
    rw [if_neg (fun h => h rfl)]
  set all := (f0 :: fs) ++ List.replicate (3 - (f0 :: fs).length) z with hall
  have hlen : all.length = 3 := by
    rw [hall, List.length_append, List.length_replicate]
    omega
  obtain ⟨file, c, c1, c2, c3, c4, c5, c6, c7, c8, c9, c10⟩ := export_file_sound hk hv spl unst .vectors args t ht all f0 rfl shape axes (by
      intro f hf
      rw [hall, List.mem_append] at hf
      rcases hf with hf | hf
      · exact hs f hf
      · rw [(List.mem_replicate.1 hf).2]
        exact ⟨zs, sh0, ax0⟩) hdim (by rw [if_pos rfl]; exact hlen) hax h0 h1 hP hname old
  rw [hlen] at c6 c10
  refine ⟨file, c, ?_, c2, c3, c4, c5, c6, c7, by rw [c8, c6], c9, ?_⟩
  · unfold exportVectorFile
    rw [if_neg (by omega), hm]
    exact c1
  · intro idx hidx
    refine ⟨?_, (c10 idx hidx).2⟩
    intro j hj
    have hj' : j < all.length := by omega
    have := (c10 idx hidx).1 j all[j] (List.getElem?_eq_getElem hj')
    rw [this]
    by_cases hl : j < (f0 :: fs).length
    · have e : all[j] = (f0 :: fs)[j] := List.getElem_append_left hl
      rw [e, List.getElem?_eq_getElem hl]
    · have e : all[j] = z := by
        simp only [hall]
        rw [List.getElem_append_right (by omega), List.getElem_replicate]
      rw [e, List.getElem?_eq_none (by omega)]

end

/-! ### A concrete representation of numbers -/

/-- Numbers for the examples: as text a sign and two runs of letters which count numerator and denominator; one significant byte. -/
def runWriter : NumWriter ℚ :=
  ⟨fun v => (if v.num < 0 then '-' else '+') :: (List.replicate v.num.natAbs 'i' ++ List.replicate v.den 'j'),
    fun t v => List.replicate (typeSize t - 1) 0 ++ [UInt8.ofNat v.num.natAbs]⟩

/-- The reader of these numbers. -/
def runReader : NumReader ℚ :=
  ⟨fun s => some ((if s.head? = some '-' then -1 else 1) * (s.count 'i' : ℚ) / (s.count 'j' : ℚ)),
    fun _ b => b.getLast?.map fun x => (x.toNat : ℚ)⟩

/-- What the reader gets for a binary value. -/
def runRound (_ : VtkType) (v : ℚ) : ℚ := ((v.num.natAbs % 256 : ℕ) : ℚ)

theorem run_understands : Understands (fun _ => True) runWriter runReader runRound := by
  refine ⟨⟨fun t v => ?_, fun t v => ?_⟩, fun v _ => ?_, fun v => ⟨by simp [runWriter], fun c hc => ?_⟩⟩
  · cases t <;> simp [runWriter, typeSize]
  · simp [runWriter, runReader, runRound]
  · have hd : (v.den : ℚ) ≠ 0 := by exact_mod_cast v.den_nz
    have c1 : (runWriter.text v).count 'i' = v.num.natAbs := by
      simp only [runWriter, List.count_cons, List.count_append, List.count_replicate]
      split_ifs <;> simp_all
    have c2 : (runWriter.text v).count 'j' = v.den := by
      simp only [runWriter, List.count_cons, List.count_append, List.count_replicate]
      split_ifs <;> simp_all
    have hh : (runWriter.text v).head? = some '-' ↔ v.num < 0 := by
      simp only [runWriter, List.head?_cons, Option.some.injEq]
      split_ifs with h <;> simp [h]
    show some _ = some v
    rw [c1, c2, Option.some.injEq, div_eq_iff hd]
    have hv : v * v.den = v.num := Rat.mul_den_eq_num v
    rw [hv, ← Int.cast_natCast, Int.natCast_natAbs]
    by_cases hn : v.num < 0
    · rw [if_pos (hh.2 hn), abs_of_neg hn]
      push_cast
      ring
    · rw [if_neg (fun h => hn (hh.1 h)), abs_of_nonneg (not_lt.1 hn), one_mul]
  · simp only [runWriter, List.mem_cons, List.mem_append, List.mem_replicate] at hc
    rcases hc with rfl | ⟨_, rfl⟩ | ⟨_, rfl⟩
    · split_ifs <;> decide
    · decide
    · decide

example := vtk_file_partial run_understands run_understands.toReadsValues midSplines (fun _ => .error .notImplementedError) ⟨some "E x".toList, "double".toList, true, false⟩
  .double rfl [field43, { field43 with name := "g" }] field43 rfl (by simp) [4, 3] field43.axes (by
    intro f hf
    simp only [List.mem_cons, List.not_mem_nil, or_false] at hf
    rcases hf with rfl | rfl
    · exact ⟨field43_sound, rfl, rfl⟩
    · exact ⟨⟨field43_sound.ok, field43_sound.valid, field43_sound.nonempty⟩, rfl, rfl⟩)
  (Or.inl rfl) (Or.inl field43_even) trivial trivial (fun _ _ _ _ _ => trivial) ⟨by decide, by decide⟩ (some [1, 2, 3])

example := vtk_vector_file_partial run_understands run_understands.toReadsValues midSplines (fun _ => .error .notImplementedError) VtkArgs.default
  .float rfl [field43] field43 rfl (by simp) [4, 3] field43.axes (by
    intro f hf
    obtain rfl := List.mem_singleton.1 hf
    exact ⟨field43_sound, rfl, rfl⟩)
  (Or.inl rfl) (Or.inl field43_even) trivial trivial (fun _ _ _ _ _ => trivial) ⟨by decide, by decide⟩ none

/-- The points, the name and the data of a file. -/
def told (r : Option Bytes × Option Err) : Option Err × Option (List ℕ × List Char × List ℚ) :=
  (r.2, r.1.bind fun file => (readVtk runReader runReader file).map fun c => (vtkDimensions c.dataset, c.name, c.data))

example : told (exportScalarsFile runWriter runWriter midSplines (fun _ => .error .notImplementedError) VtkArgs.default
      [{ field43 with name := "E x" }] none) =
    (none, some ([4, 3, 1], "E_x".toList, [0, 100, 200, 44, 1, 101, 201, 45, 2, 102, 202, 46])) := by
  decide +kernel

/-- C87 fails for names. A field has an empty name unless one is given: the file of such a field cannot be read. The same holds for a name with a line
break or a tab. -/
theorem vtk_name_violated :
    told (exportScalarsFile runWriter runWriter midSplines (fun _ => .error .notImplementedError) VtkArgs.default
      [{ field43 with name := "" }] none) = (none, none) ∧
    told (exportScalarsFile runWriter runWriter midSplines (fun _ => .error .notImplementedError)
      { VtkArgs.default with name := some "E\nx".toList } [field43] none) = (none, none) ∧
    told (exportScalarsFile runWriter runWriter midSplines (fun _ => .error .notImplementedError)
      { VtkArgs.default with name := some "E\tx".toList } [field43] none) = (none, none) := by
  refine ⟨?_, ?_, ?_⟩ <;> decide +kernel

section
variable {K V : Type} [_root_.Field K] [LinearOrder K] [IsStrictOrderedRing K] [Inhabited V] {wk : NumWriter K} {wv : NumWriter V}

/-- C87: fields on different grids are moved to a common grid by default: the file is the one of the moved fields, and there is no file if they cannot be
moved. -/
theorem vtk_default_unstaggers (spl : Splines K) (unst : List (Field K V) → Res (List (Field K V))) (f0 : Field K V) (fs : List (Field K V))
    (same : List Bool) (hm : fs.mapM (fun f => axesEq f.axes f0.axes) = .ok same) (hd : same.all id = false) (h4 : (f0 :: fs).length ≤ 4)
    (old : Option Bytes) :
    (∀ e, unst (f0 :: fs) = .error e → exportScalarsFile wk wv spl unst VtkArgs.default (f0 :: fs) old = (old, some e)) ∧
    ∀ g0 gs same', unst (f0 :: fs) = .ok (g0 :: gs) → gs.mapM (fun f => axesEq f.axes g0.axes) = .ok same' → same'.all id = true →
      gs.length = fs.length →
      exportScalarsFile wk wv spl unst VtkArgs.default (f0 :: fs) old = exportScalarsFile wk wv spl unst VtkArgs.default (g0 :: gs) old := by
  have hget : ∀ (f : Field K V) l, pyGet (f :: l) 0 = .ok f := fun f l => by simp [pyGet, pyIdx]
  constructor
  · intro e he
    unfold exportScalarsFile exportFile prepareVtk
    rw [if_neg (by omega)]
    simp only [hget, List.tail_cons, hm, hd, VtkArgs.default, he, bind, Except.bind, Bool.not_false, if_true]
  · intro g0 gs same' hu hm' hs' hl
    unfold exportScalarsFile exportFile prepareVtk
    simp only [List.length_cons] at h4
    rw [if_neg (show ¬ 4 < (f0 :: fs).length by rw [List.length_cons]; omega), if_neg (show ¬ 4 < (g0 :: gs).length by rw [List.length_cons]; omega)]
    simp only [hget, List.tail_cons, hm, hd, hm', hs', VtkArgs.default, hu, bind, Except.bind, Bool.not_false, Bool.not_true, if_true, Bool.false_eq_true, if_false]

end

/-- Two fields with different numbers of points. -/
example := (vtk_default_unstaggers (wk := runWriter) (wv := runWriter) midSplines (fun l => .ok (l.map fun _ => field43)) field43
  [{ field43 with axes := [] }] [false] (by decide +kernel) rfl (by decide) none).2 field43 [field43] [true] rfl (by decide +kernel) rfl rfl

/-! ### C88 -/

section
variable {K V : Type} [_root_.Field K] [LinearOrder K] [Inhabited V] {wk : NumWriter K} {wv : NumWriter V}

/-- C88: if the export of scalar fields raises an exception, the file which was there before is unchanged; a new file is not created. Partial: the name
consists of ascii characters and the fields have the same shape, see `vtk_failed_violated`. -/
theorem vtk_failed_partial (hk : ∀ v, ∀ c ∈ wk.text v, c.toNat < 128) (spl : Splines K)
    (unst : List (Field K V) → Res (List (Field K V))) (args : VtkArgs) (fields : List (Field K V)) (old new : Option Bytes) (e : Err) (shape : List ℕ)
    (hs : ∀ f ∈ fields, f.shape = shape) (hname : ∀ f ∈ fields, ∀ c ∈ exportName args.name f.name, c.toNat < 128)
    (hun : ∀ gs, unst fields = .ok gs → ∃ shape', ∀ g ∈ gs, g.shape = shape' ∧ ∀ c ∈ exportName args.name g.name, c.toNat < 128)
    (h : exportScalarsFile wk wv spl unst args fields old = (new, some e)) : new = old := by
  unfold exportScalarsFile at h
  split_ifs at h with h4
  · cases h
    rfl
  · exact export_failed hk spl unst .scalars args fields old new e shape hs hname hun h

/-- C88: what is refused before the file is opened. Too many fields, no field, one dimension or more than three dimensions, or an unknown type leave the
file as it was. -/
theorem vtk_refused (spl : Splines K) (unst : List (Field K V) → Res (List (Field K V))) (args : VtkArgs) (old : Option Bytes) :
    (∀ fields : List (Field K V), 4 < fields.length → exportScalarsFile wk wv spl unst args fields old = (old, some .valueError)) ∧
    exportScalarsFile wk wv spl unst args [] old = (old, some .indexError) ∧
    (∀ f : Field K V, 3 < f.shape.length ∨ f.shape.length = 1 → exportScalarsFile wk wv spl unst args [f] old = (old, some .valueError)) ∧
    (args.type ≠ "double".toList → args.type ≠ "float".toList → ∀ fields : List (Field K V),
      ∃ e, exportScalarsFile wk wv spl unst args fields old = (old, some e)) := by
  refine ⟨fun fields h => ?_, rfl, fun f h => ?_, fun h1 h2 fields => ?_⟩
  · unfold exportScalarsFile
    rw [if_pos h]
  · have hp : prepareVtk spl unst .scalars args [f] = .error .valueError := by
      unfold prepareVtk prepareData
      rw [pyGet_zero (l := [f]) (a := f) rfl]
      simp only [bind, Except.bind, List.tail_cons, List.mapM_nil, pure, Except.pure, List.all_nil, Bool.not_true, Bool.false_eq_true, if_false]
      by_cases c : 3 < f.shape.length
      · rw [if_pos c]
        rfl
      · rw [if_neg c, if_pos (h.resolve_left c)]
        rfl
    unfold exportScalarsFile exportFile
    rw [if_neg (by simp), hp]
  · unfold exportScalarsFile exportFile
    split_ifs with c
    · exact ⟨_, rfl⟩
    · cases prepareVtk spl unst .scalars args fields with
      | error e => exact ⟨e, rfl⟩
      | ok p =>
        refine ⟨.valueError, ?_⟩
        simp only [vtkTofile, vtkType]
        rw [if_neg (not_not.2 rfl), if_neg h1, if_neg h2]

end

example := vtk_failed_partial (wk := runWriter) (wv := runWriter) (fun v c hc => ((run_understands.visible v).2 c hc).2) midSplines
  (fun _ => .error .notImplementedError) { VtkArgs.default with type := "half".toList } [field43] (some [1, 2, 3]) (some [1, 2, 3]) .valueError [4, 3]
  (by
    intro f hf
    obtain rfl := List.mem_singleton.1 hf
    rfl)
  (by
    intro f hf
    obtain rfl := List.mem_singleton.1 hf
    decide)
  (fun gs h => by cases h) (by decide +kernel)

example := vtk_refused (wk := runWriter) (wv := runWriter) midSplines (fun _ => .error .notImplementedError)
  { VtkArgs.default with type := "half".toList } (some [1, 2, 3])

/-- The export of a field with a character in its name which is not ascii. -/
def micro : Option Bytes × Option Err :=
  exportScalarsFile runWriter runWriter midSplines (fun _ => .error .notImplementedError) { VtkArgs.default with name := some "µ".toList } [field43]
    (some [1, 2, 3])

/-- The export of two fields with different shapes. -/
def twoShapes : Option Bytes × Option Err :=
  exportScalarsFile runWriter runWriter midSplines (fun _ => .error .notImplementedError) { VtkArgs.default with unstagger := false, skipAxesCheck := true }
    [field43, ⟨"g", "", ⟨[4, 6], fun _ => 1⟩, [uniformAxis 0 8 4, uniformAxis 0 6 6], [some false, some false], [none, none]⟩] (some [1, 2, 3])

/-- C88 fails if the exception is raised while the file is written: the file which was there is lost and the new one has no data. This happens for a name
with a character which is not ascii, for fields of different shapes with `skip_axes_check=True`, and for every attempt to write `CellData`. -/
theorem vtk_failed_violated :
    told micro = (some .valueError, none) ∧ micro.1 ≠ some [1, 2, 3] ∧ told twoShapes = (some .valueError, none) ∧ twoShapes.1 ≠ some [1, 2, 3] ∧
    ∀ (a : ArrayData ℚ ℚ), a.fields ≠ [] → ∃ file,
      vtkTofile runWriter runWriter (.rectilinearGrid [[0], [1], [2]]) [.cell a] "double".toList "binary".toList (some [1, 2, 3]) =
        (some file, some .typeError) := by
  refine ⟨by decide +kernel, by decide +kernel, by decide +kernel, by decide +kernel, fun a ha => ?_⟩
  obtain ⟨f0, fs, he⟩ := List.exists_cons_of_ne_nil ha
  have hlen : a.len = .ok (f0.shape.foldl (· * ·) 1) := by
    unfold ArrayData.len
    rw [he, pyGet_zero (l := f0 :: fs) (a := f0) rfl]
    rfl
  obtain ⟨b, hb⟩ := writeLine_ascii ["CELL_DATA".toList, natText (f0.shape.foldl (· * ·) 1)] (by
    intro w hw
    simp only [List.mem_cons, List.not_mem_nil, or_false] at hw
    rcases hw with rfl | rfl
    · decide
    · exact fun c hc => ((natText_word _).2 c hc).1)
  have hcell : (Attribute.cell a).writes runWriter .double = [.ok b, .error .typeError] := by
    simp only [Attribute.writes, hlen, bind, Except.bind, hb]
  have run_append : ∀ (l m : List (Res Bytes)), (∀ x ∈ l, ∃ b, x = .ok b) → (runWrites (l ++ m)).2 = (runWrites m).2 := by
    intro l m h
    induction l with
    | nil => rfl
    | cons x l ih =>
      obtain ⟨b, rfl⟩ := h x (by simp)
      exact ih fun y hy => h y (by simp [hy])
  refine ⟨_, Prod.ext rfl ?_⟩
  have hty : vtkType "double".toList = .ok .double := rfl
  simp only [vtkTofile, hty, List.flatMap_cons, List.flatMap_nil, List.append_nil, hcell]
  rw [if_neg (not_not.2 rfl)]
  simp only
  rw [run_append _ _ (by
    intro x hx
    rw [List.mem_append] at hx
    rcases hx with hx | hx
    · obtain ⟨bs, hb, _⟩ := header_ok
      rw [hb] at hx
      obtain ⟨b, _, rfl⟩ := List.mem_map.1 hx
      exact ⟨b, rfl⟩
    · exact points_written (fun v c hc => ((run_understands.visible v).2 c hc).2) _ _ x hx)]
  rfl

end Postpic.Props
