import Verif.Lemmas.Ieee
import Verif.Props.VtkBytes

/-!
# VTK files with doubles

C87 for the numbers of numpy: values are `float64`, including NaN and infinite ones, and are written as `binary64` or `binary32`.
-/

set_option autoImplicit false

namespace Postpic.Props

open Postpic Postpic.Spec Postpic.Io Postpic.Fields Postpic.Axes Postpic.Histogram

instance : Inhabited (Dbl ℚ) := ⟨.nan⟩

/-- The finite part of a number. -/
def finitePart : Dbl ℚ → ℚ
  | .fin x => x
  | _ => 0

/-- Values are written as bytes, never as text. `vtk.py:226-239`. -/
def valueWriter : NumWriter (Dbl ℚ) := ⟨fun _ => [], ieeeBytes⟩

/-- The reader of values. -/
def valueReader : NumReader (Dbl ℚ) := ⟨fun _ => none, ieeeValue⟩

/-- Coordinates are written as text, by `'{}'.format(x)`, or as bytes. `vtk.py:94-128`. -/
def coordinateWriter (text : ℚ → List Char) : NumWriter ℚ := ⟨text, fun t x => ieeeBytes t (.fin x)⟩

/-- The reader of coordinates. Infinite coordinates are replaced by 0. -/
def coordinateReader : NumReader ℚ := ⟨readDouble, fun t b => (ieeeValue t b).map finitePart⟩

/-- Texts of doubles which are read as they were, as the ones of `repr` and `str` (python promises this for all doubles). -/
structure TextsOfDoubles (text : ℚ → List Char) : Prop where
  exact : ∀ x, double x = .fin x → readDouble (text x) = some x
  visible : ∀ x, text x ≠ [] ∧ ∀ c ∈ text x, 32 < c.toNat ∧ c.toNat < 128

/-- C87: the bytes of a value mean the value, rounded to the type. -/
theorem values_read : ReadsValues valueWriter valueReader fun t => (vtkFormat t).round where
  size t v := toBytes_length _ _
  value t v := ieee_roundtrip t v

theorem coordinates_read {text : ℚ → List Char} (h : TextsOfDoubles text) :
    Understands (fun x => double x = .fin x) (coordinateWriter text) coordinateReader
      fun t x => finitePart ((vtkFormat t).round (.fin x)) where
  size t v := toBytes_length _ _
  value t v := by
    show (ieeeValue t (ieeeBytes t (.fin v))).map finitePart = _
    rw [ieee_roundtrip]
    rfl
  text v hv := h.exact v hv
  visible := h.visible

/-- A value of an array of doubles. -/
def IsDouble (v : Dbl ℚ) : Prop := ∀ x, v = .fin x → double x = .fin x

theorem round_isDouble {v : Dbl ℚ} (h : IsDouble v) : binary64.round v = v := by
  cases v with
  | nan => rfl
  | inf s => rfl
  | fin x => rw [round_double, h x rfl]

/-- A value after rounding to `binary32`: NaN and infinite values are the same, finite ones up to `2^127` have a relative error of at most `2^(-24)`, or an
absolute error of at most `2^(-150)`. -/
def NearFloat (v w : Dbl ℚ) : Prop :=
  (v = .nan → w = .nan) ∧ (∀ s, v = .inf s → w = .inf s) ∧
    ∀ x, v = .fin x → |x| ≤ 2 ^ 127 → ∃ y, w = .fin y ∧ |y - x| ≤ max (1 / 2 ^ 24 * |x|) (1 / 2 ^ 150)

theorem round_float (v : Dbl ℚ) : NearFloat v (binary32.round v) := by
  refine ⟨by rintro rfl; rfl, by rintro s rfl; rfl, ?_⟩
  rintro x rfl hx
  have he := format_error binary32 (by decide) x
  have e1 : (1 : ℚ) / 2 * 2 ^ binary32.least = 1 / 2 ^ 150 := by
    show (1 : ℚ) / 2 * 2 ^ (-149 : ℤ) = 1 / 2 ^ 150
    norm_num
  rw [e1] at he
  have he' : |binary32.near x - x| ≤ max (1 / 2 ^ 24 * |x|) (1 / 2 ^ 150) := he
  refine ⟨binary32.near x, ?_, he'⟩
  simp only [BinaryFormat.round]
  rw [if_neg]
  rw [limit_float, not_le]
  have h1 : |binary32.near x| ≤ |binary32.near x - x| + |x| := by
    have := abs_add_le (binary32.near x - x) x
    rwa [sub_add_cancel] at this
  have h2 : max (1 / 2 ^ 24 * |x|) (1 / 2 ^ 150) ≤ 2 ^ 126 := by
    refine max_le ?_ (by norm_num)
    calc (1 : ℚ) / 2 ^ 24 * |x| ≤ 1 / 2 ^ 24 * 2 ^ 127 := mul_le_mul_of_nonneg_left hx (by norm_num)
      _ ≤ 2 ^ 126 := by norm_num
  calc |binary32.near x| ≤ 2 ^ 126 + 2 ^ 127 := h1.trans (add_le_add (he'.trans h2) hx)
    _ < 2 ^ 128 := by norm_num

/-- Coordinates which are written as text are doubles. -/
def TextAxes (axes : List (Axis ℚ)) : Prop :=
  ∀ ax ∈ axes, ∀ x, pyGet ax.grid 0 = .ok x ∨ ax.spacing = .ok x → double x = .fin x

theorem double_int (n : ℤ) (h : |n| ≤ 2 ^ 53) : double (n : ℚ) = .fin (n : ℚ) := by
  refine double_exact n 0 h (by norm_num) (by simp) ?_
  have : (|n| : ℚ) ≤ 2 ^ 53 := by exact_mod_cast h
  exact lt_of_le_of_lt this (pow_lt_pow_right₀ (by norm_num) (by norm_num))

/-- C87: fields of doubles, also NaN and infinite ones, which are exported with `type='double'`: a reader finds all values bit by bit, and the exact
coordinates of even grids. Partial: as `vtk_file_partial`. -/
theorem vtk_double_partial {text : ℚ → List Char} (htext : TextsOfDoubles text) (spl : Splines ℚ)
    (unst : List (Field ℚ (Dbl ℚ)) → Res (List (Field ℚ (Dbl ℚ)))) (args : VtkArgs) (ht : args.type = "double".toList) (fields : List (Field ℚ (Dbl ℚ)))
    (f0 : Field ℚ (Dbl ℚ)) (hf0 : fields.head? = some f0) (h4 : fields.length ≤ 4) (shape : List ℕ) (axes : List (Axis ℚ))
    (hs : ∀ f ∈ fields, f.Sound ∧ f.shape = shape ∧ f.axes = axes) (hdim : shape.length = 2 ∨ shape.length = 3)
    (hax : ∀ ax ∈ axes, ∃ e0 h, EvenAxis ax e0 h ∧ 0 < h) (hd : TextAxes axes)
    (hv : ∀ f ∈ fields, ∀ idx, IsDouble (f.matrix.at' idx))
    (hname : WritableName (exportName args.name f0.name)) (old : Option Bytes) :
    ∃ file c, exportScalarsFile (coordinateWriter text) valueWriter spl unst args fields old = (some file, none) ∧
      readVtk coordinateReader valueReader file = some c ∧ c.type = .double ∧ c.data.length = c.points * c.components ∧
      vtkDimensions c.dataset = shape ++ List.replicate (3 - shape.length) 1 ∧
      ∀ idx, InBounds shape idx →
        (∀ (j : ℕ) (f : Field ℚ (Dbl ℚ)), fields[j]? = some f → c.data[vtkPoint shape idx * fields.length + j]? = some (f.matrix.at' idx)) ∧
        ∀ (d i : ℕ) (ax : Axis ℚ), idx[d]? = some i → axes[d]? = some ax →
          (vtkCoordinates c.dataset (idx ++ List.replicate (3 - shape.length) 0))[d]? = ax.grid[i]? := by
  obtain ⟨file, c, c1, c2, -, -, c5, -, -, c8, c9, c10⟩ := vtk_file_partial (coordinates_read htext) values_read spl unst args .double ht fields f0 hf0 h4
    shape axes hs hdim (Or.inl hax) (by simpa using double_int 0 (by norm_num)) (by simpa using double_int 1 (by norm_num)) (fun _ => hd) hname old
  refine ⟨file, c, c1, c2, c5, c8, c9, fun idx hidx => ⟨?_, ?_⟩⟩
  · intro j f hj
    rw [(c10 idx hidx).1 j f hj]
    exact congrArg some (round_isDouble (hv f (List.mem_of_getElem? hj) idx))
  · intro d i ax h1 h2
    have hall : axes.all (fun ax => ax.isLinear) = true := by
      rw [List.all_eq_true]
      intro ax hm
      obtain ⟨e0, h, he, -⟩ := hax ax hm
      exact even_linear he
    rw [(c10 idx hidx).2 d i ax h1 h2, hall]
    simp

/-- C87: the same with the default `type='float'`: the values have a relative error of at most `2^(-24)`, the coordinates of even grids are still exact. Partial: as
`vtk_file_partial`, and values up to `2^127`; larger ones may become infinite. -/
theorem vtk_float_partial {text : ℚ → List Char} (htext : TextsOfDoubles text) (spl : Splines ℚ)
    (unst : List (Field ℚ (Dbl ℚ)) → Res (List (Field ℚ (Dbl ℚ)))) (fields : List (Field ℚ (Dbl ℚ)))
    (f0 : Field ℚ (Dbl ℚ)) (hf0 : fields.head? = some f0) (h4 : fields.length ≤ 4) (shape : List ℕ) (axes : List (Axis ℚ))
    (hs : ∀ f ∈ fields, f.Sound ∧ f.shape = shape ∧ f.axes = axes) (hdim : shape.length = 2 ∨ shape.length = 3)
    (hax : ∀ ax ∈ axes, ∃ e0 h, EvenAxis ax e0 h ∧ 0 < h) (hd : TextAxes axes)
    (hname : WritableName f0.name.toList) (old : Option Bytes) :
    ∃ file c, exportScalarsFile (coordinateWriter text) valueWriter spl unst VtkArgs.default fields old = (some file, none) ∧
      readVtk coordinateReader valueReader file = some c ∧ c.type = .float ∧ c.data.length = c.points * c.components ∧
      vtkDimensions c.dataset = shape ++ List.replicate (3 - shape.length) 1 ∧
      ∀ idx, InBounds shape idx →
        (∀ (j : ℕ) (f : Field ℚ (Dbl ℚ)), fields[j]? = some f →
          ∃ w, c.data[vtkPoint shape idx * fields.length + j]? = some w ∧ NearFloat (f.matrix.at' idx) w) ∧
        ∀ (d i : ℕ) (ax : Axis ℚ), idx[d]? = some i → axes[d]? = some ax →
          (vtkCoordinates c.dataset (idx ++ List.replicate (3 - shape.length) 0))[d]? = ax.grid[i]? := by
  obtain ⟨file, c, c1, c2, -, -, c5, -, -, c8, c9, c10⟩ := vtk_file_partial (coordinates_read htext) values_read spl unst VtkArgs.default .float rfl fields
    f0 hf0 h4 shape axes hs hdim (Or.inl hax) (by simpa using double_int 0 (by norm_num)) (by simpa using double_int 1 (by norm_num)) (fun _ => hd) hname old
  refine ⟨file, c, c1, c2, c5, c8, c9, fun idx hidx => ⟨?_, ?_⟩⟩
  · intro j f hj
    exact ⟨_, (c10 idx hidx).1 j f hj, round_float _⟩
  · intro d i ax h1 h2
    have hall : axes.all (fun ax => ax.isLinear) = true := by
      rw [List.all_eq_true]
      intro ax hm
      obtain ⟨e0, h, he, -⟩ := hax ax hm
      exact even_linear he
    rw [(c10 idx hidx).2 d i ax h1 h2, hall]
    simp

/-! ### Examples -/

/-- Texts with 19 digits. -/
theorem sci_texts : TextsOfDoubles (printSci 18) where
  exact x hx := readDouble_print 18 (by norm_num) hx
  visible x := by
    obtain ⟨m, k, h, -⟩ := printSci_text 18 x
    rw [h]
    refine ⟨by rw [sciText, showDigits_one]; simp, sciText_visible _ _ _ _⟩

/-- Numbers, NaN and infinity. -/
def exValues : Field ℚ (Dbl ℚ) :=
  { name := "n", unit := "", axes := field43.axes, ats := field43.ats, tao := field43.tao,
    matrix := ⟨[4, 3], fun idx => match idx with
      | [0, 0] => .nan
      | [0, 1] => .inf true
      | [1, 2] => .fin 16777217
      | _ => .fin 3⟩ }

theorem exValues_sound : exValues.Sound := ⟨field43_sound.ok, field43_sound.valid, field43_sound.nonempty⟩

theorem exValues_double (idx : List ℕ) : IsDouble (exValues.matrix.at' idx) := by
  intro x hx
  simp only [exValues] at hx
  split at hx <;> cases hx
  · exact double_int 16777217 (by norm_num)
  · exact double_int 3 (by norm_num)

theorem exValues_axes : TextAxes exValues.axes := by
  have half : double (1 / 2) = .fin (1 / 2) := by decide +kernel
  have g1 : pyGet (uniformAxis 0 4 4).grid 0 = .ok (1 / 2) := by decide +kernel
  have g2 : (uniformAxis 0 4 4).spacing = .ok 1 := by decide +kernel
  have g3 : pyGet (uniformAxis 0 6 3).grid 0 = .ok 1 := by decide +kernel
  have g4 : (uniformAxis 0 6 3).spacing = .ok 2 := by decide +kernel
  intro ax hm x hx
  simp only [exValues, field43, List.mem_cons, List.not_mem_nil, or_false] at hm
  rcases hm with rfl | rfl
  · rcases hx with hx | hx
    · rw [g1] at hx
      cases hx
      exact half
    · rw [g2] at hx
      cases hx
      exact double_int 1 (by norm_num)
  · rcases hx with hx | hx
    · rw [g3] at hx
      cases hx
      exact double_int 1 (by norm_num)
    · rw [g4] at hx
      cases hx
      exact double_int 2 (by norm_num)

example := vtk_double_partial sci_texts midSplines (fun _ => .error .notImplementedError) ⟨none, "double".toList, true, false⟩ rfl [exValues] exValues
  rfl (by simp) [4, 3] field43.axes (by
    intro f hf
    obtain rfl := List.mem_singleton.1 hf
    exact ⟨exValues_sound, rfl, rfl⟩)
  (Or.inl rfl) field43_even exValues_axes (by
    intro f hf
    obtain rfl := List.mem_singleton.1 hf
    exact exValues_double) ⟨by decide, by decide⟩ none

example := vtk_float_partial sci_texts midSplines (fun _ => .error .notImplementedError) [exValues] exValues
  rfl (by simp) [4, 3] field43.axes (by
    intro f hf
    obtain rfl := List.mem_singleton.1 hf
    exact ⟨exValues_sound, rfl, rfl⟩)
  (Or.inl rfl) field43_even exValues_axes ⟨by decide, by decide⟩ none

/-- The default type has 24 digits. -/
example : ieeeValue .float (ieeeBytes .float (.fin 16777217)) = some (.fin 16777216) ∧
    ieeeValue .double (ieeeBytes .double (.fin 16777217)) = some (.fin 16777217) ∧
    ieeeBytes .double (.fin (-1)) = [191, 240, 0, 0, 0, 0, 0, 0] := by
  refine ⟨?_, ?_, ?_⟩ <;> decide +kernel

/-- Values which are too large are infinite. -/
example : ieeeValue .float (ieeeBytes .float (.fin (2 ^ 128))) = some (.inf false) := by decide +kernel

end Postpic.Props
