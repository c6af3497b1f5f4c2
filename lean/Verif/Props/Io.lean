import Verif.Lemmas.Io
import Verif.Props.FieldIndex
import Verif.Props.FieldResolution

/-!
# Saving, loading and exporting fields
-/

set_option autoImplicit false
set_option linter.unusedSectionVars false

namespace Postpic.Props

open Postpic Postpic.Axes Postpic.Fields Postpic.Spec Postpic.Io

section
variable {K V : Type} [_root_.Field K] [LinearOrder K] [IsStrictOrderedRing K]

/-! ## C35: npz files -/

/-- The string does not end with a NUL character. -/
def NoNul (s : String) : Prop := s.toList.getLast? ≠ some '\x00'

instance (s : String) : Decidable (NoNul s) := inferInstanceAs (Decidable (_ ≠ _))

theorem npStr_noNul {s : String} (h : NoNul s) : npStr s = s := by
  unfold npStr
  rw [← String.toList_inj, String.toList_ofList]
  unfold NoNul at h
  rw [← List.head?_reverse] at h
  conv_rhs => rw [← List.reverse_reverse s.toList]
  congr 1
  cases hr : s.toList.reverse with
  | nil => rfl
  | cons a l =>
    rw [hr] at h
    rw [List.dropWhile_cons_of_neg]
    simpa using h

theorem npStr1_noNul {s : String} (h : NoNul s) (h1 : s.length ≤ 1) : npStr1 s = s := by
  unfold npStr1
  rw [List.take_of_length_le (by rw [String.length_toList]; exact h1), String.ofList_toList]
  exact npStr_noNul h

theorem shownLabel_stored (f : LField K V) (n u : String) (hn : f.field.name = n)
    (hu : f.field.unit = u) :
    (⟨{ f.field with name := n, unit := u }, some f.shownLabel, f.info⟩ : LField K V).shownLabel =
      f.shownLabel := by
  subst hn hu
  obtain ⟨fld, label, info⟩ := f
  unfold LField.shownLabel
  cases label with
  | none =>
    simp only
    split_ifs <;> simp_all
  | some l =>
    simp only
    split_ifs <;> simp_all

/-- C35: a field of one to three dimensions which is saved and loaded again has the same matrix,
the same grids, nodes and extents, the same transform states and the same stored origins, whatever
its names are. -/
theorem npz_roundtrip_data (spl : Splines K) (f : LField K V) (hf : f.field.Sound)
    (hne : f.field.shape ≠ []) (h3 : f.field.shape.length ≤ 3) :
    ∃ z r, exportNpz f = .ok z ∧ importNpz spl z = .ok r ∧
      r.field.matrix = f.field.matrix ∧
      r.field.axes.map (fun ax => (ax.grid, ax.gridNode, ax.extent)) =
        f.field.axes.map (fun ax => (ax.grid, ax.gridNode, ax.extent)) ∧
      r.field.ats = f.field.ats ∧ r.field.tao = f.field.tao := by
  obtain ⟨z, h1, h2⟩ := roundtrip spl f hf hne h3
  refine ⟨z, _, h1, h2, rfl, ?_, rfl, rfl⟩
  simp [List.map_map, Function.comp_def]

/-- C35: a field which is saved and loaded again is the same field, including names and units; its
label is the one that was shown. Partial: the names and units of the axes may have at most one
character, there must be at least one dimension, and strings must not end with NUL, see
`npz_axis_names_violated` and `npz_no_dimensions_violated`. -/
theorem npz_roundtrip_partial (spl : Splines K) (f : LField K V) (hf : f.field.Sound)
    (hne : f.field.shape ≠ []) (h3 : f.field.shape.length ≤ 3)
    (hax : ∀ ax ∈ f.field.axes, ax.name.length ≤ 1 ∧ ax.unit.length ≤ 1 ∧
      NoNul ax.name ∧ NoNul ax.unit)
    (hs : NoNul f.field.name ∧ NoNul f.field.unit ∧ NoNul f.shownLabel ∧ NoNul f.info) :
    ∃ z r, exportNpz f = .ok z ∧ importNpz spl z = .ok r ∧
      r.field = f.field ∧ r.shownLabel = f.shownLabel ∧ r.info = f.info := by
  obtain ⟨z, h1, h2⟩ := roundtrip spl f hf hne h3
  obtain ⟨s1, s2, s3, s4⟩ := hs
  have e : (f.field.axes.map fun ax =>
      { ax with name := npStr1 ax.name, unit := npStr1 ax.unit }) = f.field.axes := by
    conv_rhs => rw [← List.map_id f.field.axes]
    apply List.map_congr_left
    intro ax hm
    obtain ⟨a1, a2, a3, a4⟩ := hax ax hm
    rw [npStr1_noNul a3 a1, npStr1_noNul a4 a2]
    rfl
  rw [e, npStr_noNul s1, npStr_noNul s2, npStr_noNul s3, npStr_noNul s4] at h2
  refine ⟨z, _, h1, h2, rfl, ?_, rfl⟩
  exact shownLabel_stored f f.field.name f.field.unit rfl rfl

end

example := npz_roundtrip_partial midSplines ⟨field43, none, "run 7"⟩ field43_sound (by decide)
  (by decide) (by
    intro ax hax
    simp only [field43, List.mem_cons, List.not_mem_nil, or_false] at hax
    rcases hax with rfl | rfl <;>
      exact ⟨by decide +kernel, by decide +kernel, by decide +kernel, by decide +kernel⟩)
  (by refine ⟨?_, ?_, ?_, ?_⟩ <;> unfold NoNul <;> decide +kernel)

/-- A field whose axes have names and units of several letters. -/
def fieldNamed : Field ℚ ℚ :=
  { field43 with axes := [{ uniformAxis 0 4 4 with name := "kx", unit := "1/m" },
      { uniformAxis 0 6 3 with name := "ky", unit := "1/m" }] }

theorem fieldNamed_sound : fieldNamed.Sound := by
  refine ⟨⟨by decide +kernel, by decide +kernel, by decide +kernel⟩, ?_, by decide⟩
  intro ax hax
  simp only [fieldNamed, field43, List.mem_cons, List.not_mem_nil, or_false] at hax
  rcases hax with rfl | rfl
  · exact uniform_wf (e0 := 0) (e1 := 4) (by norm_num) (by norm_num)
  · exact uniform_wf (e0 := 0) (e1 := 6) (by norm_num) (by norm_num)

example := npz_roundtrip_data midSplines ⟨fieldNamed, some "spectrum", ""⟩ fieldNamed_sound
  (by decide) (by decide)

/-- C35 fails for names and units of axes with more than one character: only the first character
is loaded, the axes `kx` and `ky` in `1/m` come back as `k` and `k` in `1`. -/
theorem npz_axis_names_violated :
    ((exportNpz ⟨fieldNamed, none, ""⟩).bind (importNpz midSplines)).map
      (fun r => r.field.axes.map fun ax => (ax.name, ax.unit)) = .ok [("k", "1"), ("k", "1")] ∧
    fieldNamed.axes.map (fun ax => (ax.name, ax.unit)) = [("kx", "1/m"), ("ky", "1/m")] := by
  obtain ⟨z, h1, h2⟩ := roundtrip midSplines ⟨fieldNamed, none, ""⟩ fieldNamed_sound
    (by decide) (by decide)
  refine ⟨?_, by decide +kernel⟩
  rw [h1]
  show (importNpz midSplines z).map _ = _
  rw [h2]
  decide +kernel

/-- C35 fails for fields without dimensions: they cannot be saved. -/
theorem npz_no_dimensions_violated {K V : Type} [_root_.Field K] [LinearOrder K]
    (f : LField K V) (hf : f.field.axes = []) : exportNpz f = .error .valueError := by
  unfold exportNpz
  rw [hf]
  rfl

example := npz_no_dimensions_violated (K := ℚ) (V := ℚ)
  ⟨⟨"total", "", ⟨[], fun _ => 5⟩, [], [], []⟩, none, ""⟩ rfl

/-- C35: the label of a loaded field is fixed. A field without explicit label shows its name; the
loaded field keeps showing the old name after it is renamed. -/
theorem npz_label_frozen_violated :
    ∃ (f : LField ℚ ℚ) (z : Npz ℚ ℚ) (r : LField ℚ ℚ), exportNpz f = .ok z ∧
      importNpz midSplines z = .ok r ∧ r.field = f.field ∧
      ({ f with field := { f.field with name := "g" } } : LField ℚ ℚ).shownLabel = "g" ∧
      ({ r with field := { r.field with name := "g" } } : LField ℚ ℚ).shownLabel = "f" := by
  obtain ⟨z, h1, h2⟩ := roundtrip midSplines ⟨field43, none, ""⟩ field43_sound
    (by decide) (by decide)
  refine ⟨_, z, _, h1, h2, ?_, by decide +kernel, by decide +kernel⟩
  have e1 : npStr field43.name = field43.name := by decide +kernel
  have e2 : npStr field43.unit = field43.unit := by decide +kernel
  have e3 : (field43.axes.map fun ax =>
      { ax with name := npStr1 ax.name, unit := npStr1 ax.unit }) = field43.axes := by
    decide +kernel
  simp only [e1, e2, e3]

/-! ## C36: choosing the format -/

/-- C36: whatever name is given to `saveto`, a npz file is written, its name ends with `.npz`
and begins with the given name, and `load_field` reads it as npz. -/
theorem saveto_load (name : String) :
    ∃ w, saveto name = .ok (w, .npz) ∧ loadField w = .ok .npz ∧ endsWith w ".npz" = true ∧
      (w = name ∨ w = name ++ ".npz") := by
  have key : ∀ w, endsWith w ".npz" = true →
      exportField w = .ok (w, .npz) ∧ loadField w = .ok .npz := by
    intro w hw
    have h1 := endsWith_npz hw
    unfold exportField loadField savezName
    rw [if_pos h1, if_pos hw, h1]
    exact ⟨rfl, rfl⟩
  unfold saveto
  split_ifs with h
  · obtain ⟨h1, h2⟩ := key name h
    exact ⟨name, h1, h2, h, Or.inl rfl⟩
  · have hw := endsWith_append name ".npz"
    obtain ⟨h1, h2⟩ := key _ hw
    exact ⟨_, h1, h2, hw, Or.inr rfl⟩

/-- C36: a field exported as npz or csv is read back, by the name of the file that was written, with
the importer of its format. Partial: there is no importer for vtk files, see
`export_vtk_violated`. -/
theorem export_load_partial (name w : String) (fmt : Format)
    (h : exportField name = .ok (w, fmt)) :
    (fmt = .npz → loadField w = .ok .npz) ∧ (fmt = .csv → w = name ∧ importField w = .csv) ∧
      fmt ≠ .image := by
  unfold exportField at h
  split_ifs at h with h1 h2 h3 <;> cases h
  · refine ⟨fun _ => ?_, by simp, by simp⟩
    unfold loadField savezName
    split_ifs with h4 h5 h5
    · rw [h1] at h5; simp at h5
    · rfl
    · rw [endsWith_npz (endsWith_append name ".npz")] at h5; simp at h5
    · rfl
  · refine ⟨by simp, fun _ => ⟨rfl, ?_⟩, by simp⟩
    unfold importField
    rw [if_pos h2]
  · exact ⟨by simp, by simp, by simp⟩

/-- C36: a name is refused exactly if its extension is none of the three, and then nothing is
written. -/
theorem export_refuses (name : String) :
    (∃ e, exportField name = .error e) ↔ ∀ ext ∈ ["npz", "csv", "vtk"],
      endsWith (lower name) ext = false := by
  unfold exportField
  constructor
  · rintro ⟨e, h⟩
    split_ifs at h with h1 h2 h3
    simp_all
  · intro h
    simp only [List.mem_cons, List.not_mem_nil, or_false, forall_eq_or_imp, forall_eq] at h
    obtain ⟨h1, h2, h3⟩ := h
    rw [h1, h2, h3]
    exact ⟨.valueError, rfl⟩

/-- C36: the format depends on the extension only: at most one of them matches. -/
theorem export_format_unique (name a b : String) (ha : a ∈ ["npz", "csv", "vtk"])
    (hb : b ∈ ["npz", "csv", "vtk"]) (h1 : endsWith (lower name) a = true)
    (h2 : endsWith (lower name) b = true) : a = b := by
  refine suffix_unique h1 h2 ?_
  simp only [List.mem_cons, List.not_mem_nil, or_false] at ha hb
  rcases ha with rfl | rfl | rfl <;> rcases hb with rfl | rfl | rfl <;> decide +kernel

example : saveto "run/E.npz" = .ok ("run/E.npz", .npz) ∧ saveto "E" = .ok ("E.npz", .npz) := by
  decide +kernel

example : exportField "E.CSV" = .ok ("E.CSV", .csv) ∧ importField "E.CSV" = .csv := by
  decide +kernel

example : exportField "E.txt" = .error .valueError := by decide +kernel

/-- C36 fails for vtk files: every file name exported as vtk is refused by `load_field`, and
`import_field` takes the file for an image. -/
theorem export_vtk_violated (name w : String) (h : exportField name = .ok (w, .vtk)) :
    loadField w = .error .valueError ∧ importField w = .image := by
  unfold exportField at h
  split_ifs at h with h1 h2 h3 <;> cases h
  unfold loadField importField
  rw [if_neg h2]
  rw [Bool.not_eq_true] at h1
  rw [h1]
  exact ⟨rfl, rfl⟩

example := export_vtk_violated "E.vtk" "E.vtk" (by decide +kernel)

/-- C36: the name of the file which is written can differ from the name that was given: `E.NPZ` is
exported to `E.NPZ.npz`; a file `E.NPZ` does not exist afterwards. -/
theorem export_name_violated : exportField "E.NPZ" = .ok ("E.NPZ.npz", .npz) := by decide +kernel

/-! ## C37: vtk files -/

/-- Every number below the number of points belongs to exactly one index. -/
theorem vtk_points_numbered (shape : List ℕ) (p : ℕ) (hp : p < shape.foldr (· * ·) 1) :
    ∃! idx, InBounds shape idx ∧ vtkPoint shape idx = p := by
  induction shape generalizing p with
  | nil =>
    simp only [List.foldr_nil, Nat.lt_one_iff] at hp
    subst hp
    refine ⟨[], ⟨⟨rfl, by simp⟩, rfl⟩, ?_⟩
    rintro idx ⟨⟨h, _⟩, _⟩
    exact List.length_eq_zero_iff.1 h
  | cons n shape ih =>
    rw [List.foldr_cons] at hp
    have hn : 0 < n := by
      rcases Nat.eq_zero_or_pos n with rfl | h
      · simp at hp
      · exact h
    obtain ⟨t, ⟨h1, h2⟩, h3⟩ := ih (p / n) (Nat.div_lt_of_lt_mul hp)
    refine ⟨p % n :: t, ⟨⟨by simp [h1.1], ?_⟩, ?_⟩, ?_⟩
    · intro d i m hi hm
      cases d with
      | zero =>
        simp only [List.getElem?_cons_zero, Option.some.injEq] at hi hm
        subst hi hm
        exact Nat.mod_lt _ hn
      | succ d => exact h1.2 d i m hi hm
    · simp only [vtkPoint, h2]
      exact Nat.mod_add_div p n
    · rintro idx ⟨hb, hv⟩
      cases idx with
      | nil =>
        have := hb.1
        simp at this
      | cons i idx =>
        have hi : i < n := hb.2 0 i n rfl rfl
        simp only [vtkPoint] at hv
        have e1 : p % n = i := by rw [← hv, Nat.add_mul_mod_self_left, Nat.mod_eq_of_lt hi]
        have e2 : p / n = vtkPoint shape idx := by
          rw [← hv, Nat.add_mul_div_left _ _ hn, Nat.div_eq_of_lt hi, Nat.zero_add]
        rw [e1]
        congr 1
        refine h3 idx ⟨⟨by simpa using hb.1, fun d j m hj hm => hb.2 (d + 1) j m hj hm⟩, e2.symm⟩

section
variable {K V : Type} [_root_.Field K] [LinearOrder K] [IsStrictOrderedRing K] [Inhabited V]

/-- C37: up to four scalar fields with two or three dimensions and the same axes are exported such
that the numbers of points along the axes, the number of values and the coordinates of every point
are those of the fields, and the values of a point are adjacent and stand at the number which the
legacy VTK format gives to the point. Partial: axes which are increasing and evenly spaced, or at
least one axis which is not evenly spaced; see `vtk_coordinates_violated` and
`vtk_dimensions_violated`. -/
theorem vtk_scalars_partial (spl : Splines K) (unst : List (Field K V) → Res (List (Field K V)))
    (unstagger skip : Bool) (fields : List (Field K V)) (shape : List ℕ) (axes : List (Axis K))
    (hne : fields ≠ []) (h4 : fields.length ≤ 4)
    (hs : ∀ f ∈ fields, f.Sound ∧ f.shape = shape ∧ f.axes = axes)
    (hdim : shape.length = 2 ∨ shape.length = 3)
    (hax : (∀ ax ∈ axes, ∃ e0 h, EvenAxis ax e0 h ∧ 0 < h) ∨ ∃ ax ∈ axes, ax.isLinear = false) :
    ∃ v, exportScalars spl unst unstagger skip fields = .ok v ∧
      v.points = shape.foldr (· * ·) 1 ∧ v.components = fields.length ∧
      v.data.length = v.points * v.components ∧
      vtkDimensions v.dataset = shape ++ List.replicate (3 - shape.length) 1 ∧
      ∀ idx, InBounds shape idx →
        (∀ (c : ℕ) (f : Field K V), fields[c]? = some f →
          v.data[vtkPoint shape idx * fields.length + c]? = some (f.matrix.at' idx)) ∧
        ∀ (d i : ℕ) (ax : Axis K), idx[d]? = some i → axes[d]? = some ax →
          (vtkCoordinates v.dataset (idx ++ List.replicate (3 - shape.length) 0))[d]? =
            ax.grid[i]? := by
  unfold exportScalars
  rw [if_neg (by omega)]
  exact export_sound spl unst .scalars unstagger skip fields shape axes hne hs hdim
    (by rw [if_neg (by decide)]; exact h4) hax

/-- C37: one to three fields with the same axes are exported as the components of a vector; missing
components are zero. Partial as `vtk_scalars_partial`. -/
theorem vtk_vector_partial [Zero V] (spl : Splines K)
    (unst : List (Field K V) → Res (List (Field K V)))
    (unstagger skip : Bool) (fields : List (Field K V)) (shape : List ℕ) (axes : List (Axis K))
    (hne : fields ≠ []) (h3 : fields.length ≤ 3)
    (hs : ∀ f ∈ fields, f.Sound ∧ f.shape = shape ∧ f.axes = axes)
    (hdim : shape.length = 2 ∨ shape.length = 3)
    (hax : (∀ ax ∈ axes, ∃ e0 h, EvenAxis ax e0 h ∧ 0 < h) ∨ ∃ ax ∈ axes, ax.isLinear = false) :
    ∃ v, exportVector spl unst unstagger skip fields = .ok v ∧
      v.points = shape.foldr (· * ·) 1 ∧ v.components = 3 ∧
      v.data.length = v.points * 3 ∧
      vtkDimensions v.dataset = shape ++ List.replicate (3 - shape.length) 1 ∧
      ∀ idx, InBounds shape idx →
        (∀ c, c < 3 → v.data[vtkPoint shape idx * 3 + c]? =
          some (match fields[c]? with | some f => f.matrix.at' idx | none => 0)) ∧
        ∀ (d i : ℕ) (ax : Axis K), idx[d]? = some i → axes[d]? = some ax →
          (vtkCoordinates v.dataset (idx ++ List.replicate (3 - shape.length) 0))[d]? =
            ax.grid[i]? := by
  obtain ⟨f0, fs, rfl⟩ := List.exists_cons_of_ne_nil hne
  obtain ⟨s0, sh0, ax0⟩ := hs f0 (by simp)
  set z : Field K V := ⟨f0.name, f0.unit, ⟨f0.shape, fun _ => 0⟩, f0.axes, f0.ats, f0.tao⟩ with hz
  have zs : z.Sound := ⟨s0.ok, s0.valid, s0.nonempty⟩
  have hm : (List.range (3 - (f0 :: fs).length)).mapM (fun (_ : ℕ) => do
      let f0 ← pyGet (f0 :: fs) 0
      f0.replaceData ⟨f0.shape, fun _ => (0 : V)⟩) =
      .ok (List.replicate (3 - (f0 :: fs).length) z) := by
    apply mapM_of_get (by simp)
    intro k a r hk hr
    rw [List.getElem?_replicate] at hr
    split_ifs at hr
    rw [Option.some.injEq] at hr
    rw [← hr, pyGet_zero (l := f0 :: fs) (a := f0) rfl]
    show f0.replaceData _ = _
    unfold Field.replaceData
    rw [if_neg (fun h => h rfl)]
  set all := (f0 :: fs) ++ List.replicate (3 - (f0 :: fs).length) z with hall
  have hlen : all.length = 3 := by
    rw [hall, List.length_append, List.length_replicate]
    omega
  obtain ⟨v, v1, v2, v3, v4, v5, v6⟩ := export_sound spl unst .vectors unstagger skip all shape axes
    (by simp [hall]) (by
      intro f hf
      rw [hall, List.mem_append] at hf
      rcases hf with hf | hf
      · exact hs f hf
      · rw [(List.mem_replicate.1 hf).2]
        exact ⟨zs, sh0, ax0⟩) hdim (by rw [if_pos rfl]; exact hlen) hax
  rw [hlen] at v3 v6
  refine ⟨v, ?_, v2, v3, by rw [v4, v3], v5, ?_⟩
  · unfold exportVector
    rw [if_neg (by omega), hm]
    exact v1
  · intro idx hidx
    refine ⟨?_, (v6 idx hidx).2⟩
    intro c hc
    have hc' : c < all.length := by omega
    have := (v6 idx hidx).1 c all[c] (List.getElem?_eq_getElem hc')
    rw [this]
    by_cases hl : c < (f0 :: fs).length
    · have e : all[c] = (f0 :: fs)[c] := List.getElem_append_left hl
      rw [e, List.getElem?_eq_getElem hl]
    · have e : all[c] = z := by
        simp only [hall]
        rw [List.getElem_append_right (by omega), List.getElem_replicate]
      rw [e, List.getElem?_eq_none (by omega)]

end

/-- The hypothesis on the axes for the example. -/
theorem field43_even : ∀ ax ∈ field43.axes, ∃ e0 h, EvenAxis ax e0 h ∧ 0 < h := by
  have h1 := uniform_even 0 1 4 (by decide)
  have h2 := uniform_even 0 2 3 (by decide)
  norm_num at h1 h2
  intro ax hax
  simp only [field43, List.mem_cons, List.not_mem_nil, or_false] at hax
  rcases hax with rfl | rfl
  · exact ⟨0, 1, h1, by norm_num⟩
  · exact ⟨0, 2, h2, by norm_num⟩

example := vtk_scalars_partial midSplines (fun _ => .error .notImplementedError) true false
  [field43, { field43 with name := "g" }] [4, 3] field43.axes (by simp) (by simp) (by
    intro f hf
    simp only [List.mem_cons, List.not_mem_nil, or_false] at hf
    rcases hf with rfl | rfl
    · exact ⟨field43_sound, rfl, rfl⟩
    · exact ⟨⟨field43_sound.ok, field43_sound.valid, field43_sound.nonempty⟩, rfl, rfl⟩)
  (Or.inl rfl) (Or.inl field43_even)

example := vtk_vector_partial midSplines (fun _ => .error .notImplementedError) true false
  [field43] [4, 3] field43.axes (by simp) (by simp) (by
    intro f hf
    obtain rfl := List.mem_singleton.1 hf
    exact ⟨field43_sound, rfl, rfl⟩)
  (Or.inl rfl) (Or.inl field43_even)

/-- C37: fields on different grids are refused, unless the check is switched off or the fields are to be interpolated. -/
theorem vtk_grids_refused {K V : Type} [_root_.Field K] [LinearOrder K] [IsStrictOrderedRing K] [Inhabited V]
    (spl : Splines K) (unst : List (Field K V) → Res (List (Field K V))) (f0 : Field K V) (fs : List (Field K V))
    (f : Field K V) (hf : f ∈ fs) (h : GridsDiffer f.axes f0.axes) :
    exportScalars spl unst false false (f0 :: fs) = .error .valueError ∧
    ∀ [Zero V], exportVector spl unst false false (f0 :: fs) = .error .valueError := by
  have key : ∀ kind more, exportArraydata spl unst kind false false (f0 :: (fs ++ more)) = .error .valueError := by
    intro kind more
    unfold exportArraydata
    rw [pyGet_zero (l := f0 :: (fs ++ more)) (a := f0) rfl]
    simp only [bind, Except.bind, List.tail_cons]
    rcases mapM_differ (fs ++ more) f0.axes f (List.mem_append_left _ hf) h with ⟨l, h1, h2⟩ | h1
    · rw [h1]
      simp only [h2, Bool.not_false, if_true, Bool.false_eq_true, if_false]
      rfl
    · rw [h1]
  constructor
  · unfold exportScalars
    split
    · rfl
    · have := key .scalars []
      rwa [List.append_nil] at this
  · intro _
    unfold exportVector
    split
    · rfl
    · have hm : (List.range (3 - (f0 :: fs).length)).mapM (fun (_ : ℕ) => do
          let f0 ← pyGet (f0 :: fs) 0
          f0.replaceData ⟨f0.shape, fun _ => (0 : V)⟩) =
          .ok (List.replicate (3 - (f0 :: fs).length)
            ⟨f0.name, f0.unit, ⟨f0.shape, fun _ => 0⟩, f0.axes, f0.ats, f0.tao⟩) := by
        apply mapM_of_get (by simp)
        intro k a r hk hr
        rw [List.getElem?_replicate] at hr
        split_ifs at hr
        rw [Option.some.injEq] at hr
        rw [← hr, pyGet_zero (l := f0 :: fs) (a := f0) rfl]
        show f0.replaceData _ = _
        unfold Field.replaceData
        rw [if_neg (fun h => h rfl)]
      rw [hm]
      exact key .vectors _

example : exportScalars midSplines (fun _ => .error .notImplementedError) false false
    [field43, { field43 with axes := [uniformAxis 0 4 4, uniformAxis 0 5 3] }] = .error .valueError :=
  (vtk_grids_refused midSplines _ field43 _ _ (List.mem_singleton.2 rfl)
    (Or.inr ⟨1, uniformAxis 0 5 3, uniformAxis 0 6 3, rfl, rfl, Or.inr (Or.inl (by
      unfold Close
      decide +kernel))⟩)).1

/-- Everything in the file. -/
def vtkContent (v : VtkFile ℚ ℚ) : List ℕ × ℕ × ℕ × List ℚ :=
  (vtkDimensions v.dataset, v.points, v.components, v.data)

example : (exportScalars midSplines (fun _ => .error .notImplementedError) true false
      [field43]).map vtkContent =
    .ok ([4, 3, 1], 12, 1, [0, 100, 200, 300, 1, 101, 201, 301, 2, 102, 202, 302]) := by
  decide +kernel

example : (exportVector midSplines (fun _ => .error .notImplementedError) true false
      [field43, { field43 with matrix := ⟨[4, 3], fun _ => 7⟩ }]).map
        (fun v => (vtkContent v).2.2.2.take 9) =
    .ok [0, 7, 0, 100, 7, 0, 200, 7, 0] := by
  decide +kernel

/-- A field with a decreasing first axis, and one with two cells of different widths. -/
def fieldDecreasing : Field ℚ ℚ :=
  { field43 with axes := [uniformAxis 4 0 4, uniformAxis 0 6 3] }

/-- Two cells of different widths. -/
def fieldTwoCells : Field ℚ ℚ :=
  ⟨"f", "", ⟨[2, 2], fun idx => 10 * idx.getD 0 0 + idx.getD 1 0⟩,
    [⟨"x", "", [0, 1, 10], [1 / 2, 11 / 2], (0, 10)⟩, uniformAxis 0 2 2],
    [some false, some false], [none, none]⟩

/-- C37 fails for decreasing axes: the file describes the second point at `9/2` where the field has
it at `5/2`; and for an axis of two cells with different widths, which counts as evenly spaced: the
file describes the second point at `3/2` where the field has it at `11/2`. -/
theorem vtk_coordinates_violated :
    (exportScalars midSplines (fun _ => .error .notImplementedError) true false
      [fieldDecreasing]).map (fun v => (vtkCoordinates v.dataset [1, 0, 0])[0]?) =
        .ok (some (9 / 2)) ∧
    (fieldDecreasing.axes.map fun ax => ax.grid[1]?)[0]? = some (some (5 / 2)) ∧
    (exportScalars midSplines (fun _ => .error .notImplementedError) true false
      [fieldTwoCells]).map (fun v => (vtkCoordinates v.dataset [1, 0, 0])[0]?) =
        .ok (some (3 / 2)) ∧
    (fieldTwoCells.axes.map fun ax => ax.grid[1]?)[0]? = some (some (11 / 2)) := by
  decide +kernel

/-- C37 fails for data with one dimension: it is refused. -/
theorem vtk_dimensions_violated {K V : Type} [_root_.Field K] [LinearOrder K] [Inhabited V]
    (spl : Splines K) (unst : List (Field K V) → Res (List (Field K V))) (unstagger skip : Bool)
    (f : Field K V) (h1 : f.shape.length = 1) :
    exportScalars spl unst unstagger skip [f] = .error .valueError := by
  unfold exportScalars exportArraydata
  rw [if_neg (by simp), pyGet_zero (l := [f]) (a := f) rfl]
  simp only [bind, Except.bind, List.tail_cons, List.mapM_nil, pure, Except.pure, List.all_nil,
    Bool.not_true, Bool.false_eq_true, if_false]
  rw [pyGet_zero (l := [f]) (a := f) rfl]
  simp only
  rw [if_neg (by omega), if_pos h1]
  rfl

example := vtk_dimensions_violated (K := ℚ) (V := ℚ) midSplines
  (fun _ => .error .notImplementedError) true false
  ⟨"f", "", ⟨[4], fun _ => 5⟩, [uniformAxis 0 4 4], [some false], [none]⟩ rfl

end Postpic.Props
