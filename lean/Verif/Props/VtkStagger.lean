import Verif.Lemmas.Io
import Verif.Props.Waves

/-!
# C109: VTK files of fields on staggered grids
-/

set_option autoImplicit false

namespace Postpic.Props

open Postpic Postpic.Axes Postpic.Fields Postpic.Spec Postpic.Io

noncomputable section

/-- Exporting fields on different grids. -/
theorem vtk_unstaggered_of (spl : Splines ℝ) (hspl : ExactOnEven spl) (skip : Bool) (f0 : Field ℝ ℝ) (fs : List (Field ℝ ℝ))
    (kind : VtkKind) (hkind : if kind = .vectors then fs.length = 2 else fs.length ≤ 3) (D : ℕ) (hD : 2 ≤ D)
    (x0 : Field ℝ ℝ → ℕ → ℝ) (h : ℕ → ℝ) (hf : ∀ f ∈ f0 :: fs, Staggered f D (x0 f) h) (hs : ∀ f ∈ fs, f.shape = f0.shape)
    (hdiff : ∃ f ∈ fs, GridsDiffer f.axes f0.axes) (o : ℕ → ℝ)
    (ho : if fs.length = 1 then ∀ d < D, o d = x0 f0 d else ∀ d < D, IsMedian ((f0 :: fs).map fun f => x0 f d) (o d))
    (hnear : ∀ f ∈ f0 :: fs, ∀ d < D, |o d - x0 f d| ≤ 2 * h d) :
    ∃ v r0 rs, exportArraydata spl (fun l => unstaggerFields (byFourierReal spl) l none) kind true skip (f0 :: fs) = .ok v ∧
      List.Forall₂ (WavesMovedTo D h o) (f0 :: fs) (r0 :: rs) ∧
      v.points = f0.shape.foldr (· * ·) 1 ∧ v.components = fs.length + 1 ∧ v.data.length = v.points * v.components ∧
      vtkDimensions v.dataset = f0.shape ++ List.replicate (3 - D) 1 ∧
      ∀ idx, InBounds f0.shape idx →
        (∀ (c : ℕ) (r : Field ℝ ℝ), (r0 :: rs)[c]? = some r →
          v.data[vtkPoint f0.shape idx * (fs.length + 1) + c]? = some (r.matrix.at' idx)) ∧
        ∀ d < D, (vtkCoordinates v.dataset (idx ++ List.replicate (3 - D) 0))[d]? = some (coordAt r0.axes idx d) := by
  have hfs : fs ≠ [] := by
    rintro rfl
    obtain ⟨f, hm, _⟩ := hdiff
    cases hm
  have hl1 : 1 ≤ fs.length := List.length_pos_iff.2 hfs
  have g0 := (hf f0 (by simp)).grid
  have hD3 := g0.three
  obtain ⟨res, u1, u2⟩ := unstagger_fourier_partial spl hspl (f0 :: fs) (by simp) D x0 h hf (by
    have : ∀ f ∈ f0 :: fs, f.shape = f0.shape := by
      intro f hm
      rcases List.mem_cons.1 hm with rfl | hm
      · rfl
      · exact hs f hm
    intro f hm g hm'
    rw [this f hm, this g hm']) none o (by
    simp only [List.length_cons]
    by_cases h1 : fs.length = 1
    · rw [if_pos h1] at ho
      rw [if_pos (by omega)]
      intro f hf
      obtain rfl : f0 = f := Option.some.inj hf
      exact ho
    · rw [if_neg h1] at ho
      rw [if_neg (by omega)]
      exact ho) hnear
  obtain ⟨r0, rs, rfl⟩ : ∃ r0 rs, res = r0 :: rs := by
    cases u2 with
    | cons a b => exact ⟨_, _, rfl⟩
  have hlen := u2.length_eq
  simp only [List.length_cons] at hlen
  have hmoved : ∀ r ∈ r0 :: rs, ∃ f ∈ f0 :: fs, WavesMovedTo D h o f r := by
    intro r hm
    obtain ⟨c, hc⟩ := List.mem_iff_getElem?.1 hm
    have hlt : c < (f0 :: fs).length := by
      rw [u2.length_eq]
      exact (List.getElem?_eq_some_iff.1 hc).1
    refine ⟨_, List.getElem_mem hlt, ?_⟩
    have := u2.get hlt (by rw [← u2.length_eq]; exact hlt)
    simp only [List.get_eq_getElem] at this
    rw [List.getElem?_eq_some_iff] at hc
    obtain ⟨_, hc⟩ := hc
    rwa [hc] at this
  have hshape : ∀ f ∈ f0 :: fs, f.shape = f0.shape := by
    intro f hm
    rcases List.mem_cons.1 hm with rfl | hm
    · rfl
    · exact hs f hm
  have hsound : ∀ r ∈ r0 :: rs, r.Sound ∧ r.shape = f0.shape := by
    intro r hm
    obtain ⟨f, hm', w1, ⟨x, w2, _⟩, _⟩ := hmoved r hm
    exact ⟨w2.sound, w1.trans (hshape f hm')⟩
  obtain ⟨_, _, w1, ⟨x, w2, _⟩, _⟩ := hmoved r0 (by simp)
  have lens : ∀ f ∈ f0 :: fs, f.axes.map (·.grid.length) = f0.shape ∧ f.axes.map (·.gridNode.length) = f0.shape.map (· + 1) := by
    intro f hm
    have e := (hf f hm).grid.sound.ok.lengths
    rw [hshape f hm] at e
    refine ⟨e, ?_⟩
    rw [← e, List.map_map]
    apply List.map_congr_left
    intro ax hax
    exact ((hf f hm).grid.sound.valid ax hax).wf.1
  have hchecked : AxesChecked (fun l => unstaggerFields (byFourierReal spl) l none) true skip (f0 :: fs) (r0 :: rs) := by
    have hall : ∃ same, fs.mapM (fun f => axesEq f.axes f0.axes) = .ok same := by
      have hfs' : ∀ f ∈ fs, ∃ b, axesEq f.axes f0.axes = .ok b := by
        intro f hm
        have l1 := lens f (List.mem_cons_of_mem _ hm)
        have l2 := lens f0 (by simp)
        exact axesEq_total (by rw [l1.1, l2.1]) (by rw [l1.2, l2.2])
      clear * - hfs'
      induction fs with
      | nil => exact ⟨[], rfl⟩
      | cons f fs ih =>
        obtain ⟨b, hb⟩ := hfs' f (by simp)
        obtain ⟨l, hl⟩ := ih fun g hg => hfs' g (by simp [hg])
        refine ⟨b :: l, ?_⟩
        rw [List.mapM_cons, hb]
        simp only [bind, Except.bind]
        rw [hl]
        rfl
    obtain ⟨same, hsame⟩ := hall
    obtain ⟨f, hm, hd⟩ := hdiff
    rcases mapM_differ fs f0.axes f hm hd with ⟨l, e1, e2⟩ | e1
    · rw [hsame] at e1
      obtain rfl := Except.ok.inj e1
      refine ⟨f0, fs, same, rfl, hsame, ?_⟩
      rw [e2]
      exact u1
    · rw [hsame] at e1
      cases e1
  have heven : ∀ ax ∈ r0.axes, ∃ e0 h, EvenAxis ax e0 h ∧ 0 < h := by
    intro ax hax
    obtain ⟨d, hd⟩ := List.mem_iff_getElem?.1 hax
    exact ⟨_, _, w2.axes d ax hd⟩
  obtain ⟨v, v1, v2, v3, v4, v5, v6⟩ := export_checked spl _ kind true skip (f0 :: fs) (r0 :: rs) hchecked f0.shape r0.axes
    hsound rfl (by rw [g0.dims]; omega) (by
      simp only [List.length_cons]
      split_ifs at hkind ⊢ <;> omega) (Or.inl heven)
  refine ⟨v, r0, rs, v1, u2, v2, ?_, v4, ?_, ?_⟩
  · rw [v3, List.length_cons, hlen]
  · rw [v5, g0.dims]
  · intro idx hidx
    obtain ⟨a, b⟩ := v6 idx hidx
    refine ⟨?_, ?_⟩
    · intro c r hc
      have := a c r hc
      rw [List.length_cons, ← hlen] at this
      exact this
    · intro d hd
      rw [g0.dims] at b
      have hi : idx[d]? = some (idx.getD d 0) := by
        have hl : d < idx.length := by rw [hidx.1, g0.dims]; exact hd
        rw [List.getD_eq_getElem?_getD, List.getElem?_eq_getElem hl]
        rfl
      have hx : r0.axes[d]? = some (r0.axes[d]'(by rw [(grid_len w2).1]; exact hd)) := List.getElem?_eq_getElem _
      rw [b d _ _ hi hx]
      unfold coordAt
      rw [hx]
      simp only [Option.map_some, Option.getD_some]
      have hlt : idx.getD d 0 < (r0.axes[d]'(by rw [(grid_len w2).1]; exact hd)).grid.length := by
        refine hidx.2 d _ _ hi ?_
        rw [← (hsound r0 (by simp)).2, ← w2.sound.ok.lengths, List.getElem?_map, hx]
        rfl
      rw [List.getD_eq_getElem?_getD (l := Axis.grid _), List.getElem?_eq_getElem hlt]
      rfl

/-- C109: up to four scalar fields on different grids with the same cells are moved to a common grid and exported: the numbers of points are
those of the fields, the value of each field at each point of the file is that of the waves which make up the field, at the coordinates of its
moved grid, which starts at the common origin up to the tolerance of `np.isclose`, and the coordinates in the file are those of the first
moved field. Partial: as `unstagger_fourier_partial`. -/
theorem vtk_unstaggered_partial (spl : Splines ℝ) (hspl : ExactOnEven spl) (skip : Bool) (f0 : Field ℝ ℝ) (fs : List (Field ℝ ℝ))
    (h4 : fs.length ≤ 3) (D : ℕ) (hD : 2 ≤ D)
    (x0 : Field ℝ ℝ → ℕ → ℝ) (h : ℕ → ℝ) (hf : ∀ f ∈ f0 :: fs, Staggered f D (x0 f) h) (hs : ∀ f ∈ fs, f.shape = f0.shape)
    (hdiff : ∃ f ∈ fs, GridsDiffer f.axes f0.axes) (o : ℕ → ℝ)
    (ho : if fs.length = 1 then ∀ d < D, o d = x0 f0 d else ∀ d < D, IsMedian ((f0 :: fs).map fun f => x0 f d) (o d))
    (hnear : ∀ f ∈ f0 :: fs, ∀ d < D, |o d - x0 f d| ≤ 2 * h d) :
    ∃ v r0 rs, exportScalars spl (fun l => unstaggerFields (byFourierReal spl) l none) true skip (f0 :: fs) = .ok v ∧
      List.Forall₂ (WavesMovedTo D h o) (f0 :: fs) (r0 :: rs) ∧
      v.points = f0.shape.foldr (· * ·) 1 ∧ v.components = fs.length + 1 ∧ v.data.length = v.points * v.components ∧
      vtkDimensions v.dataset = f0.shape ++ List.replicate (3 - D) 1 ∧
      ∀ idx, InBounds f0.shape idx →
        (∀ (c : ℕ) (r : Field ℝ ℝ), (r0 :: rs)[c]? = some r →
          v.data[vtkPoint f0.shape idx * (fs.length + 1) + c]? = some (r.matrix.at' idx)) ∧
        ∀ d < D, (vtkCoordinates v.dataset (idx ++ List.replicate (3 - D) 0))[d]? = some (coordAt r0.axes idx d) := by
  unfold exportScalars
  rw [if_neg (by simp only [List.length_cons]; omega)]
  exact vtk_unstaggered_of spl hspl skip f0 fs .scalars (by rw [if_neg (by decide)]; exact h4) D hD x0 h hf hs hdiff o ho hnear

/-- C109: three fields on different grids with the same cells are moved to a common grid, whose origin is the median along each dimension, and
exported as the components of a vector. Partial: as `unstagger_fourier_partial`, all three components given. -/
theorem vtk_unstaggered_vector_partial (spl : Splines ℝ) (hspl : ExactOnEven spl) (skip : Bool) (f0 : Field ℝ ℝ) (fs : List (Field ℝ ℝ))
    (h3 : fs.length = 2) (D : ℕ) (hD : 2 ≤ D)
    (x0 : Field ℝ ℝ → ℕ → ℝ) (h : ℕ → ℝ) (hf : ∀ f ∈ f0 :: fs, Staggered f D (x0 f) h) (hs : ∀ f ∈ fs, f.shape = f0.shape)
    (hdiff : ∃ f ∈ fs, GridsDiffer f.axes f0.axes) (o : ℕ → ℝ)
    (ho : ∀ d < D, IsMedian ((f0 :: fs).map fun f => x0 f d) (o d))
    (hnear : ∀ f ∈ f0 :: fs, ∀ d < D, |o d - x0 f d| ≤ 2 * h d) :
    ∃ v r0 rs, exportVector spl (fun l => unstaggerFields (byFourierReal spl) l none) true skip (f0 :: fs) = .ok v ∧
      List.Forall₂ (WavesMovedTo D h o) (f0 :: fs) (r0 :: rs) ∧
      v.points = f0.shape.foldr (· * ·) 1 ∧ v.components = 3 ∧ v.data.length = v.points * v.components ∧
      vtkDimensions v.dataset = f0.shape ++ List.replicate (3 - D) 1 ∧
      ∀ idx, InBounds f0.shape idx →
        (∀ (c : ℕ) (r : Field ℝ ℝ), (r0 :: rs)[c]? = some r →
          v.data[vtkPoint f0.shape idx * 3 + c]? = some (r.matrix.at' idx)) ∧
        ∀ d < D, (vtkCoordinates v.dataset (idx ++ List.replicate (3 - D) 0))[d]? = some (coordAt r0.axes idx d) := by
  unfold exportVector
  rw [if_neg (by simp only [List.length_cons]; omega)]
  have e : 3 - (f0 :: fs).length = 0 := by simp only [List.length_cons]; omega
  rw [e]
  have := vtk_unstaggered_of spl hspl skip f0 fs .vectors (by rw [if_pos rfl]; exact h3) D hD x0 h hf hs hdiff o
    (by rw [if_neg (by omega)]; exact ho) hnear
  simp only [h3] at this
  simpa [bind, Except.bind, pure, Except.pure] using this

/-- Three times two points; the first one is at `x` and `y`. -/
def sheet (x y : ℝ) : Field ℝ ℝ :=
  ⟨"E", "V/m", ⟨[3, 2], fun idx => (idx.getD 0 0 : ℝ) + 10 * (idx.getD 1 0 : ℝ)⟩,
    [evenAxisOf "x" "m" (x - 1) 2 3, evenAxisOf "y" "m" (y - 1 / 2) 1 2], [some false, some false], [none, none]⟩

theorem sheet_grid (x y : ℝ) : Staggered (sheet x y) 2 (fun d => if d = 0 then x else y) (fun d => if d = 0 then 2 else 1) := by
  refine ⟨⟨⟨⟨?_, rfl, rfl⟩, ?_, by simp [sheet, Field.shape]⟩, rfl, by omega, by omega, ?_⟩, by simp [sheet, Field.shape], rfl⟩
  · simp [sheet, evenAxisOf, Axis.len, ap_length, Field.shape]
  · intro ax hax
    simp only [sheet, List.mem_cons, List.not_mem_nil, or_false] at hax
    rcases hax with rfl | rfl
    · exact evenAxisOf_valid _ _ _ _ (by norm_num) _
    · exact evenAxisOf_valid _ _ _ _ (by norm_num) _
  · intro d ax hd
    match d, hd with
    | 0, hd =>
      cases hd
      have := evenAxisOf_even "x" "m" (x - 1) 2 3
      exact ⟨by simpa using this, by norm_num⟩
    | 1, hd =>
      cases hd
      have := evenAxisOf_even "y" "m" (y - 1 / 2) 1 2
      exact ⟨by simpa using this, by norm_num⟩
    | d + 2, hd => simp [sheet] at hd

theorem sheet_coord (x y : ℝ) (d : ℕ) : coordAt (sheet x y).axes [0, 0] d = if d = 0 then x else if d = 1 then y else 0 := by
  match d with
  | 0 => norm_num [coordAt, sheet, evenAxisOf, ap, List.range_succ]
  | 1 => norm_num [coordAt, sheet, evenAxisOf, ap, List.range_succ]
  | d + 2 => simp [coordAt, sheet]

theorem sheet_staggered (x y : ℝ) :
    Staggered (sheet x y) 2 (coordAt (sheet x y).axes [0, 0]) (fun d => if d = 0 then 2 else 1) := by
  have g := sheet_grid x y
  refine ⟨⟨g.grid.sound, g.grid.dims, g.grid.one, g.grid.three, ?_⟩, g.two, g.spatial⟩
  intro d ax hd
  have := g.grid.axes d ax hd
  have hlt : d < 2 := (List.getElem?_eq_some_iff.1 hd).1
  rw [sheet_coord]
  have : d = 0 ∨ d = 1 := by omega
  rcases this with rfl | rfl <;> simpa using this

example := by
  exact vtk_unstaggered_partial lineSplines lineSplines_exact false (sheet 0 0) [sheet 1 (1 / 2)] (by simp) 2 (by omega)
    (fun f => coordAt f.axes [0, 0]) (fun d => if d = 0 then 2 else 1) (by
      intro f hf
      simp only [List.mem_cons, List.not_mem_nil, or_false] at hf
      rcases hf with rfl | rfl <;> exact sheet_staggered _ _) (by
      intro f hf
      obtain rfl := List.mem_singleton.1 hf
      rfl) ⟨_, List.mem_singleton.2 rfl, Or.inr ⟨0, _, _, rfl, rfl, Or.inl (by norm_num [Close, evenAxisOf])⟩⟩ (fun _ => 0)
    (by
      rw [if_pos (show [sheet 1 (1 / 2)].length = 1 from rfl)]
      intro d _
      rw [sheet_coord]
      split_ifs <;> rfl) (by
      intro f hf d hd
      simp only [List.mem_cons, List.not_mem_nil, or_false] at hf
      have : d = 0 ∨ d = 1 := by omega
      rcases hf with rfl | rfl <;> rw [sheet_coord] <;> rcases this with rfl | rfl <;> norm_num)

example := by
  refine vtk_unstaggered_vector_partial lineSplines lineSplines_exact false (sheet 0 0) [sheet 1 (1 / 2), sheet 0 (1 / 2)] rfl 2 (by omega)
    (fun f => coordAt f.axes [0, 0]) (fun d => if d = 0 then 2 else 1) ?_ ?_
    ⟨_, List.mem_cons_self, Or.inr ⟨0, _, _, rfl, rfl, Or.inl (by norm_num [Close, evenAxisOf])⟩⟩ (fun d => if d = 0 then 0 else 1 / 2) ?_ ?_
  · intro f hf
    simp only [List.mem_cons, List.not_mem_nil, or_false] at hf
    rcases hf with rfl | rfl | rfl <;> exact sheet_staggered _ _
  · intro f hf
    simp only [List.mem_cons, List.not_mem_nil, or_false] at hf
    rcases hf with rfl | rfl <;> rfl
  · intro d hd
    simp only [List.map_cons, List.map_nil, sheet_coord]
    have : d = 0 ∨ d = 1 := by omega
    rcases this with rfl | rfl
    · exact ⟨[0, 0, 1], ((List.Perm.swap (1 : ℝ) 0 []).cons 0), by norm_num, Or.inl ⟨1, rfl, rfl⟩⟩
    · exact ⟨[0, 1 / 2, 1 / 2], List.Perm.refl _, by norm_num, Or.inl ⟨1, rfl, rfl⟩⟩
  · intro f hf d hd
    simp only [List.mem_cons, List.not_mem_nil, or_false] at hf
    have : d = 0 ∨ d = 1 := by omega
    rcases hf with rfl | rfl | rfl <;> rw [sheet_coord] <;> rcases this with rfl | rfl <;> norm_num

end

end Postpic.Props
