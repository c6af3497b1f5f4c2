import Verif.Spec.EpochOld
import Verif.Props.KspaceExtent
import Verif.Lemmas.EpochLike

/-!
# C101: the old reconstruction of the k-space from dumps of EPOCH
-/

set_option autoImplicit false

namespace Postpic.Props

open Postpic Postpic.Axes Postpic.Fields Postpic.Spec

noncomputable section

/-- The distances. -/
theorem halfCells_eq {f : Field ℝ ℂ} {shape : List ℕ} {x0 h : ℕ → ℝ} (hg : OnGrid f shape false x0 h) (electric : Bool) (p : Fin 3) :
    halfCells f p.val (decide ((if electric then 'E' else 'B') = 'B')) =
      .ok ((List.range shape.length).map fun d => movedOrigin electric p x0 h d - x0 d) := by
  have hlen : f.axes.length = shape.length := by rw [ok_axes_length hg.sound.ok, hg.size]
  have hm : (f.axes.mapM fun ax => do
      let s ← gridStep ax.grid
      return s / 2 : Res (List ℝ)) = .ok ((List.range shape.length).map fun d => h d / 2) := by
    apply mapM_of_get
    · simp [hlen]
    · intro d ax b hax hb
      have hd : d < shape.length := by
        have := (List.getElem?_eq_some_iff.1 hax).1
        omega
      obtain ⟨ax', h1, h2⟩ := hg.spatial rfl d hd
      rw [hax] at h1
      cases h1
      obtain rfl : h d / 2 = b := by simpa [hd] using hb
      have hn : 2 ≤ ax.len := hg.two _ (List.mem_of_getElem? (hg.axis_len hax))
      rw [(even_iff.1 h2).2.1, gridStep_ap _ _ hn]
      rfl
  unfold halfCells
  rw [hm]
  simp only [bind, Except.bind, pure, Except.pure]
  have key : ((List.range shape.length).map fun d => h d / 2).set p.val 0 =
      (List.range shape.length).map fun d => if d = p.val then 0 else h d / 2 := by
    apply List.ext_getElem?
    intro i
    rw [List.getElem?_set, List.getElem?_map, List.getElem?_map]
    by_cases hi : i < shape.length
    · by_cases hp : p.val = i
      · simp [hp, hi]
      · simp [hp, hi, Ne.symm hp]
    · by_cases hp : p.val = i
      · simp [hp, hi]
      · simp [hp, hi]
  rw [key]
  congr 1
  cases electric with
  | true =>
    simp only [if_true, show decide (('E' : Char) = 'B') = false by decide]
    apply List.map_congr_left
    intro d _
    unfold movedOrigin
    split_ifs <;> simp_all
  | false =>
    simp only [show decide ((if false = true then 'E' else 'B' : Char) = 'B') = true by decide, if_true, List.map_map]
    apply List.map_congr_left
    intro d _
    unfold movedOrigin
    simp only [Function.comp]
    split_ifs <;> simp_all

/-- The dictionary with the moved field. -/
theorem lookup_replaced {α : Type} (l : List (String × α)) (k k' : String) (v : α) :
    (l.map fun q => if q.1 = k then (q.1, v) else q).lookup k' = if k' = k then (l.lookup k').map fun _ => v else l.lookup k' := by
  have hm : (l.map fun q => if q.1 = k then (q.1, v) else q) = l.map fun q => (q.1, if q.1 = k then v else q.2) := by
    apply List.map_congr_left
    intro q _
    split_ifs <;> rfl
  rw [hm, lookup_map_key (fun s a => if s = k then v else a) l k']
  split_ifs
  · rfl
  · cases l.lookup k' <;> rfl

/-- The transform keeps name and unit. -/
theorem ensure_name {f F : Field ℝ ℂ} {shape : List ℕ} {state : Bool} {x0 h : ℕ → ℝ} {spl : Splines ℝ} (hspl : ExactOnEven spl)
    (hg : OnGrid f shape state x0 h) (hF : f.ensureTransformState spl (.all true) = .ok F) : F.name = f.name ∧ F.unit = f.unit := by
  cases state with
  | true =>
    obtain ⟨F', h1, -, h3⟩ := hg.ensure hspl
    rw [hF] at h1
    cases h1
    rw [h3 rfl]
    exact ⟨rfl, rfl⟩
  | false =>
    obtain ⟨F', h1, -, h2, h3⟩ := hg.fft hspl
    unfold Field.ensureTransformState at hF
    rw [hg.toTransform_eq] at hF
    simp only [bind, Except.bind, Bool.false_eq_true, if_false] at hF
    rw [if_neg (by simpa using hg.range_ne), h1] at hF
    cases hF
    exact ⟨h2, h3⟩

/-- C101: if the component does not belong to the field `align_to`, it is interpolated linearly at the grid which is half a cell further
(`E`) or before (`B`) along all axes except its own, and the result is that of `kspace` with the fourier method for this field and
the others. Partial: no extent, data of a real type in the spatial domain on evenly spaced grids, and the dictionary of the caller
contains the moved field afterwards, see `epoch_old_argument_violated`. -/
theorem epoch_old_partial (spl : Splines ℝ) (hspl : ExactOnEven spl) (omega : List ℝ → Option ℝ)
    (fields : List (String × Field ℝ ℂ)) (electric : Bool) (p : Fin 3) (alignTo : String) (ha : alignTo ≠ fieldLetter electric)
    (shape : List ℕ) (main : Field ℝ ℂ) (other : Fin 3 → Field ℝ ℂ) (states : Fin 3 → Bool) (x0 h : ℕ → ℝ) (y0 : Fin 3 → ℕ → ℝ)
    (hpres : fields.lookup (componentName electric p) = some main) (hmain : OnGrid main shape false x0 h)
    (hothers : ∀ j, Needed shape.length p j → fields.lookup (componentName (!electric) j) = some (other j))
    (hgrids : ∀ j, Needed shape.length p j → OnGrid (other j) shape (states j) (y0 j) h)
    (hnear : ∀ j, Needed shape.length p j → ∀ d < shape.length, |movedOrigin electric p x0 h d - y0 j d| < 2 * h d) :
    ∃ (M F : Field ℝ ℂ) (G : Fin 3 → Field ℝ ℂ) (r : Field ℝ ℂ) (after : List (String × Field ℝ ℂ)),
      LinearAt main M shape (movedOrigin electric p x0 h) h ∧
      M.ensureTransformState spl (.all true) = .ok F ∧
      (∀ j, Needed shape.length p j → (other j).ensureTransformState spl (.all true) = .ok (G j)) ∧
      kspaceEpochOld spl (byLinear spl) (componentName electric p) fields none omega alignTo = .ok (r, after) ∧
      r.axes = F.axes ∧ r.ats = F.ats ∧ r.tao = F.tao ∧ r.name = main.name ∧ r.unit = main.unit ∧ r.shape = shape ∧
      (∀ idx, InBounds shape idx → ∀ B : Fin 3 → ℂ, (∀ j, Needed shape.length p j → B j = (G j).matrix.at' idx) →
        r.matrix.at' idx = F.matrix.at' idx +
          crossFactor electric (omega ((List.ofFn (waveVector F idx)).take shape.length)) (waveVector F idx) *
            cross (waveVector F idx) B p) ∧
      ∀ key, after.lookup key = if key = componentName electric p then some M else fields.lookup key := by
  obtain ⟨M, m1, m2⟩ := linear_at (x0 := movedOrigin electric p x0 h) spl hmain
  have hl := fun k' => lookup_replaced fields (componentName electric p) k' M
  obtain ⟨F, G, r, after, k1, k2, k3, k4, k5, k6, k7, k8, k9, k10, k11⟩ := kspace_value_partial spl hspl (byLinear spl) omega
    (fields.map fun q => if q.1 = componentName electric p then (q.1, M) else q) electric p .fourier shape M other false states
    (movedOrigin electric p x0 h) h y0 ⟨by rw [hl, if_pos rfl, hpres]; rfl, m2.grid, fun j hj => by
      rw [hl, if_neg (component_other electric p j), hothers j hj], hgrids, hnear⟩
  refine ⟨M, F, G, r, after, m2, k1, k2, ?_, k4, k5, k6, ?_, ?_, k9, k10, ?_⟩
  · unfold kspaceEpochOld
    rw [parse_component]
    simp only [bind, Except.bind]
    unfold epochOldHere
    rw [if_neg (by
      intro hc
      apply ha
      rw [← hc]
      cases electric <;> decide), hpres]
    simp only [halfCells_eq hmain, bind, Except.bind, m1]
    exact k3
  · rw [k7, (ensure_name hspl m2.grid k1).1, m2.name]
  · rw [k8, (ensure_name hspl m2.grid k1).2, m2.unit]
  · intro key
    rw [k11 rfl, hl]
    split_ifs with hk
    · rw [hk, hpres]; rfl
    · rfl

/-- `Ex` of a two-dimensional simulation is moved along `y` to the grid of `Bz`. -/
theorem staggered_near (j : Fin 3) (_ : Needed 2 0 j) (d : ℕ) (_ : d < 2) :
    |movedOrigin true 0 (fun d => if d = 0 then 0 + 1 else 0 + 1 / 4) (fun d => if d = 0 then 2 else 1 / 2) d -
      (fun d => if d = 0 then 1 + 1 else 1 / 4 + 1 / 4 : ℕ → ℝ) d| < 2 * (fun d => if d = 0 then 2 else 1 / 2 : ℕ → ℝ) d := by
  unfold movedOrigin
  simp only [Fin.val_zero, if_true]
  split_ifs <;> norm_num [abs_lt]

example := epoch_old_partial lineSplines lineSplines_exact omegaFree [("Bz", field32At 1 (1 / 4)), ("Ex", field32At 0 0)]
  true 0 "B" (by decide) [3, 2] (field32At 0 0) (fun _ => field32At 1 (1 / 4)) (fun _ => false) _ _ (fun _ => _)
  staggeredInput.present (field32At_grid 0 0) staggeredInput.othersPresent (fun _ _ => field32At_grid 1 (1 / 4)) staggered_near

/-- C101: if the component belongs to the field `align_to`, it is not moved: the result is that of `kspace` with linear interpolation.
Partial: as `kspace_linear_partial`. -/
theorem epoch_old_same_partial (spl : Splines ℝ) (hspl : ExactOnEven spl) (omega : List ℝ → Option ℝ)
    (fields : List (String × Field ℝ ℂ)) (electric : Bool) (p : Fin 3) (shape : List ℕ) (main : Field ℝ ℂ)
    (other : Fin 3 → Field ℝ ℂ) (state : Bool) (x0 h : ℕ → ℝ) (y0 : Fin 3 → ℕ → ℝ)
    (hpres : fields.lookup (componentName electric p) = some main) (hmain : OnGrid main shape state x0 h)
    (hothers : ∀ j, Needed shape.length p j → fields.lookup (componentName (!electric) j) = some (other j))
    (hgrids : ∀ j, Needed shape.length p j → OnGrid (other j) shape false (y0 j) h)
    (hnear : ∀ j, Needed shape.length p j → ∀ d < shape.length, |x0 d - y0 j d| < 2 * h d) :
    ∃ (F : Field ℝ ℂ) (S G : Fin 3 → Field ℝ ℂ) (r : Field ℝ ℂ) (after : List (String × Field ℝ ℂ)),
      main.ensureTransformState spl (.all true) = .ok F ∧
      (∀ j, Needed shape.length p j → LinearAt (other j) (S j) shape x0 h ∧
        (S j).ensureTransformState spl (.all true) = .ok (G j)) ∧
      kspaceEpochOld spl (byLinear spl) (componentName electric p) fields none omega (fieldLetter electric) = .ok (r, after) ∧
      r.axes = F.axes ∧ r.ats = F.ats ∧ r.tao = F.tao ∧ r.name = F.name ∧ r.unit = F.unit ∧ r.shape = shape ∧
      (∀ idx, InBounds shape idx → ∀ B : Fin 3 → ℂ, (∀ j, Needed shape.length p j → B j = (G j).matrix.at' idx) →
        r.matrix.at' idx = F.matrix.at' idx +
          crossFactor electric (omega ((List.ofFn (waveVector F idx)).take shape.length)) (waveVector F idx) *
            cross (waveVector F idx) B p) ∧
      (state = false → after = fields) := by
  obtain ⟨F, S, G, r, after, k1, k2, k3, k4⟩ := kspace_linear_partial spl hspl omega fields electric p shape main other state x0 h y0
    hpres hmain hothers hgrids hnear
  refine ⟨F, S, G, r, after, k1, k2, ?_, k4⟩
  unfold kspaceEpochOld
  rw [parse_component]
  simp only [bind, Except.bind]
  unfold epochOldHere
  rw [if_pos (by cases electric <;> decide)]
  exact k3

example := epoch_old_same_partial lineSplines lineSplines_exact omegaFree [("Bz", field32At 1 (1 / 4)), ("Ex", field32At 0 0)]
  true 0 [3, 2] (field32At 0 0) (fun _ => field32At 1 (1 / 4)) false _ _ (fun _ => _) staggeredInput.present (field32At_grid 0 0)
  staggeredInput.othersPresent (fun _ _ => field32At_grid 1 (1 / 4)) staggeredInput.aligned

/-- C101: with an `extent` the fields are transformed to the spatial domain and cut as by `kspace`, then the part of the component is
moved, and the dictionary of the caller stays as it was. Partial: as `kspace_extent_partial`; data of a real type in the spatial
domain. -/
theorem epoch_old_extent_partial (spl : Splines ℝ) (hspl : ExactOnEven spl)
    (omega : List ℝ → Option ℝ) (fields : List (String × Field ℝ ℂ)) (electric : Bool) (p : Fin 3) (alignTo : String)
    (ha : alignTo ≠ fieldLetter electric) (shape : List ℕ) (main : Field ℝ ℂ) (other : Fin 3 → Field ℝ ℂ)
    (x0 h : ℕ → ℝ) (y0 : Fin 3 → ℕ → ℝ)
    (hin : KspaceInput fields electric p .fourier shape main other false (fun _ => false) x0 h y0)
    (hnear : ∀ j, Needed shape.length p j → ∀ d < shape.length, |movedOrigin electric p x0 h d - y0 j d| < 2 * h d)
    (hall : ∀ q ∈ fields, ∃ s a b, OnGrid q.2 shape s a b) (ext : List ℝ) (he : ExtentFits ext shape x0 h) :
    ∃ (lo n : List ℕ) (P M F : Field ℝ ℂ) (O G : Fin 3 → Field ℝ ℂ) (r : Field ℝ ℂ),
      n.length = shape.length ∧ PointsWithin ext shape lo n x0 h ∧ PartOf main P lo ∧
      OnGrid P n false (fun d => x0 d + lo.getD d 0 * h d) h ∧
      (∀ j, Needed shape.length p j → PartOf (other j) (O j) lo ∧ OnGrid (O j) n false (fun d => y0 j d + lo.getD d 0 * h d) h) ∧
      LinearAt P M n (fun d => movedOrigin electric p x0 h d + lo.getD d 0 * h d) h ∧
      M.ensureTransformState spl (.all true) = .ok F ∧
      (∀ j, Needed shape.length p j → (O j).ensureTransformState spl (.all true) = .ok (G j)) ∧
      kspaceEpochOld spl (byLinear spl) (componentName electric p) fields (some ext) omega alignTo = .ok (r, fields) ∧
      r.axes = F.axes ∧ r.ats = F.ats ∧ r.tao = F.tao ∧ r.name = main.name ∧ r.unit = main.unit ∧ r.shape = n ∧
      ∀ idx, InBounds n idx → ∀ B : Fin 3 → ℂ, (∀ j, Needed shape.length p j → B j = (G j).matrix.at' idx) →
        r.matrix.at' idx = F.matrix.at' idx +
          crossFactor electric (omega ((List.ofFn (waveVector F idx)).take shape.length)) (waveVector F idx) *
            cross (waveVector F idx) B p := by
  obtain ⟨lo, n, S, P, So, O, cut, c1, c2, c3, c4, c5, c6, c7, c8, c9, c10⟩ := cut_input hspl hin (by simp) hall he
  obtain rfl := c5 rfl
  have hmo : movedOrigin electric p (fun d => x0 d + lo.getD d 0 * h d) h =
      fun d => movedOrigin electric p x0 h d + lo.getD d 0 * h d := by
    funext d
    unfold movedOrigin
    split_ifs <;> ring
  obtain ⟨M, F, G, r, after, k1, k2, k3, k4, k5, k6, k7, k8, k9, k10, k11, -⟩ := epoch_old_partial spl hspl omega cut electric p alignTo
    ha n P O (fun _ => false) (fun d => x0 d + lo.getD d 0 * h d) h (fun j d => y0 j d + lo.getD d 0 * h d) c9.present c9.mainGrid
    c9.othersPresent c9.otherGrid (by
      intro j hj d hd
      rw [c2] at hj hd
      have := hnear j hj d hd
      rw [hmo]
      rwa [show movedOrigin electric p x0 h d + (lo.getD d 0 : ℝ) * h d - (y0 j d + (lo.getD d 0 : ℝ) * h d) =
        movedOrigin electric p x0 h d - y0 j d by ring])
  rw [hmo] at k1
  rw [c2] at k3 k11
  refine ⟨lo, n, P, M, F, O, G, r, c2, c3, c6, c9.mainGrid, ?_, k1, k2, k3, ?_, k5, k6, k7, ?_, ?_, k10, k11⟩
  · intro j hj
    obtain ⟨-, h2, h3⟩ := c7 j hj
    rw [← h2 rfl]
    exact ⟨h3, c9.otherGrid j (by rw [c2]; exact hj)⟩
  · unfold kspaceEpochOld at k4 ⊢
    rw [parse_component] at k4 ⊢
    simp only [bind, Except.bind] at k4 ⊢
    rw [c8]
    simp only [k4]
    rfl
  · rw [k8, c6.name]
  · rw [k9, c6.unit]

example := epoch_old_extent_partial lineSplines lineSplines_exact omegaFree _ _ _ "B" (by decide) _ _ _ _ _ _
  staggeredInput staggered_near staggered_all _ fits32

/-- C101 fails: the field of the component in the dictionary of the caller is replaced by the moved one. The same call a second time
moves it again and reconstructs the k-space on another grid. -/
theorem epoch_old_argument_violated : ∃ (fields after1 after2 : List (String × Field ℝ ℂ)) (r1 r2 : Field ℝ ℂ),
    fields.lookup "Ex" = some (field32At 0 0) ∧ fields.lookup "Bz" = some (field32At 1 (1 / 4)) ∧
    kspaceEpochOld lineSplines (byLinear lineSplines) "Ex" fields none omegaFree "B" = .ok (r1, after1) ∧
    kspaceEpochOld lineSplines (byLinear lineSplines) "Ex" after1 none omegaFree "B" = .ok (r2, after2) ∧
    r1.tao[1]? = some (some (1 / 2)) ∧ r2.tao[1]? = some (some (3 / 4)) := by
  obtain ⟨M, F, G, r, after, k1, k2, k3, k4, k5, k6, k7, k8, k9, k10, k11, k12⟩ := epoch_old_partial lineSplines lineSplines_exact
    omegaFree [("Bz", field32At 1 (1 / 4)), ("Ex", field32At 0 0)]
    true 0 "B" (by decide) [3, 2] (field32At 0 0) (fun _ => field32At 1 (1 / 4)) (fun _ => false) _ _ (fun _ => _)
    staggeredInput.present (field32At_grid 0 0) staggeredInput.othersPresent (fun _ _ => field32At_grid 1 (1 / 4)) staggered_near
  obtain ⟨M', F', G', r', after', m1, m2, m3, m4, m5, m6, m7, m8, m9, m10, m11, m12⟩ := epoch_old_partial lineSplines lineSplines_exact
    omegaFree after true 0 "B" (by decide) [3, 2] M (fun _ => field32At 1 (1 / 4)) (fun _ => false) _ _ (fun _ => _)
    (by rw [k12]; exact if_pos rfl) k1.grid
    (by
      intro j hj
      rw [k12, if_neg (component_other true 0 j)]
      exact staggeredInput.othersPresent j hj) (fun _ _ => field32At_grid 1 (1 / 4))
    (by
      intro j hj d hd
      unfold movedOrigin
      simp only [Fin.val_zero, if_true]
      split_ifs <;> norm_num [abs_lt])
  obtain ⟨F0, f1, f2, -⟩ := k1.grid.ensure lineSplines_exact
  obtain ⟨F0', f1', f2', -⟩ := m1.grid.ensure lineSplines_exact
  rw [k2] at f1
  cases f1
  rw [m2] at f1'
  cases f1'
  refine ⟨_, after, after', r, r', rfl, rfl, k4, m4, ?_, ?_⟩
  · rw [k7, (f2.frequency rfl 1 2 rfl).1]
    norm_num [movedOrigin]
  · rw [m7, (f2'.frequency rfl 1 2 rfl).1]
    norm_num [movedOrigin]

end

end Postpic.Props
