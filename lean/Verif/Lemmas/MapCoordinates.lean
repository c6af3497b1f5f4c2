import Verif.Lemmas.Interp
import Verif.Lemmas.MapGrid
import Verif.Spec.MapGrid
import Verif.Spec.Interp

/-!
# Lemmas on resampling
-/

set_option autoImplicit false
set_option linter.unusedSectionVars false

namespace Postpic.Fields

open Postpic Postpic.Axes Postpic.Spec

section
variable {K : Type} [_root_.Field K] [LinearOrder K] [IsStrictOrderedRing K]

theorem even_index {ax : Axis K} {e0 h : K} (he : EvenAxis ax e0 h) (hh : h ≠ 0) (hn : 0 < ax.len) (v : K) :
    ax.valueToIndex v = .ok ((v - e0) / h - 1 / 2) := by
  unfold Axis.valueToIndex
  rw [if_pos (even_linear he)]
  unfold Axis.valueToIndexLinear
  have hnk : (ax.len : K) ≠ 0 := by exact_mod_cast hn.ne'
  have : (ax.grid.length : K) ≠ 0 := hnk
  rw [he.extent]
  congr 1
  show (v - e0) / (e0 + (ax.len : K) * h - e0) * (ax.len : K) - 1 / 2 = _
  field_simp
  ring

theorem nonlinear_between {ax : Axis K} (hv : ValidAxis ax.gridNode ax.grid ax.extent) {m : ℕ} {x y v t : K}
    (hx : (weave ax.gridNode ax.grid)[m]? = some x)
    (hy : (weave ax.gridNode ax.grid)[m + 1]? = some y) (h : OnTheWay x y v t) :
    ax.valueToIndexNonlinear v = .ok (((m : K) - 1) / 2 + 1 / 2 * t) := by
  obtain ⟨h0, h1, rfl⟩ := h
  rcases (wf_iff _ _).1 hv.wf with hw | hw
  · have hp : (weave ax.gridNode ax.grid).Pairwise (· < ·) := pairwise_of_mono lt_tr (weave_mono hw)
    have hxy : x < y := pairwise_get hp (Nat.lt_succ_self m) hx hy
    have hd := sub_pos.2 hxy
    rw [nonlinear_inc hv hw hx hy]
    · congr 2
      field_simp
      ring
    · nlinarith [mul_nonneg h0 hd.le]
    · nlinarith [mul_le_mul_of_nonneg_right h1 hd.le]
  · have hp : (weave ax.gridNode ax.grid).Pairwise (· > ·) := pairwise_of_mono gt_tr (weave_mono hw)
    have hxy : y < x := pairwise_get hp (Nat.lt_succ_self m) hx hy
    have hd := sub_pos.2 hxy
    have hd' : y - x ≠ 0 := (sub_neg.2 hxy).ne
    rw [nonlinear_dec hv hw hx hy]
    · congr 2
      field_simp
      ring
    · nlinarith [mul_nonneg h0 hd.le]
    · nlinarith [mul_le_mul_of_nonneg_right h1 hd.le]

theorem weave_get_node {ax : Axis K} (hv : ValidAxis ax.gridNode ax.grid ax.extent) (i : ℕ) :
    (weave ax.gridNode ax.grid)[2 * i]? = ax.gridNode[i]? := by
  rcases (wf_iff _ _).1 hv.wf with hw | hw
  · exact weave_node hw i
  · exact weave_node hw i

theorem weave_get_grid {ax : Axis K} (hv : ValidAxis ax.gridNode ax.grid ax.extent) (i : ℕ) :
    (weave ax.gridNode ax.grid)[2 * i + 1]? = ax.grid[i]? := by
  rcases (wf_iff _ _).1 hv.wf with hw | hw
  · exact weave_grid hw i
  · exact weave_grid hw i

/-- Every grid point has its number as position. -/
def Resolves (ax : Axis K) : Prop := ∀ (i : ℕ) (g : K), ax.grid[i]? = some g → ax.valueToIndex g = .ok (i : K)

theorem resolves_even {ax : Axis K} {e0 h : K} (he : EvenAxis ax e0 h) (hh : h ≠ 0) : Resolves ax := by
  intro i g hg
  obtain ⟨hi, _⟩ := List.getElem?_eq_some_iff.1 hg
  rw [even_index he hh (Nat.lt_of_le_of_lt (Nat.zero_le i) hi)]
  rw [he.grid] at hg
  simp [hi] at hg
  rw [← hg]
  congr 1
  field_simp
  ring

theorem resolves_nonlinear {ax : Axis K} (hv : ValidAxis ax.gridNode ax.grid ax.extent)
    (hl : ax.isLinear = false) : Resolves ax := by
  intro i g hg
  obtain ⟨hi, _⟩ := List.getElem?_eq_some_iff.1 hg
  unfold Axis.valueToIndex
  rw [hl]
  simp only [Bool.false_eq_true, if_false]
  obtain ⟨a, ha⟩ : ∃ a, ax.gridNode[i]? = some a :=
    ⟨_, List.getElem?_eq_getElem (by have := hv.wf.1; omega)⟩
  rw [nonlinear_between hv (m := 2 * i) (t := 1) ((weave_get_node hv i).trans ha)
    ((weave_get_grid hv i).trans hg) ⟨zero_le_one, le_refl _, by ring⟩]
  congr 1
  push_cast
  ring

/-! ### Resampling -/

variable {V : Type} [Zero V] [SMul K V]

theorem mapCoordinates_ok (sample : Arr V → List K → Res V) (f : Field K V) (newaxes : List (Axis K))
    (T : List K → List K) (jac : List K → K) (pres : Bool)
    (tr : Option ((List K → List K) × (List K → K))) (htr : tr.getD (id, fun _ => 1) = (T, jac))
    (hp : pres = true → (newaxes.length : ℤ) = f.dims) (val : List ℕ → V)
    (h : ∀ idx, InBounds (newaxes.map Axis.len) idx → f.sampleAt sample newaxes T idx = .ok (val idx)) :
    ∃ r, f.mapCoordinates sample newaxes tr pres = .ok r ∧ r.axes = newaxes ∧
      r.shape = newaxes.map Axis.len ∧ r.name = f.name ∧ r.unit = f.unit ∧
      (0 ∉ r.shape → r.ats = List.replicate newaxes.length (some (f.transformState.getD false)) ∧
        r.tao = List.replicate newaxes.length none) ∧
      ∀ idx, InBounds r.shape idx → r.matrix.at' idx =
        if pres then jac (gridPoint newaxes idx) • val idx else val idx := by
  have hm : ∃ l, (Interp.indices (newaxes.map Axis.len)).mapM (f.sampleAt sample newaxes T) = .ok l := by
    refine ⟨(Interp.indices (newaxes.map Axis.len)).map val, ?_⟩
    apply mapM_of_forall2
    rw [List.forall₂_map_right_iff, List.forall₂_same]
    intro idx hidx
    exact h idx (Interp.mem_indices.1 hidx)
  obtain ⟨l, hl⟩ := hm
  have hc : ¬ (pres = true ∧ (newaxes.length : ℤ) ≠ f.dims) := fun hh => hh.2 (hp hh.1)
  unfold Field.mapCoordinates
  simp only [htr, hc, if_false, hl, bind, Except.bind, pure, Except.pure]
  refine ⟨_, rfl, rfl, rfl, rfl, rfl, ?_, ?_⟩
  · intro h0
    have h0 : ¬ 0 ∈ newaxes.map Axis.len := h0
    constructor
    · show List.replicate (if 0 ∈ newaxes.map Axis.len then 0 else (newaxes.map Axis.len).length) _ = _
      rw [if_neg h0, List.length_map]
    · show List.replicate (if 0 ∈ newaxes.map Axis.len then 0 else (newaxes.map Axis.len).length) _ = _
      rw [if_neg h0, List.length_map]
  · intro idx hidx
    have := h idx hidx
    cases pres <;> simp [this]

theorem gridPoint_get {axes : List (Axis K)} {idx : List ℕ} (h : InBounds (axes.map Axis.len) idx) :
    (gridPoint axes idx).length = axes.length ∧ ∀ (d i : ℕ) (ax : Axis K), axes[d]? = some ax →
      idx[d]? = some i → ∃ g, ax.grid[i]? = some g ∧ (gridPoint axes idx)[d]? = some g := by
  have hl := h.1
  rw [List.length_map] at hl
  refine ⟨by simp [gridPoint, hl], ?_⟩
  intro d i ax hax hi
  have hlt : i < ax.grid.length := h.2 d i _ hi (by rw [List.getElem?_map, hax]; rfl)
  refine ⟨_, List.getElem?_eq_getElem hlt, ?_⟩
  simp [gridPoint, List.getElem?_zipWith, hax, hi, List.getElem?_eq_getElem hlt]

theorem positions_resolve {axes : List (Axis K)} (hr : ∀ ax ∈ axes, Resolves ax) {idx : List ℕ}
    (h : InBounds (axes.map Axis.len) idx) :
    (axes.zip (gridPoint axes idx)).mapM (fun p => p.1.valueToIndex p.2) =
      .ok (idx.map fun (i : ℕ) => (i : K)) := by
  apply mapM_of_forall2
  obtain ⟨g1, g2⟩ := gridPoint_get h
  have hl := h.1
  rw [List.length_map] at hl
  rw [List.forall₂_iff_get]
  refine ⟨by simp [g1, hl], ?_⟩
  intro d h1 h2
  simp only [List.get_eq_getElem, List.getElem_zip, List.getElem_map]
  rw [List.length_zip, g1, min_self] at h1
  obtain ⟨g, hg, hd⟩ := g2 d (idx[d]'(by omega)) axes[d] (List.getElem?_eq_getElem _)
    (List.getElem?_eq_getElem _)
  obtain ⟨_, hd'⟩ := List.getElem?_eq_some_iff.1 hd
  rw [hd']
  exact hr _ (List.getElem_mem _) _ _ hg

end

/-! ### Linear interpolation -/

section
variable {K : Type} [_root_.Field K] [LinearOrder K] [IsStrictOrderedRing K] [FloorRing K]

open Interp

/-- scipy's weights for `order=1` (`get_spline_interpolation_weights` in
`scipy/ndimage/src/ni_splines.c`). -/
def linearWeights (_order : ℕ) (x : K) (k : ℕ) : K := if k = 0 then 1 - x else x

theorem stencil_linear {shape : List ℕ} {cs : List K} (h : List.Forall₂ Inside shape cs)
    (g : List ℕ → K) : stencil linearWeights 1 shape cs g = multilinear cs g := by
  induction h generalizing g with
  | nil => simp [stencil, multilinear]
  | @cons n c shape cs hc _ ih =>
    have h0 : (0 : ℤ) ≤ ⌊c⌋ := Int.floor_nonneg.2 hc.1
    have hlt : ⌊c⌋ < n := by
      have := Int.floor_le c
      have h2 := hc.2
      have : (⌊c⌋ : K) < (n : K) := by linarith
      exact_mod_cast this
    have hce : centre 1 c = ⌊c⌋ := by simp [centre]
    simp only [stencil, multilinear, hce, List.range_succ, List.range_zero, List.nil_append,
      List.map_append, List.map_cons, List.map_nil, List.sum_append, List.sum_cons, List.sum_nil,
      add_zero, linearWeights, if_true, Nat.one_ne_zero, if_false]
    have e0 : mirrorIndex n (⌊c⌋ - ((1 / 2 : ℕ) : ℤ) + ((0 : ℕ) : ℤ)) = ⌊c⌋.toNat := by
      have : (⌊c⌋ - ((1 / 2 : ℕ) : ℤ) + ((0 : ℕ) : ℤ)) = ⌊c⌋ := by simp
      rw [this]
      exact mirrorIndex_self h0 hlt
    have hfr : c - (⌊c⌋ : K) = Int.fract c := rfl
    rw [e0, hfr, ih]
    congr 1
    by_cases hlast : ⌊c⌋ + 1 < n
    · have e1 : mirrorIndex n (⌊c⌋ - ((1 / 2 : ℕ) : ℤ) + ((1 : ℕ) : ℤ)) = ⌊c⌋.toNat + 1 := by
        have : (⌊c⌋ - ((1 / 2 : ℕ) : ℤ) + ((1 : ℕ) : ℤ)) = ⌊c⌋ + 1 := by simp
        rw [this, mirrorIndex_self (by omega) hlast]
        omega
      rw [e1, ih]
    · have hn : (⌊c⌋ : ℤ) = n - 1 := by omega
      have : Int.fract c = 0 := by
        have h1 := hc.2
        have h2 : (⌊c⌋ : K) = (n : K) - 1 := by exact_mod_cast congrArg (Int.cast : ℤ → K) hn
        have h3 := Int.fract_nonneg c
        have h4 : Int.fract c = c - ⌊c⌋ := rfl
        apply le_antisymm _ h3
        rw [h4, h2]
        linarith
      rw [this, zero_mul, zero_mul]

theorem interp_linear_inside (cval : K) {a : Arr K} {cs : List K} (mode : Mode)
    (h : List.Forall₂ Inside a.shape cs) :
    interp linearWeights 1 mode cval a cs = .ok (multilinear cs a.at') := by
  unfold interp
  rw [mapM_id_inside h]
  simp only [if_neg (inside_pos h)]
  rw [stencil_linear h]

theorem multilinear_nat (idx : List ℕ) (g : List ℕ → K) :
    multilinear (idx.map fun (i : ℕ) => (i : K)) g = g idx := by
  induction idx generalizing g with
  | nil => rfl
  | cons i idx ih => simp [multilinear, ih]

theorem inside_nat {shape idx : List ℕ} (h : InBounds shape idx) :
    List.Forall₂ Inside shape (idx.map fun (i : ℕ) => (i : K)) := by
  rw [List.forall₂_iff_get]
  refine ⟨by simp [h.1], ?_⟩
  intro d h1 h2
  have hd : d < idx.length := by simpa using h2
  have := h.2 d _ _ (List.getElem?_eq_getElem hd) (List.getElem?_eq_getElem h1)
  simp only [List.get_eq_getElem, List.getElem_map, Inside]
  refine ⟨Nat.cast_nonneg _, ?_⟩
  have h3 : ((idx[d] + 1 : ℕ) : K) ≤ (shape[d] : K) := by exact_mod_cast this
  push_cast at h3
  linarith

theorem interp_linear_outside (cval : K) {a : Arr K} {cs : List K} (hl : cs.length = a.shape.length)
    (h : ¬ List.Forall₂ Inside a.shape cs) :
    interp linearWeights 1 .constant cval a cs = .ok cval := by
  unfold interp
  rw [mapM_id_none.2 (outside_mem hl h)]

end

end Postpic.Fields
