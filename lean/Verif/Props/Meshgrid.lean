import Verif.Lemmas.Broadcast
import Verif.Model.Meshgrid
import Verif.Props.FieldIndex

/-! # C105: the meshes of a field are its coordinates -/

set_option autoImplicit false
set_option linter.unusedSectionVars false

namespace Postpic.Props

open Postpic Postpic.Axes Postpic.Fields Postpic.Spec Postpic.Compat

theorem meshgridOld_eq {K : Type} [Zero K] (grids : List (List K)) (sparse : Bool) :
    meshgridOld grids sparse = npMeshgrid grids sparse := by
  match grids with
  | [] => rfl
  | [g] => cases sparse <;> simp [meshgridOld, npMeshgrid, meshArray]
  | _ :: _ :: _ => rfl

section
variable {K V : Type} [_root_.Field K] [LinearOrder K]

/-- C105: `meshgrid` returns one array for each dimension; each can be broadcast to the shape of the field and then contains, at
every point, the coordinate of the point along this dimension. This holds with every version of numpy, for sparse and dense meshes;
the dense ones have the shape of the field. -/
theorem meshgrid_coordinates (f : Field K V) (hf : f.Ok) (old sparse : Bool) :
    (f.meshgrid old sparse).length = f.shape.length ∧
    ∀ (k : ℕ) (ax : Axis K), f.axes[k]? = some ax → ∃ m, (f.meshgrid old sparse)[k]? = some m ∧
      Broadcast m.shape f.shape f.shape ∧ m.shape.length = f.shape.length ∧ (sparse = false → m.shape = f.shape) ∧
      ∀ idx, InBounds f.shape idx → ∀ j, OperandIndex m.shape idx j → ∃ i, idx[k]? = some i ∧ ax.grid[i]? = some (m.at' j) := by
  have hm : f.meshgrid old sparse = npMeshgrid (f.axes.map (·.grid)) sparse := by
    unfold Field.meshgrid
    split_ifs
    · exact meshgridOld_eq _ _
    · rfl
  have hl := ok_axes_length hf
  rw [hm]
  refine ⟨by simp [npMeshgrid, hl], ?_⟩
  intro k ax hax
  have hk := (List.getElem?_eq_some_iff.1 hax).1
  refine ⟨meshArray (f.axes.map (·.grid)) sparse k, by simp [npMeshgrid, hk], ?_⟩
  have hdense : (f.axes.map (·.grid)).map List.length = f.shape := by
    rw [List.map_map]
    exact hf.lengths
  have hlen : (meshArray (f.axes.map (·.grid)) sparse k).shape.length = f.shape.length := by
    unfold meshArray
    cases sparse
    · simp [hl]
    · simp [hl]
  have hget : ∀ (d n : ℕ), f.shape[d]? = some n →
      (meshArray (f.axes.map (·.grid)) sparse k).shape[d]? = some (if sparse = true ∧ d ≠ k then 1 else n) := by
    intro d n hd
    unfold meshArray
    cases sparse with
    | false => simpa [hdense] using hd
    | true =>
      rw [← hdense, List.getElem?_map] at hd
      obtain ⟨g, hg, hn⟩ := Option.map_eq_some_iff.1 hd
      simp only [if_true, List.getElem?_mapIdx, hg, Option.map_some, true_and, hn, ne_eq, ite_not]
  refine ⟨⟨by rw [hlen, max_self], ?_⟩, hlen, ?_, ?_⟩
  · intro q
    unfold alignedLength
    by_cases hq : q < f.shape.length
    · have h1 : f.shape.reverse[q]? = some (f.shape[f.shape.length - 1 - q]'(by omega)) := by
        rw [List.getElem?_reverse hq, List.getElem?_eq_getElem]
      have h2 := hget (f.shape.length - 1 - q) _ (List.getElem?_eq_getElem (by omega))
      have h3 : (meshArray (f.axes.map (·.grid)) sparse k).shape.reverse[q]? =
          some (if sparse = true ∧ f.shape.length - 1 - q ≠ k then 1 else f.shape[f.shape.length - 1 - q]'(by omega)) := by
        rw [List.getElem?_reverse (by rw [hlen]; exact hq), hlen, h2]
      simp only [List.getD_eq_getElem?_getD, h1, h3, Option.getD_some]
      split_ifs
      · exact Or.inr ⟨trivial, rfl⟩
      · exact Or.inl ⟨rfl, Or.inl rfl⟩
    · have h1 : f.shape.reverse[q]? = none := by simp; omega
      have h3 : (meshArray (f.axes.map (·.grid)) sparse k).shape.reverse[q]? = none := by
        simp only [List.getElem?_eq_none_iff, List.length_reverse, hlen]
        omega
      simp only [List.getD_eq_getElem?_getD, h1, h3, Option.getD_none]
      simp
  · rintro rfl
    unfold meshArray
    simp [hdense]
  · intro idx hidx j hj
    have hik : k < idx.length := by rw [hidx.1, ← hl]; exact hk
    have hks : k < f.shape.length := by omega
    have hn : f.shape[k]? = some ax.grid.length := by
      rw [← hdense, List.map_map, List.getElem?_map, hax]
      rfl
    have hlt : idx[k] < ax.grid.length := hidx.2 k _ _ (List.getElem?_eq_getElem hik) hn
    have hjk : j[k]? = some idx[k] := by
      have h1 := hget k _ hn
      simp only [ne_eq, not_true_eq_false, and_false, if_false] at h1
      have h2 := hj.2 (f.shape.length - 1 - k) ax.grid.length idx[k]
        (by
          rw [List.getElem?_reverse (by rw [hlen]; omega), hlen]
          rw [show f.shape.length - 1 - (f.shape.length - 1 - k) = k by omega]
          exact h1)
        (by
          rw [List.getElem?_reverse (by rw [hidx.1]; omega), hidx.1]
          rw [show f.shape.length - 1 - (f.shape.length - 1 - k) = k by omega]
          exact List.getElem?_eq_getElem hik)
      rw [List.getElem?_reverse (by rw [hj.1, hlen]; omega), hj.1, hlen,
        show f.shape.length - 1 - (f.shape.length - 1 - k) = k by omega] at h2
      rw [h2]
      split_ifs with h3
      · congr 1
        omega
      · rfl
    refine ⟨idx[k], List.getElem?_eq_getElem hik, ?_⟩
    unfold meshArray
    simp only [List.getD_eq_getElem?_getD, hjk, Option.getD_some, List.getElem?_map, hax, Option.map_some,
      List.getElem?_eq_getElem hlt]

/-- Two dimensions: the sparse mesh of the second one has the shape (1, 3). -/
example : field43.Ok ∧ (field43.meshgrid false true).map Arr.shape = [[4, 1], [1, 3]] ∧
    (field43.meshgrid true false).map Arr.shape = [[4, 3], [4, 3]] := by
  refine ⟨?_, ?_, ?_⟩
  · exact field43_sound.ok
  · decide +kernel
  · decide +kernel

end

/-- C105: the replacement of `broadcast_to` returns the array of numpy whenever numpy accepts the arguments: an array of the given
shape, each dimension of which has been stretched from length 1 or is unchanged. Missing: it accepts more, see below. -/
theorem broadcast_to_partial {V : Type} (a : Arr V) (shape : List ℕ) (h : Broadcast a.shape shape shape) :
    ∃ r, broadcastToOld a shape = .ok r ∧ npBroadcastTo a shape = .ok r ∧ r.shape = shape ∧
      ∀ idx, InBounds shape idx → ∃ j, OperandIndex a.shape idx j ∧ r.at' idx = a.at' j := by
  have hb := (bshape_iff _ _ _).2 h
  refine ⟨⟨shape, fun idx => a.at' (bindex a.shape idx)⟩, ?_, ?_, rfl, ?_⟩
  · unfold broadcastToOld
    rw [hb]
  · unfold npBroadcastTo
    rw [if_pos hb]
  · intro idx hidx
    refine ⟨bindex a.shape idx, bindex_spec ?_, rfl⟩
    rw [hidx.1, h.1]
    exact le_max_left _ _

/-- C105: both refuse shapes which do not match at all. -/
theorem broadcast_to_refused {V : Type} (a : Arr V) (shape : List ℕ) (h : ∀ r, ¬ Broadcast a.shape shape r) :
    broadcastToOld a shape = .error .valueError ∧ npBroadcastTo a shape = .error .valueError := by
  constructor
  · unfold broadcastToOld
    cases hb : bshape a.shape shape with
    | none => rfl
    | some r => exact absurd ((bshape_iff _ _ _).1 hb) (h r)
  · unfold npBroadcastTo
    rw [if_neg fun hb => h _ ((bshape_iff _ _ _).1 hb)]

example : Broadcast [3, 1] [2, 3, 4] [2, 3, 4] ∧ bshape [3] [2] = none :=
  ⟨(bshape_iff _ _ _).1 (by decide), by decide⟩

/-- C105, violated: with numpy before 1.10 an array which is larger than the shape is returned as it is, numpy refuses it. -/
theorem broadcast_to_larger_violated :
    (∃ r, broadcastToOld (⟨[3], fun idx => idx.getD 0 0⟩ : Arr ℕ) [1] = .ok r ∧ r.shape = [3]) ∧
    npBroadcastTo (⟨[3], fun idx => idx.getD 0 0⟩ : Arr ℕ) [1] = .error .valueError := by
  refine ⟨⟨_, rfl, ?_⟩, ?_⟩
  · rfl
  · unfold npBroadcastTo
    rw [if_neg (by decide)]

end Postpic.Props
