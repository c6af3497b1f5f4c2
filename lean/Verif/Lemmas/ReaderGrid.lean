import Verif.Lemmas.FieldMoves
import Verif.Lemmas.FieldResolution
import Verif.Model.ReaderGrid

/-!
# Lemmas on the grids of readers
-/

set_option autoImplicit false
set_option linter.unusedSectionVars false

namespace Postpic.Readers

open Postpic Postpic.Axes Postpic.Fields Postpic.Spec

section
variable {K : Type} [_root_.Field K] [LinearOrder K] [IsStrictOrderedRing K]

theorem linspace_steps (o h : K) (n : ℕ) : linspace o (o + h * n) (n + 1) = ap o h (n + 1) := by
  rw [linspace_ap]
  rcases Nat.eq_zero_or_pos n with rfl | hn
  · simp [ap]
  · have : (n : K) ≠ 0 := by exact_mod_cast hn.ne'
    congr 1
    field_simp
    ring

theorem gridnode_ok {r : Reader K} {key : String} {axis : AxisKey} {o h : K} {n : ℕ}
    (ho : r.gridoffset key axis = .ok o) (hp : r.gridpoints key axis = .ok (.int n))
    (hs : r.gridspacing key axis = .ok h) : r.gridnode key axis = .ok (ap o h (n + 1)) := by
  unfold Reader.gridnode
  simp only [ho, hp, hs, bind, Except.bind, linspaceNum, Points.succ, Points.val, Int.cast_natCast]
  rw [if_neg (by omega), ← linspace_steps]
  congr 1

theorem convolve_ok (o h : K) {n : ℕ} (hn : 0 < n) :
    convolveHalf (ap o h (n + 1)) = .ok (ap (o + h / 2) h n) := by
  rw [← mids_ap]
  have hl := ap_length o h (n + 1)
  match hx : ap o h (n + 1), hl with
  | a :: b :: l, _ => rfl
  | [a], hl => simp at hl; omega

theorem grid_ok {r : Reader K} {key : String} {axis : AxisKey} {o h : K} {n : ℕ} (hn : 0 < n)
    (ho : r.gridoffset key axis = .ok o) (hp : r.gridpoints key axis = .ok (.int n))
    (hs : r.gridspacing key axis = .ok h) : r.grid key axis = .ok (ap (o + h / 2) h n) := by
  unfold Reader.grid
  simp only [gridnode_ok ho hp hs, bind, Except.bind]
  exact convolve_ok o h hn

theorem firstKey_skip {α : Type} {f : String → Res α} {pre post : List String}
    (h : ∀ k ∈ pre, f k = .error .keyError) : firstKey f (pre ++ post) = firstKey f post := by
  induction pre with
  | nil => rfl
  | cons k pre ih =>
    simp only [List.cons_append, firstKey, h k List.mem_cons_self]
    exact ih fun k' hk => h k' (List.mem_cons_of_mem _ hk)

theorem monotonicity_ap (a : K) {h : K} (hh : h ≠ 0) (m : ℕ) : monotonicity (ap a h m) ≠ 0 := by
  rw [monotonicity_ne_zero]
  have key : ∀ i j : ℕ, i < j → (i : K) < j := fun i j hij => by exact_mod_cast hij
  rcases lt_or_gt_of_ne hh with hneg | hpos
  · right
    apply mono_of_pairwise
    rw [ap, List.pairwise_map]
    refine List.pairwise_lt_range.imp ?_
    intro i j hij
    have := key i j hij
    show a + (j : K) * h < a + (i : K) * h
    have := mul_lt_mul_of_neg_right this hneg
    linarith
  · left
    apply mono_of_pairwise
    rw [ap, List.pairwise_map]
    refine List.pairwise_lt_range.imp ?_
    intro i j hij
    have := mul_lt_mul_of_pos_right (key i j hij) hpos
    linarith

theorem mkAxis_nodes_ap {spl : Splines K} (hspl : ExactOnEven spl) (name unit : String) (e0 : K) {h : K}
    (hh : h ≠ 0) {n : ℕ} (hn : 0 < n) :
    mkAxis spl { name := name, unit := unit, gridNode := some (ap e0 h (n + 1)) } =
      .ok (evenAxisOf name unit e0 h n) := by
  have hg : gridOfNodes spl (ap e0 h (n + 1)) = .ok (ap (e0 + h / 2) h n) := by
    unfold gridOfNodes
    split_ifs with h3
    · have := hspl.centers e0 h n hn
      rw [centers_ap] at this
      rw [← this]
      rfl
    · have hl := ap_length e0 h (n + 1)
      rw [← mids_ap]
      match hx : ap e0 h (n + 1), hl with
      | a :: b :: l, _ => rfl
      | [a], hl => simp at hl; omega
  simp only [mkAxis, bind, Except.bind, pure, Except.pure, monotonicity_ap e0 hh, if_false, hg, ap_head, ap_last]
  simp [evenAxisOf]

end

/-! ### Arrays without dimensions of length one -/

section
variable {V : Type}

theorem pickShape_ranges : ∀ shape : List ℕ, (∀ n ∈ shape, n ≠ 1) →
    pickShape (shape.map fun n => if n = 1 then .one 0 else .many (List.range n)) = shape
  | [], _ => rfl
  | n :: shape, h => by
    simp only [List.map_cons, if_neg (h n List.mem_cons_self), pickShape, List.length_range]
    rw [pickShape_ranges shape fun m hm => h m (List.mem_cons_of_mem _ hm)]

theorem pickIdx_ranges : ∀ (shape idx : List ℕ), (∀ n ∈ shape, n ≠ 1) → InBounds shape idx →
    pickIdx (shape.map fun n => if n = 1 then .one 0 else .many (List.range n)) idx = idx
  | [], [], _, _ => rfl
  | [], _ :: _, _, hb => by simp [InBounds] at hb
  | n :: shape, [], _, hb => by simp [InBounds] at hb
  | n :: shape, i :: idx, h, hb => by
    rw [inBounds_cons] at hb
    simp only [List.map_cons, if_neg (h n List.mem_cons_self), pickIdx, List.headD_cons, List.tail_cons]
    rw [pickIdx_ranges shape idx (fun m hm => h m (List.mem_cons_of_mem _ hm)) hb.2]
    simp [List.getD, hb.1]

theorem squeeze_eqv (a : Arr V) (h : ∀ n ∈ a.shape, n ≠ 1) : (Arr.squeeze a).Eqv a := by
  have hs : (Arr.squeeze a).shape = a.shape := pickShape_ranges _ h
  refine ⟨hs, ?_⟩
  intro idx hidx
  rw [hs] at hidx
  show a.at' (pickIdx _ idx) = a.at' idx
  rw [pickIdx_ranges _ _ h hidx]

end

section
variable {K V : Type} [_root_.Field K] [LinearOrder K] [IsStrictOrderedRing K]

/-- Default axes exist for up to three dimensions. -/
theorem default_ok {spl : Splines K} (hspl : ExactOnEven spl) (m : Arr V) (h0 : 0 ∉ m.shape)
    (h3 : m.shape.length ≤ 3) : ∃ f : Field K V, mkFieldDefault spl m = .ok f ∧ f.matrix = m ∧
      f.axes.length = m.shape.length := by
  have key : ∃ axes, defaultAxes spl m.shape = .ok axes ∧ axes.length = m.shape.length := by
    unfold defaultAxes
    rw [if_neg h0]
    have : List.Forall₂ (fun (p : String × ℕ) ax => mkAxis spl
        { name := p.1, extent := some (0, 1), n := some (p.2 : ℤ) } = .ok ax)
        ((["x", "y", "z"].take m.shape.length).zip m.shape)
        (((["x", "y", "z"].take m.shape.length).zip m.shape).map fun p => evenAxisOf p.1 "" 0 (1 / (p.2 : K)) p.2) := by
      rw [List.forall₂_map_right_iff, List.forall₂_same]
      intro p hp
      have hp2 : p.2 ∈ m.shape := (List.of_mem_zip hp).2
      have hpos : 0 < p.2 := Nat.pos_of_ne_zero fun e => h0 (e ▸ hp2)
      refine mkAxis_even hspl p.1 "" hpos ?_
      have : (p.2 : K) ≠ 0 := by exact_mod_cast hpos.ne'
      field_simp
      ring
    refine ⟨_, mapM_of_forall2 this, ?_⟩
    simp
    omega
  obtain ⟨axes, h1, h2⟩ := key
  refine ⟨⟨"", "", m, axes, m.shape.map fun _ => some false, m.shape.map fun _ => none⟩, ?_, rfl, h2⟩
  simp only [mkFieldDefault, h1, bind, Except.bind, pure, Except.pure]

/-- The axis object for nodes of equal distance. -/
theorem getaxisobj_ok {spl : Splines K} (hspl : ExactOnEven spl) (twoPi : K)
    {node : String → AxisKey → Res (List K)} {gridkey : String} {axis : AxisKey} {axid : ℕ} {name : String}
    (ha : axesidentify axis = .ok axid) (hname : axisName axid = .ok name) {o h : K} (hh : h ≠ 0) {n : ℕ}
    (hn : 0 < n) (hnode : node gridkey axis = .ok (ap o h (n + 1))) :
    getaxisobj spl twoPi node gridkey axis {} = .ok (.axis (evenAxisOf name "m" o h n)) := by
  unfold getaxisobj
  simp only [ha, hname, bind, Except.bind, hnode, mkAxis_nodes_ap hspl name "m" o hh hn, pure, Except.pure]

theorem setaxisobj_ok {f : ReadField K V} {axis : AxisKey} {axid d : ℕ} (ha : axesidentify axis = .ok axid)
    (hd : axid % 90 = d) {ax : AxisObj K} (hs : f.matrix.shape[d]? = some ax.len) (hl : d < f.axes.length) :
    f.setaxisobj axis ax = .ok { f with axes := f.axes.set d ax } := by
  unfold ReadField.setaxisobj
  have g1 : pyGet f.matrix.shape (d : ℤ) = .ok ax.len :=
    pyGet_of (pyIdx_nat (List.getElem?_eq_some_iff.1 hs).1) hs
  have g2 : pySet f.axes (d : ℤ) ax = .ok (f.axes.set d ax) := pySet_of ax (pyIdx_nat hl)
  simp only [ha, hd, bind, Except.bind, g1, g2, pure, Except.pure]
  simp

/-- The keys of the axes of a field, as a function of the dimension. -/
def orderKey (order : AxisKey × AxisKey × AxisKey) : ℕ → AxisKey
  | 0 => order.1
  | 1 => order.2.1
  | _ => order.2.2

theorem createField_ok {spl : Splines K} (hspl : ExactOnEven spl) (twoPi : K)
    {node : String → AxisKey → Res (List K)} {order : AxisKey × AxisKey × AxisKey} {data : Arr V}
    {gridkey : String} (name : String) {n axid : ℕ → ℕ} {o h : ℕ → K} {names : ℕ → String} {D : ℕ} (hD : 0 < D)
    (hD3 : D ≤ 3) (hshape : data.shape = (List.range D).map n) (hn : ∀ d < D, 2 ≤ n d)
    (hax : ∀ d < D, axesidentify (orderKey order d) = .ok (axid d) ∧ axid d % 90 = d ∧
      axisName (axid d) = .ok (names d) ∧ h d ≠ 0 ∧
      node gridkey (orderKey order d) = .ok (ap (o d) (h d) (n d + 1))) :
    ∃ f, createField spl twoPi node order data name gridkey {} = .ok f ∧ f.name = name ∧ f.matrix.Eqv data ∧
      f.axes = (List.range D).map fun d => .axis (evenAxisOf (names d) "m" (o d) (h d) (n d)) := by
  have hne : ∀ m ∈ data.shape, m ≠ 1 ∧ m ≠ 0 := by
    intro m hm
    rw [hshape, List.mem_map] at hm
    obtain ⟨d, hd, rfl⟩ := hm
    have := hn d (List.mem_range.1 hd)
    omega
  have hsq := squeeze_eqv data fun m hm => (hne m hm).1
  have h0 : 0 ∉ (Arr.squeeze data).shape := by
    rw [hsq.1]
    exact fun hm => (hne 0 hm).2 rfl
  have hl : (Arr.squeeze data).shape.length = D := by rw [hsq.1, hshape]; simp
  obtain ⟨f, f1, f2, f3⟩ := default_ok hspl (Arr.squeeze data) h0 (by omega)
  have hobj : ∀ d < D, getaxisobj spl twoPi node gridkey (orderKey order d) {} =
      .ok (.axis (evenAxisOf (names d) "m" (o d) (h d) (n d))) := by
    intro d hd
    obtain ⟨a1, a2, a3, a4, a5⟩ := hax d hd
    have := hn d hd
    exact getaxisobj_ok hspl twoPi a1 a3 a4 (by omega) a5
  have hset : ∀ d < D, ∀ axes : List (AxisObj K), axes.length = D →
      (⟨name, f.matrix, axes⟩ : ReadField K V).setaxisobj (orderKey order d)
        (.axis (evenAxisOf (names d) "m" (o d) (h d) (n d))) =
      .ok ⟨name, f.matrix, axes.set d (.axis (evenAxisOf (names d) "m" (o d) (h d) (n d)))⟩ := by
    intro d hd axes hlen
    obtain ⟨a1, a2, a3, a4, a5⟩ := hax d hd
    refine setaxisobj_ok a1 a2 ?_ (by rw [hlen]; exact hd)
    show f.matrix.shape[d]? = some (ap _ _ _).length
    rw [f2, hsq.1, hshape, ap_length]
    simp [hd]
  have hdims : ∀ axes : List (AxisObj K), (⟨name, f.matrix, axes⟩ : ReadField K V).dims = D := by
    intro axes
    unfold ReadField.dims
    rw [f2, if_neg h0, hl]
  have hlen : (f.axes.map (AxisObj.axis : Axis K → AxisObj K)).length = D := by rw [List.length_map, f3, hl]
  refine ⟨⟨name, f.matrix, (List.range D).map fun d => .axis (evenAxisOf (names d) "m" (o d) (h d) (n d))⟩, ?_, rfl,
    by rw [f2]; exact hsq, rfl⟩
  unfold createField
  simp only [f1, bind, Except.bind]
  unfold ReadField.setgrid
  have e0 := hobj 0 hD
  have s0 := hset 0 hD _ hlen
  simp only [orderKey] at e0 s0
  simp only [e0, s0, bind, Except.bind, hdims]
  match f.axes.map (AxisObj.axis : Axis K → AxisObj K), D, hD, hD3, hlen with
  | [a], 1, _, _, _ => simp [hdims, pure, Except.pure]
  | [a, b], 2, _, _, _ =>
    have e1 := hobj 1 (by omega)
    have s1 := hset 1 (by omega) ([a, b].set 0 (.axis (evenAxisOf (names 0) "m" (o 0) (h 0) (n 0)))) (by simp)
    simp only [orderKey] at e1 s1
    simp only [e1, s1]
    simp [hdims, pure, Except.pure, List.range_succ]
  | [a, b, c], 3, _, _, _ =>
    have e1 := hobj 1 (by omega)
    have s1 := hset 1 (by omega) ([a, b, c].set 0 (.axis (evenAxisOf (names 0) "m" (o 0) (h 0) (n 0)))) (by simp)
    have e2 := hobj 2 (by omega)
    have s2 := hset 2 (by omega) (([a, b, c].set 0 (.axis (evenAxisOf (names 0) "m" (o 0) (h 0) (n 0)))).set 1
      (.axis (evenAxisOf (names 1) "m" (o 1) (h 1) (n 1)))) (by simp)
    simp only [orderKey] at e1 s1 e2 s2
    simp only [e1, s1, e2]
    simp only [hdims, s2]
    simp [pure, Except.pure, List.range_succ]

end

end Postpic.Readers
