import Verif.Lemmas.AxisCommute
import Verif.Props.Calculus
import Mathlib.Algebra.BigOperators.Group.List.Basic
import Mathlib.Data.List.MinMax

/-!
# Operations along different axes commute
-/

set_option autoImplicit false
set_option linter.unusedSectionVars false

namespace Postpic.Props

open Postpic Postpic.Axes Postpic.Fields Postpic.Spec

section
variable {K V : Type} [_root_.Field K] [LinearOrder K] [IsStrictOrderedRing K] [AddCommGroup V]
  [Module K V]

/-- Integration along a single axis. -/
theorem integrateMethod_single (rule : List K → List V → V) {f : Field K V} (hf : f.Sound) {a : ℤ} {k : ℕ}
    (ha : pyIdx f.shape.length a = some k) :
    ∃ r, f.integrateMethod rule (some [a]) = .ok r ∧ r.Sound ∧ r.name = f.name ∧ r.unit = f.unit ∧
      r.shape = f.shape.eraseIdx k ∧ r.axes = f.axes.eraseIdx k ∧ r.ats = f.ats.eraseIdx k ∧ r.tao = f.tao.eraseIdx k ∧
      ∀ idx, r.matrix.at' idx = rule ((f.axes.map Axis.grid).getD k [])
        ((List.range ((f.axes.map Axis.grid).getD k []).length).map fun i => f.matrix.at' (idx.insertIdx k i)) := by
  obtain ⟨r, h1, h⟩ := methodStep_sound rule hf ha
  refine ⟨r, ?_, h⟩
  unfold Field.integrateMethod
  have : sortDesc ((some [a]).getD f.rangeDims) = [a] := rfl
  rw [this]
  simp only [methodLoop, h1, bind, Except.bind]

/-- C117: integrating over one axis and then over others is integrating over all of them, in whatever order they are given. -/
theorem integrate_separately (rule : List K → List V → V) (hrule : rule = simpson ∨ rule = trapezoid) (f : Field K V)
    (hf : f.Sound) (a : ℤ) (k : ℕ) (ha : pyIdx f.shape.length a = some k) (dims : List ℕ) (hn : dims.Nodup)
    (hd : ∀ i ∈ dims, i < f.shape.length) (hk : k ∉ dims) (all : List ℕ) (hall : all.Perm (k :: dims)) :
    ∃ r1 r2 r, f.integrateMethod rule (some [a]) = .ok r1 ∧
      r1.integrateMethod rule (some ((dims.map (numberWithout k)).map Int.ofNat)) = .ok r2 ∧
      f.integrateMethod rule (some (all.map Int.ofNat)) = .ok r ∧ r.Same r2 := by
  have hr : WeightedRule rule := by
    rcases hrule with rfl | rfl
    · exact simpson_rule
    · exact trapezoid_rule
  have hkl := pyIdx_lt ha
  have hl := ok_axes_length hf.ok
  obtain ⟨r1, h1, h2, h3, h4, h5, h6, h7, h8, h9⟩ := integrateMethod_single rule hf ha
  have hlen : r1.shape.length = f.shape.length - 1 := by rw [h5, List.length_eraseIdx_of_lt hkl]
  have hsd := shiftDown_lt hk hd hkl
  have hnum : numberWithout k = shiftDown k := rfl
  have hinj : (dims.map (shiftDown k)).Nodup := by
    refine List.Nodup.map_on ?_ hn
    intro x hx y hy hxy
    have hx' : x ≠ k := fun h => hk (h ▸ hx)
    have hy' : y ≠ k := fun h => hk (h ▸ hy)
    unfold shiftDown at hxy
    split_ifs at hxy <;> omega
  obtain ⟨r2, g1, g3, g4, g5, g6, g7, g8, g9⟩ := integrate_method_partial rule r1 h2
    (some ((dims.map (shiftDown k)).map Int.ofNat)) (dims.map (shiftDown k)) (Or.inl rfl) hinj (by rw [hlen]; exact hsd)
  obtain ⟨r, e1, e3, e4, e5, e6, e7, e8, e9⟩ := integrate_method_partial rule f hf (some (all.map Int.ofNat)) all (Or.inl rfl)
    (hall.nodup_iff.2 (List.nodup_cons.2 ⟨hk, hn⟩)) (by
      intro i hi
      rcases List.mem_cons.1 (hall.mem_iff.1 hi) with rfl | hi
      · exact hkl
      · exact hd i hi)
  rw [flags_congr fun d => hall.mem_iff] at e5 e6 e7 e8 e9
  rw [hlen] at g5 g6 g7 g8 g9
  have hins := flags_insert hkl hk
  have hx : ∀ {α : Type} (x : List α), x.length = f.shape.length →
      unflagged (flags f.shape.length (k :: dims)) x =
        unflagged (flags (f.shape.length - 1) (dims.map (shiftDown k))) (x.eraseIdx k) := by
    intro α x hx
    rw [hins, unflagged_insert (by omega) (by rw [flags_length]; omega)]
  have hshape : r2.shape = r.shape := by rw [g5, e5, h5, hx _ rfl]
  refine ⟨r1, r2, r, h1, g1, e1, ⟨hshape, ?_⟩, ?_, ?_, ?_, ?_, ?_⟩
  · intro idx hidx
    have hcount : idx.length = (flags (f.shape.length - 1) (dims.map (shiftDown k))).count false := by
      rw [hidx.1]
      show r2.shape.length = _
      rw [g5]
      exact unflagged_count (by rw [flags_length, hlen])
    rw [g9 idx hidx.1, e9 idx (hidx.1.trans (congrArg List.length hshape)), hins, iterated_any hr _
      (by rw [flags_length, List.length_map]; omega) (by rw [flags_length]; omega) hcount, h6, List.eraseIdx_map]
    congr 1
    funext j
    exact h9 j
  · rw [g6, e6, h6, hx _ hl]
  · rw [g3, h3, e3]
  · rw [g4, h4, e4]
  · rw [g7, e7, h7, hx _ hf.ok.states]
  · rw [g8, e8, h8, hx _ hf.ok.origins]

/-- The derivative has the metadata of the field. -/
theorem derivative_sound_of {f : Field K V} (hf : f.Sound) {m : List ℕ → V} {name : String} :
    (⟨name, f.unit, ⟨f.shape, m⟩, f.axes, f.ats, f.tao⟩ : Field K V).Sound :=
  ⟨⟨hf.ok.lengths, hf.ok.states, hf.ok.origins⟩, hf.valid, hf.nonempty⟩

/-- The number of points along a dimension. -/
theorem grid_length {f : Field K V} (hf : f.Sound) {k : ℕ} {ax : Axis K} (hax : f.axes[k]? = some ax) :
    f.shape[k]? = some ax.grid.length := by
  rw [← hf.ok.lengths, List.getElem?_map, hax]
  rfl

/-- C117: the derivatives along two axes may be taken in either order. -/
theorem derivatives_commute (f : Field K V) (hf : f.Sound) (a b : ℤ) (k l : ℕ) (axk axl : Axis K)
    (ha : pyIdx f.shape.length a = some k) (hb : pyIdx f.shape.length b = some l) (hkl : k ≠ l)
    (hk : f.axes[k]? = some axk) (hl : f.axes[l]? = some axl) (h2k : 2 ≤ axk.len) (h2l : 2 ≤ axl.len) :
    ∃ fa fb r s, f.derivative a = .ok fa ∧ fa.derivative b = .ok r ∧ f.derivative b = .ok fb ∧ fb.derivative a = .ok s ∧
      r.Same s := by
  have e1 := derivative_ok hf ha hk h2k
  have e2 := derivative_ok hf hb hl h2l
  have sk := grid_length hf hk
  have sl := grid_length hf hl
  have h2k' : 2 ≤ axk.grid.length := h2k
  have h2l' : 2 ≤ axl.grid.length := h2l
  refine ⟨_, _, _, _, e1, derivative_ok (derivative_sound_of hf) hb hl h2l, e2, derivative_ok (derivative_sound_of hf) ha hk h2k,
    ⟨rfl, ?_⟩, rfl, rfl, rfl, rfl, rfl⟩
  intro idx hidx
  have hlen : idx.length = f.shape.length := hidx.1
  have pk : ∃ i, idx[k]? = some i ∧ i < axk.grid.length := by
    have h := List.getElem?_eq_getElem (l := idx) (i := k) (by rw [hlen]; exact pyIdx_lt ha)
    exact ⟨_, h, hidx.2 _ _ _ h sk⟩
  have pl : ∃ i, idx[l]? = some i ∧ i < axl.grid.length := by
    have h := List.getElem?_eq_getElem (l := idx) (i := l) (by rw [hlen]; exact pyIdx_lt hb)
    exact ⟨_, h, hidx.2 _ _ _ h sl⟩
  obtain ⟨i, hi, hik⟩ := pk
  obtain ⟨j, hj, hjl⟩ := pl
  have gk : idx.getD k 0 = i := by rw [List.getD_eq_getElem?_getD, hi]; rfl
  have gl : idx.getD l 0 = j := by rw [List.getD_eq_getElem?_getD, hj]; rfl
  have gk' : ∀ q, (idx.set l q).getD k 0 = i := by
    intro q
    rw [List.getD_eq_getElem?_getD, List.getElem?_set_ne hkl.symm, hi]
    rfl
  have gl' : ∀ q, (idx.set k q).getD l 0 = j := by
    intro q
    rw [List.getD_eq_getElem?_getD, List.getElem?_set_ne hkl, hj]
    rfl
  show gradientAt axk.grid (fun p => gradientAt axl.grid (fun q => f.matrix.at' ((idx.set k p).set l q)) axl.grid.length
      ((idx.set k p).getD l 0)) axk.grid.length (idx.getD k 0) =
    gradientAt axl.grid (fun q => gradientAt axk.grid (fun p => f.matrix.at' ((idx.set l q).set k p)) axk.grid.length
      ((idx.set l q).getD k 0)) axl.grid.length (idx.getD l 0)
  simp only [gk, gl, gk', gl']
  rw [gradientAt_list axk.grid h2k' hik, gradientAt_list axl.grid h2l' hjl]
  have e3 : ∀ p, gradientAt axl.grid (fun q => f.matrix.at' ((idx.set k p).set l q)) axl.grid.length j = _ :=
    fun p => gradientAt_list axl.grid h2l' hjl _
  have e4 : ∀ q, gradientAt axk.grid (fun p => f.matrix.at' ((idx.set l q).set k p)) axk.grid.length i = _ :=
    fun q => gradientAt_list axk.grid h2k' hik _
  simp only [e3, e4]
  refine (weighted_swap (gradientAt_weighted axk.grid axk.grid.length i) (gradientAt_weighted axl.grid axl.grid.length j)
    (fun p q => f.matrix.at' ((idx.set k p).set l q))).trans ?_
  simp only [List.set_comm _ _ hkl]

/-- The position of a point in the field which is left when dimension `k` is integrated. -/
theorem insert_set {idx : List ℕ} {k l i j : ℕ} (hkl : k ≠ l) (hk : k ≤ idx.length) :
    (idx.insertIdx k i).set l j = (idx.set (numberWithout k l) j).insertIdx k i := by
  apply List.ext_getElem?
  intro d
  unfold numberWithout
  simp only [List.getElem?_set, List.getElem?_insertIdx, List.length_insertIdx, List.length_set, if_pos hk]
  split_ifs <;> first | rfl | omega | simp_all

/-- The same for the entries. -/
theorem insert_getD {idx : List ℕ} {k l i : ℕ} (hkl : k ≠ l) (hk : k ≤ idx.length) :
    (idx.insertIdx k i).getD l 0 = idx.getD (numberWithout k l) 0 := by
  unfold numberWithout
  rw [List.getD_eq_getElem?_getD, List.getD_eq_getElem?_getD, List.getElem?_insertIdx]
  split_ifs <;> first | rfl | omega

/-- C117: the integral along one axis of the derivative along another one is the derivative of the integral. -/
theorem derivative_integrate_commute (rule : List K → List V → V) (hrule : rule = simpson ∨ rule = trapezoid) (f : Field K V)
    (hf : f.Sound) (a b : ℤ) (k l : ℕ) (axl : Axis K) (ha : pyIdx f.shape.length a = some k)
    (hb : pyIdx f.shape.length b = some l) (hkl : k ≠ l) (hl : f.axes[l]? = some axl) (h2l : 2 ≤ axl.len) :
    ∃ fa fb r s, f.integrateMethod rule (some [a]) = .ok fa ∧ fa.derivative (numberWithout k l : ℕ) = .ok r ∧
      f.derivative b = .ok fb ∧ fb.integrateMethod rule (some [a]) = .ok s ∧ r.Same s := by
  have hr : WeightedRule rule := by
    rcases hrule with rfl | rfl
    · exact simpson_rule
    · exact trapezoid_rule
  have hk := pyIdx_lt ha
  have hl' := pyIdx_lt hb
  have h2l' : 2 ≤ axl.grid.length := h2l
  obtain ⟨fa, h1, h2, h3, h4, h5, h6, h7, h8, h9⟩ := integrateMethod_single rule hf ha
  have hnl : numberWithout k l < f.shape.length - 1 := by unfold numberWithout; split_ifs <;> omega
  have e2 := derivative_ok hf hb hl h2l
  obtain ⟨s, g1, g2, g3, g4, g5, g6, g7, g8, g9⟩ := integrateMethod_single rule
    (derivative_sound_of hf (name := f.name ++ "'") (m := fun idx =>
      gradientAt axl.grid (fun j => f.matrix.at' (idx.set l j)) axl.grid.length (idx.getD l 0))) ha
  have hidxl : fa.axes[numberWithout k l]? = some axl := by
    rw [h6, List.getElem?_eraseIdx]
    unfold numberWithout
    split_ifs with p1 p2 p2
    · omega
    · rw [Nat.sub_add_cancel (by omega), hl]
    · exact hl
    · omega
  have e3 := derivative_ok h2 (a := ((numberWithout k l : ℕ) : ℤ)) (k := numberWithout k l)
    (pyIdx_nat (by rw [h5, List.length_eraseIdx_of_lt hk]; exact hnl)) hidxl h2l
  refine ⟨fa, _, _, s, h1, e3, e2, g1, ⟨?_, ?_⟩, ?_, ?_, ?_, ?_, ?_⟩
  · exact g5.trans h5.symm
  · intro idx hidx
    have hsh : s.matrix.shape = f.shape.eraseIdx k := g5
    have hlen : idx.length = f.shape.length - 1 := by
      rw [hidx.1, hsh, List.length_eraseIdx_of_lt hk]
    have sl := grid_length hf hl
    have hj : idx.getD (numberWithout k l) 0 < axl.grid.length := by
      have h := List.getElem?_eq_getElem (l := idx) (i := numberWithout k l) (by rw [hlen]; exact hnl)
      rw [List.getD_eq_getElem?_getD, h]
      refine hidx.2 _ _ _ h ?_
      rw [hsh, List.getElem?_eraseIdx]
      unfold numberWithout
      split_ifs with p1 p2 p2
      · omega
      · rw [Nat.sub_add_cancel (by omega), sl]
      · exact sl
      · omega
    rw [g9 idx]
    show rule ((f.axes.map Axis.grid).getD k []) ((List.range ((f.axes.map Axis.grid).getD k []).length).map fun i =>
        gradientAt axl.grid (fun j => f.matrix.at' ((idx.insertIdx k i).set l j)) axl.grid.length ((idx.insertIdx k i).getD l 0)) =
      gradientAt axl.grid (fun j => fa.matrix.at' (idx.set (numberWithout k l) j)) axl.grid.length (idx.getD (numberWithout k l) 0)
    have hki : k ≤ idx.length := by omega
    simp only [insert_set hkl hki, insert_getD hkl hki, h9]
    generalize idx.getD (numberWithout k l) 0 = j at hj
    rw [gradientAt_list axl.grid h2l' hj]
    have e4 : ∀ i, gradientAt axl.grid (fun q => f.matrix.at' ((idx.set (numberWithout k l) q).insertIdx k i)) axl.grid.length j = _ :=
      fun i => gradientAt_list axl.grid h2l' hj _
    simp only [e4]
    exact weighted_swap (hr _ _) (gradientAt_weighted axl.grid axl.grid.length j)
      (fun i q => f.matrix.at' ((idx.set (numberWithout k l) q).insertIdx k i))
  · exact g6.trans h6.symm
  · exact g3.trans (by rw [h3])
  · exact g4.trans h4.symm
  · exact g7.trans h7.symm
  · exact g8.trans h8.symm

end

section
variable {K V : Type} [_root_.Field K] [LinearOrder K] [IsStrictOrderedRing K]

/-- C117: reducing one axis and then others (sum, mean, maximum, ...) is reducing all of them, in whatever order they are given. -/
theorem reduce_separately (spl : Splines K) (red : List V → V) (hr : Collects red) (f : Field K V) (hf : f.Sound)
    (h4 : f.shape.length ≤ 4) (a : ℤ) (k : ℕ) (ha : pyIdx f.shape.length a = some k) (dims : List ℕ) (hn : dims.Nodup)
    (hd : ∀ i ∈ dims, i < f.shape.length) (hk : k ∉ dims) (all : List ℕ) (hall : all.Perm (k :: dims)) :
    ∃ r1 r2 r, f.reduce spl red (some [a]) false = .ok r1 ∧
      r1.reduce spl red (some ((dims.map (numberWithout k)).map Int.ofNat)) false = .ok r2 ∧
      f.reduce spl red (some (all.map Int.ofNat)) false = .ok r ∧ r.Same r2 := by
  have hkl := pyIdx_lt ha
  have hl := ok_axes_length hf.ok
  have hn0 : ∀ {α : Type} (x : List α), x.length = f.shape.length →
      unflagged (flags f.shape.length [k]) x = x.eraseIdx k := by
    intro α x hx
    rw [flags_insert hkl (by simp), unflagged_insert (by omega) (by rw [flags_length]; omega)]
    exact unflagged_none _ _ (by rw [List.length_eraseIdx_of_lt (by omega), hx])
  have hsh : ∀ (s : List ℕ) (L : List ℕ), (unflagged (flags s.length L) s).length ≤ s.length := by
    intro s L
    rw [unflagged_count (by rw [flags_length])]
    exact (List.count_le_length).trans (by rw [flags_length])
  have h1 := reduce_sound spl red hf (l := [a]) (p := [k]) (by simpa using ha) (by simp) (Or.inr (by simp)) (by
    rw [hn0 _ rfl, List.length_eraseIdx_of_lt hkl]; omega)
  have hE : ∀ (g : List ℕ → V), (⟨f.name, f.unit, ⟨f.shape.eraseIdx k, g⟩, f.axes.eraseIdx k, f.ats.eraseIdx k,
      f.tao.eraseIdx k⟩ : Field K V).Sound := by
    intro g
    refine ⟨⟨?_, ?_, ?_⟩, ?_, ?_⟩
    · show (f.axes.eraseIdx k).map Axis.len = f.shape.eraseIdx k
      rw [← List.eraseIdx_map, hf.ok.lengths]
    · show (f.ats.eraseIdx k).length = (f.shape.eraseIdx k).length
      rw [List.length_eraseIdx, List.length_eraseIdx, hf.ok.states]
    · show (f.tao.eraseIdx k).length = (f.shape.eraseIdx k).length
      rw [List.length_eraseIdx, List.length_eraseIdx, hf.ok.origins]
    · intro ax hmem
      exact hf.valid ax (List.mem_of_mem_eraseIdx hmem)
    · intro h0
      exact hf.nonempty (List.mem_of_mem_eraseIdx h0)
  rw [hn0 _ hl, hn0 _ hf.ok.states, hn0 _ hf.ok.origins] at h1
  have hm : f.matrix.reduce red (flags f.shape.length [k]) = ⟨f.shape.eraseIdx k,
      (f.matrix.reduce red (flags f.shape.length [k])).at'⟩ := by
    show Arr.mk _ _ = _
    rw [keep_eq]
    congr 1
    exact hn0 f.shape rfl
  rw [hm] at h1
  have hs1 := hE (f.matrix.reduce red (flags f.shape.length [k])).at'
  have hlen : (f.shape.eraseIdx k).length = f.shape.length - 1 := List.length_eraseIdx_of_lt hkl
  have hsd := shiftDown_lt hk hd hkl
  have hnum : numberWithout k = shiftDown k := rfl
  have hinj : (dims.map (shiftDown k)).Nodup := by
    refine List.Nodup.map_on ?_ hn
    intro x hx y hy hxy
    have hx' : x ≠ k := fun h => hk (h ▸ hx)
    have hy' : y ≠ k := fun h => hk (h ▸ hy)
    unfold shiftDown at hxy
    split_ifs at hxy <;> omega
  have nat : ∀ (n : ℕ) (L : List ℕ), (∀ i ∈ L, i < n) →
      List.Forall₂ (fun i k => pyIdx n i = some k) (L.map Int.ofNat) L := by
    intro n L h
    rw [List.forall₂_map_left_iff, List.forall₂_same]
    exact fun i hi => pyIdx_nat (h i hi)
  have pos : ∀ L : List ℕ, ∀ i ∈ L.map Int.ofNat, 0 ≤ i := by
    intro L i hi
    obtain ⟨j, _, rfl⟩ := List.mem_map.1 hi
    exact Int.natCast_nonneg j
  have h2 := reduce_sound spl red hs1 (l := (dims.map (shiftDown k)).map Int.ofNat) (p := dims.map (shiftDown k))
    (nat _ _ (by rw [show Field.shape _ = f.shape.eraseIdx k from rfl, hlen]; exact hsd)) hinj (Or.inl (pos _))
    ((hsh _ _).trans (by rw [show Field.shape _ = f.shape.eraseIdx k from rfl, hlen]; omega))
  have hda : ∀ i ∈ all, i < f.shape.length := by
    intro i hi
    rcases List.mem_cons.1 (hall.mem_iff.1 hi) with rfl | hi
    · exact hkl
    · exact hd i hi
  have hins := flags_insert hkl hk
  have hx : ∀ {α : Type} (x : List α), x.length = f.shape.length →
      unflagged (flags f.shape.length (k :: dims)) x =
        unflagged (flags (f.shape.length - 1) (dims.map (shiftDown k))) (x.eraseIdx k) := by
    intro α x hx
    rw [hins, unflagged_insert (by omega) (by rw [flags_length]; omega)]
  have h3 := reduce_sound spl red hf (l := all.map Int.ofNat) (p := all) (nat _ _ hda)
    (hall.nodup_iff.2 (List.nodup_cons.2 ⟨hk, hn⟩)) (Or.inl (pos _)) (by
      rw [flags_congr fun d => hall.mem_iff, hx _ rfl, ← hlen]
      exact (hsh _ _).trans (by omega))
  rw [flags_congr fun d => hall.mem_iff] at h3
  have hF : ∀ g : List ℕ → V, (⟨f.name, f.unit, ⟨f.shape.eraseIdx k, g⟩, f.axes.eraseIdx k, f.ats.eraseIdx k,
      f.tao.eraseIdx k⟩ : Field K V).shape = f.shape.eraseIdx k := fun _ => rfl
  rw [hF, hlen] at h2
  refine ⟨_, _, _, h1, h2, h3, ⟨?_, ?_⟩, (hx _ hl).symm, rfl, rfl, (hx _ hf.ok.states).symm, (hx _ hf.ok.origins).symm⟩
  · show keep _ (f.shape.eraseIdx k) = keep _ f.shape
    rw [keep_eq, keep_eq, hx _ rfl]
  · intro idx hidx
    have hsk : f.shape[k]? = some f.shape[k] := List.getElem?_eq_getElem hkl
    have hpos : 0 < f.shape[k] := Nat.pos_of_ne_zero fun h0 => hf.nonempty (by rw [← h0]; exact List.getElem_mem hkl)
    show red ((fibre (f.shape.eraseIdx k) _ idx).map fun j => red ((fibre f.shape _ j).map f.matrix.at')) =
      red ((fibre f.shape _ idx).map f.matrix.at')
    rw [hins, collects_fibre hr (by rw [flags_length]; omega) hsk hpos
      (fibre_nonempty _ _ _ fun h0 => hf.nonempty (List.mem_of_mem_eraseIdx h0))]
    congr 1
    apply List.map_congr_left
    intro j hj
    refine hr.order _ _ ?_
    have hjl : j.length = f.shape.length - 1 := by
      have := (fibre_inBounds (f.shape.eraseIdx k) _ idx j (by rw [flags_length, hlen]) hidx hj).1
      rw [this, hlen]
    have := (fibre_single (idx := j) hsk hjl).map f.matrix.at'
    simpa [List.map_map, Function.comp_def] using this

end

/-! ### Examples -/

section
variable {K V : Type} [_root_.Field K] [LinearOrder K] [IsStrictOrderedRing K] [AddCommGroup V] [Module K V]

theorem sum_collects : Collects (List.sum : List V → V) := by
  refine ⟨fun l m h => h.sum_eq, fun n L _ _ _ => List.sum_flatten⟩

theorem mean_collects : Collects (meanOf K : List V → V) := by
  refine ⟨fun l m h => ?_, fun n L hn hL h => ?_⟩
  · unfold meanOf
    rw [h.sum_eq, h.length_eq]
  · have e1 : L.map (meanOf K) = (L.map List.sum).map ((n : K)⁻¹ • ·) := by
      rw [List.map_map]
      apply List.map_congr_left
      intro l hl
      simp [meanOf, h l hl]
    have e2 : L.flatten.length = L.length * n := by
      rw [List.length_flatten, List.map_congr_left (g := fun _ => n) h]
      simp
    show (L.flatten.length : K)⁻¹ • L.flatten.sum = ((L.map (meanOf K)).length : K)⁻¹ • (L.map (meanOf K)).sum
    rw [e1, ← List.smul_sum, e2, List.sum_flatten, smul_smul]
    simp [mul_comm]

end

/-- The maximum of a list of numbers. -/
def maximumOf (l : List ℚ) : ℚ := (l.maximum).unbotD 0

theorem maximum_collects : Collects maximumOf := by
  have key : ∀ l m : List ℚ, (∀ c : WithBot ℚ, (∀ x ∈ l, (x : WithBot ℚ) ≤ c) ↔ ∀ x ∈ m, (x : WithBot ℚ) ≤ c) → l.maximum = m.maximum := by
    intro l m h
    apply le_antisymm
    · exact List.maximum_le_of_forall_le fun x hx => (h m.maximum).2 (fun y hy => List.le_maximum_of_mem' hy) x hx
    · exact List.maximum_le_of_forall_le fun x hx => (h l.maximum).1 (fun y hy => List.le_maximum_of_mem' hy) x hx
  refine ⟨fun l m h => ?_, fun n L hn _ h => ?_⟩
  · unfold maximumOf
    rw [key l m fun c => by simp only [h.mem_iff]]
  · unfold maximumOf
    congr 1
    apply key
    intro c
    constructor
    · intro hx x hxm
      obtain ⟨l, hl, rfl⟩ := List.mem_map.1 hxm
      have hne : l ≠ [] := by
        rintro rfl
        have := h [] hl
        simp at this
        omega
      obtain ⟨y, hy⟩ := WithBot.ne_bot_iff_exists.1 (List.maximum_ne_bot_of_ne_nil hne)
      rw [← hy, WithBot.unbotD_coe]
      exact hx y (List.mem_flatten.2 ⟨l, hl, List.maximum_mem hy.symm⟩)
    · intro hx x hxm
      obtain ⟨l, hl, hxl⟩ := List.mem_flatten.1 hxm
      have h1 := List.le_maximum_of_mem' hxl
      refine h1.trans ?_
      have h2 := hx _ (List.mem_map.2 ⟨l, hl, rfl⟩)
      obtain ⟨y, hy⟩ := WithBot.ne_bot_iff_exists.1 (List.maximum_ne_bot_of_ne_nil (List.ne_nil_of_mem hxl))
      rw [← hy, WithBot.unbotD_coe] at h2
      rw [← hy]
      exact h2

example := integrate_separately simpson (Or.inl rfl) field43 field43_sound (-2) 0 rfl [1] (by decide) (by decide) (by decide)
  [1, 0] (by decide)

example : ((field43.integrateDefault (some [-2])).bind fun r => (r.integrateDefault (some [0])).map values) =
    (field43.integrateDefault (some [1, 0])).map values ∧
    (field43.integrateDefault (some [1, 0])).map values = .ok [1812] := by
  decide +kernel

example := derivatives_commute field43 field43_sound 0 (-1) 0 1 _ _ rfl rfl (by decide) rfl rfl (by decide) (by decide)

example := derivative_integrate_commute trapezoid (Or.inr rfl) field43 field43_sound 0 (-1) 0 1 _ rfl rfl (by decide) rfl (by decide)

example := reduce_separately midSplines maximumOf maximum_collects field43 field43_sound (by decide) (-1) 1 rfl [0] (by decide)
  (by decide) (by decide) [0, 1] (by decide)

example := reduce_separately midSplines (meanOf ℚ) mean_collects field43 field43_sound (by decide) (-1) 1 rfl [0] (by decide)
  (by decide) (by decide) [1, 0] (by decide)

example := reduce_separately midSplines List.sum sum_collects field43 field43_sound (by decide) (-1) 1 rfl [0] (by decide)
  (by decide) (by decide) [1, 0] (by decide)

end Postpic.Props
