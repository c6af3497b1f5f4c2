import Mathlib.Algebra.Order.Ring.Rat
import Mathlib.Algebra.Order.Round
import Mathlib.Data.Rat.Floor
import Mathlib.Tactic.NormNum
import Verif.Lemmas.AxisSearch

/-!
# C18 - C21: axes
-/

set_option autoImplicit false
set_option linter.unusedSectionVars false

namespace Postpic.Props

open Postpic Postpic.Axes Postpic.Spec

variable {K : Type} [Field K] [LinearOrder K] [IsStrictOrderedRing K]

/-- Splines for the examples: piecewise linear. -/
def midSplines : Splines ℚ := ⟨mids, mids⟩

/-! ## C18: construction -/

/-- C18: well formed nodes and grid are accepted, whatever direction they have, and stored as they
are. -/
theorem axis_accepts_wellformed (spl : Splines K) (name unit : String) (ns gs : List K)
    (h : WellFormedAxis ns gs) :
    ∃ ax, mkAxis spl { name := name, unit := unit, gridNode := some ns, grid := some gs } = .ok ax ∧
      ax.name = name ∧ ax.unit = unit ∧ ax.gridNode = ns ∧ ax.grid = gs ∧
      ValidAxis ax.gridNode ax.grid ax.extent := by
  obtain ⟨e, h1, h2, h3⟩ := mkAxis_wf spl name unit h
  exact ⟨_, h1, rfl, rfl, rfl, rfl, ⟨h, h2, h3⟩⟩

example : WellFormedAxis ([0, 1, 3] : List ℚ) [1 / 2, 2] := by
  rw [wf_iff]; left; simp [Interleave]; norm_num

/-- C18: whenever the construction succeeds, everything given is kept: the nodes, the grid, the
extent (which is the outer nodes) and the number of points. So each contradicting extent or n is
refused. -/
theorem axis_keeps_arguments (spl : Splines K) (a : AxisArgs K) (ax : Axis K)
    (h : mkAxis spl a = .ok ax) :
    (∀ ns, a.gridNode = some ns → ax.gridNode = ns) ∧
    (∀ gs, a.grid = some gs → ax.grid = gs) ∧
    (∀ e, a.extent = some e → ax.extent = e) ∧
    (∀ n, a.n = some n → n = ax.grid.length) ∧
    ax.gridNode.head? = some ax.extent.1 ∧ ax.gridNode.getLast? = some ax.extent.2 := by
  obtain ⟨name, unit, gn, g, ext, n⟩ := a
  unfold mkAxis at h
  simp only [bind, Except.bind, pure, Except.pure, throw, throwThe, MonadExceptOf.throw] at h
  rcases gn with _ | gn <;> rcases g with _ | g <;> rcases ext with _ | ⟨e0, e1⟩ <;>
    rcases n with _ | n <;> simp only at h <;>
    (repeat' split at h) <;> simp_all <;>
    (subst h; simp_all)

example : mkAxis midSplines { grid := some [1, 2, 4], extent := some (0, 5), n := some 3 }
    = .ok ⟨"", "", [0, 3 / 2, 3, 5], [1, 2, 4], (0, 5)⟩ := by decide +kernel

/-- C18: an extent which differs from the outer nodes and a wrong number of points are refused. -/
theorem axis_refuses_contradictions (spl : Splines K) (a : AxisArgs K) (ns gs : List K)
    (hn : a.gridNode = some ns) (hg : a.grid = some gs)
    (hbad : (∃ e, a.extent = some e ∧ (ns.head? ≠ some e.1 ∨ ns.getLast? ≠ some e.2)) ∨
      (∃ n, a.n = some n ∧ n ≠ gs.length)) :
    ∃ e, mkAxis spl a = .error e := by
  cases h : mkAxis spl a with
  | error e => exact ⟨e, rfl⟩
  | ok ax =>
    exfalso
    obtain ⟨h1, h2, h3, h4, h5, h6⟩ := axis_keeps_arguments spl a ax h
    rcases hbad with ⟨e, he, h'⟩ | ⟨n, hn', h'⟩
    · rw [h1 ns hn] at h5 h6
      rw [h3 e he] at h5 h6
      exact h'.elim (fun h => h h5) fun h => h h6
    · have := h4 n hn'
      rw [h2 gs hg] at this
      exact h' this

example : ∃ e, mkAxis midSplines
    { gridNode := some [0, 1, 3], grid := some [1 / 2, 2], n := some 3 } = .error e :=
  axis_refuses_contradictions _ _ [0, 1, 3] [1 / 2, 2] rfl rfl (Or.inr ⟨3, rfl, by simp⟩)

/-- C18: nodes which are not strictly monotone are refused, and so are such grids. -/
theorem axis_refuses_nonmonotone (spl : Splines K) (a : AxisArgs K) (l : List K)
    (ha : a.gridNode = some l ∨ a.grid = some l)
    (h1 : ¬ l.Pairwise (· < ·)) (h2 : ¬ l.Pairwise (· > ·)) :
    mkAxis spl a = .error .valueError := by
  have hm : monotonicity l = 0 := by
    by_contra h
    rcases (monotonicity_ne_zero l).1 h with h | h
    · exact h1 (pairwise_of_mono lt_tr h)
    · exact h2 (pairwise_of_mono gt_tr h)
  obtain ⟨name, unit, gn, g, ext, n⟩ := a
  unfold mkAxis
  simp only [bind, Except.bind, pure, Except.pure, throw, throwThe, MonadExceptOf.throw]
  rcases ha with ha | ha
  · simp only at ha
    subst ha
    simp [hm]
  · simp only at ha
    subst ha
    rcases gn with _ | gn
    · simp [hm]
    · by_cases h0 : monotonicity gn = 0 <;> simp [hm, h0]

example : mkAxis midSplines { grid := some [1, 3, 2] } = .error .valueError :=
  axis_refuses_nonmonotone _ _ [1, 3, 2] (Or.inr rfl) (by norm_num) (by norm_num)

/-- C18, nodes and grid given. Missing: the code does not check that the lengths match, does not
check decreasing nodes, and accepts grid points beyond the right node
(`axis_wellformed_violated`); these are hypotheses here. -/
theorem axis_wellformed_given_partial (spl : Splines K) (a : AxisArgs K) (ns gs : List K)
    (ax : Axis K) (hn : a.gridNode = some ns) (hg : a.grid = some gs) (h : mkAxis spl a = .ok ax)
    (hlen : ns.length = gs.length + 1)
    (hright : ∀ (i : ℕ) (g b : K), gs[i]? = some g → ns[i + 1]? = some b → g < b) :
    ax.gridNode = ns ∧ ax.grid = gs ∧ ValidAxis ns gs ax.extent := by
  obtain ⟨h1, h2, -, -, h5, h6⟩ := axis_keeps_arguments spl a ax h
  have e1 := h1 ns hn
  have e2 := h2 gs hg
  rw [e1] at h5 h6
  refine ⟨e1, e2, ⟨?_, h5, h6⟩⟩
  have hc : checkGrid gs ns = .ok () := by
    obtain ⟨name, unit, gn, g, ext, n⟩ := a
    simp only at hn hg
    subst hn hg
    unfold mkAxis at h
    simp only [bind, Except.bind, pure, Except.pure, throw, throwThe, MonadExceptOf.throw] at h
    cases hc : checkGrid gs ns with
    | ok u => rfl
    | error e =>
      rw [hc] at h
      by_cases m1 : monotonicity ns = 0 <;> by_cases m2 : monotonicity gs = 0 <;>
        simp [m1, m2] at h
  unfold checkGrid at hc
  rw [bcast_eq_len (by simp [hlen]), bcast_eq_len (by simp [hlen])] at hc
  have hr : ((gs.zip ns.tail).all fun p => decide (p.1 < p.2)) = true := by
    rw [List.all_eq_true]
    rintro ⟨g, b⟩ hp
    obtain ⟨i, hi, hp⟩ := List.mem_iff_getElem.1 hp
    simp only [List.getElem_zip, Prod.mk.injEq] at hp
    simp only [decide_eq_true_eq]
    refine hright i g b ?_ ?_
    · rw [← hp.1]; exact List.getElem?_eq_getElem _
    · rw [← hp.2, ← List.getElem?_tail]; exact List.getElem?_eq_getElem _
  simp only [hr, Bool.and_true, Bool.not_eq_true', ite_eq_right_iff, reduceCtorEq, imp_false,
    Bool.not_eq_false] at hc
  refine ⟨hlen, Or.inl ?_⟩
  intro i x g b hx hgi hb
  refine ⟨?_, hright i g b hgi hb⟩
  rw [List.all_eq_true] at hc
  obtain ⟨hi, rfl⟩ := List.getElem?_eq_some_iff.1 hx
  obtain ⟨hi', rfl⟩ := List.getElem?_eq_some_iff.1 hgi
  have := hc (gs[i], ns[i]) (by
    rw [List.mem_iff_getElem]
    refine ⟨i, by simp; omega, by simp⟩)
  simpa using this

example : ∃ ax, mkAxis midSplines { gridNode := some [0, 1, 3], grid := some [1 / 2, 2] } = .ok ax ∧
    ax.grid = [1 / 2, 2] := ⟨⟨"", "", [0, 1, 3], [1 / 2, 2], (0, 3)⟩, by decide +kernel, rfl⟩

/-- C18, only nodes given. For more than three nodes the grid is a spline, for which the code
checks nothing: the hypothesis says that the values of the spline half way between the nodes lie
between the nodes. -/
theorem axis_from_nodes_partial (spl : Splines K) (name unit : String) (ns : List K)
    (hlen : 2 ≤ ns.length) (hmono : ns.Pairwise (· < ·) ∨ ns.Pairwise (· > ·))
    (hspl : 3 < ns.length → WellFormedAxis ns (spl.centers ns)) :
    ∃ ax, mkAxis spl { name := name, unit := unit, gridNode := some ns } = .ok ax ∧
      ax.gridNode = ns ∧ ValidAxis ax.gridNode ax.grid ax.extent := by
  have hne : ns ≠ [] := by rintro rfl; simp at hlen
  have hm : monotonicity ns ≠ 0 := (monotonicity_ne_zero ns).2
    (hmono.imp mono_of_pairwise mono_of_pairwise)
  have hg : ∃ gs, gridOfNodes spl ns = .ok gs ∧ WellFormedAxis ns gs := by
    unfold gridOfNodes
    by_cases h3 : 3 < ns.length
    · rw [if_pos h3]
      exact ⟨_, rfl, hspl h3⟩
    · rw [if_neg h3]
      match ns, hlen with
      | a :: b :: l, _ =>
        refine ⟨_, rfl, ?_⟩
        rw [wf_iff]
        exact hmono.imp (fun h => interleave_mids mid_lt (mono_of_pairwise h) (by simp))
          (fun h => interleave_mids mid_gt (mono_of_pairwise h) (by simp))
  obtain ⟨gs, hg, hwf⟩ := hg
  refine ⟨⟨name, unit, ns, gs, (ns.head hne, ns.getLast hne)⟩, ?_, rfl, ⟨hwf,
    List.head?_eq_some_head hne, List.getLast?_eq_some_getLast hne⟩⟩
  simp [mkAxis, hm, hg, List.head?_eq_some_head hne, List.getLast?_eq_some_getLast hne, bind,
    Except.bind, pure, Except.pure]

example : mkAxis midSplines { gridNode := some [0, 1, 3] } =
    .ok ⟨"", "", [0, 1, 3], [1 / 2, 2], (0, 3)⟩ := by decide +kernel

/-- C18, only the grid given, at least one point. For more than three points the inner nodes are a
spline, for which the code checks nothing: the hypothesis says that they lie between the points. -/
theorem axis_from_grid_partial (spl : Splines K) (name unit : String) (gs : List K)
    (hlen : 1 ≤ gs.length) (hmono : gs.Pairwise (· < ·) ∨ gs.Pairwise (· > ·))
    (hspl : 3 < gs.length → WellFormedAxis gs (spl.inner gs)) :
    ∃ ax, mkAxis spl { name := name, unit := unit, grid := some gs } = .ok ax ∧
      ax.grid = gs ∧ ValidAxis ax.gridNode ax.grid ax.extent := by
  have hm : monotonicity gs ≠ 0 := (monotonicity_ne_zero gs).2
    (hmono.imp mono_of_pairwise mono_of_pairwise)
  have hinner : WellFormedAxis gs (innerNodes spl gs) := by
    unfold innerNodes
    by_cases h3 : 3 < gs.length
    · rw [if_pos h3]; exact hspl h3
    · rw [if_neg h3, wf_iff]
      have hne : gs ≠ [] := by rintro rfl; simp at hlen
      exact hmono.imp (fun h => interleave_mids mid_lt (mono_of_pairwise h) hne)
        (fun h => interleave_mids mid_gt (mono_of_pairwise h) hne)
  have hnodes : ∃ ns, nodesOfGrid spl gs none = .ok ns ∧ WellFormedAxis ns gs := by
    match gs, hlen with
    | g0 :: gs', _ =>
      unfold nodesOfGrid
      simp only
      rw [wf_iff] at hinner
      have hgl : (g0 :: gs').getLast? = some ((g0 :: gs').getLast?.getD g0) := by
        rw [List.getLast?_cons]; rfl
      by_cases h1 : 1 < (g0 :: gs').length
      · rw [if_pos h1]
        refine ⟨_, rfl, ?_⟩
        generalize (g0 :: gs').getLast?.getD g0 = gl at hgl ⊢
        have hil : 1 ≤ (innerNodes spl (g0 :: gs')).length := by
          have := hinner.elim interleave_length interleave_length
          omega
        rw [wf_iff]
        rcases hinner with hi | hi
        · left
          refine interleave_outer hi _ _ g0 gl rfl hgl ?_ ?_
          · have := interleave_head_lt hi hil rfl
            linarith
          · have := interleave_last_lt hi hil hgl
            linarith
        · right
          refine interleave_outer hi _ _ g0 gl rfl hgl ?_ ?_
          · have := interleave_head_lt hi hil rfl
            simp only [gt_iff_lt] at this ⊢
            linarith
          · have := interleave_last_lt hi hil hgl
            simp only [gt_iff_lt] at this ⊢
            linarith
      · rw [if_neg h1]
        refine ⟨_, rfl, ?_⟩
        match gs' with
        | [] =>
          rw [wf_iff]
          left
          have : innerNodes spl [g0] = [] := rfl
          rw [this]
          exact ⟨by norm_num, by norm_num, trivial⟩
        | _ :: _ => simp at h1
  obtain ⟨ns, hns, hwf⟩ := hnodes
  have hne : ns ≠ [] := by rintro rfl; have := hwf.1; simp at this
  refine ⟨⟨name, unit, ns, gs, (ns.head hne, ns.getLast hne)⟩, ?_, rfl, ⟨hwf,
    List.head?_eq_some_head hne, List.getLast?_eq_some_getLast hne⟩⟩
  simp [mkAxis, hm, hns, checkGrid_ok ((wf_iff _ _).1 hwf), List.head?_eq_some_head hne,
    List.getLast?_eq_some_getLast hne, bind, Except.bind, pure, Except.pure]

example : mkAxis midSplines { grid := some [4, 2, 1] } =
    .ok ⟨"", "", [5, 3, 3 / 2, 1 / 2], [4, 2, 1], (5, 1 / 2)⟩ := by decide +kernel

/-- C18, extent and number of points given: a uniform axis. The spline is assumed to reproduce
equally spaced points. -/
theorem axis_from_extent (spl : Splines K) (name unit : String) (e0 e1 : K) (n : ℕ)
    (hn : 1 ≤ n) (he : e0 ≠ e1)
    (hspl : spl.centers (linspace e0 e1 (n + 1)) = mids (linspace e0 e1 (n + 1))) :
    ∃ ax, mkAxis spl { name := name, unit := unit, extent := some (e0, e1), n := some (n : ℤ) }
        = .ok ax ∧ ax.grid.length = n ∧ ax.extent = (e0, e1) ∧
      ValidAxis ax.gridNode ax.grid ax.extent ∧ UniformGrid e0 e1 ax.grid := by
  obtain ⟨m, rfl⟩ : ∃ m, n = m + 1 := ⟨n - 1, by omega⟩
  have hl := linspace_length e0 e1 (m + 1 + 1)
  have hne : linspace e0 e1 (m + 1 + 1) ≠ [] := by
    intro h; rw [h] at hl; simp at hl
  have hmono : Mono (· < ·) (linspace e0 e1 (m + 1 + 1)) ∨
      Mono (· > ·) (linspace e0 e1 (m + 1 + 1)) :=
    (lt_or_gt_of_ne he).imp (mono_linspace_lt _ _ _) (mono_linspace_gt _ _ _)
  have hg : gridOfNodes spl (linspace e0 e1 (m + 1 + 1))
      = .ok (mids (linspace e0 e1 (m + 1 + 1))) := by
    unfold gridOfNodes
    split_ifs with h3
    · rw [hspl]
    · match h : linspace e0 e1 (m + 1 + 1), hl with
      | a :: b :: l, _ => rfl
  have hwf : WellFormedAxis (linspace e0 e1 (m + 1 + 1)) (mids (linspace e0 e1 (m + 1 + 1))) := by
    rw [wf_iff]
    exact hmono.imp (fun h => interleave_mids mid_lt h hne) (fun h => interleave_mids mid_gt h hne)
  have hglen : (mids (linspace e0 e1 (m + 1 + 1))).length = m + 1 := by
    have := hwf.1; omega
  have hh := linspace_head e0 e1 (m + 1)
  have hla := linspace_last e0 e1 (m + 1) (by omega)
  refine ⟨⟨name, unit, linspace e0 e1 (m + 1 + 1), mids (linspace e0 e1 (m + 1 + 1)), (e0, e1)⟩, ?_,
    hglen, rfl, ⟨hwf, hh, hla⟩, ?_⟩
  · have e2 : (((m + 1 : ℕ) : ℤ) + 1).toNat = m + 1 + 1 := by omega
    have e3 : ¬ (((m + 1 : ℕ) : ℤ) + 1 < 0) := by omega
    simp only [mkAxis, bind, Except.bind, pure, Except.pure, if_neg e3, e2, hg, hh, hla, hglen]
    simp
  · exact uniform_mids e0 e1 (m + 1)

example : mkAxis midSplines { extent := some (0, 4), n := some 4 } =
    .ok ⟨"", "", [0, 1, 2, 3, 4], [1 / 2, 3 / 2, 5 / 2, 7 / 2], (0, 4)⟩ := by decide +kernel

/-- C18 is violated. Accepted: a grid point right of all nodes (the lengths do not even match);
a single node which gets two grid points; a reversed grid whose extent is not; an extent without
length, giving four equal points; and a decreasing grid which does not fit its nodes. Refused: a
decreasing grid together with its correct extent. -/
theorem axis_wellformed_violated :
    (∃ ax, mkAxis midSplines { grid := some [10], gridNode := some [0, 1, 2] } = .ok ax ∧
      ax.grid.length + 1 ≠ ax.gridNode.length) ∧
    (∃ ax, mkAxis midSplines { gridNode := some [5] } = .ok ax ∧
      ax.grid = [5 / 2, 5 / 2] ∧ ax.gridNode = [5]) ∧
    (∃ ax, mkAxis midSplines { grid := some [2, 1], extent := some (0, 3) } = .ok ax ∧
      ax.grid = [2, 1] ∧ ax.gridNode = [0, 3 / 2, 3]) ∧
    (∃ ax, mkAxis midSplines { extent := some (1, 1), n := some 4 } = .ok ax ∧
      ax.grid = [1, 1, 1, 1]) ∧
    (∃ ax, mkAxis midSplines { grid := some [8, 7], gridNode := some [2, 1, 0] } = .ok ax) ∧
    mkAxis midSplines { grid := some [2, 1], extent := some (5 / 2, 1 / 2) } = .error .valueError := by
  refine ⟨⟨⟨"", "", [0, 1, 2], [10], (0, 2)⟩, by decide +kernel, by decide⟩,
    ⟨⟨"", "", [5], [5 / 2, 5 / 2], (5, 5)⟩, by decide +kernel, rfl, rfl⟩,
    ⟨⟨"", "", [0, 3 / 2, 3], [2, 1], (0, 3)⟩, by decide +kernel, rfl, rfl⟩,
    ⟨⟨"", "", [1, 1, 1, 1, 1], [1, 1, 1, 1], (1, 1)⟩, by decide +kernel, rfl⟩,
    ⟨⟨"", "", [2, 1, 0], [8, 7], (2, 0)⟩, by decide +kernel⟩, by decide +kernel⟩

/-- C18: reversing an axis succeeds and gives a valid axis with the points in reversed order. -/
theorem axis_reversed_valid (spl : Splines K) (ax : Axis K)
    (hv : ValidAxis ax.gridNode ax.grid ax.extent) :
    ∃ ax', ax.reversed spl = .ok ax' ∧ ax'.grid = ax.grid.reverse ∧
      ax'.gridNode = ax.gridNode.reverse ∧ ax'.extent = (ax.extent.2, ax.extent.1) ∧
      ValidAxis ax'.gridNode ax'.grid ax'.extent := by
  obtain ⟨e, h1, h2, h3⟩ := mkAxis_wf spl ax.name ax.unit (wf_reverse hv.wf)
  refine ⟨_, h1, rfl, rfl, ?_, ⟨wf_reverse hv.wf, h2, h3⟩⟩
  rw [List.head?_reverse, hv.last] at h2
  rw [List.getLast?_reverse, hv.first] at h3
  simp at h2 h3
  rw [h2, h3]

example : (⟨"", "", [0, 1, 3], [1 / 2, 2], (0, 3)⟩ : Axis ℚ).reversed midSplines =
    .ok ⟨"", "", [3, 1, 0], [2, 1 / 2], (3, 0)⟩ := by decide +kernel

/-- C18: halving the resolution of a valid axis succeeds and gives a valid axis. -/
theorem axis_half_resolution_valid (spl : Splines K) (ax : Axis K)
    (hv : ValidAxis ax.gridNode ax.grid ax.extent) :
    ∃ ax', ax.halfResolution spl = .ok ax' ∧ ax'.grid.length = ax.grid.length / 2 ∧
      ValidAxis ax'.gridNode ax'.grid ax'.extent := by
  obtain ⟨e, h1, h2, h3⟩ := mkAxis_wf spl ax.name ax.unit (wf_half hv.wf)
  refine ⟨_, h1, ?_, ⟨wf_half hv.wf, h2, h3⟩⟩
  simp only [List.length_zipWith, evens_length, List.length_dropLast, List.length_tail]
  omega

example : (⟨"", "", [0, 1, 3, 4], [1 / 2, 2, 7 / 2], (0, 4)⟩ : Axis ℚ).halfResolution midSplines =
    .ok ⟨"", "", [0, 3], [5 / 4], (0, 3)⟩ := by decide +kernel

/-! ## C19: looking up coordinates -/

/-- C19: the index found belongs to a grid point than which no other is closer to the value, on
increasing and decreasing axes. -/
theorem nearest_index (ax : Axis K) (hv : ValidAxis ax.gridNode ax.grid ax.extent)
    (hne : ax.grid ≠ []) (v : K) :
    ∃ (i : ℕ) (g : K), ax.findNearestIndex v = .ok i ∧ ax.grid[i]? = some g ∧
      ∀ (j : ℕ) (g' : K), ax.grid[j]? = some g' → |v - g| ≤ |v - g'| :=
  nearest_correct hv hne v

example : (⟨"", "", [3, 1, 0], [2, 1 / 2], (3, 0)⟩ : Axis ℚ).findNearestIndex (13 / 10) = .ok 0 := by
  decide +kernel

/-- C19: on a uniform axis the fractional index of the i-th grid point is i. -/
theorem value_to_index_grid (ax : Axis K) (hu : UniformGrid ax.extent.1 ax.extent.2 ax.grid)
    (he : ax.extent.1 ≠ ax.extent.2) (i : ℕ) (g : K) (hg : ax.grid[i]? = some g) :
    ax.valueToIndexLinear g = i := by
  have hi : 0 < ax.grid.length := by
    obtain ⟨h, -⟩ := List.getElem?_eq_some_iff.1 hg
    omega
  have hn : (ax.grid.length : K) ≠ 0 := by exact_mod_cast hi.ne'
  have hd : ax.extent.2 - ax.extent.1 ≠ 0 := sub_ne_zero.2 he.symm
  rw [hu i g hg]
  unfold Axis.valueToIndexLinear Axis.len
  field_simp
  ring

example : (⟨"", "", [3, 2, 1], [5 / 2, 3 / 2], (3, 1)⟩ : Axis ℚ).valueToIndexLinear (3 / 2) = 1 := by
  decide +kernel

/-- The distance of two fractional indices. -/
theorem value_to_index_sub (ax : Axis K) (v w : K) :
    ax.valueToIndexLinear v - ax.valueToIndexLinear w
      = (v - w) * (ax.grid.length / (ax.extent.2 - ax.extent.1)) := by
  unfold Axis.valueToIndexLinear Axis.len
  ring

/-- C19: on a uniform axis, for a value inside the extent, the nearest index differs from the
fractional index by at most one half; unless the value is exactly half way between two points, it
is the rounded fractional index. -/
theorem nearest_index_is_rounded_partial [FloorRing K] (ax : Axis K)
    (hv : ValidAxis ax.gridNode ax.grid ax.extent)
    (hu : UniformGrid ax.extent.1 ax.extent.2 ax.grid) (hne : ax.grid ≠ []) (v : K)
    (hin : min ax.extent.1 ax.extent.2 ≤ v ∧ v ≤ max ax.extent.1 ax.extent.2) :
    ∃ i : ℕ, ax.findNearestIndex v = .ok i ∧ |ax.valueToIndexLinear v - i| ≤ 1 / 2 ∧
      (|ax.valueToIndexLinear v - i| ≠ 1 / 2 → round (ax.valueToIndexLinear v) = i) := by
  have hpos : 0 < ax.grid.length := List.length_pos_iff.2 hne
  have hnpos : (0 : K) < ax.grid.length := by exact_mod_cast hpos
  have he : ax.extent.1 ≠ ax.extent.2 := by
    have hl := hv.wf.1
    rcases (wf_iff _ _).1 hv.wf with h | h
    · exact (head_last_mono lt_tr (interleave_mono_nodes lt_tr h) (by omega) hv.first hv.last).ne
    · exact (head_last_mono gt_tr (interleave_mono_nodes gt_tr h) (by omega) hv.first hv.last).ne'
  obtain ⟨i, g, h1, h2, h3⟩ := nearest_correct hv hne v
  have hvi := value_to_index_grid ax hu he
  -- the fractional index lies between -1/2 and n - 1/2
  have hd : ax.extent.2 - ax.extent.1 ≠ 0 := sub_ne_zero.2 he.symm
  have hfrac : 0 ≤ (v - ax.extent.1) / (ax.extent.2 - ax.extent.1) ∧
      (v - ax.extent.1) / (ax.extent.2 - ax.extent.1) ≤ 1 := by
    rcases lt_or_gt_of_ne he with h | h
    · rw [min_eq_left h.le, max_eq_right h.le] at hin
      have : 0 < ax.extent.2 - ax.extent.1 := by linarith
      exact ⟨div_nonneg (by linarith) this.le, (div_le_one this).2 (by linarith)⟩
    · rw [min_eq_right h.le, max_eq_left h.le] at hin
      have : ax.extent.2 - ax.extent.1 < 0 := by linarith
      exact ⟨div_nonneg_of_nonpos (by linarith) this.le,
        (div_le_one_of_neg this).2 (by linarith)⟩
  have hlo : -(1 / 2) ≤ ax.valueToIndexLinear v := by
    unfold Axis.valueToIndexLinear Axis.len
    have := mul_nonneg hfrac.1 hnpos.le
    linarith
  have hhi : ax.valueToIndexLinear v ≤ ax.grid.length - 1 / 2 := by
    unfold Axis.valueToIndexLinear Axis.len
    have := mul_le_mul_of_nonneg_right hfrac.2 hnpos.le
    linarith
  -- some grid point is within half a cell
  obtain ⟨j, hj, hjd⟩ : ∃ j : ℕ, j < ax.grid.length ∧ |ax.valueToIndexLinear v - j| ≤ 1 / 2 := by
    by_cases hlast : (ax.grid.length : K) - 1 ≤ ax.valueToIndexLinear v
    · refine ⟨ax.grid.length - 1, by omega, ?_⟩
      rw [Nat.cast_sub hpos, abs_le]
      push_cast
      constructor <;> linarith
    · push Not at hlast
      have hf0 : 0 ≤ ⌊ax.valueToIndexLinear v + 1 / 2⌋ := Int.floor_nonneg.2 (by linarith)
      obtain ⟨m, hm⟩ := Int.eq_ofNat_of_zero_le hf0
      have hfl := Int.floor_le (ax.valueToIndexLinear v + 1 / 2)
      have hlt := Int.lt_floor_add_one (ax.valueToIndexLinear v + 1 / 2)
      rw [hm] at hfl hlt
      simp only [Int.cast_natCast] at hfl hlt
      refine ⟨m, ?_, by rw [abs_le]; constructor <;> linarith⟩
      have : (m : K) < ax.grid.length := by linarith
      exact_mod_cast this
  have hgj := List.getElem?_eq_getElem hj
  have hclose := h3 j _ hgj
  have hle : |ax.valueToIndexLinear v - i| ≤ 1 / 2 := by
    refine le_trans ?_ hjd
    rw [← hvi i g h2, ← hvi j _ hgj, value_to_index_sub, value_to_index_sub, abs_mul, abs_mul]
    exact mul_le_mul_of_nonneg_right hclose (abs_nonneg _)
  refine ⟨i, h1, hle, ?_⟩
  intro hneq
  have hlt := lt_of_le_of_ne hle hneq
  rw [abs_lt] at hlt
  rw [round_eq, Int.floor_eq_iff]
  push_cast
  constructor <;> linarith

example : (⟨"", "", [3, 2, 1], [5 / 2, 3 / 2], (3, 1)⟩ : Axis ℚ).valueToIndexLinear (17 / 10)
      = 4 / 5 ∧
    (⟨"", "", [3, 2, 1], [5 / 2, 3 / 2], (3, 1)⟩ : Axis ℚ).findNearestIndex (17 / 10) = .ok 1 := by
  decide +kernel

/-- C19 is violated for values half way between two points (`np.round` rounds 1/2 to 0), and for
axes of two points with cells of different size, which are always treated as linear. -/
theorem nearest_index_is_rounded_violated :
    ((⟨"", "", [0, 1, 2], [1 / 2, 3 / 2], (0, 2)⟩ : Axis ℚ).findNearestIndex 1 = .ok 1 ∧
      (⟨"", "", [0, 1, 2], [1 / 2, 3 / 2], (0, 2)⟩ : Axis ℚ).valueToIndexLinear 1 = 1 / 2) ∧
    (mkAxis midSplines { gridNode := some [0, 1, 10] }
        = .ok ⟨"", "", [0, 1, 10], [1 / 2, 11 / 2], (0, 10)⟩ ∧
      (⟨"", "", [0, 1, 10], [1 / 2, 11 / 2], (0, 10)⟩ : Axis ℚ).isLinear = true ∧
      (⟨"", "", [0, 1, 10], [1 / 2, 11 / 2], (0, 10)⟩ : Axis ℚ).findNearestIndex 4 = .ok 1 ∧
      (⟨"", "", [0, 1, 10], [1 / 2, 11 / 2], (0, 10)⟩ : Axis ℚ).valueToIndexLinear 4 = 3 / 10) := by
  decide +kernel

/-! ## C21: integer slices -/

/-- C21 for slices with step 1 or None which start at None or a non-negative number, stop at None,
a positive or a negative number, and contain at least one point: the grid is the python slice, the
nodes are the surrounding nodes (`k` is the position of the first point in the original axis), the
result is a valid axis. Missing: negative starts, step -1, stop 0 (`axis_slice_violated`). -/
theorem axis_slice_partial (spl : Splines K) (ax : Axis K)
    (hv : ValidAxis ax.gridNode ax.grid ax.extent) (start stop : Option ℤ)
    (hstart : ∀ i, start = some i → 0 ≤ i) (hstop : stop ≠ some 0)
    (hne : sliceFwd ax.grid start stop ≠ []) :
    ∃ ax', ax.getSlice spl ⟨start, stop, false⟩ = .ok ax' ∧
      ax'.name = ax.name ∧ ax'.unit = ax.unit ∧
      ax'.grid = sliceFwd ax.grid start stop ∧
      (∃ k, IsPart ax.grid k ax'.grid ∧ IsPart ax.gridNode k ax'.gridNode) ∧
      ValidAxis ax'.gridNode ax'.grid ax'.extent := by
  obtain ⟨s, t, hst, ht, hgrid, hnodes⟩ := slice_both ax hv.wf.1 start stop hstart hstop hne
  have hwf : WellFormedAxis ((ax.gridNode.take (t + 1)).drop s) ((ax.grid.take t).drop s) := by
    have := hv.wf
    rw [wf_iff] at this ⊢
    exact this.imp (fun h => interleave_slice h s t hst ht) (fun h => interleave_slice h s t hst ht)
  obtain ⟨e, h1, h2, h3⟩ := mkAxis_wf spl ax.name ax.unit hwf
  have hap : Slice.apply ⟨start, stop, false⟩ ax.grid = sliceFwd ax.grid start stop := rfl
  refine ⟨⟨ax.name, ax.unit, (ax.gridNode.take (t + 1)).drop s, (ax.grid.take t).drop s, e⟩, ?_,
    rfl, rfl, hgrid.symm, ⟨s, ?_, ?_⟩, ⟨hwf, h2, h3⟩⟩
  · unfold Axis.getSlice
    rw [hap, hgrid, hnodes]
    exact h1
  · exact isPart_take_drop _ _ _
  · exact isPart_take_drop _ _ _

example : (⟨"x", "m", [0, 1, 3, 4], [1 / 2, 2, 7 / 2], (0, 4)⟩ : Axis ℚ).getSlice midSplines
    ⟨some 1, none, false⟩ = .ok ⟨"x", "m", [1, 3, 4], [2, 7 / 2], (1, 4)⟩ := by decide +kernel

/-- C21 is violated: `[-1:]` gives an axis with one point and one node, `[-2:]` is refused,
`[::-1]` gives a reversed grid with nodes which are not, and `[0:0]` raises an IndexError. -/
theorem axis_slice_violated :
    (⟨"", "", [0, 1, 2, 3], [1 / 2, 3 / 2, 5 / 2], (0, 3)⟩ : Axis ℚ).getSlice midSplines
      ⟨some (-1), none, false⟩ = .ok ⟨"", "", [3], [5 / 2], (3, 3)⟩ ∧
    (⟨"", "", [0, 1, 2, 3], [1 / 2, 3 / 2, 5 / 2], (0, 3)⟩ : Axis ℚ).getSlice midSplines
      ⟨some (-2), none, false⟩ = .error .valueError ∧
    (⟨"", "", [0, 1, 2, 3], [1 / 2, 3 / 2, 5 / 2], (0, 3)⟩ : Axis ℚ).getSlice midSplines
      ⟨none, none, true⟩ = .ok ⟨"", "", [0, 1, 2, 3], [5 / 2, 3 / 2, 1 / 2], (0, 3)⟩ ∧
    (⟨"", "", [0, 1, 2, 3], [1 / 2, 3 / 2, 5 / 2], (0, 3)⟩ : Axis ℚ).getSlice midSplines
      ⟨some 0, some 0, false⟩ = .error .indexError := by
  decide +kernel

/-! ## C20: slices given by coordinates -/

/-- C20 on an increasing axis with a ≤ b, at least one of them inside the extent: the slice keeps
exactly the grid points with a ≤ x < b; missing limits are the limits of the axis. If there is
such a point, the result is a valid axis with exactly these points and the surrounding nodes. -/
theorem range_keeps_exactly_partial (spl : Splines K) (ax : Axis K)
    (hv : ValidAxis ax.gridNode ax.grid ax.extent) (hinc : ax.extent.1 < ax.extent.2)
    (a b : Option K) (hab : a.getD ax.extent.1 ≤ b.getD ax.extent.2)
    (hin : (ax.extent.1 ≤ a.getD ax.extent.1 ∧ a.getD ax.extent.1 ≤ ax.extent.2) ∨
      (ax.extent.1 ≤ b.getD ax.extent.2 ∧ b.getD ax.extent.2 ≤ ax.extent.2)) :
    (∃ s, ax.extentToSlice a b = .ok s ∧ s.apply ax.grid
      = ax.grid.filter fun x => decide (a.getD ax.extent.1 ≤ x ∧ x < b.getD ax.extent.2)) ∧
    ((∃ x ∈ ax.grid, a.getD ax.extent.1 ≤ x ∧ x < b.getD ax.extent.2) →
      ∃ ax', ax.getRange spl a b = .ok ax' ∧
        ax'.grid = (ax.grid.filter fun x =>
          decide (a.getD ax.extent.1 ≤ x ∧ x < b.getD ax.extent.2)) ∧
        (∃ k, IsPart ax.grid k ax'.grid ∧ IsPart ax.gridNode k ax'.gridNode) ∧
        ValidAxis ax'.gridNode ax'.grid ax'.extent) := by
  have hi : Interleave (· < ·) ax.gridNode ax.grid := by
    rcases (wf_iff _ _).1 hv.wf with h | h
    · exact h
    · exfalso
      by_cases h2 : 2 ≤ ax.gridNode.length
      · have := head_last_mono gt_tr (interleave_mono_nodes gt_tr h) h2 hv.first hv.last
        exact absurd hinc (not_lt.2 (le_of_lt this))
      · have hl := interleave_length h
        have : ax.gridNode.length = 1 := by omega
        have hf := hv.first
        have hla := hv.last
        rw [List.length_eq_one_iff] at this
        obtain ⟨x, hx⟩ := this
        rw [hx] at hf hla
        simp at hf hla
        rw [← hf, ← hla] at hinc
        exact lt_irrefl _ hinc
  have hp := pairwise_of_mono lt_tr (interleave_mono_grid lt_tr hi)
  have hs := extentToSlice_ok ax a b
    (by simpa [min_eq_left hinc.le, max_eq_right hinc.le] using hin) _ _
    (search_inc hv hi _) (search_inc hv hi _)
    (by rw [isReversed_of_inc hv hi, decide_eq_false (not_lt.2 hab)]; rfl)
  refine range_of_slice spl ax hv a b (fun x => decide (x < a.getD ax.extent.1))
    (fun x => decide (x < b.getD ax.extent.2)) _ hs ?_ ?_ ?_
  · exact hp.imp fun hab h => by simp at h ⊢; linarith
  · exact hp.imp fun hab h => by simp at h ⊢; linarith
  · intro x; rw [Bool.decide_and, ← decide_not]; simp only [not_lt]

example : (⟨"", "", [0, 1, 2, 3], [1 / 2, 3 / 2, 5 / 2], (0, 3)⟩ : Axis ℚ).getRange midSplines
    (some (1 / 2)) (some 2) = .ok ⟨"", "", [0, 1, 2], [1 / 2, 3 / 2], (0, 2)⟩ := by decide +kernel

/-- C20 on a decreasing axis with a ≥ b: the slice keeps exactly the points with a ≥ x > b (the
limit given first is included, the second one is not). -/
theorem range_keeps_exactly_reversed_partial (spl : Splines K) (ax : Axis K)
    (hv : ValidAxis ax.gridNode ax.grid ax.extent) (hdec : ax.extent.2 < ax.extent.1)
    (a b : Option K) (hab : b.getD ax.extent.2 < a.getD ax.extent.1)
    (hin : (ax.extent.2 ≤ a.getD ax.extent.1 ∧ a.getD ax.extent.1 ≤ ax.extent.1) ∨
      (ax.extent.2 ≤ b.getD ax.extent.2 ∧ b.getD ax.extent.2 ≤ ax.extent.1)) :
    (∃ s, ax.extentToSlice a b = .ok s ∧ s.apply ax.grid
      = ax.grid.filter fun x => decide (x ≤ a.getD ax.extent.1 ∧ b.getD ax.extent.2 < x)) ∧
    ((∃ x ∈ ax.grid, x ≤ a.getD ax.extent.1 ∧ b.getD ax.extent.2 < x) →
      ∃ ax', ax.getRange spl a b = .ok ax' ∧
        ax'.grid = (ax.grid.filter fun x =>
          decide (x ≤ a.getD ax.extent.1 ∧ b.getD ax.extent.2 < x)) ∧
        (∃ k, IsPart ax.grid k ax'.grid ∧ IsPart ax.gridNode k ax'.gridNode) ∧
        ValidAxis ax'.gridNode ax'.grid ax'.extent) := by
  by_cases hne : ax.grid = []
  · exfalso
    have hl := hv.wf.1
    rw [hne] at hl
    have hf := hv.first
    have hla := hv.last
    simp at hl
    rw [List.length_eq_one_iff] at hl
    obtain ⟨x, hx⟩ := hl
    rw [hx] at hf hla
    simp at hf hla
    rw [← hf, ← hla] at hdec
    exact lt_irrefl _ hdec
  have hlen : 0 < ax.grid.length := List.length_pos_iff.2 hne
  have hi : Interleave (· > ·) ax.gridNode ax.grid := by
    rcases (wf_iff _ _).1 hv.wf with h | h
    · exfalso
      have hl := interleave_length h
      have := head_last_mono lt_tr (interleave_mono_nodes lt_tr h) (by omega) hv.first hv.last
      exact absurd hdec (not_lt.2 (le_of_lt this))
    · exact h
  have hp := pairwise_of_mono gt_tr (interleave_mono_grid gt_tr hi)
  have hs := extentToSlice_ok ax a b
    (by simpa [min_eq_right hdec.le, max_eq_left hdec.le] using hin) _ _
    (search_dec hv hi _ hne) (search_dec hv hi _ hne)
    (by rw [isReversed_of_dec hv hi hne, decide_eq_true hab]; rfl)
  refine range_of_slice spl ax hv a b (fun x => decide (a.getD ax.extent.1 < x))
    (fun x => decide (b.getD ax.extent.2 < x)) _ hs ?_ ?_ ?_
  · exact hp.imp fun hab h => by simp at h hab ⊢; linarith
  · exact hp.imp fun hab h => by simp at h hab ⊢; linarith
  · intro x; rw [Bool.decide_and, ← decide_not]; simp only [not_lt]

example : (⟨"", "", [3, 2, 1, 0], [5 / 2, 3 / 2, 1 / 2], (3, 0)⟩ : Axis ℚ).getRange midSplines
    (some (5 / 2)) (some 1) = .ok ⟨"", "", [3, 2, 1], [5 / 2, 3 / 2], (3, 1)⟩ := by decide +kernel

/-- C20: a range with both limits on the same side of the axis (more generally with both limits
outside) is refused. -/
theorem range_outside_refused (spl : Splines K) (ax : Axis K) (a b : K)
    (h : (a < min ax.extent.1 ax.extent.2 ∨ max ax.extent.1 ax.extent.2 < a) ∧
      (b < min ax.extent.1 ax.extent.2 ∨ max ax.extent.1 ax.extent.2 < b)) :
    ax.extentToSlice (some a) (some b) = .error .valueError ∧
    ax.getRange spl (some a) (some b) = .error .valueError := by
  have ha : ax.insideDomain a = false := by
    unfold Axis.insideDomain
    rw [decide_eq_false_iff_not]
    rintro ⟨h1, h2⟩
    exact h.1.elim (fun h => absurd h1 (not_le.2 h)) (fun h => absurd h2 (not_le.2 h))
  have hb : ax.insideDomain b = false := by
    unfold Axis.insideDomain
    rw [decide_eq_false_iff_not]
    rintro ⟨h1, h2⟩
    exact h.2.elim (fun h => absurd h1 (not_le.2 h)) (fun h => absurd h2 (not_le.2 h))
  have : ax.extentToSlice (some a) (some b) = .error .valueError := by
    unfold Axis.extentToSlice
    simp [ha, hb, bind, Except.bind, throw, throwThe, MonadExceptOf.throw]
  refine ⟨this, ?_⟩
  unfold Axis.getRange
  rw [this]
  rfl

example : (⟨"", "", [0, 1, 2], [1 / 2, 3 / 2], (0, 2)⟩ : Axis ℚ).getRange midSplines
    (some 3) (some 4) = .error .valueError := by decide +kernel

/-- C20 is violated: a range which covers the whole axis is refused; a range given against the
direction of the axis keeps wrong points (from 3.2 to 1.0 it keeps 7/2 and 5/2 instead of
5/2 and 3/2), and cutting an axis this way raises. -/
theorem range_keeps_exactly_violated :
    (⟨"", "", [0, 1, 2], [1 / 2, 3 / 2], (0, 2)⟩ : Axis ℚ).getRange midSplines
      (some (-1)) (some 3) = .error .valueError ∧
    (⟨"", "", [0, 1, 2, 3, 4], [1 / 2, 3 / 2, 5 / 2, 7 / 2], (0, 4)⟩ : Axis ℚ).extentToSlice
      (some (16 / 5)) (some 1) = .ok ⟨some 3, some 1, true⟩ ∧
    (⟨some 3, some 1, true⟩ : Slice).apply ([1 / 2, 3 / 2, 5 / 2, 7 / 2] : List ℚ)
      = [7 / 2, 5 / 2] ∧
    (⟨"", "", [0, 1, 2, 3, 4], [1 / 2, 3 / 2, 5 / 2, 7 / 2], (0, 4)⟩ : Axis ℚ).getRange midSplines
      (some (16 / 5)) (some 1) = .error .valueError := by
  decide +kernel

/-! ### The theorems applied -/

theorem wf_sample : WellFormedAxis ([0, 1, 3] : List ℚ) [1 / 2, 2] := by
  rw [wf_iff]; left; simp [Interleave]; norm_num

theorem valid_sample : ValidAxis ([0, 1, 2, 3] : List ℚ) [1 / 2, 3 / 2, 5 / 2] (0, 3) := by
  refine ⟨?_, by simp, by simp⟩
  rw [wf_iff]; left; simp [Interleave]; norm_num

example := axis_accepts_wellformed midSplines "x" "m" _ _ wf_sample
example := axis_keeps_arguments midSplines { grid := some [1, 2, 4], extent := some (0, 5), n := some 3 }
  ⟨"", "", [0, 3 / 2, 3, 5], [1, 2, 4], (0, 5)⟩ (by decide +kernel)
example := axis_wellformed_given_partial midSplines { gridNode := some [0, 1, 3], grid := some [1 / 2, 2] } _ _
  ⟨"", "", [0, 1, 3], [1 / 2, 2], (0, 3)⟩ rfl rfl (by decide +kernel) rfl (by
    intro i g b
    rcases i with _ | _ | i
    · rintro ⟨⟩ ⟨⟩; norm_num
    · rintro ⟨⟩ ⟨⟩; norm_num
    · simp)
example := axis_from_nodes_partial midSplines "x" "m" [0, 1, 3] (by decide) (.inl (by decide +kernel)) (fun h => absurd h (by decide))
example := axis_from_grid_partial midSplines "x" "m" [4, 2, 1] (by decide) (.inr (by decide +kernel)) (fun h => absurd h (by decide))
example := axis_from_extent midSplines "x" "m" 0 4 4 (by decide) (by norm_num) rfl

/-- A uniform axis. -/
def axisSample : Axis ℚ := ⟨"x", "m", [0, 1, 2, 3], [1 / 2, 3 / 2, 5 / 2], (0, 3)⟩

/-- The same axis in the other direction. -/
def axisDown : Axis ℚ := ⟨"x", "m", [3, 2, 1, 0], [5 / 2, 3 / 2, 1 / 2], (3, 0)⟩

theorem valid_down : ValidAxis axisDown.gridNode axisDown.grid axisDown.extent := by
  refine ⟨?_, by simp [axisDown], by simp [axisDown]⟩
  rw [wf_iff]; right; simp [axisDown, Interleave]; norm_num

theorem uniform_sample : UniformGrid axisSample.extent.1 axisSample.extent.2 axisSample.grid := by
  intro i g
  rcases i with _ | _ | _ | i
  · rintro ⟨⟩; simp [axisSample]
  · rintro ⟨⟩; simp [axisSample]; norm_num
  · rintro ⟨⟩; simp [axisSample]; norm_num
  · simp [axisSample]

example := axis_reversed_valid midSplines axisSample valid_sample
example := axis_half_resolution_valid midSplines axisSample valid_sample
example := nearest_index axisSample valid_sample (by decide) (7 / 5)
example := value_to_index_grid axisSample uniform_sample (by decide +kernel) 1 (3 / 2) rfl
example := nearest_index_is_rounded_partial axisSample valid_sample uniform_sample (by decide) (7 / 5) (by decide +kernel)
example := axis_slice_partial midSplines axisSample valid_sample (some 1) (some (-1)) (by simp) (by decide) (by decide +kernel)
example := range_keeps_exactly_partial midSplines axisSample valid_sample (by decide +kernel) (some 1) none (by decide +kernel)
  (.inl (by decide +kernel))
example := range_keeps_exactly_reversed_partial midSplines axisDown valid_down (by decide +kernel) (some 2) none (by decide +kernel)
  (.inl (by decide +kernel))
example := range_outside_refused midSplines axisSample 4 5 (by decide +kernel)

end Postpic.Props
