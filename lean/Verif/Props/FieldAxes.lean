import Mathlib.Algebra.Order.Ring.Rat
import Mathlib.Data.Rat.Floor
import Mathlib.Algebra.Module.Rat
import Verif.Model.FieldOps
import Verif.Lemmas.FieldNodes
import Verif.Props.Axis

/-!
# Axes describe the data after any sequence of operations
-/

set_option autoImplicit false
set_option linter.unusedSectionVars false

namespace Postpic.Props

open Postpic Postpic.Axes Postpic.Fields Postpic.Spec

section
variable {K V : Type} [_root_.Field K] [LinearOrder K] [FloorRing K] [AddCommGroup V] [Module K V]

/-- C22: a field made with given axes has axes describing its data (else the constructor
refuses). -/
theorem axes_describe_new (m : Arr V) (name unit : String) (axes : List (Axis K)) (f : Field K V)
    (h : mkField m name unit axes (m.shape.map fun _ => some false) (m.shape.map fun _ => none)
      = .ok f) :
    AxesDescribe f.shape (f.axes.map Axis.len) f.ats.length f.tao.length := by
  obtain ⟨-, h1⟩ := mkField_ok h
  have : axes.length = m.shape.length := by rw [← h1]; simp
  exact mkField_Ok h (by simp [this]) (by simp [this])

/-- C22: the axes of a field made without axes describe the data, if there is data and at most
three dimensions. -/
theorem axes_describe_new_default_partial (spl : Splines K) (m : Arr V) (f : Field K V)
    (h3 : m.shape.length ≤ 3) (h0 : 0 ∉ m.shape) (h : mkFieldDefault spl m = .ok f) :
    AxesDescribe f.shape (f.axes.map Axis.len) f.ats.length f.tao.length := by
  obtain ⟨axes, h1, h⟩ := bind_ok h
  cases h
  unfold defaultAxes at h1
  simp only [if_neg h0] at h1
  have h1 := mapM_ok h1
  refine ⟨?_, by simp [Field.shape], by simp [Field.shape]⟩
  have hl := h1.length_eq
  simp only [List.length_zip, List.length_take, List.length_cons, List.length_nil] at hl
  apply List.ext_getElem
  · simp [Field.shape]; omega
  · intro i hi1 hi2
    simp only [List.length_map] at hi1
    have h2 := (List.forall₂_iff_get.1 h1).2 i (by rw [h1.length_eq]; exact hi1) hi1
    simp only [List.get_eq_getElem, List.getElem_zip] at h2
    have h4 := (mkAxis_extent_nodes h2).2.1
    simp only [List.getElem_map, Field.shape]
    exact_mod_cast h4

/-- C22: after any sequence of operations without `pad` the axes describe the data. Partial,
because `pad` is missing here; it is in the next theorem. -/
theorem axes_describe_data_partial (spl : Splines K) (ops : List (Op K V)) (f r : Field K V)
    (hf : AxesDescribe f.shape (f.axes.map Axis.len) f.ats.length f.tao.length)
    (hpad : ∀ w c, Op.pad w c ∉ ops) (h : run spl ops f = .ok r) :
    AxesDescribe r.shape (r.axes.map Axis.len) r.ats.length r.tao.length := by
  induction ops generalizing f with
  | nil => cases h; exact hf
  | cons op ops ih =>
    obtain ⟨x, hx, h⟩ := bind_ok h
    refine ih x ?_ (fun w c hc => hpad w c (List.mem_cons_of_mem _ hc)) h
    clear h ih
    cases op <;> simp only [Op.apply] at hx
    case number => exact binaryNumber_Ok hf hx
    case array => exact binaryArray_Ok hf hx
    case binary => exact binary_Ok hx
    case getitem => exact getitem_Ok hf hx
    case squeeze => exact squeeze_Ok hf hx
    case atleastNd => exact atleastNd_Ok hf hx
    case transpose => exact transpose_Ok hf hx
    case swapaxes => exact swapaxes_Ok hf hx
    case flip => exact flip_Ok hf hx
    case rot90 => exact rot90_Ok hf hx
    case reduce => exact reduce_Ok hf hx
    case integrateConstant => exact integrateConstant_Ok hf hx
    case integrateFast => exact integrateFast_Ok hf hx
    case halfResolution => exact halfResolution_Ok hf hx
    case autoreduce m fuel =>
      split at hx
      · rename_i y hy
        subst hx
        exact autoreduce_Ok hf hy
      · cases hx
    case derivative => exact derivativeStagger_Ok hf hx
    case replaceData => exact replaceData_Ok hf hx
    case pad w c => exact absurd (by simp) (hpad w c)

/-- Every axis of a field has one more node than points. -/
def NodesDescribe (f : Field K V) : Prop :=
  ∀ ax ∈ f.axes, ax.gridNode.length = ax.grid.length + 1

/-- Integer slices have step 1 and do not start with a negative number; operands are fields whose
axes are in order. -/
def SafeOp : Op K V → Prop
  | .getitem key => ∀ k ∈ key, ∀ s, k = .slice s →
      s.backward = false ∧ ∀ i, s.start = some i → 0 ≤ i
  | .binary _ h => AxesDescribe h.shape (h.axes.map Axis.len) h.ats.length h.tao.length ∧
      NodesDescribe h
  | _ => True

/-- C22: after any sequence of operations, `pad` included, the axes describe the data and have one
more node than points, if the splines return as many values as the code expects. Partial, because
slices of integers going backwards or starting with a negative number are excluded: they can leave
an axis with the wrong number of nodes (C20), on which `pad` relies. -/
theorem axes_describe_data_pad_partial (spl : Splines K)
    (hspl : ∀ g, (spl.inner g).length + 1 = g.length) (ops : List (Op K V)) (f r : Field K V)
    (hf : AxesDescribe f.shape (f.axes.map Axis.len) f.ats.length f.tao.length)
    (hn : NodesDescribe f) (hops : ∀ op ∈ ops, SafeOp op) (h : run spl ops f = .ok r) :
    AxesDescribe r.shape (r.axes.map Axis.len) r.ats.length r.tao.length ∧ NodesDescribe r := by
  induction ops generalizing f with
  | nil => cases h; exact ⟨hf, hn⟩
  | cons op ops ih =>
    obtain ⟨x, hx, h⟩ := bind_ok h
    have hop := hops op (by simp)
    have key : AxesDescribe x.shape (x.axes.map Axis.len) x.ats.length x.tao.length ∧
        NodesDescribe x := by
      clear h ih hops
      cases op <;> simp only [Op.apply] at hx
      case number => exact ⟨binaryNumber_Ok hf hx, binaryNumber_nodes hn hx⟩
      case array => exact ⟨binaryArray_Ok hf hx, binaryArray_nodes hn hx⟩
      case binary => exact ⟨binary_Ok hx, binary_nodes hn hop.2 hx⟩
      case getitem key =>
        refine ⟨getitem_Ok hf hx, getitem_nodes hn ?_ hx⟩
        intro k hk
        cases k with
        | slice s => exact hop _ hk s rfl
        | int => trivial
        | coord => trivial
        | range => trivial
      case squeeze => exact ⟨squeeze_Ok hf hx, squeeze_nodes hn hx⟩
      case atleastNd => exact ⟨atleastNd_Ok hf hx, atleastNd_nodes hn hx⟩
      case transpose => exact ⟨transpose_Ok hf hx, transpose_nodes hf hn hx⟩
      case swapaxes => exact ⟨swapaxes_Ok hf hx, swapaxes_nodes hf hn hx⟩
      case flip => exact ⟨flip_Ok hf hx, flip_nodes hn hx⟩
      case rot90 => exact ⟨rot90_Ok hf hx, rot90_nodes hf hn hx⟩
      case reduce => exact ⟨reduce_Ok hf hx, reduce_nodes hn hx⟩
      case integrateConstant => exact ⟨integrateConstant_Ok hf hx, integrateConstant_nodes hn hx⟩
      case integrateFast => exact ⟨integrateFast_Ok hf hx, integrateFast_nodes hf hn hx⟩
      case halfResolution => exact ⟨halfResolution_Ok hf hx, halfResolution_nodes hn hx⟩
      case autoreduce m fuel =>
        split at hx
        · rename_i y hy
          subst hx
          exact ⟨autoreduce_Ok hf hy, autoreduce_nodes hn hy⟩
        · cases hx
      case derivative => exact ⟨derivativeStagger_Ok hf hx, derivativeStagger_nodes hspl hn hx⟩
      case replaceData => exact ⟨replaceData_Ok hf hx, replaceData_nodes hn hx⟩
      case pad w c => exact pad_Ok_nodes hf hn hx
    exact ih x key.1 key.2 (fun op ho => hops op (List.mem_cons_of_mem _ ho)) h

end

/-! ### A concrete field -/

/-- An axis over `(e0, e1)` with `n` points. -/
def uniformAxis (e0 e1 : ℚ) (n : ℕ) : Axis ℚ :=
  let nodes := linspace e0 e1 (n + 1)
  ⟨"x", "", nodes, mids nodes, (e0, e1)⟩

/-- A field with 4 times 3 points, `100 i + j` at position `(i, j)`. -/
def field43 : Field ℚ ℚ :=
  ⟨"f", "", ⟨[4, 3], fun idx => 100 * idx.getD 0 0 + idx.getD 1 0⟩,
    [uniformAxis 0 4 4, uniformAxis 0 6 3], [some false, some false], [none, none]⟩

/-- What the invariant talks about. -/
def fieldLens (f : Field ℚ ℚ) : List ℕ × List ℕ × ℕ × ℕ :=
  (f.shape, f.axes.map Axis.len, f.ats.length, f.tao.length)

/-- A program using most of the operations. -/
def sampleProgram : List (Op ℚ ℚ) :=
  [.number (· * ·) 3, .binary (· + ·) field43, .transpose none, .rot90 1 0 1, .flip 0,
    .pad [(.cells 1, .cells 1), (.cells 0, .length (3 / 2))] 7,
    .getitem [.slice ⟨some 1, none, false⟩, .range (some 1) none], .halfResolution 0,
    .derivative 1, .atleastNd 3, .reduce List.sum (some [0]) true, .squeeze]

example : fieldLens field43 = ([4, 3], [4, 3], 2, 2) := by decide +kernel

example : (run midSplines sampleProgram field43).map fieldLens = .ok ([3], [3], 1, 1) := by
  decide +kernel

example : ∀ op ∈ sampleProgram, SafeOp op := by
  intro op hop
  simp only [sampleProgram, List.mem_cons, List.not_mem_nil, or_false] at hop
  rcases hop with rfl | rfl | rfl | rfl | rfl | rfl | rfl | rfl | rfl | rfl | rfl | rfl
  · trivial
  · refine ⟨⟨by decide +kernel, by decide +kernel, by decide +kernel⟩, ?_⟩
    intro ax hax
    simp only [field43, List.mem_cons, List.not_mem_nil, or_false] at hax
    rcases hax with rfl | rfl <;> decide +kernel
  · trivial
  · trivial
  · trivial
  · trivial
  · intro k hk s hs
    simp only [List.mem_cons, List.not_mem_nil, or_false] at hk
    rcases hk with rfl | rfl
    · cases hs
      exact ⟨rfl, by simp⟩
    · cases hs
  all_goals trivial

/-! ### Violations -/

/-- C22 fails for a new field with four dimensions: it gets three axes. -/
theorem axes_describe_four_dimensions_violated :
    ∃ f : Field ℚ ℚ, mkFieldDefault midSplines ⟨[2, 2, 2, 2], fun _ => 1⟩ = .ok f ∧
      f.shape.length = 4 ∧ f.axes.length = 3 := by
  refine ⟨⟨"", "", ⟨[2, 2, 2, 2], fun _ => 1⟩,
    [⟨"x", "", [0, 1 / 2, 1], [1 / 4, 3 / 4], (0, 1)⟩, ⟨"y", "", [0, 1 / 2, 1], [1 / 4, 3 / 4], (0, 1)⟩,
      ⟨"z", "", [0, 1 / 2, 1], [1 / 4, 3 / 4], (0, 1)⟩],
    [some false, some false, some false, some false], [none, none, none, none]⟩, ?_, rfl, rfl⟩
  have : defaultAxes midSplines [2, 2, 2, 2] = .ok
    [⟨"x", "", [0, 1 / 2, 1], [1 / 4, 3 / 4], (0, 1)⟩, ⟨"y", "", [0, 1 / 2, 1], [1 / 4, 3 / 4], (0, 1)⟩,
      ⟨"z", "", [0, 1 / 2, 1], [1 / 4, 3 / 4], (0, 1)⟩] := by decide +kernel
  simp only [mkFieldDefault, this]
  rfl

/-- C22 fails for a new field without data: it has one dimension and no axis. -/
theorem axes_describe_empty_violated :
    ∃ f : Field ℚ ℚ, mkFieldDefault midSplines ⟨[0], fun _ => 1⟩ = .ok f ∧
      f.shape.length = 1 ∧ f.axes.length = 0 :=
  ⟨_, rfl, rfl, rfl⟩

/-- An axis with four points and two nodes, as the constructor accepts it (C18): all points lie
beyond the nodes, but nodes descend. -/
def axisTwoNodes : Axis ℚ := ⟨"x", "", [1, 0], [5, 6, 7, 8], (1, 0)⟩

/-- C22 fails for `pad` on an axis with a wrong number of nodes: four samples are padded to six,
the axis gets three points. -/
theorem axes_describe_pad_violated :
    mkAxis midSplines { name := "x", gridNode := some [1, 0], grid := some [5, 6, 7, 8] }
        = .ok axisTwoNodes ∧
      (∃ f : Field ℚ ℚ, mkField ⟨[4], fun _ => 1⟩ "" "" [axisTwoNodes] [some false] [none] = .ok f ∧
        (f.pad midSplines [(.cells 1, .cells 1)] 0).map fieldLens = .ok ([6], [3], 1, 1)) := by
  refine ⟨by decide +kernel, ⟨"", "", ⟨[4], fun _ => 1⟩, [axisTwoNodes], [some false], [none]⟩, ?_, ?_⟩
  · exact mkField_of_eq (by decide +kernel) (by decide)
  · decide +kernel

end Postpic.Props
