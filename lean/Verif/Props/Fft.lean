import Verif.Lemmas.FftShift
import Verif.Props.FieldResolution

/-!
# Fourier transforms of fields
-/

set_option autoImplicit false

namespace Postpic.Props

open Postpic Postpic.Axes Postpic.Fields Postpic.Spec

noncomputable section

theorem exponentSign_eq (state : Bool) (signs : String) :
    exponentSign state signs = expSign state signs := by
  unfold exponentSign expSign
  cases state <;> by_cases h : signs = "temporal" <;> simp [h]

theorem gridAlong_eq {f : Field ℝ ℂ} {d : ℕ} {ax : Axis ℝ} (h : f.axes[d]? = some ax) :
    gridAlong f d = ax.grid := by
  unfold gridAlong
  rw [h]
  rfl

/-! ## C30: the transform is the Fourier integral -/

/-- C30: along every transformed dimension the value at `k` is `dx/√(2π) ∑ f(x) exp(∓ikx)` with the
coordinates `x` of the samples, wherever the grid starts. The dimensions can be done in any order
`M`. The new grid has the spacing `2π/(n dx)` and is centred around 0 unless an origin has been stored
before; state and units of the other dimensions stay. Partial: the first three dimensions, increasing
axes (see `fft_reversed_violated`, `fft_negative_axis_violated`). -/
theorem fft_value_partial (spl : Splines ℝ) (hspl : ExactOnEven spl) (f : Field ℝ ℂ) (hf : f.Sound)
    (L : List ℕ) (state : Bool) (e0 h : ℕ → ℝ) (hL : EvenDims f L state e0 h) (signs : String)
    (hs : signs = "spatial" ∨ signs = "temporal") :
    ∃ F, f.fft spl (some (L.map Int.ofNat)) signs false = .ok F ∧ F.shape = f.shape ∧
      (∀ M : List ℕ, M.Nodup → (∀ d, d ∈ M ↔ d ∈ L) → ∀ idx, InBounds f.shape idx →
        F.matrix.at' idx = M.foldl (fun g d => fourierAlong (h d / Real.sqrt (2 * Real.pi))
          (exponentSign state signs) (gridAlong f d) (gridAlong F d) d g) f.matrix.at' idx) ∧
      (∀ d ∈ L, ∀ n, f.shape[d]? = some n → f.tao[d]? = some none →
        gridAlong F d = (List.range n).map fun (j : ℕ) =>
          ((j : ℝ) - (n / 2 : ℕ)) * (2 * Real.pi / (n * h d))) ∧
      (∀ d ∈ L, ∀ n o, f.shape[d]? = some n → f.tao[d]? = some (some o) →
        gridAlong F d = (List.range n).map fun (j : ℕ) => o + j * (2 * Real.pi / (n * h d))) ∧
      (∀ d ∈ L, F.ats[d]? = some (some !state)) ∧
      (∀ d, d ∉ L → F.axes[d]? = f.axes[d]? ∧ F.ats[d]? = f.ats[d]? ∧ F.tao[d]? = f.tao[d]?) := by
  have hlen := ok_axes_length hf.ok
  have hax : ∀ d ∈ L, d ≤ 2 ∧ f.ats[d]? = some (some state) ∧ ∃ ax o, f.axes[d]? = some ax ∧
      f.tao[d]? = some o ∧ Lin ax (e0 d + h d / 2) (h d) ∧ f.shape.getD d 0 = ax.len ∧
      firstK ((f.tao[d]?).getD none) (f.shape.getD d 0) (h d) = firstK o ax.len (h d) := by
    intro d hd
    obtain ⟨ax, h1, h2⟩ := hL.axis d hd
    have hlt := (List.getElem?_eq_some_iff.1 h1).1
    have hs : f.shape[d]? = some ax.len := by rw [← hf.ok.lengths, List.getElem?_map, h1]; rfl
    have hg : f.shape.getD d 0 = ax.len := by rw [List.getD_eq_getElem?_getD, hs]; rfl
    have hpos : 0 < ax.len := Nat.pos_of_ne_zero fun h0 =>
      hf.nonempty (List.mem_of_getElem? (by rw [hs, h0]))
    obtain ⟨o, ho⟩ : ∃ o, f.tao[d]? = some o :=
      ⟨_, List.getElem?_eq_getElem (by rw [hf.ok.origins, ← hlen]; exact hlt)⟩
    exact ⟨hL.number d hd, hL.state d hd, ax, _, h1, ho, Lin.of_even h2 (hL.pos d hd) hpos, hg, by
      rw [ho, hg]; rfl⟩
  obtain ⟨F, F1, F2, F3, F4, F5, F6, F7, F8⟩ := fft_sound hspl hf hL.some_dim
    (x0 := fun d => e0 d + h d / 2) (n := fun d => f.shape.getD d 0)
    (k0 := fun d => firstK ((f.tao[d]?).getD none) (f.shape.getD d 0) (h d)) hax hs false
  have hnew : ∀ d ∈ L, ∀ n, f.shape[d]? = some n →
      gridAlong F d = ap (firstK ((f.tao[d]?).getD none) n (h d)) (2 * Real.pi / (n * h d)) n ∧
      gridAlong f d = ap (e0 d + h d / 2) (h d) n ∧ F.ats[d]? = some (some !state) := by
    intro d hd n hn
    obtain ⟨_, _, ax, o, a1, a2, a3, a4, _⟩ := hax d hd
    obtain ⟨ax', b1, _, _, _, b5, _, _, b8, _⟩ := F7 d hd ax a1
    have hg : f.shape.getD d 0 = n := by rw [List.getD_eq_getElem?_getD, hn]; rfl
    rw [hg] at b5 a4
    refine ⟨(gridAlong_eq b1).trans b5, (gridAlong_eq a1).trans ?_, b8⟩
    rw [a3.grid, a4]
  have hshape : ∀ d ∈ L, ∃ n, f.shape[d]? = some n := by
    intro d hd
    obtain ⟨_, _, ax, o, a1, a2, a3, a4, _⟩ := hax d hd
    exact ⟨ax.len, by rw [← hf.ok.lengths, List.getElem?_map, a1]; rfl⟩
  refine ⟨F, F1, F5, ?_, ?_, ?_, ?_, F6⟩
  · intro M hM hML idx hidx
    rw [F8 idx hidx, ← fold_perm (fun d g => fourierAlong (h d / Real.sqrt (2 * Real.pi))
          (exponentSign state signs) (gridAlong f d) (gridAlong F d) d g)
      (fun d e hde g => fourierAlong_comm _ _ _ _ _ _ _ _ _ _ hde g) (order_perm hM hML)]
    refine foldl_congr_on (shape := f.shape) (order L) _ _ ?_ _ _ (fun _ _ => rfl) idx hidx
    intro d hd g g' hg idx hidx
    obtain ⟨n, hn⟩ := hshape d (mem_order.1 hd)
    obtain ⟨h1, h2, _⟩ := hnew d (mem_order.1 hd) n hn
    have hg0 : f.shape.getD d 0 = n := by rw [List.getD_eq_getElem?_getD, hn]; rfl
    rw [exponentSign_eq, h1, h2, hg0]
    simp only [Bool.false_and, Bool.false_eq_true, if_false]
    exact fourierAlong_congr hn _ _ _ _ (ap_length _ _ _) hg idx hidx
  · intro d hd n hn ho
    rw [(hnew d hd n hn).1, ho]
    simp only [Option.getD_some, firstK, Option.getD_none]
    exact (freqGrid_ap n (h d)).symm
  · intro d hd n o hn ho
    rw [(hnew d hd n hn).1, ho]
    rfl
  · intro d hd
    obtain ⟨n, hn⟩ := hshape d hd
    exact (hnew d hd n hn).2.2

/-! ## C29: transforming twice and Parseval -/

/-- C29: transforming the same dimensions twice gives back the data, the axes (grid, nodes, extent,
name and unit) and the states. Partial: increasing axes with at least two points among the first
three dimensions, names and units which do not start with `k`, `1` or `/` (see
`fft_single_point_violated`, `fft_name_violated`). -/
theorem fft_roundtrip_partial (spl : Splines ℝ) (hspl : ExactOnEven spl) (f : Field ℝ ℂ) (hf : f.Sound)
    (L : List ℕ) (state : Bool) (e0 h : ℕ → ℝ) (hL : Transformable f L state e0 h) (signs : String)
    (hs : signs = "spatial" ∨ signs = "temporal") (old : Bool)
    (hnames : ∀ d ∈ L, ∀ ax, f.axes[d]? = some ax → ConjugableName state ax.name ∧ ConjugableUnit state ax.unit) :
    ∃ F r, f.fft spl (some (L.map Int.ofNat)) signs old = .ok F ∧
      F.fft spl (some (L.map Int.ofNat)) signs old = .ok r ∧ r.matrix.Eqv f.matrix ∧ r.axes = f.axes ∧
      r.ats = f.ats ∧ r.name = f.name ∧ r.unit = f.unit := by
  obtain ⟨F, n, k0, F1, F2, F3, F4, F5, F6, F7, F8, F9, F10, F11, F12, F13⟩ := fft_again hspl hf hL hs old
  obtain ⟨r, R1, R2, R3, R4, R5, R6, R7, R8, R9, R10⟩ := F13 (fun _ => 0) F.tao rfl
    (fun d hd => by rw [(F6 d hd).1, add_zero]) (fun _ _ => rfl)
  refine ⟨F, r, F1, R1, ⟨R5, ?_⟩, ?_, R6, R3, R4⟩
  · intro idx hidx
    have hidx : InBounds f.shape idx := R5 ▸ hidx
    rw [R10 idx hidx]
    have := fold_inverse (shape := f.shape) (order L) (order_nodup L) n h
      (fun d => 2 * Real.pi / (n d * h d)) (fun d => if old && !state then 0 else e0 d + h d / 2)
      (fun d => if old && state then 0 else k0 d) (expSign state signs) (expSign_cases state signs) (by
        intro d hd
        obtain ⟨a1, a2, a3, a4, _⟩ := F8 d (mem_order.1 hd)
        exact ⟨a1, by omega, a4⟩) f.matrix.at' idx hidx
    rw [← this]
    refine foldl_congr_on (shape := f.shape) (order L) _ _ ?_ _ _ F12 idx hidx
    intro d hd g g' hg idx hidx
    simp only [add_zero]
    exact fourierAlong_congr (F8 d (mem_order.1 hd)).1 _ _ _ _ (ap_length _ _ _) hg idx hidx
  · apply List.ext_getElem?
    intro d
    by_cases hd : d ∈ L
    · obtain ⟨ax, h1, h2⟩ := hL.axis d hd
      obtain ⟨ax', c1, c2, c3, c4, c5⟩ := R9 d hd ax h1
      obtain ⟨n1, n2⟩ := hnames d hd ax h1
      rw [add_zero] at c5
      rw [c1, h1, even_unique h2 c5 c4 (by rw [c2, name_twice n1]) (by rw [c3, unit_twice n2])]
    · exact (R7 d hd).1

/-- C29, Parseval: the integral of the squared modulus over the transformed dimensions (and any
others), each sample weighted with the size of its cell, is the same before and after the transform.
Partial: as above. -/
theorem fft_parseval_partial (spl : Splines ℝ) (hspl : ExactOnEven spl) (f : Field ℝ ℂ) (hf : f.Sound)
    (L : List ℕ) (state : Bool) (e0 h : ℕ → ℝ) (hL : Transformable f L state e0 h) (signs : String)
    (hs : signs = "spatial" ∨ signs = "temporal") (old : Bool) (dims : List ℕ) (hd : ∀ d ∈ L, d ∈ dims) :
    ∃ F, f.fft spl (some (L.map Int.ofNat)) signs old = .ok F ∧
      ∀ idx, InBounds (unflagged (flags f.shape.length dims) f.shape) idx →
        integral (F.axes.map cellSizes) (flags f.shape.length dims) (fun j => ‖F.matrix.at' j‖ ^ 2) idx =
          integral (f.axes.map cellSizes) (flags f.shape.length dims) (fun j => ‖f.matrix.at' j‖ ^ 2) idx := by
  obtain ⟨F, n, k0, F1, F2, F3, F4, F5, F6, F7, F8, F9, F10, F11, F12, F13⟩ := fft_again hspl hf hL hs old
  refine ⟨F, F1, ?_⟩
  intro idx hidx
  have hcells : ∀ (f : Field ℝ ℂ), f.Sound → (f.axes.map cellSizes).map List.length = f.shape := by
    intro f hf
    rw [← hf.ok.lengths, List.map_map]
    apply List.map_congr_left
    intro ax hax
    exact cellSizes_length (hf.valid ax hax)
  have hlen : ∀ (f : Field ℝ ℂ) (e0 h : ℕ → ℝ) (state : Bool), f.Sound → Transformable f L state e0 h →
      ∀ d ∈ L, ∀ m, f.shape[d]? = some m → (f.axes.map cellSizes)[d]? = some (List.replicate m (h d)) := by
    intro f e0 h state hf hL d hd m hm
    obtain ⟨ax, h1, h2⟩ := hL.axis d hd
    have hs : f.shape[d]? = some ax.len := by rw [← hf.ok.lengths, List.getElem?_map, h1]; rfl
    rw [hm] at hs
    obtain rfl := Option.some.inj hs
    rw [List.getElem?_map, h1, Option.map_some, even_cellSizes (hf.valid ax (List.mem_of_getElem? h1)) h2]
  have hboxes : F.axes.map cellSizes = (order L).foldl (fun b d => b.set d
      (List.replicate (n d) (2 * Real.pi / (n d * h d)))) (f.axes.map cellSizes) := by
    apply List.ext_getElem?
    intro d
    rw [foldl_set (fun d => List.replicate (n d) (2 * Real.pi / (n d * h d)))]
    split_ifs with hdl
    · have hdl := mem_order.1 hdl
      have := (F8 d hdl).1
      rw [hlen F _ _ _ F2 F10 d hdl (n d) (by rw [F3]; exact this), hlen f _ _ _ hf hL d hdl (n d) this]
      rfl
    · rw [List.getElem?_map, List.getElem?_map, (F7 d fun h => hdl (mem_order.2 h)).1]
  rw [hboxes, ← parseval_fold (shape := f.shape) (dims := dims) (order L) (order_nodup L)
      (fun d hdl => hd d (mem_order.1 hdl)) n h
      (fun d => 2 * Real.pi / (n d * h d)) (fun d => if old && !state then 0 else e0 d + h d / 2)
      (fun d => if old && state then 0 else k0 d) (expSign state signs) (expSign_cases state signs) (by
        intro d hd
        obtain ⟨a1, a2, a3, a4, _⟩ := F8 d (mem_order.1 hd)
        exact ⟨a1, by omega, a4⟩) (f.axes.map cellSizes) (hcells f hf) (by
        intro d hdl
        exact hlen f _ _ _ hf hL d (mem_order.1 hdl) (n d) (F8 d (mem_order.1 hdl)).1) f.matrix.at' idx hidx]
  rw [← hboxes]
  apply integral_congr
  · rw [flags_length, List.length_map, ok_axes_length F2.ok, F3]
  · intro j hj
    rw [hcells F F2, F3] at hj
    rw [F12 j hj]
  · rw [hcells F F2, F3]
    exact hidx

/-! ## C32: shifting the grid -/

/-- What `shift_grid_by` gives. -/
theorem shift_eq {spl : Splines ℝ} (hspl : ExactOnEven spl) {f : Field ℝ ℂ} (hf : f.Sound)
    {L : List ℕ} {state : Bool} {e0 h : ℕ → ℝ} (hL : Transformable f L state e0 h) (hnd : L.Nodup)
    (σ : ℕ → ℝ) :
    ∃ (r : Field ℝ ℂ) (n : ℕ → ℕ) (k0 : ℕ → ℝ),
      f.shiftGridBy spl (L.map fun (d : ℕ) => ((d : ℤ), σ d)) = .ok r ∧ r.Sound ∧
      r.name = f.name ∧ r.unit = f.unit ∧ r.shape = f.shape ∧ r.ats = f.ats ∧
      (∀ d, d ∉ L → r.axes[d]? = f.axes[d]? ∧ r.tao[d]? = f.tao[d]?) ∧
      (∀ d ∈ L, r.tao[d]? = some (some (k0 d))) ∧
      (∀ d ∈ L, ∀ o, f.tao[d]? = some o → k0 d = firstK o (n d) (h d)) ∧
      (∀ d ∈ L, f.shape[d]? = some (n d) ∧ 0 < n d ∧
        2 * Real.pi / (n d * h d) * h d * n d = 2 * Real.pi) ∧
      (∀ d ∈ L, ∀ ax, f.axes[d]? = some ax → ∃ ax', r.axes[d]? = some ax' ∧
        ax'.name = conjugateName (!state) (conjugateName state ax.name) ∧
        ax'.unit = conjugateUnit (!state) (conjugateUnit state ax.unit) ∧
        ax'.len = ax.len ∧ EvenAxis ax' (e0 d + σ d) (h d)) ∧
      ∀ idx, InBounds f.shape idx → r.matrix.at' idx =
        (order L).foldl (fun g d => fourierAlong (2 * Real.pi / (n d * h d) / Real.sqrt (2 * Real.pi))
          (-expSign state "spatial") (ap (k0 d) (2 * Real.pi / (n d * h d)) (n d))
          (ap (e0 d + h d / 2 + σ d) (h d) (n d)) d g)
        ((order L).foldl (fun g d => fourierAlong (h d / Real.sqrt (2 * Real.pi)) (expSign state "spatial")
          (ap (e0 d + h d / 2) (h d) (n d))
          (ap (k0 d) (2 * Real.pi / (n d * h d)) (n d)) d g) f.matrix.at') idx := by
  set M := L.insertionSort (· ≤ ·) with hM
  have hmem : ∀ d, d ∈ M ↔ d ∈ L := fun d => List.mem_insertionSort _
  have hord : order M = order L := by
    apply List.Perm.eq_of_pairwise (le := (· ≤ ·)) (fun a b _ _ h1 h2 => le_antisymm h1 h2)
      (List.pairwise_insertionSort _ _) (List.pairwise_insertionSort _ _)
    exact (List.perm_ext_iff_of_nodup (order_nodup M) (order_nodup L)).2 fun d => by
      rw [mem_order, mem_order, hmem]
  have hLM : Transformable f M state e0 h := by
    refine ⟨⟨?_, fun d hd => hL.number d ((hmem d).1 hd), fun d hd => hL.state d ((hmem d).1 hd),
      fun d hd => hL.pos d ((hmem d).1 hd), fun d hd => hL.axis d ((hmem d).1 hd)⟩,
      fun d hd => hL.two d ((hmem d).1 hd)⟩
    intro h0
    have := hL.some_dim
    apply this
    apply List.eq_nil_iff_forall_not_mem.2
    intro d hd
    rw [← hmem, h0] at hd
    simp at hd
  obtain ⟨F, n, k0, F1, F2, F3, F4, F5, F6, F7, F8, F9, F10, F11, F12, F13⟩ :=
    fft_again hspl hf hLM (Or.inl rfl) false (signs := "spatial")
  obtain ⟨tao, T1, T2, T3, T4⟩ := addOrigins_eq (fun d => e0 d + h d / 2) σ L hnd F.tao
    (fun d hd => (F6 d ((hmem d).2 hd)).1)
  obtain ⟨r, R1, R2, R3, R4, R5, R6, R7, R8, R9, R10⟩ := F13 σ tao T2 (fun d hd => T3 d ((hmem d).1 hd))
    (fun d hd => T4 d fun h => hd ((hmem d).2 h))
  refine ⟨r, n, k0, ?_, R2, R3, R4, R5, R6, fun d hd => R7 d fun h => hd ((hmem d).1 h),
    fun d hd => R8 d ((hmem d).2 hd), fun d hd => F9 d ((hmem d).2 hd), ?_,
    fun d hd => R9 d ((hmem d).2 hd), ?_⟩
  · unfold Field.shiftGridBy
    rw [if_neg (by
      rw [Bool.not_eq_true, List.any_eq_false]
      intro p hp
      obtain ⟨d, hd, rfl⟩ := List.mem_map.1 hp
      have := hL.number d hd
      simp
      omega)]
    unfold Field.shiftFourier
    have hsort : ((L.map fun (d : ℕ) => ((d : ℤ), σ d)).map (·.1)).insertionSort (· ≤ ·) =
        M.map Int.ofNat := by
      rw [List.map_map]
      symm
      apply List.map_insertionSort
      intro a _ b _
      simp
    simp only [hsort]
    rw [F1]
    simp only [bind, Except.bind]
    rw [T1]
    exact R1
  · intro d hd
    obtain ⟨a1, a2, a3, a4, _⟩ := F8 d ((hmem d).2 hd)
    exact ⟨a1, by omega, a4⟩
  · intro idx hidx
    rw [R10 idx hidx, hord]
    refine foldl_congr_on (shape := f.shape) (order L) _ _ ?_ _ _ ?_ idx hidx
    · intro d hd g g' hg idx hidx
      simp only [Bool.false_and, Bool.false_eq_true, if_false]
      exact fourierAlong_congr (F8 d ((hmem d).2 (mem_order.1 hd))).1 _ _ _ _ (ap_length _ _ _) hg idx hidx
    · intro idx hidx
      rw [F12 idx hidx, hord]
      simp only [Bool.false_and, Bool.false_eq_true, if_false]

/-- C32: shifting by zero changes neither data nor axes. Partial: as for `fft_roundtrip_partial`. -/
theorem shift_zero_partial (spl : Splines ℝ) (hspl : ExactOnEven spl) (f : Field ℝ ℂ) (hf : f.Sound)
    (L : List ℕ) (hnd : L.Nodup) (state : Bool) (e0 h : ℕ → ℝ) (hL : Transformable f L state e0 h)
    (hnames : ∀ d ∈ L, ∀ ax, f.axes[d]? = some ax → ConjugableName state ax.name ∧ ConjugableUnit state ax.unit) :
    ∃ r, f.shiftGridBy spl (L.map fun (d : ℕ) => ((d : ℤ), 0)) = .ok r ∧ r.matrix.Eqv f.matrix ∧
      r.axes = f.axes ∧ r.ats = f.ats := by
  obtain ⟨r, n, k0, R1, R2, R3, R4, R5, R6, R7, R8, R9, R10, R11, R12⟩ := shift_eq hspl hf hL hnd (fun _ => 0)
  refine ⟨r, R1, ⟨R5, ?_⟩, ?_, R6⟩
  · intro idx hidx
    have hidx : InBounds f.shape idx := R5 ▸ hidx
    rw [R12 idx hidx]
    simp only [add_zero]
    exact fold_inverse (shape := f.shape) (order L) (order_nodup L) n h
      (fun d => 2 * Real.pi / (n d * h d)) (fun d => e0 d + h d / 2) k0 _ (expSign_cases state "spatial")
      (fun d hd => R10 d (mem_order.1 hd)) f.matrix.at' idx hidx
  · apply List.ext_getElem?
    intro d
    by_cases hd : d ∈ L
    · obtain ⟨ax, h1, h2⟩ := hL.axis d hd
      obtain ⟨ax', c1, c2, c3, c4, c5⟩ := R11 d hd ax h1
      obtain ⟨n1, n2⟩ := hnames d hd ax h1
      rw [add_zero] at c5
      rw [c1, h1, even_unique h2 c5 c4 (by rw [c2, name_twice n1]) (by rw [c3, unit_twice n2])]
    · exact (R7 d hd).1

/-- C32: after shifting by `σ` the cells of each dimension start `σ d` further and have the same
size; the shifted field can be shifted again. -/
theorem shift_transformable (spl : Splines ℝ) (hspl : ExactOnEven spl) (f : Field ℝ ℂ) (hf : f.Sound)
    (L : List ℕ) (hnd : L.Nodup) (state : Bool) (e0 h : ℕ → ℝ) (hL : Transformable f L state e0 h)
    (σ : ℕ → ℝ) :
    ∃ r, f.shiftGridBy spl (L.map fun (d : ℕ) => ((d : ℤ), σ d)) = .ok r ∧ r.Sound ∧ r.shape = f.shape ∧
      Transformable r L state (fun d => e0 d + σ d) h := by
  obtain ⟨r, n, k0, R1, R2, R3, R4, R5, R6, R7, R8, R9, R10, R11, R12⟩ := shift_eq hspl hf hL hnd σ
  refine ⟨r, R1, R2, R5, ⟨⟨hL.some_dim, hL.number, ?_, hL.pos, ?_⟩, ?_⟩⟩
  · intro d hd
    rw [R6]
    exact hL.state d hd
  · intro d hd
    obtain ⟨ax, h1, h2⟩ := hL.axis d hd
    obtain ⟨ax', c1, c2, c3, c4, c5⟩ := R11 d hd ax h1
    exact ⟨ax', c1, c5⟩
  · intro d hd
    rw [R5]
    exact hL.two d hd

/-- C32: shifts add up: shifting by `σ` and then by `τ` gives the data and the axes of the shift by
`σ + τ`. Partial: as for `fft_roundtrip_partial`. -/
theorem shift_add_partial (spl : Splines ℝ) (hspl : ExactOnEven spl) (f : Field ℝ ℂ) (hf : f.Sound)
    (L : List ℕ) (hnd : L.Nodup) (state : Bool) (e0 h : ℕ → ℝ) (hL : Transformable f L state e0 h)
    (hnames : ∀ d ∈ L, ∀ ax, f.axes[d]? = some ax → ConjugableName state ax.name ∧ ConjugableUnit state ax.unit)
    (σ τ : ℕ → ℝ) :
    ∃ r s t, f.shiftGridBy spl (L.map fun (d : ℕ) => ((d : ℤ), σ d)) = .ok r ∧
      r.shiftGridBy spl (L.map fun (d : ℕ) => ((d : ℤ), τ d)) = .ok s ∧
      f.shiftGridBy spl (L.map fun (d : ℕ) => ((d : ℤ), σ d + τ d)) = .ok t ∧
      s.matrix.Eqv t.matrix ∧ s.axes = t.axes ∧ s.ats = t.ats ∧ s.tao = t.tao := by
  obtain ⟨r, n, k0, R1, R2, R3, R4, R5, R6, R7, R8, R9, R10, R11, R12⟩ := shift_eq hspl hf hL hnd σ
  obtain ⟨r', R1', _, _, hLr⟩ := shift_transformable spl hspl f hf L hnd state e0 h hL σ
  rw [R1] at R1'
  obtain rfl := Except.ok.inj R1'
  obtain ⟨s, n', k0', S1, S2, S3, S4, S5, S6, S7, S8, S9, S10, S11, S12⟩ := shift_eq hspl R2 hLr hnd τ
  obtain ⟨t, n'', k0'', T1, T2, T3, T4, T5, T6, T7, T8, T9, T10, T11, T12⟩ :=
    shift_eq hspl hf hL hnd (fun d => σ d + τ d)
  have hn' : ∀ d ∈ L, n' d = n d := by
    intro d hd
    have h1 := (S10 d hd).1
    rw [R5, (R10 d hd).1] at h1
    exact (Option.some.inj h1).symm
  have hn'' : ∀ d ∈ L, n'' d = n d := by
    intro d hd
    have h1 := (T10 d hd).1
    rw [(R10 d hd).1] at h1
    exact (Option.some.inj h1).symm
  have hk' : ∀ d ∈ L, k0' d = k0 d := fun d hd => S9 d hd _ (R8 d hd)
  have hk'' : ∀ d ∈ L, k0'' d = k0 d := by
    intro d hd
    obtain ⟨ax, h1, _⟩ := hL.axis d hd
    have ho : ∃ o, f.tao[d]? = some o := ⟨_, List.getElem?_eq_getElem (by
      rw [hf.ok.origins, ← ok_axes_length hf.ok]; exact (List.getElem?_eq_some_iff.1 h1).1)⟩
    obtain ⟨o, ho⟩ := ho
    rw [T9 d hd o ho, R9 d hd o ho, hn'' d hd]
  refine ⟨r, s, t, R1, S1, T1, ⟨by show s.shape = t.shape; rw [S5, R5, T5], ?_⟩, ?_, ?_, ?_⟩
  · intro idx hidx
    have hidx' : InBounds r.shape idx := S5 ▸ hidx
    have hidx : InBounds f.shape idx := R5 ▸ hidx'
    rw [S12 idx hidx', T12 idx hidx]
    refine foldl_congr_on (shape := f.shape) (order L) _ _ ?_ _ _ ?_ idx hidx
    · intro d hd g g' hg idx hidx
      have hd := mem_order.1 hd
      rw [hn' d hd, hk' d hd, hn'' d hd, hk'' d hd,
        show e0 d + σ d + h d / 2 + τ d = e0 d + h d / 2 + (σ d + τ d) by ring]
      exact fourierAlong_congr (R10 d hd).1 _ _ _ _ (ap_length _ _ _) hg idx hidx
    · intro idx hidx
      have hinv := fold_inverse (shape := f.shape) (order L) (order_nodup L) n
        (fun d => 2 * Real.pi / (n d * h d)) h k0 (fun d => e0 d + h d / 2 + σ d)
        (-expSign state "spatial") (by rcases expSign_cases state "spatial" with h | h <;> simp [h])
        (by
          intro d hd
          obtain ⟨a1, a2, a3⟩ := R10 d (mem_order.1 hd)
          exact ⟨a1, a2, by linarith⟩)
        ((order L).foldl (fun g d => fourierAlong (h d / Real.sqrt (2 * Real.pi)) (expSign state "spatial")
          (ap (e0 d + h d / 2) (h d) (n d))
          (ap (k0 d) (2 * Real.pi / (n d * h d)) (n d)) d g) f.matrix.at') idx hidx
      rw [neg_neg] at hinv
      refine Eq.trans ?_ (hinv.trans ?_)
      · refine foldl_congr_on (shape := f.shape) (order L) _ _ ?_ _ _ R12 idx hidx
        intro d hd g g' hg idx hidx
        have hd := mem_order.1 hd
        rw [hn' d hd, hk' d hd, show e0 d + σ d + h d / 2 = e0 d + h d / 2 + σ d by ring]
        exact fourierAlong_congr (R10 d hd).1 _ _ _ _ (ap_length _ _ _) hg idx hidx
      · refine foldl_congr_on (shape := f.shape) (order L) _ _ ?_ _ _ (fun _ _ => rfl) idx hidx
        intro d hd g g' hg idx hidx
        have hd := mem_order.1 hd
        rw [hn'' d hd, hk'' d hd]
        exact fourierAlong_congr (R10 d hd).1 _ _ _ _ (ap_length _ _ _) hg idx hidx
  · apply List.ext_getElem?
    intro d
    by_cases hd : d ∈ L
    · obtain ⟨ax, h1, h2⟩ := hL.axis d hd
      obtain ⟨ax1, c1, c2, c3, c4, c5⟩ := R11 d hd ax h1
      obtain ⟨ax2, d1, d2, d3, d4, d5⟩ := S11 d hd ax1 c1
      obtain ⟨ax3, g1, g2, g3, g4, g5⟩ := T11 d hd ax h1
      obtain ⟨n1, n2⟩ := hnames d hd ax h1
      rw [name_twice n1] at c2 g2
      rw [unit_twice n2] at c3 g3
      rw [c2, name_twice n1] at d2
      rw [c3, unit_twice n2] at d3
      rw [add_assoc] at d5
      rw [d1, g1, even_unique g5 d5 (by rw [d4, c4, g4]) (by rw [d2, g2]) (by rw [d3, g3])]
    · rw [(S7 d hd).1, (R7 d hd).1, (T7 d hd).1]
  · rw [S6, R6, T6]
  · apply List.ext_getElem?
    intro d
    by_cases hd : d ∈ L
    · rw [S8 d hd, T8 d hd, hk' d hd, hk'' d hd]
    · rw [(S7 d hd).2, (R7 d hd).2, (T7 d hd).2]

/-- C32: shifting by whole numbers of cells `q` rolls the data cyclically, if no other origin has been
stored for the frequency grid. Partial: as above. -/
theorem shift_cells_partial (spl : Splines ℝ) (hspl : ExactOnEven spl) (f : Field ℝ ℂ) (hf : f.Sound)
    (L : List ℕ) (hnd : L.Nodup) (state : Bool) (e0 h : ℕ → ℝ) (hL : Transformable f L state e0 h)
    (hor : ∀ d ∈ L, f.tao[d]? = some none) (q : ℕ → ℤ) :
    ∃ r, f.shiftGridBy spl (L.map fun (d : ℕ) => ((d : ℤ), q d * h d)) = .ok r ∧ r.shape = f.shape ∧
      (∀ idx, InBounds f.shape idx → r.matrix.at' idx = f.matrix.at' (rolled f.shape L q idx)) ∧
      ∀ d ∈ L, ∃ ax, r.axes[d]? = some ax ∧ EvenAxis ax (e0 d + q d * h d) (h d) := by
  obtain ⟨r, n, k0, R1, R2, R3, R4, R5, R6, R7, R8, R9, R10, R11, R12⟩ :=
    shift_eq hspl hf hL hnd (fun d => q d * h d)
  refine ⟨r, R1, R5, ?_, ?_⟩
  · intro idx hidx
    rw [R12 idx hidx]
    have := fold_back_cells (shape := f.shape) (order L) (order_nodup L) n h
      (fun d => 2 * Real.pi / (n d * h d)) (fun d => e0 d + h d / 2) k0 _ (expSign_cases state "spatial") q
      (fun d => -((n d / 2 : ℕ) : ℤ)) (by
        intro d hd
        have hd := mem_order.1 hd
        obtain ⟨a1, a2, a3⟩ := R10 d hd
        refine ⟨a1, a2, a3, ?_⟩
        rw [R9 d hd _ (hor d hd), Int.cast_neg, Int.cast_natCast]
        rfl) f.matrix.at' idx hidx
    rw [this]
    congr 1
    unfold rolled
    simp only [mem_order]
  · intro d hd
    obtain ⟨ax, h1, h2⟩ := hL.axis d hd
    obtain ⟨ax', c1, c2, c3, c4, c5⟩ := R11 d hd ax h1
    exact ⟨ax', c1, c5⟩

/-! ## C31: ensuring a transform state -/

/-- C31: asking for the present states changes nothing, whatever the form of the request. -/
theorem ensure_state_present (spl : Splines ℝ) (f : Field ℝ ℂ) (req : StateRequest)
    (h : ∀ p ∈ req.items f.dims.toNat, pyGet f.ats p.1 = .ok (some p.2)) :
    f.ensureTransformState spl req = .ok f := by
  have key : ∀ l : List (ℤ × Bool), (∀ p ∈ l, pyGet f.ats p.1 = .ok (some p.2)) →
      toTransform f.ats l = .ok [] := by
    intro l
    induction l with
    | nil => intro _; rfl
    | cons p l ih =>
      intro h
      simp only [toTransform, h p (by simp), ih fun q hq => h q (by simp [hq]), bind, Except.bind,
        pure, Except.pure, if_true]
  unfold Field.ensureTransformState
  rw [key _ h]
  rfl

theorem toTransform_eq (ats : List (Option Bool)) (l : List (ℕ × Bool))
    (h : ∀ p ∈ l, p.1 < ats.length) :
    toTransform ats (l.map fun p => ((p.1 : ℤ), p.2)) =
      .ok (((l.filter fun p => ats[p.1]? ≠ some (some p.2)).map (·.1)).map Int.ofNat) := by
  induction l with
  | nil => rfl
  | cons p l ih =>
    have hp := List.getElem?_eq_getElem (h p (by simp))
    simp only [List.map_cons, toTransform, pyGet_nat hp, bind, Except.bind,
      ih fun q hq => h q (by simp [hq]), pure, Except.pure]
    congr 1
    by_cases hc : ats[p.1]'(h p (by simp)) = some p.2
    · rw [if_pos hc, List.filter_cons_of_neg (by rw [hp, hc]; simp)]
    · rw [if_neg hc, List.filter_cons_of_pos (by rw [hp]; simp [hc])]
      rfl

/-- C31: every requested dimension is in the requested state afterwards and the states of the
others are the same, for every request whose dimensions have to be transformed in one direction only.
`l` is the request as a list of dimensions and states. Partial: requests which need both directions
fail (see `ensure_state_mixed_violated`); axes as for `fft`. -/
theorem ensure_state_partial (spl : Splines ℝ) (hspl : ExactOnEven spl) (f : Field ℝ ℂ) (hf : f.Sound)
    (req : StateRequest) (l : List (ℕ × Bool))
    (hreq : req.items f.dims.toNat = l.map fun p => ((p.1 : ℤ), p.2))
    (hl : (l.map (·.1)).Nodup) (hlt : ∀ p ∈ l, p.1 < f.shape.length) (state : Bool) (e0 h : ℕ → ℝ)
    (hL : EvenDims f ((l.filter fun p => f.ats[p.1]? ≠ some (some p.2)).map (·.1)) state e0 h) :
    ∃ r, f.ensureTransformState spl req = .ok r ∧ (∀ p ∈ l, r.ats[p.1]? = some (some p.2)) ∧
      ∀ d, d ∉ l.map (·.1) → r.ats[d]? = f.ats[d]? ∧ r.axes[d]? = f.axes[d]? := by
  set L := (l.filter fun p => f.ats[p.1]? ≠ some (some p.2)).map (·.1) with hLd
  obtain ⟨F, F1, _, _, _, _, F6, F7⟩ := fft_value_partial spl hspl f hf L state e0 h hL "spatial" (Or.inl rfl)
  refine ⟨F, ?_, ?_, ?_⟩
  · unfold Field.ensureTransformState
    rw [hreq, toTransform_eq _ _ (by intro p hp; rw [hf.ok.states]; exact hlt p hp), ← hLd]
    simp only [bind, Except.bind]
    rw [if_neg (by simpa using hL.some_dim)]
    exact F1
  · intro p hp
    by_cases hc : f.ats[p.1]? = some (some p.2)
    · rw [(F7 p.1 ?_).2.1, hc]
      intro hpl
      obtain ⟨q, hq, hq1⟩ := List.mem_map.1 hpl
      obtain ⟨hq2, hq3⟩ := List.mem_filter.1 hq
      have : q = p := List.inj_on_of_nodup_map hl hq2 hp hq1
      rw [this] at hq3
      simp [hc] at hq3
    · have hpl : p.1 ∈ L := List.mem_map.2 ⟨p, List.mem_filter.2 ⟨hp, by simpa using hc⟩, rfl⟩
      rw [F6 p.1 hpl]
      have := hL.state p.1 hpl
      rw [this] at hc
      congr 2
      cases state <;> cases hp2 : p.2 <;> simp_all
  · intro d hd
    have : d ∉ L := by
      intro h
      obtain ⟨q, hq, rfl⟩ := List.mem_map.1 h
      exact hd (List.mem_map.2 ⟨q, (List.mem_filter.1 hq).1, rfl⟩)
    exact ⟨(F7 d this).2.1, (F7 d this).1⟩

/-- C31 for the request of one state for all dimensions, of a field whose dimensions are all in the
same state: afterwards all are in the requested one. -/
theorem ensure_state_all_partial (spl : Splines ℝ) (hspl : ExactOnEven spl) (f : Field ℝ ℂ) (hf : f.Sound)
    (state b : Bool) (e0 h : ℕ → ℝ) (hd : f.dims.toNat = f.shape.length)
    (hL : EvenDims f (List.range f.shape.length) state e0 h) :
    ∃ r, f.ensureTransformState spl (.all b) = .ok r ∧ ∀ d < f.shape.length, r.ats[d]? = some (some b) := by
  by_cases hb : state = b
  · subst hb
    refine ⟨f, ensure_state_present spl f _ ?_, fun d hd => hL.state d (List.mem_range.2 hd)⟩
    intro p hp
    simp only [StateRequest.items, hd, List.mem_map] at hp
    obtain ⟨d, hd, rfl⟩ := hp
    exact pyGet_nat (hL.state d hd)
  · have hfil : (((List.range f.shape.length).map fun d => (d, b)).filter
        fun p => f.ats[p.1]? ≠ some (some p.2)).map (·.1) = List.range f.shape.length := by
      rw [List.filter_eq_self.2, List.map_map]
      · exact List.map_id _
      · intro p hp
        obtain ⟨d, hd, rfl⟩ := List.mem_map.1 hp
        simp [hL.state d hd, hb]
    obtain ⟨r, h1, h2, _⟩ := ensure_state_partial spl hspl f hf (.all b)
      ((List.range f.shape.length).map fun d => (d, b)) (by
        simp only [StateRequest.items, hd, List.map_map]; rfl) (by
        rw [List.map_map]; exact (List.map_id (List.range f.shape.length)).symm ▸ List.nodup_range)
      (by
        intro p hp
        obtain ⟨d, hd, rfl⟩ := List.mem_map.1 hp
        exact List.mem_range.1 hd) state e0 h (by rw [hfil]; exact hL)
    refine ⟨r, h1, fun d hd => ?_⟩
    exact h2 (d, b) (List.mem_map.2 ⟨d, List.mem_range.2 hd, rfl⟩)

/-- C30: only evenly spaced axes can be transformed. If the position of a cell boundary of a requested axis deviates from the even spacing
between the ends of the axis by more than the tolerance of `np.isclose`, the call is refused. Partial: smaller deviations are not noticed, see
`fft_uneven_violated`. -/
theorem fft_uneven_partial (spl : Splines ℝ) (f : Field ℝ ℂ) (L : List ℕ) (hL : ∀ d ∈ L, d < f.axes.length) (d : ℕ) (hd : d ∈ L)
    (ax : Axis ℝ) (hax : f.axes[d]? = some ax) (h3 : 3 ≤ ax.len) (a b : ℝ) (ha : ax.gridNode.head? = some a)
    (hb : ax.gridNode.getLast? = some b) (i : ℕ) (x e : ℝ) (hx : ax.gridNode[i]? = some x)
    (he : e = a + i * ((b - a) / ((ax.gridNode.length - 1 : ℕ) : ℝ)))
    (hfar : 1 / 100000000 + 1 / 100000 * |e| < |x - e|) (signs : String) (hs : signs = "spatial" ∨ signs = "temporal") (old : Bool) :
    f.fft spl (some (L.map Int.ofNat)) signs old = .error .valueError := by
  have hlin : ax.isLinear = false := by
    unfold Axis.isLinear isLinearList
    rw [if_neg (by omega), ha, hb]
    simp only
    rw [List.all_eq_false]
    refine ⟨(x, e), ?_, ?_⟩
    · rw [List.mem_iff_getElem?]
      refine ⟨i, ?_⟩
      rw [List.getElem?_zip_eq_some]
      refine ⟨hx, ?_⟩
      have hi : i < ax.gridNode.length := (List.getElem?_eq_some_iff.1 hx).1
      simp [linspace, hi, he]
    · simp only [isclose, decide_eq_true_eq, not_le]
      exact hfar
  have hall : ∀ l : List ℤ, (∀ j ∈ l, ∃ d : ℕ, j = (d : ℤ) ∧ d < f.axes.length) → (d : ℤ) ∈ l → allLinear f.axes l = .ok false := by
    intro l
    induction l with
    | nil => intro _ h; simp at h
    | cons j l ih =>
      intro h1 h2
      obtain ⟨q, rfl, hq⟩ := h1 j (by simp)
      obtain ⟨aq, haq⟩ : ∃ aq, f.axes[q]? = some aq := ⟨_, List.getElem?_eq_getElem hq⟩
      simp only [allLinear, bind, Except.bind, pyGet_nat haq]
      by_cases hl : aq.isLinear = true
      · rw [if_pos hl]
        refine ih (fun j hj => h1 j (by simp [hj])) ?_
        rcases List.mem_cons.1 h2 with h | h
        · have : q = d := by exact_mod_cast h.symm
          subst this
          rw [hax] at haq
          obtain rfl := Option.some.inj haq
          rw [hlin] at hl
          cases hl
        · exact h
      · rw [if_neg hl]
        rfl
  unfold Field.fft
  rw [if_neg (not_not.2 hs)]
  have h := hall (((some (L.map Int.ofNat)).getD f.rangeDims).dedup.insertionSort (· ≤ ·)) (by
    intro j hj
    rw [(List.perm_insertionSort _ _).mem_iff, List.mem_dedup] at hj
    simp only [Option.getD_some, List.mem_map] at hj
    obtain ⟨q, hq, rfl⟩ := hj
    exact ⟨q, rfl, hL q hq⟩) (by
    rw [(List.perm_insertionSort _ _).mem_iff, List.mem_dedup]
    simp only [Option.getD_some, List.mem_map]
    exact ⟨d, hd, rfl⟩)
  simp only [h, bind, Except.bind]
  rfl

/-! ## Examples and violations -/

/-- Splines for the examples: piecewise linear. -/
def lineSplines : Splines ℝ := ⟨mids, mids⟩

theorem lineSplines_exact : ExactOnEven lineSplines :=
  ⟨fun a h n _ => (mids_ap a h n).trans (centers_ap a h n).symm,
    fun a h n _ => (mids_ap a h n).trans (centers_ap a h n).symm⟩

/-- A field with 3 times 2 points; the cells along `x` have the size 2 and start at 1, those along `t`
have the size 1/2 and start at -1. -/
def field32 : Field ℝ ℂ :=
  ⟨"f", "V", ⟨[3, 2], fun idx => (idx.getD 0 0 : ℂ) + Complex.I * (idx.getD 1 0 : ℂ)⟩,
    [evenAxisOf "x" "m" 1 2 3, evenAxisOf "t" "s" (-1) (1 / 2) 2], [some false, some false], [none, none]⟩

theorem evenAxisOf_valid (name unit : String) (e0 h : ℝ) (hh : 0 < h) (n : ℕ) :
    ValidAxis (evenAxisOf name unit e0 h n).gridNode (evenAxisOf name unit e0 h n).grid
      (evenAxisOf name unit e0 h n).extent := by
  have := wf_ap (e0 + h / 2) hh n
  rw [add_sub_cancel_right] at this
  exact ⟨this, by simp [evenAxisOf, ap_head], by simp [evenAxisOf, ap_last]⟩

theorem field32_sound : field32.Sound := by
  refine ⟨⟨?_, rfl, rfl⟩, ?_, by simp [field32, Field.shape]⟩
  · simp [field32, Axis.len, evenAxisOf, ap_length, Field.shape]
  · intro ax hax
    simp only [field32, List.mem_cons, List.not_mem_nil, or_false] at hax
    rcases hax with rfl | rfl
    · exact evenAxisOf_valid _ _ _ _ (by norm_num) _
    · exact evenAxisOf_valid _ _ _ _ (by norm_num) _

theorem field32_dims : Transformable field32 [1, 0] false (fun d => if d = 0 then 1 else -1)
    (fun d => if d = 0 then 2 else 1 / 2) := by
  refine ⟨⟨by simp, by simp, ?_, ?_, ?_⟩, ?_⟩
  · intro d hd
    fin_cases hd <;> rfl
  · intro d hd
    fin_cases hd <;> norm_num
  · intro d hd
    fin_cases hd
    · exact ⟨_, rfl, evenAxisOf_even _ _ _ _ _⟩
    · exact ⟨_, rfl, evenAxisOf_even _ _ _ _ _⟩
  · intro d hd n hn
    fin_cases hd <;> simp [field32, Field.shape] at hn <;> omega

theorem field32_names : ∀ d ∈ [1, 0], ∀ ax, field32.axes[d]? = some ax →
    ConjugableName false ax.name ∧ ConjugableUnit false ax.unit := by
  intro d hd ax hax
  fin_cases hd <;> (obtain rfl := Option.some.inj hax) <;>
    simp [ConjugableName, ConjugableUnit, evenAxisOf]

example := fft_value_partial lineSplines lineSplines_exact field32 field32_sound _ _ _ _
  field32_dims.toEvenDims "spatial" (Or.inl rfl)

example := fft_roundtrip_partial lineSplines lineSplines_exact field32 field32_sound _ _ _ _ field32_dims
  "temporal" (Or.inr rfl) false field32_names

example := fft_parseval_partial lineSplines lineSplines_exact field32 field32_sound _ _ _ _ field32_dims
  "spatial" (Or.inl rfl) false [0, 1] (by simp)

example := shift_zero_partial lineSplines lineSplines_exact field32 field32_sound _ (by decide) _ _ _
  field32_dims field32_names

example (σ τ : ℕ → ℝ) := shift_add_partial lineSplines lineSplines_exact field32 field32_sound _ (by decide) _ _ _
  field32_dims field32_names σ τ

example (q : ℕ → ℤ) := shift_cells_partial lineSplines lineSplines_exact field32 field32_sound _ (by decide)
  _ _ _ field32_dims (by intro d hd; fin_cases hd <;> rfl) q

example : rolled [3, 2] [1, 0] (fun d => if d = 0 then 4 else -1) [2, 0] = [0, 1] := by decide

example := ensure_state_all_partial lineSplines lineSplines_exact field32 field32_sound false true _ _
  (by decide) ⟨by decide, by decide, by decide, fun d hd => field32_dims.pos d (by
    have : d < 2 := List.mem_range.1 hd
    simp
    omega), fun d hd => field32_dims.axis d (by
    have : d < 2 := List.mem_range.1 hd
    simp
    omega)⟩

/-- A field with a single point along `x`. -/
def field1 : Field ℝ ℂ :=
  ⟨"f", "", ⟨[1], fun _ => 1⟩, [evenAxisOf "x" "m" (-1) 2 1], [some false], [none]⟩

theorem field1_sound : field1.Sound := by
  refine ⟨⟨?_, rfl, rfl⟩, ?_, by simp [field1, Field.shape]⟩
  · simp [field1, Axis.len, evenAxisOf, ap_length, Field.shape]
  · intro ax hax
    simp only [field1, List.mem_cons, List.not_mem_nil, or_false] at hax
    subst hax
    exact evenAxisOf_valid _ _ _ _ (by norm_num) _

/-- A single point, transformed twice. -/
theorem fft_single_point :
    ∃ F r, F.tao = [some 0] ∧ field1.fft lineSplines (some [0]) "spatial" false = .ok F ∧
      F.fft lineSplines (some [0]) "spatial" false = .ok r ∧ field1.matrix.at' [0] = 1 ∧
      r.matrix.at' [0] = ((1 / Real.pi : ℝ) : ℂ) ∧ r.matrix.at' [0] ≠ field1.matrix.at' [0] := by
  have hlin : Lin (evenAxisOf "x" "m" (-1) 2 1) 0 2 := by
    have := Lin.of_even (evenAxisOf_even "x" "m" (-1 : ℝ) 2 1) (by norm_num)
      (by simp [evenAxisOf, Axis.len, ap_length])
    norm_num at this
    exact this
  obtain ⟨F, F1, F2, F3, F4, F5, F6, F7, F8⟩ := fft_sound (f := field1) lineSplines_exact field1_sound
    (L := [0]) (by simp) (x0 := fun _ => 0) (h := fun _ => 2) (k0 := fun _ => 0) (n := fun _ => 1)
    (state := false) (by
      intro d hd
      obtain rfl : d = 0 := by simpa using hd
      refine ⟨by norm_num, rfl, _, none, rfl, rfl, hlin, by simp [evenAxisOf, Axis.len, ap_length], ?_⟩
      simp [firstK, evenAxisOf, Axis.len, ap_length]) (signs := "spatial") (Or.inl rfl) false
  obtain ⟨ax', b1, _, _, b4, _, b6, _, b8, b9⟩ := F7 0 (by simp) _ rfl
  rw [if_pos rfl] at b6
  obtain ⟨r, R1, R2, R3, R4, R5, R6, R7, R8⟩ := fft_sound (f := F) lineSplines_exact F2
    (L := [0]) (by simp) (x0 := fun _ => 0) (h := fun _ => 1) (k0 := fun _ => 0) (n := fun _ => 1)
    (state := true) (by
      intro d hd
      obtain rfl : d = 0 := by simpa using hd
      exact ⟨by norm_num, b8, ax', some 0, b1, b9, b6, b4.symm, by simp [firstK]⟩)
    (signs := "spatial") (Or.inl rfl) false
  have hin : InBounds field1.shape [0] := by
    refine ⟨rfl, ?_⟩
    intro d i n h1 h2
    cases d with
    | zero =>
      have h1 : (0 : ℕ) = i := by simpa using h1
      have h2 : (1 : ℕ) = n := by simpa [field1, Field.shape] using h2
      omega
    | succ d => simp at h1
  have ho : order [0] = [0] := by decide
  have hF : F.matrix.at' [0] = ((2 / Real.sqrt (2 * Real.pi) : ℝ) : ℂ) := by
    rw [F8 [0] hin, ho]
    simp [fourierAlong, ap, field1]
  have hr : r.matrix.at' [0] = ((1 / Real.pi : ℝ) : ℂ) := by
    have h2pi : (0 : ℝ) ≤ 2 * Real.pi := by positivity
    have : r.matrix.at' [0] = ((1 / Real.sqrt (2 * Real.pi) * (2 / Real.sqrt (2 * Real.pi)) : ℝ) : ℂ) := by
      rw [R8 [0] (F5 ▸ hin), ho]
      simp only [List.foldl_cons, List.foldl_nil, fourierAlong, ap_length, Finset.range_one,
        Finset.sum_singleton, List.set_cons_zero, hF]
      simp [ap]
    rw [this]
    congr 1
    have hs := Real.mul_self_sqrt h2pi
    have hs0 : Real.sqrt (2 * Real.pi) ≠ 0 := (Real.sqrt_pos.2 (by positivity)).ne'
    rw [div_mul_div_comm, hs]
    have := Real.pi_pos
    field_simp
  have htao : F.tao = [some 0] := by
    have hl : F.tao.length = 1 := by rw [F2.ok.origins, F5]; rfl
    obtain ⟨x, hx⟩ := List.length_eq_one_iff.1 hl
    rw [hx] at b9 ⊢
    simpa using b9
  refine ⟨F, r, htao, F1, R1, rfl, hr, ?_⟩
  rw [hr]
  intro h
  have h : ((1 / Real.pi : ℝ) : ℂ) = ((1 : ℝ) : ℂ) := by simpa [field1] using h
  have h := Complex.ofReal_inj.1 h
  have hp := Real.two_le_pi
  have hp0 := Real.pi_pos
  rw [div_eq_one_iff_eq hp0.ne'] at h
  linarith

/-- A single point along the transformed dimension: the value 1 is not found again after
transforming twice. -/
theorem fft_single_point_violated :
    ∃ F r, field1.fft lineSplines (some [0]) "spatial" false = .ok F ∧
      F.fft lineSplines (some [0]) "spatial" false = .ok r ∧ field1.matrix.at' [0] = 1 ∧
      r.matrix.at' [0] = ((1 / Real.pi : ℝ) : ℂ) ∧ r.matrix.at' [0] ≠ field1.matrix.at' [0] := by
  obtain ⟨F, r, _, h⟩ := fft_single_point
  exact ⟨F, r, h⟩

/-- C32 fails for a single point: shifting by nothing changes the value 1. -/
theorem shift_single_point_violated :
    ∃ r, field1.shiftGridBy lineSplines [(0, 0)] = .ok r ∧ field1.matrix.at' [0] = 1 ∧ r.matrix.at' [0] = ((1 / Real.pi : ℝ) : ℂ) ∧
      r.matrix.at' [0] ≠ field1.matrix.at' [0] := by
  obtain ⟨F, r, htao, h1, h2, h3, h4, h5⟩ := fft_single_point
  refine ⟨r, ?_, h3, h4, h5⟩
  have hadd : addOrigins [((0 : ℤ), (0 : ℝ))] F.tao = .ok F.tao := by
    rw [htao]
    simp [addOrigins, pyGet, pySet, pyIdx, bind, Except.bind]
  unfold Field.shiftGridBy Field.shiftFourier
  rw [if_neg (by decide)]
  simp only [List.map_cons, List.map_nil, List.insertionSort_cons, List.insertionSort_nil, List.orderedInsert, h1, bind, Except.bind, hadd, h2]

/-- Names and units are restored by removing leading characters: an axis in space called `kx` with
the unit `1/m` is called `x` with the unit `m` afterwards. -/
theorem fft_name_violated :
    conjugateName true (conjugateName false "kx") = "x" ∧
    conjugateUnit true (conjugateUnit false "1/m") = "m" ∧
    ∃ f F r : Field ℝ ℂ, f.Sound ∧ f.axes.map (fun ax => (ax.name, ax.unit)) = [("kx", "1/m")] ∧
      f.fft lineSplines (some [0]) "spatial" false = .ok F ∧
      F.fft lineSplines (some [0]) "spatial" false = .ok r ∧
      r.axes.map (fun ax => (ax.name, ax.unit)) = [("x", "m")] := by
  have e1 : conjugateName true (conjugateName false "kx") = "x" := by decide
  have e2 : conjugateUnit true (conjugateUnit false "1/m") = "m" := by decide
  refine ⟨e1, e2, ?_⟩
  set f : Field ℝ ℂ := ⟨"f", "", ⟨[2], fun _ => 1⟩, [evenAxisOf "kx" "1/m" 0 1 2], [some false], [none]⟩ with hfd
  have hf : f.Sound := by
    refine ⟨⟨?_, rfl, rfl⟩, ?_, by simp [hfd, Field.shape]⟩
    · simp [hfd, Axis.len, evenAxisOf, ap_length, Field.shape]
    · intro ax hax
      simp only [hfd, List.mem_cons, List.not_mem_nil, or_false] at hax
      subst hax
      exact evenAxisOf_valid _ _ _ _ (by norm_num) _
  have hL : Transformable f [0] false (fun _ => 0) (fun _ => 1) := by
    refine ⟨⟨by simp, by simp, ?_, by simp, ?_⟩, ?_⟩
    · intro d hd
      obtain rfl : d = 0 := by simpa using hd
      rfl
    · intro d hd
      obtain rfl : d = 0 := by simpa using hd
      exact ⟨_, rfl, evenAxisOf_even _ _ _ _ _⟩
    · intro d hd n hn
      obtain rfl : d = 0 := by simpa using hd
      simp [hfd, Field.shape] at hn
      omega
  obtain ⟨F, n, k0, F1, F2, F3, F4, F5, F6, F7, F8, F9, F10, F11, F12, F13⟩ :=
    fft_again lineSplines_exact hf hL (signs := "spatial") (Or.inl rfl) false
  obtain ⟨r, R1, R2, R3, R4, R5, R6, R7, R8, R9, R10⟩ := F13 (fun _ => 0) F.tao rfl
    (fun d hd => by rw [(F6 d hd).1, add_zero]) (fun _ _ => rfl)
  refine ⟨f, F, r, hf, rfl, F1, R1, ?_⟩
  obtain ⟨ax', c1, c2, c3, _⟩ := R9 0 (by simp) _ rfl
  have hlen : r.axes.length = 1 := by rw [ok_axes_length R2.ok, R5]; rfl
  have : r.axes = [ax'] := by
    apply List.ext_getElem?
    intro d
    cases d with
    | zero => rw [c1]; rfl
    | succ d => rw [List.getElem?_eq_none (by omega), List.getElem?_eq_none (by simp)]
  rw [this]
  simp only [List.map_cons, List.map_nil, c2, c3]
  exact congrArg₂ (fun a b => [(a, b)]) e1 e2

/-- Negative numbers of axes, accepted by numpy and by the rest of the class, lead to a `KeyError`. -/
theorem fft_negative_axis_violated :
    field32.fft lineSplines (some [-1]) "spatial" false = .error .keyError := by
  have hax : pyGet field32.axes (-1) = .ok (evenAxisOf "t" "s" (-1) (1 / 2) 2) := rfl
  have hlen : (evenAxisOf "t" "s" (-1) (1 / 2) 2 : Axis ℝ).len = 2 := ap_length _ _ _
  have hlin := Lin.of_even (evenAxisOf_even "t" "s" (-1 : ℝ) (1 / 2) 2) (by norm_num) (by rw [hlen]; norm_num)
  have h1 : allLinear field32.axes [-1] = .ok true := by
    simp only [allLinear, hax, bind, Except.bind, hlin.linear, if_true]
  have h2 : collectiveState field32.ats [-1] = .ok (some false) := by decide
  have h3 : ∃ p, field32.fftAxis (-1) = .ok p := by
    have hs : pyGet field32.shape (-1) = .ok 2 := rfl
    have ht : pyGet field32.tao (-1) = .ok none := rfl
    have hg : pyGet (evenAxisOf "t" "s" (-1) (1 / 2) 2 : Axis ℝ).grid 0 = .ok (-1 + 1 / 2 / 2) := by
      rw [hlin.grid]; exact pyGet_ap _ _ hlin.len
    cases hh : field32.fftAxis (-1) with
    | ok p => exact ⟨p, rfl⟩
    | error e =>
      simp only [Field.fftAxis, Field.conjugateGrid, hax, hs, ht, hlin.spacing, bind, Except.bind, hg, pure,
        Except.pure] at hh
      rw [freqGrid_ap, pyGet_ap _ _ (by norm_num)] at hh
      cases hh
  obtain ⟨p, h3⟩ := h3
  have hsort : (((some [-1] : Option (List ℤ)).getD field32.rangeDims).dedup).insertionSort (· ≤ ·) = [-1] := by
    decide
  unfold Field.fft
  simp only [hsort, h1, h2, bind, Except.bind, List.mapM_cons, List.mapM_nil, h3, pure, Except.pure]
  simp
  rfl

/-- A request which needs the transform of one dimension and the inverse of another one fails. -/
theorem ensure_state_mixed_violated :
    ({ field32 with ats := [some false, some true] } : Field ℝ ℂ).ensureTransformState lineSplines
      (.list [true, false]) = .error .valueError := by
  have e1 : toTransform [some false, some true] ((StateRequest.list [true, false]).items 2) =
      .ok [0, 1] := by decide
  have hl1 : ∀ (name unit : String) (e0 h : ℝ) (n : ℕ), (evenAxisOf name unit e0 h n).isLinear = true :=
    fun _ _ _ _ _ => even_linear (evenAxisOf_even _ _ _ _ _)
  have h1 : allLinear field32.axes [0, 1] = .ok true :=
    allLinear_eq (l := [0, 1]) (by
      intro d hd
      fin_cases hd
      · exact ⟨_, rfl, hl1 _ _ _ _ _⟩
      · exact ⟨_, rfl, hl1 _ _ _ _ _⟩)
  have h2 : collectiveState [some false, some true] [0, 1] = .ok none := by decide
  have hsort : ((some [0, 1] : Option (List ℤ)).getD
      ({ field32 with ats := [some false, some true] } : Field ℝ ℂ).rangeDims).dedup.insertionSort (· ≤ ·) =
        [0, 1] := by decide
  unfold Field.ensureTransformState
  have hdim : (({ field32 with ats := [some false, some true] } : Field ℝ ℂ).dims).toNat = 2 := rfl
  rw [hdim, e1]
  simp only [bind, Except.bind]
  rw [if_neg (by decide)]
  unfold Field.fft
  simp only [hsort, h1, h2, bind, Except.bind]
  rfl

/-- An axis with cells of the lengths 1, 3 and 5. -/
def unevenField (c : ℝ) : Field ℝ ℂ :=
  ⟨"f", "", ⟨[3], fun _ => 1⟩, [⟨"x", "m", [0, c, 4 * c, 9 * c], [c / 2, 5 * c / 2, 13 * c / 2], (0, 9 * c)⟩], [some false], [none]⟩

example : (unevenField 1).fft lineSplines (some [0]) "spatial" false = .error .valueError :=
  fft_uneven_partial lineSplines (unevenField 1) [0] (by simp [unevenField]) 0 (by simp) _ rfl (by simp [Axis.len]) _ _ rfl rfl 1 1 3
    (by simp) (by norm_num) (by norm_num) "spatial" (Or.inl rfl) false

/-- C30 violated: the tolerance is absolute, 10 nanometers if the axis is in meters. An axis with the cell boundaries 0, 1 nm, 4 nm and
9 nm passes as evenly spaced and is transformed with the length of the first cell. -/
theorem fft_uneven_violated :
    ∃ F, (unevenField (1 / 1000000000)).fft lineSplines (some [0]) "spatial" false = .ok F := by
  have h2pi : (0 : ℝ) < 2 * Real.pi := by have := Real.pi_pos; positivity
  set c : ℝ := 1 / 1000000000 with hc
  have hc0 : 0 < c := by rw [hc]; norm_num
  set ax : Axis ℝ := ⟨"x", "m", [0, c, 4 * c, 9 * c], [c / 2, 5 * c / 2, 13 * c / 2], (0, 9 * c)⟩ with haxd
  have hax : pyGet (unevenField c).axes 0 = .ok ax := rfl
  have hlin : ax.isLinear = true := by
    simp only [haxd, Axis.isLinear, Axis.len, List.length_cons, List.length_nil]
    rw [if_neg (by norm_num)]
    simp [isLinearList, linspace, isclose, List.range_succ, hc]
    norm_num [abs_le]
  have hsp : ax.spacing = .ok c := by
    unfold Axis.spacing
    rw [hlin]
    simp [haxd, hc0.le]
  have h1 : allLinear (unevenField c).axes [0] = .ok true := by
    simp only [allLinear, hax, bind, Except.bind, hlin, if_true]
  have h2 : collectiveState (unevenField c).ats [0] = .ok (some false) := by
    change collectiveState [some false] [0] = _
    decide
  set dk : ℝ := 2 * Real.pi / ((3 : ℕ) * c) with hdk
  have hdk0 : 0 < dk := by rw [hdk]; positivity
  have h3 : (unevenField c).fftAxis 0 = .ok ⟨0, c, 3, c / 2, ap (-1 * dk) dk 3, -1 * dk⟩ := by
    have hs : pyGet (unevenField c).shape 0 = .ok 3 := rfl
    have ht : pyGet (unevenField c).tao 0 = .ok none := rfl
    have hg : pyGet ax.grid 0 = .ok (c / 2) := rfl
    have hfr : freqGrid 3 c = ap (-1 * dk) dk 3 := by
      rw [freqGrid_ap, hdk]
      norm_num
    simp only [Field.fftAxis, Field.conjugateGrid, hax, hs, ht, hsp, bind, Except.bind, hg, pure,
      Except.pure]
    rw [hfr, pyGet_ap _ _ (by norm_num)]
    rfl
  obtain ⟨ax', a1, a2, a3, a4, a5, _⟩ := conj_axis lineSplines_exact (conjugateName false ax.name)
    (conjugateUnit false ax.unit) (-1 * dk) hdk0 (n := 3) (by norm_num)
  have hset : setConjugateAxes lineSplines (unevenField c).shape false
      [⟨0, c, 3, c / 2, ap (-1 * dk) dk 3, -1 * dk⟩] (unevenField c).axes = .ok [ax'] := by
    have hchk : checkAxisObj (unevenField c).shape 0 ax' = .ok () := by
      unfold checkAxisObj
      rw [if_neg (by norm_num)]
      simp [unevenField, Field.shape, a4]
    simp only [setConjugateAxes, Nat.cast_zero, hax, bind, Except.bind, a1, hchk]
    rfl
  have hsort : (((some [0] : Option (List ℤ)).getD (unevenField c).rangeDims).dedup).insertionSort (· ≤ ·) = [0] := by
    simp
  cases hh : (unevenField c).fft lineSplines (some [0]) "spatial" false with
  | error e =>
    unfold Field.fft at hh
    simp only [hsort, h1, h2, bind, Except.bind, List.mapM_cons, List.mapM_nil, h3, pure, Except.pure,
      List.map_cons, List.map_nil, hset] at hh
    simp at hh
  | ok F => exact ⟨F, rfl⟩

/-- A field with a decreasing axis: 1 at the position 0, else 0. -/
def fieldRev : Field ℝ ℂ :=
  ⟨"f", "", ⟨[3], fun idx => if idx.getD 0 0 = 1 then 1 else 0⟩,
    [⟨"x", "m", [3 / 2, 1 / 2, -1 / 2, -3 / 2], [1, 0, -1], (3 / 2, -3 / 2)⟩], [some false], [none]⟩

/-- With a decreasing axis the result is not the Fourier integral: the spacing is taken as positive. -/
theorem fft_reversed_violated :
    ∃ F, fieldRev.fft lineSplines (some [0]) "spatial" false = .ok F ∧
      F.matrix.at' [1] ≠ fourierAlong (1 / Real.sqrt (2 * Real.pi)) (-1) (gridAlong fieldRev 0)
        (gridAlong F 0) 0 fieldRev.matrix.at' [1] := by
  have h2pi : (0 : ℝ) < 2 * Real.pi := by have := Real.pi_pos; positivity
  set ax : Axis ℝ := ⟨"x", "m", [3 / 2, 1 / 2, -1 / 2, -3 / 2], [1, 0, -1], (3 / 2, -3 / 2)⟩ with haxd
  have hax : pyGet fieldRev.axes 0 = .ok ax := rfl
  have hlin : ax.isLinear = true := by
    simp only [haxd, Axis.isLinear, Axis.len, List.length_cons, List.length_nil]
    rw [if_neg (by norm_num)]
    simp [isLinearList, linspace, isclose, List.range_succ]
    norm_num
  have hsp : ax.spacing = .ok 1 := by
    unfold Axis.spacing
    rw [hlin]
    simp [haxd]
    norm_num
  have h1 : allLinear fieldRev.axes [0] = .ok true := by
    simp only [allLinear, hax, bind, Except.bind, hlin, if_true]
  have h2 : collectiveState fieldRev.ats [0] = .ok (some false) := by decide
  set dk : ℝ := 2 * Real.pi / ((3 : ℕ) * 1) with hdk
  have hdk0 : 0 < dk := by rw [hdk]; positivity
  have h3 : fieldRev.fftAxis 0 = .ok ⟨0, 1, 3, 1, ap (-1 * dk) dk 3, -1 * dk⟩ := by
    have hs : pyGet fieldRev.shape 0 = .ok 3 := rfl
    have ht : pyGet fieldRev.tao 0 = .ok none := rfl
    have hg : pyGet ax.grid 0 = .ok 1 := rfl
    have hfr : freqGrid 3 1 = ap (-1 * dk) dk 3 := by
      rw [freqGrid_ap, hdk]
      norm_num
    simp only [Field.fftAxis, Field.conjugateGrid, hax, hs, ht, hsp, bind, Except.bind, hg, pure,
      Except.pure]
    rw [hfr, pyGet_ap _ _ (by norm_num)]
    rfl
  obtain ⟨ax', a1, a2, a3, a4, a5, _⟩ := conj_axis lineSplines_exact (conjugateName false ax.name)
    (conjugateUnit false ax.unit) (-1 * dk) hdk0 (n := 3) (by norm_num)
  have hset : setConjugateAxes lineSplines fieldRev.shape false
      [⟨0, 1, 3, 1, ap (-1 * dk) dk 3, -1 * dk⟩] fieldRev.axes = .ok [ax'] := by
    have hchk : checkAxisObj fieldRev.shape 0 ax' = .ok () := by
      unfold checkAxisObj
      rw [if_neg (by norm_num)]
      simp [fieldRev, Field.shape, a4]
    simp only [setConjugateAxes, Nat.cast_zero, hax, bind, Except.bind, a1, hchk]
    rfl
  have hsort : (((some [0] : Option (List ℤ)).getD fieldRev.rangeDims).dedup).insertionSort (· ≤ ·) = [0] := by
    decide
  obtain ⟨F, F1, F2, F3⟩ : ∃ F, fieldRev.fft lineSplines (some [0]) "spatial" false = .ok F ∧
      F.matrix.at' [1] = fftNorm [⟨0, 1, 3, 1, ap (-1 * dk) dk 3, -1 * dk⟩] *
        dft false [3] [0] (fun idx => fieldRev.matrix.at' idx *
          linearPhase false fieldRev.axes [(0, -1 * dk)] 0 idx) [1] *
        linearPhase true [ax'] [(0, -1)] (1 * (-1 * dk)) [1] ∧ F.axes = [ax'] := by
    cases hh : fieldRev.fft lineSplines (some [0]) "spatial" false with
    | error e =>
      unfold Field.fft at hh
      simp only [hsort, h1, h2, bind, Except.bind, List.mapM_cons, List.mapM_nil, h3, pure, Except.pure,
        List.map_cons, List.map_nil, hset] at hh
      simp at hh
    | ok F =>
      unfold Field.fft at hh
      simp only [hsort, h1, h2, bind, Except.bind, List.mapM_cons, List.mapM_nil, h3, pure, Except.pure,
        List.map_cons, List.map_nil, hset] at hh
      simp at hh
      subst hh
      refine ⟨_, rfl, ?_, rfl⟩
      simp [fieldRev, Field.shape]
  refine ⟨F, F1, ?_⟩
  have hgF : gridAlong F 0 = ap (-1 * dk) dk 3 := by
    rw [← a5]
    exact gridAlong_eq (by rw [F3]; rfl)
  have hgf : gridAlong fieldRev 0 = [1, 0, -1] := rfl
  have hp1 : linearPhase true [ax'] [(0, -1)] (1 * (-1 * dk)) [1] = Complex.exp (-(Complex.I * dk)) := by
    unfold linearPhase
    simp only [a5, List.map_cons, List.map_nil, List.sum_cons, List.sum_nil, List.getD_cons_zero,
      ap_getD _ _ _ _ (by norm_num : 1 < 3)]
    congr 1
    push_cast
    simp
  have hp2 : dft false [3] [0] (fun idx => fieldRev.matrix.at' idx *
      linearPhase false fieldRev.axes [(0, -1 * dk)] 0 idx) [1] =
      ((Real.sqrt (3 : ℕ))⁻¹ : ℝ) * Complex.exp (-(Complex.I * dk)) := by
    have hm : ∀ j : ℕ, fieldRev.matrix.at' [j] * linearPhase false fieldRev.axes [(0, -1 * dk)] 0 [j] =
        if j = 1 then 1 else 0 := by
      intro j
      by_cases hj : j = 1
      · subst hj
        simp [linearPhase, fieldRev]
      · simp [fieldRev, hj]
    simp only [dft, List.foldl_cons, List.foldl_nil, dftAlong, List.set_cons_zero, hm,
      List.getD_cons_zero]
    rw [Finset.sum_eq_single 1]
    · rw [if_pos rfl, mul_one]
      congr 2
      rw [hdk]
      push_cast
      simp
      ring
    · intro b _ hb
      rw [if_neg hb, mul_zero]
    · intro h
      simp at h
  have hfour : fourierAlong (1 / Real.sqrt (2 * Real.pi)) (-1) [1, 0, -1] (ap (-1 * dk) dk 3) 0
      fieldRev.matrix.at' [1] = ((1 / Real.sqrt (2 * Real.pi) : ℝ) : ℂ) := by
    simp [fourierAlong, Finset.sum_range_succ, fieldRev]
  have hnorm : fftNorm [⟨0, 1, 3, 1, ap (-1 * dk) dk 3, -1 * dk⟩] =
      Real.sqrt (3 : ℕ) / Real.sqrt (2 * Real.pi) := by
    rw [← Real.sqrt_div (by positivity)]
    simp [fftNorm]
  rw [F2, hp1, hp2, hnorm, hgF, hgf, hfour]
  intro h
  have hs3 : (Real.sqrt (3 : ℕ) : ℂ) ≠ 0 := by
    have : (0 : ℝ) < Real.sqrt (3 : ℕ) := Real.sqrt_pos.2 (by norm_num)
    exact_mod_cast this.ne'
  have hsp0 : (Real.sqrt (2 * Real.pi) : ℂ) ≠ 0 := by
    exact_mod_cast (Real.sqrt_pos.2 h2pi).ne'
  have h4 : Complex.exp (-(Complex.I * dk)) * Complex.exp (-(Complex.I * dk)) = 1 := by
    push_cast at h
    field_simp at h
    rw [← h]
    ring
  rw [← Complex.exp_add] at h4
  have h5 : Complex.exp (2 * Real.pi * Complex.I * ((-2 : ℤ) : ℂ) / (3 : ℕ)) = 1 := by
    rw [← h4, hdk]
    congr 1
    push_cast
    ring
  have := (exp_int (-2) 3 (by norm_num)).1 h5
  revert this
  decide

end

end Postpic.Props
