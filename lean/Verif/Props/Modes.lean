import Verif.Lemmas.Modes
import Verif.Props.ReaderGrid

/-!
# C42: azimuthal modes
-/

set_option autoImplicit false

namespace Postpic.Props

open Postpic Postpic.Readers Postpic.Spec Postpic.Fields Postpic.Axes

/-- The data of fbpic as coefficients of a Fourier series: component 0 is mode 0, components `2m - 1` and `2m` are the
cosine and the sine part of mode `m`. -/
noncomputable def fbpicSeries (M : ℕ) (raw : Arr ℝ) (r z : ℕ) (theta : ℝ) : ℝ :=
  azimuthalSeries M (fun m => raw.at' [if m = 0 then 0 else 2 * m - 1, r, z]) (fun m => raw.at' [2 * m, r, z]) theta

theorem cosCoeff_eq (raw : Arr ℝ) (r z : ℕ) :
    (cosCoeff fun m => raw.at' [m, r, z]) = fun m => raw.at' [if m = 0 then 0 else 2 * m - 1, r, z] := by
  funext m
  unfold cosCoeff
  split <;> rfl

/-- C42: for an odd number `2M + 1` of components and any list of angles (not empty), the expansion by summation returns
at `[r, t, z]` the Fourier series at the angle number `t`. An even number of components is refused. -/
theorem fbpic_naive {M nr nz : ℕ} (raw : Arr ℝ) (hs : raw.shape = [2 * M + 1, nr, nz]) (thetas : List ℝ)
    (ht : thetas ≠ []) :
    ∃ a, fbpicNaive raw thetas = .ok a ∧ a.shape = [nr, thetas.length, nz] ∧
      ∀ (r t z : ℕ) (theta : ℝ), thetas[t]? = some theta → a.at' [r, t, z] = fbpicSeries M raw r z theta := by
  have h1 : ∀ theta, fbpicSingle raw theta = .ok ⟨[nr, nz], fun idx =>
      ((fbpicFactors (2 * M + 1) theta).zipIdx.map fun p => p.1 * raw.at' (p.2 :: idx)).sum⟩ := by
    intro theta
    have hl : (fbpicFactors (2 * M + 1) theta).length = 2 * M + 1 := by
      rw [factors_length]
      omega
    unfold fbpicSingle
    rw [hs]
    simp only [unpack3]
    show (if (fbpicFactors (2 * M + 1) theta).length ≠ 2 * M + 1 then _ else _) = _
    rw [if_neg (not_not.2 hl)]
    rfl
  have h2 : thetas.mapM (fbpicSingle raw) = .ok (thetas.map fun theta => ⟨[nr, nz], fun idx =>
      ((fbpicFactors (2 * M + 1) theta).zipIdx.map fun p => p.1 * raw.at' (p.2 :: idx)).sum⟩) := by
    clear ht
    induction thetas with
    | nil => rfl
    | cons t l ih =>
      rw [List.mapM_cons, h1, ih]
      rfl
  cases thetas with
  | nil => exact absurd rfl ht
  | cons t0 l =>
    refine ⟨_, by unfold fbpicNaive; rw [h2]; rfl, by simp, ?_⟩
    intro r t z theta hth
    show Arr.at' ((((t0 :: l).map fun theta => (⟨[nr, nz], fun idx =>
      ((fbpicFactors (2 * M + 1) theta).zipIdx.map fun p => p.1 * raw.at' (p.2 :: idx)).sum⟩ : Arr ℝ))[t]?).getD _)
        [r, z] = _
    rw [List.getElem?_map, hth]
    show ((fbpicFactors (2 * M + 1) theta).zipIdx.map fun p => p.1 * raw.at' (p.2 :: [r, z])).sum = _
    rw [factors_sum M theta fun m => raw.at' [m, r, z], cosCoeff_eq]
    rfl

theorem fbpic_naive_even {M nr nz : ℕ} (raw : Arr ℝ) (hs : raw.shape = [2 * M, nr, nz]) (theta : ℝ)
    (thetas : List ℝ) : fbpicNaive raw (theta :: thetas) = .error .valueError := by
  have hl : (fbpicFactors (2 * M) theta).length ≠ 2 * M := by
    rw [factors_length]
    omega
  have h1 : fbpicSingle raw theta = .error .valueError := by
    unfold fbpicSingle
    rw [hs]
    show (if (fbpicFactors (2 * M) theta).length ≠ 2 * M then _ else _) = _
    rw [if_pos hl]
    rfl
  unfold fbpicNaive
  rw [List.mapM_cons, h1]
  rfl

/-- A field with mode 0 and mode 1 on one cell. -/
noncomputable def rawThree : Arr ℝ := ⟨[3, 1, 1], fun idx => (idx.getD 0 0 : ℝ) + 1⟩

example : ∃ a, fbpicNaive rawThree [0, Real.pi / 2] = .ok a ∧ a.at' [0, 0, 0] = 3 ∧ a.at' [0, 1, 0] = 4 := by
  obtain ⟨a, h, -, hv⟩ := fbpic_naive (M := 1) rawThree rfl [0, Real.pi / 2] (by simp)
  refine ⟨a, h, ?_, ?_⟩
  · rw [hv 0 0 0 0 rfl]
    norm_num [fbpicSeries, azimuthalSeries, rawThree]
  · rw [hv 0 1 0 (Real.pi / 2) rfl]
    norm_num [fbpicSeries, azimuthalSeries, rawThree]

/-- The angles of the FFT grid, `np.linspace(0, 2 * np.pi, n, endpoint=False)`. -/
noncomputable def fftAngle (n k : ℕ) : ℝ := k * (2 * Real.pi / n)

theorem fbpicFft_ok {M nr nz : ℕ} (junk : ℕ → ℕ → ℕ → ℂ) (raw : Arr ℝ) (hs : raw.shape = [2 * M + 1, nr, nz])
    (ntheta : Option ℤ) : fbpicFft junk raw ntheta = .ok ⟨[nr, fbpicNtheta (2 * M + 1) ntheta, nz], fun idx =>
      (∑ k ∈ Finset.range (fbpicNtheta (2 * M + 1) ntheta),
        fbpicCoeff (fun m r z => raw.at' [m, r, z]) junk (M + 1) (idx.getD 0 0) k (idx.getD 2 0) *
          Complex.exp (-(2 * Real.pi * Complex.I * (idx.getD 1 0 : ℕ) * k / (fbpicNtheta (2 * M + 1) ntheta)))).re⟩ := by
  have e : (2 * M + 1 + 1) / 2 = M + 1 := by omega
  have a1 : assignable ((2 * M + 1) / 2) (M + 1 - 1) = true := by
    rw [show (2 * M + 1) / 2 = M by omega]
    simp [assignable]
  have a2 : assignable ((2 * M + 1 - 1) / 2) (M + 1 - 1) = true := by
    rw [show (2 * M + 1 - 1) / 2 = M by omega]
    simp [assignable]
  unfold fbpicFft
  rw [hs]
  simp only [unpack3, bind, Except.bind, e, a1, a2, Bool.not_true, Bool.false_eq_true, if_false,
    if_neg (show ¬ 2 * M + 1 = 0 by omega), pure, Except.pure]

/-- C42, for at most as many angles as modes (`Ntheta` not given or not more than `M + 1`): whatever the memory contained
before, the expansion with the FFT returns the Fourier series at the `M + 1` angles of the grid. -/
theorem fbpic_fft_partial {M nr nz : ℕ} (junk : ℕ → ℕ → ℕ → ℂ) (raw : Arr ℝ) (hs : raw.shape = [2 * M + 1, nr, nz])
    (ntheta : Option ℤ) (hn : ∀ n, ntheta = some n → n ≤ M + 1) :
    ∃ a, fbpicFft junk raw ntheta = .ok a ∧ a.shape = [nr, M + 1, nz] ∧
      ∀ r k z : ℕ, a.at' [r, k, z] = fbpicSeries M raw r z (fftAngle (M + 1) k) := by
  have e : (2 * M + 1 + 1) / 2 = M + 1 := by omega
  have hN : fbpicNtheta (2 * M + 1) ntheta = M + 1 := by
    unfold fbpicNtheta
    cases ntheta with
    | none => exact e
    | some n =>
      have := hn n rfl
      dsimp only
      rw [e]
      split <;> omega
  refine ⟨_, fbpicFft_ok junk raw hs ntheta, by rw [hN], ?_⟩
  intro r k z
  rw [hN]
  unfold fbpicSeries fftAngle
  rw [← cosCoeff_eq]
  exact fft_sum (fun m r z => raw.at' [m, r, z]) junk M r k z

example (junk : ℕ → ℕ → ℕ → ℂ) : ∃ a, fbpicFft junk rawThree none = .ok a ∧ a.at' [0, 1, 0] = -1 := by
  obtain ⟨a, h, -, hv⟩ := fbpic_fft_partial (M := 1) junk rawThree rfl none (by simp)
  refine ⟨a, h, ?_⟩
  rw [hv 0 1 0, fbpicSeries, fftAngle, show ((1 : ℕ) : ℝ) * (2 * Real.pi / ((1 + 1 : ℕ) : ℝ)) = Real.pi by
    push_cast
    ring]
  norm_num [azimuthalSeries, rawThree]

/-- C42: both expansions agree at the angles of the FFT grid. -/
theorem fbpic_expansions_agree {M nr nz : ℕ} (junk : ℕ → ℕ → ℕ → ℂ) (raw : Arr ℝ)
    (hs : raw.shape = [2 * M + 1, nr, nz]) :
    ∃ a b, fbpicExpansion junk raw none none = .ok a ∧
      fbpicExpansion junk raw (some ((List.range (M + 1)).map (fftAngle (M + 1)))) none = .ok b ∧
      a.shape = b.shape ∧ ∀ r k z : ℕ, k < M + 1 → a.at' [r, k, z] = b.at' [r, k, z] := by
  obtain ⟨a, ha, sa, va⟩ := fbpic_fft_partial junk raw hs none (by simp)
  obtain ⟨b, hb, sb, vb⟩ := fbpic_naive raw hs ((List.range (M + 1)).map (fftAngle (M + 1))) (by simp)
  refine ⟨a, b, ?_, ?_, by rw [sa, sb]; simp, ?_⟩
  · unfold fbpicExpansion
    rw [hs]
    exact ha
  · unfold fbpicExpansion
    rw [hs]
    exact hb
  · intro r k z hk
    rw [va, vb r k z (fftAngle (M + 1) k) (by simp [hk])]

example (junk : ℕ → ℕ → ℕ → ℂ) : ∃ a b, fbpicExpansion junk rawThree none none = .ok a ∧
    fbpicExpansion junk rawThree (some [fftAngle 2 0, fftAngle 2 1]) none = .ok b ∧ a.at' [0, 1, 0] = b.at' [0, 1, 0] := by
  obtain ⟨a, b, ha, hb, -, h⟩ := fbpic_expansions_agree (M := 1) junk rawThree rfl
  exact ⟨a, b, ha, hb, h 0 1 0 (by omega)⟩

/-- C42: the angles of the expansion are the given ones, unless a number of angles is given: then, and if there is
neither, it is the grid of the FFT with this number of angles, at least as many as modes. -/
theorem fbpic_angles {M nr nz : ℕ} (junk : ℕ → ℕ → ℕ → ℂ) (raw : Arr ℝ) (hs : raw.shape = [2 * M + 1, nr, nz]) :
    (∀ thetas, thetas ≠ [] → ∃ a, fbpicExpansion junk raw (some thetas) none = .ok a ∧
      a.shape = [nr, thetas.length, nz] ∧
      ∀ (r t z : ℕ) (theta : ℝ), thetas[t]? = some theta → a.at' [r, t, z] = fbpicSeries M raw r z theta) ∧
    (∀ thetas (n : ℕ), ∃ a, fbpicExpansion junk raw thetas (some n) = .ok a ∧ a.shape = [nr, max n (M + 1), nz]) ∧
    (∃ a, fbpicExpansion junk raw none none = .ok a ∧ a.shape = [nr, M + 1, nz]) := by
  have e : ∀ t n, fbpicExpansion junk raw t n = match t, n with
      | none, _ => fbpicFft junk raw n
      | _, some _ => fbpicFft junk raw n
      | some t, none => fbpicNaive raw t := by
    intro t n
    unfold fbpicExpansion
    rw [hs]
    rfl
  refine ⟨fun thetas ht => ?_, fun thetas n => ?_, ?_⟩
  · rw [e]
    exact fbpic_naive raw hs thetas ht
  · have h : fbpicExpansion junk raw thetas (some n) = fbpicFft junk raw (some n) := by
      rw [e]
      cases thetas <;> rfl
    refine ⟨_, h.trans (fbpicFft_ok junk raw hs _), ?_⟩
    have e2 : (2 * M + 1 + 1) / 2 = M + 1 := by omega
    simp only [fbpicNtheta, e2]
    congr 2
    split <;> omega
  · obtain ⟨a, h1, h2, -⟩ := fbpic_fft_partial junk raw hs none (by simp)
    exact ⟨a, by rw [e]; exact h1, h2⟩

example (junk : ℕ → ℕ → ℕ → ℂ) : ∃ a, fbpicExpansion junk rawThree (some [0]) (some (5 : ℕ)) = .ok a ∧
    a.shape = [1, 5, 1] :=
  (fbpic_angles (M := 1) (nr := 1) (nz := 1) junk rawThree rfl).2.1 (some [0]) 5

/-- C42 is violated by more angles than modes: the coefficients of the modes that do not exist are never set, so that the
result depends on what was in the memory. -/
theorem fbpic_fft_violated :
    ∃ (j1 j2 : ℕ → ℕ → ℕ → ℂ) (a b : Arr ℝ), fbpicExpansion j1 rawThree none (some 3) = .ok a ∧
      fbpicExpansion j2 rawThree none (some 3) = .ok b ∧ a.shape = [1, 3, 1] ∧ a.at' [0, 0, 0] ≠ b.at' [0, 0, 0] := by
  have e : ∀ j, fbpicExpansion j rawThree none (some 3) = fbpicFft j rawThree (some 3) := fun j => rfl
  refine ⟨fun _ _ _ => 0, fun _ _ _ => 1, _, _, (e _).trans (fbpicFft_ok (M := 1) _ rawThree rfl _),
    (e _).trans (fbpicFft_ok (M := 1) _ rawThree rfl _), rfl, ?_⟩
  have hN : fbpicNtheta (2 * 1 + 1) (some 3) = 3 := by decide
  rw [hN]
  norm_num [Finset.sum_range_succ, fbpicCoeff, rawThree]

/-- C42 is violated by data with two components: the expansion with the FFT returns mode 0 and drops the other component,
while the summation refuses them. -/
theorem fbpic_two_components_violated (junk : ℕ → ℕ → ℕ → ℂ) :
    ∃ raw : Arr ℝ, raw.shape = [2, 1, 1] ∧ (fbpicFft junk raw none).map Arr.shape = .ok [1, 1, 1] ∧
      fbpicNaive raw [0] = .error .valueError :=
  ⟨⟨[2, 1, 1], fun _ => 1⟩, rfl, rfl, fbpic_naive_even (M := 1) (nr := 1) (nz := 1) _ rfl 0 []⟩

/-- C42 is violated by the axis of the angle: the data number `k` belong to the angle `2 * pi * k / N`, but the grid of the
reader, which becomes the axis of the field (`read_field_partial`), has `2 * pi * (k + 1/2) / N` there. -/
theorem fbpic_theta_violated (d : PmdDump ℝ) (key : String) (rec : PmdRecord ℝ) (hr : d key = some rec) (M nr nz : ℕ)
    (hs : rec.shape = [2 * M + 1, nr, nz]) :
    ∃ grid, (fbpicReader (2 * Real.pi) d).grid key (.str "theta") = .ok grid ∧ grid.length = M + 1 ∧
      ∀ k < M + 1, grid[k]? = some (fftAngle (M + 1) k + Real.pi / ((M + 1 : ℕ) : ℝ)) ∧
        grid[k]? ≠ some (fftAngle (M + 1) k) := by
  have pt : fbpicPoints d key (.str "theta") = .ok (M + 1) := by
    simp only [fbpicPoints, axesidentify, hr, orKeyError, hs, fbpicShape, bind, Except.bind]
    rw [show (2 * M + 1 + 1) / 2 = M + 1 by omega]
    rfl
  refine ⟨_, grid_ok (n := M + 1) (o := 0) (h := 2 * Real.pi / ((M + 1 : ℕ) : ℝ)) (by omega) ?_ ?_ ?_, ap_length _ _ _, ?_⟩
  · simp [fbpicReader, fbpicOffset, axesidentify, bind, Except.bind, pure, Except.pure]
  · simp only [fbpicReader, pt, bind, Except.bind, pure, Except.pure]
  · show fbpicSpacing (2 * Real.pi) d key (.str "theta") = _
    unfold fbpicSpacing
    simp only [pt, bind, Except.bind, pure, Except.pure, axesidentify]
    rfl
  · intro k hk
    rw [ap_get _ _ _ _ hk]
    have hp : 0 < Real.pi / ((M + 1 : ℕ) : ℝ) := div_pos Real.pi_pos (by positivity)
    have e : (0 : ℝ) + 2 * Real.pi / ((M + 1 : ℕ) : ℝ) / 2 + k * (2 * Real.pi / ((M + 1 : ℕ) : ℝ)) =
        fftAngle (M + 1) k + Real.pi / ((M + 1 : ℕ) : ℝ) := by
      unfold fftAngle
      ring
    rw [e]
    refine ⟨rfl, ?_⟩
    intro h
    have := Option.some.inj h
    linarith

/-! ### Smilei -/

theorem smileiModes_ok {dump : String → ℕ → Option (Arr ℝ)} {key : String} {m nx n : ℕ} {a : Arr ℝ}
    (he : key.startsWith "Env_" = false) (ha : dump key m = some a) (hs : a.shape = [nx, 2 * n]) :
    smileiModes dump key m = .ok ⟨[nx, n], fun idx =>
      ⟨a.at' [idx.getD 0 0, 2 * idx.getD 1 0], a.at' [idx.getD 0 0, 2 * idx.getD 1 0 + 1]⟩⟩ := by
  unfold smileiModes
  rw [ha]
  dsimp only
  unfold smileiComplex
  rw [hs]
  dsimp only
  rw [if_neg (by rw [he]; simp), if_neg (by omega), show 2 * n / 2 = n by omega]

theorem mapM_range_ok {α : Type} (f : ℕ → Res α) (g : ℕ → α) (n : ℕ) (h : ∀ m < n, f m = .ok (g m)) :
    (List.range n).mapM f = .ok ((List.range n).map g) := by
  apply mapM_of_forall2
  rw [List.forall₂_map_right_iff, List.forall₂_same]
  intro m hm
  exact h m (List.mem_range.1 hm)

theorem smileiExpanded_sum (names : ModeNames) (dump : String → ℕ → Option (Arr ℝ)) (unit : String → ℝ)
    (key : String) (he : key.startsWith "Env_" = false) (M nx nr : ℕ) (hM : M ≤ 9)
    (hn : (∃ s, (s, M) ∈ names) ∧ ∀ p ∈ names, p.2 ≤ M) (a : ℕ → Arr ℝ)
    (ha : ∀ m ≤ M, dump key m = some (a m) ∧ (a m).shape = [nx, 2 * nr]) (thetas : List ℝ) (ht : thetas ≠ []) :
    ∃ r, smileiExpanded names dump unit key thetas = .ok r ∧ r.shape = [thetas.length, nx, nr] ∧
      ∀ t i j : ℕ, r.at' [t, i, j] = (thetas.map fun theta =>
        azimuthalSeries M (fun m => (a m).at' [i, 2 * j]) (fun m => (a m).at' [i, 2 * j + 1]) theta).sum * unit key := by
  have hl : (listAMmodes names).2 = List.range (M + 1) := by
    obtain ⟨⟨s, hs⟩, hle⟩ := hn
    have : names ≠ [] := by
      rintro rfl
      simp at hs
    obtain ⟨m, hm⟩ := maxMode_some this
    obtain ⟨⟨s', hs'⟩, hle'⟩ := maxMode_spec hm
    have e : m = M := le_antisymm (hle _ hs') (hle' _ hs)
    unfold listAMmodes
    rw [hm, e]
    dsimp only
    rw [Nat.mod_eq_of_lt (by omega)]
  let g : ℕ → Arr ℂ := fun m => ⟨[nx, nr], fun idx =>
    ⟨(a m).at' [idx.getD 0 0, 2 * idx.getD 1 0], (a m).at' [idx.getD 0 0, 2 * idx.getD 1 0 + 1]⟩⟩
  have h1 := mapM_range_ok (smileiModes dump key) g (M + 1) fun m hm =>
    smileiModes_ok he (ha m (by omega)).1 (ha m (by omega)).2
  obtain ⟨l, hl2, h2⟩ : ∃ l, (List.range (M + 1)).map g = g 0 :: l ∧ l = ((List.range (M + 1)).map g).tail := by
    rw [List.range_succ_eq_map]
    exact ⟨_, rfl, rfl⟩
  have hsame : ∀ b ∈ g 0 :: l, b.shape = (g 0).shape := by
    intro b hb
    rw [← hl2] at hb
    obtain ⟨m, -, rfl⟩ := List.mem_map.1 hb
    rfl
  have hlen : (g 0 :: l).length = M + 1 := by
    rw [← hl2]
    simp
  have hnaive : smileiNaive (g 0 :: l).length nx nr (fun m => (((g 0 :: l)[m]?).getD (g 0)).at') thetas =
      .ok ⟨[thetas.length, nx, nr], fun idx => smileiLoop (g 0 :: l).length
        (fun m => (((g 0 :: l)[m]?).getD (g 0)).at') thetas (fun _ => 0) idx.tail⟩ := if_neg ht
  have h3 : smileiExpanded names dump unit key thetas = .ok ⟨[thetas.length, nx, nr], fun idx =>
      smileiLoop (g 0 :: l).length (fun m => (((g 0 :: l)[m]?).getD (g 0)).at') thetas (fun _ => 0) idx.tail *
        unit key⟩ := by
    unfold smileiExpanded
    rw [hl, h1, hl2]
    simp only [bind, Except.bind, pure, Except.pure]
    rw [if_neg (not_not.2 hsame)]
    have hsh : (g 0).shape = [nx, nr] := rfl
    simp only [hsh, hnaive]
  refine ⟨_, h3, rfl, ?_⟩
  intro t i j
  show smileiLoop (g 0 :: l).length (fun m => (((g 0 :: l)[m]?).getD (g 0)).at') thetas (fun _ => 0) [i, j] *
    unit key = _
  rw [smileiLoop_sum, hlen, zero_add]
  congr 2
  apply List.map_congr_left
  intro theta _
  rw [← hl2]
  rw [Finset.sum_congr rfl (g := fun m : ℕ => ((g m).at' [i, j]).re * Real.cos (m * theta) +
    ((g m).at' [i, j]).im * Real.sin (m * theta)), smilei_sum (fun m => (g m).at' [i, j])]
  · rfl
  · intro m hm
    rw [List.getElem?_map, List.getElem?_range (Finset.mem_range.1 hm)]
    rfl

/-- C42, for Smilei, one angle and a field with up to ten modes (numbers 0 to `M`, `M ≤ 9`): the result is the Fourier
series at this angle, where column `2j` (`2j + 1`) of the dataset of a mode has the real (imaginary) parts, the
coefficients of the cosine (sine), in units of the field. -/
theorem smilei_expansion_partial (names : ModeNames) (dump : String → ℕ → Option (Arr ℝ)) (unit : String → ℝ)
    (key : String) (he : key.startsWith "Env_" = false) (M nx nr : ℕ) (hM : M ≤ 9)
    (hn : (∃ s, (s, M) ∈ names) ∧ ∀ p ∈ names, p.2 ≤ M) (a : ℕ → Arr ℝ)
    (ha : ∀ m ≤ M, dump key m = some (a m) ∧ (a m).shape = [nx, 2 * nr]) (theta : ℝ) :
    ∃ r, smileiExpanded names dump unit key [theta] = .ok r ∧ r.shape = [1, nx, nr] ∧
      ∀ i j : ℕ, r.at' [0, i, j] =
        azimuthalSeries M (fun m => (a m).at' [i, 2 * j]) (fun m => (a m).at' [i, 2 * j + 1]) theta * unit key := by
  obtain ⟨r, h, hs, hv⟩ := smileiExpanded_sum names dump unit key he M nx nr hM hn a ha [theta] (by simp)
  refine ⟨r, h, hs, ?_⟩
  intro i j
  rw [hv]
  simp

/-- Three modes on one cell, with the complex values `1`, `2 + 5i` and `3 + 7i`. -/
noncomputable def smileiDump (_ : String) (m : ℕ) : Option (Arr ℝ) :=
  if m < 20 then some ⟨[1, 2], fun idx => if idx.getD 1 0 = 0 then m + 1 else if m = 0 then 0 else 2 * m + 3⟩ else none

example : ∃ r, smileiExpanded [("El", 0), ("El", 1), ("El", 2)] smileiDump (fun _ => 10) "El" [Real.pi / 2] = .ok r ∧
    r.at' [0, 0, 0] = 30 := by
  obtain ⟨r, h, -, hv⟩ := smilei_expansion_partial [("El", 0), ("El", 1), ("El", 2)] smileiDump (fun _ => 10) "El"
    (by decide +kernel) 2 1 1 (by omega) (by simp)
    (fun m => ⟨[1, 2], fun idx => if idx.getD 1 0 = 0 then m + 1 else if m = 0 then 0 else 2 * m + 3⟩)
    (fun m hm => ⟨by simp [smileiDump, show m < 20 by omega], rfl⟩) (Real.pi / 2)
  refine ⟨r, h, ?_⟩
  rw [hv]
  have : (2 : ℝ) * (Real.pi / 2) = Real.pi := by ring
  norm_num [azimuthalSeries, Finset.sum_Icc_succ_top, this]

/-- C42 is violated by Smilei data and several angles: all of them are added up in one array, which is returned for every
angle. With mode 0 alone and two angles the result is twice the field. -/
theorem smilei_angles_violated :
    ∃ r, smileiExpanded [("El", 0)] smileiDump (fun _ => 1) "El" [0, 0] = .ok r ∧ r.shape = [2, 1, 1] ∧
      r.at' [0, 0, 0] = 2 ∧ r.at' [1, 0, 0] = 2 ∧ azimuthalSeries 0 (fun _ => 1) (fun _ => 0) 0 = 1 := by
  obtain ⟨r, h, hs, hv⟩ := smileiExpanded_sum [("El", 0)] smileiDump (fun _ => 1) "El"
    (by decide +kernel) 0 1 1 (by omega) (by simp)
    (fun m => ⟨[1, 2], fun idx => if idx.getD 1 0 = 0 then m + 1 else if m = 0 then 0 else 2 * m + 3⟩)
    (fun m hm => ⟨by simp [smileiDump, show m < 20 by omega], rfl⟩) [0, 0] (by simp)
  refine ⟨r, h, hs, ?_, ?_, by simp [azimuthalSeries]⟩ <;>
  · rw [hv]
    norm_num [azimuthalSeries]

/-- In general, every angle gets the sum of the series over all angles. -/
theorem smilei_angles_sum (nm nx nr : ℕ) (raw : ℕ → List ℕ → ℂ) (thetas : List ℝ) (ht : thetas ≠ []) :
    ∃ r, smileiNaive (nm + 1) nx nr raw thetas = .ok r ∧ r.shape = [thetas.length, nx, nr] ∧
      ∀ t i j : ℕ, r.at' [t, i, j] = (thetas.map fun theta =>
        azimuthalSeries nm (fun m => (raw m [i, j]).re) (fun m => (raw m [i, j]).im) theta).sum := by
  refine ⟨_, if_neg ht, rfl, ?_⟩
  intro t i j
  show smileiLoop (nm + 1) raw thetas (fun _ => 0) [i, j] = _
  rw [smileiLoop_sum, zero_add]
  congr 1
  apply List.map_congr_left
  intro theta _
  exact smilei_sum (fun m => raw m [i, j]) nm theta

/-- C42 is violated by Smilei data with more than ten modes: only the last digit of the largest mode number is used. With
modes 0 to 10, mode 0 is all that remains. -/
theorem smilei_ten_modes_violated :
    (listAMmodes ((List.range 11).map fun m => ("El", m))).2 = [0] := by
  decide +kernel

/-- Without angles the expansion fails. -/
theorem smilei_no_angle (nm nx nr : ℕ) (raw : ℕ → List ℕ → ℂ) : smileiNaive nm nx nr raw [] = .error .valueError := rfl

end Postpic.Props
