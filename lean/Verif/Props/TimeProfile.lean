import Verif.Lemmas.TimeProfile

/-!
# The time profile of a propagating field
-/

set_option autoImplicit false

namespace Postpic.Props

open Postpic Postpic.Axes Postpic.Fields Postpic.Spec

noncomputable section

/-! ## C70: `time_profile_at_plane` with the iterative algorithm -/

/-- What the result `r` of the measurement is, for the field `K` in the frequency domain with `n` points along the dimension `d`
perpendicular to the plane: that dimension has become time, with the distance `h/c` of the points, and contains the value in the
plane of the waves at that time, up to a constant phase. -/
structure Profile (a : ProfileArgs) (K r : Field ℝ ℂ) (shape : List ℕ) (d : Fin 3) (x0 h k0 : ℝ) (n : ℕ) : Prop where
  sound : r.Sound
  size : r.shape = shape
  time : ∃ ax, r.axes[d.val]? = some ax ∧ ax.name = "t" ∧ ax.unit = "s" ∧
    EvenAxis ax (a.tInput + profileStart a x0 h n - h / lightSpeed / 2) (h / lightSpeed) ∧
    ax.grid = (List.range n).map fun (i : ℕ) => a.tInput + profileStart a x0 h n + (i : ℝ) * (h / lightSpeed)
  state : r.ats[d.val]? = some (some false) ∧ r.tao[d.val]? = some none
  others : ∀ e, e ≠ d.val → r.axes[e]? = K.axes[e]? ∧ r.ats[e]? = K.ats[e]? ∧ r.tao[e]? = K.tao[e]?
  labels : r.name = K.name ∧ r.unit = K.unit
  value : ∀ idx, InBounds shape idx →
    r.matrix.at' idx = Complex.exp (-(Complex.I * ((k0 * measuringPlane a x0 h n : ℝ) : ℂ))) *
      valueInPlane K d (2 * Real.pi / (n * h)) n
        (amplitudeAt a K d (profileStart a x0 h n + (idx.getD d.val 0 : ℕ) * (h / lightSpeed))) (measuringPlane a x0 h n) idx

theorem profileK_ok (spl : Splines ℝ) (hspl : ExactOnEven spl) (K : Field ℝ ℂ) (shape : List ℕ) (x0 h : ℕ → ℝ)
    (hg : OnGrid K shape true x0 h) (d : Fin 3) (n : ℕ) (hn : shape[d.val]? = some n) (a : ProfileArgs)
    (hdir : a.dir = 1 ∨ a.dir = -1) (cax : Axis ℝ) (hc : EvenAxis cax (x0 d - h d / 2) (h d)) (hcn : cax.len = n) :
    ∃ r, profileK spl K cax d a = .ok r ∧ Profile a K r shape d (x0 d) (h d) ((gridAlong K d).getD 0 0) n := by
  have hd : d.val < shape.length := (List.getElem?_eq_some_iff.1 hn).1
  have hh := hg.pos d hd
  have hn2 : 2 ≤ n := hg.two _ (List.mem_of_getElem? hn)
  have hn' : (0 : ℝ) < n := by exact_mod_cast (by omega : 0 < n)
  have hpi := Real.pi_pos
  have hcs : (0 : ℝ) < lightSpeed := by unfold lightSpeed; norm_num
  have hdk : 0 < 2 * Real.pi / (n * h d) := by positivity
  obtain ⟨htao, kax, e0, hkax, hke⟩ := hg.frequency rfl d n hn
  have hklen : kax.len = n := by
    have := hg.axis_len hkax
    rw [hn] at this
    exact (Option.some.inj this).symm
  have hkl := Lin.of_even hke hdk (by omega)
  set dk := 2 * Real.pi / (n * h d) with hdkd
  set k0 := e0 + dk / 2 with hk0
  have hkgrid : kax.grid = ap k0 dk n := by rw [hkl.grid, hklen]
  have hcl := Lin.of_even hc hh (by omega)
  have hcgrid : cax.grid = ap (x0 d) (h d) n := by rw [hcl.grid, hcn, sub_add_cancel]
  have halong : gridAlong K d = ap k0 dk n := by
    unfold gridAlong
    rw [hkax]
    exact hkgrid
  have hkm : ∀ m < n, (gridAlong K d).getD m 0 = k0 + m * dk := by
    intro m hm
    rw [halong, List.getD_eq_getElem?_getD, ap_get _ _ _ _ hm]
    rfl
  have hdims : K.dims.toNat = shape.length := by
    rw [dims_sound hg.sound, hg.size]
    rfl
  -- the norm
  let c : ℂ := ((Real.sqrt (dk * n / (2 * Real.pi / dk)) / Real.sqrt n : ℝ) : ℂ)
  have hcv : c = ((dk / Real.sqrt (2 * Real.pi) : ℝ) : ℂ) := by
    simp only [c]
    rw [profile_norm hdk (by omega)]
  let K1 : Field ℝ ℂ := K.withData fun idx => K.matrix.at' idx * c
  have hK1 : K.binaryNumber (· * ·) c = .ok K1 := by
    unfold Field.binaryNumber
    exact mkField_of_eq hg.sound.ok.lengths (by
      show K.shape.length ≤ 3
      rw [hg.size]
      exact hg.three)
  have hg1 : OnGrid K1 shape true x0 h := hg.withData _
  -- the first propagation
  set T := profileStart a (x0 d) (h d) n with hT
  obtain ⟨K2, q1, q2⟩ := propagate_single spl hspl K1 shape x0 h hg1 (profileArgs a shape.length d T true false)
    (profile_ok a hdir _ d hd _ _ _) rfl
  have hdt : (profileArgs a shape.length d T true false).dt = T := rfl
  rw [hdt] at q2
  have hg2 := q2.grid
  set y0 : ℕ → ℝ := fun e => x0 e + windowShift (profileArgs a shape.length d T true false) T e with hy0
  have hyd : y0 d = measuringPlane a (x0 d) (h d) n - (if 0 < a.dir then n * h d else 0) := by
    rw [← plane_origin a hdir]
    simp only [hy0]
    rw [profile_window a hdir _ d hd]
    simp [hT]
  have hye : ∀ e, e ≠ d.val → y0 e = x0 e := by
    intro e he
    simp only [hy0]
    rw [profile_window a hdir _ d hd]
    simp [he]
  have hax2 : K2.axes = K.axes := q2.axes
  -- the phase
  let K3 : Field ℝ ℂ := K2.withData fun idx => K2.matrix.at' idx * linearPhase true K2.axes [(d.val, y0 d)] (-(k0 * y0 d)) idx
  have hK3 : K2.applyLinearPhase [(d.val, y0 d)] (-(k0 * y0 d)) = .ok K3 := by
    unfold Field.applyLinearPhase
    have := collectiveState_eq (ats := K2.ats) (b := true) (l := [d.val]) (by simp) (by
      intro e he
      obtain rfl : e = d.val := by simpa using he
      exact hg2.states _ hd)
    have h2 : collectiveState K2.ats (List.map (fun p : ℕ × ℝ => (p.1 : ℤ)) [(d.val, y0 d)]) = .ok (some true) := this
    rw [h2]
    rfl
  have hg3 : OnGrid K3 shape true y0 h := hg2.withData _
  -- the steps
  obtain ⟨l, l1, l2, l3⟩ := propagate_frequency_partial spl hspl K3 shape y0 h hg3
    (profileArgs a shape.length d (h d / lightSpeed) false true) (profile_ok a hdir _ d hd _ _ _) n
  -- the time axis
  have hlin : linspace (a.tInput + T) (a.tInput + T + ((n : ℝ) - 1) * (h d / lightSpeed)) n =
      ap (a.tInput + T) (h d / lightSpeed) n := by
    obtain ⟨m, rfl⟩ : ∃ m, n = m + 1 := ⟨n - 1, by omega⟩
    rw [linspace_ap]
    have : (m : ℝ) ≠ 0 := by
      have : m ≠ 0 := by omega
      exact_mod_cast this
    congr 1
    push_cast
    field_simp
    ring
  have hdtp : 0 < h d / lightSpeed := by positivity
  obtain ⟨tax, t1, t2, t3, t4, t5, _, t7, t8⟩ := conj_axis hspl "t" "s" (a.tInput + T) hdtp (n := n) (by omega)
  have hcheck : checkAxisObj K3.shape d.val tax = .ok () := by
    unfold checkAxisObj
    rw [if_neg (by have := d.isLt; omega), hg3.size, hn]
    simp only
    rw [if_pos t4]
  have hlenA : K3.axes.length = shape.length := by rw [ok_axes_length hg3.sound.ok, hg3.size]
  have hlenS : K3.ats.length = shape.length := by
    have := hg3.sound.ok.states
    rw [hg3.size] at this
    exact this
  have hlenT : K3.tao.length = shape.length := by
    have := hg3.sound.ok.origins
    rw [hg3.size] at this
    exact this
  have hlenA' : K.axes.length = shape.length := by rw [ok_axes_length hg.sound.ok, hg.size]
  have hlenS' : K.ats.length = shape.length := by
    have := hg.sound.ok.states
    rw [hg.size] at this
    exact this
  have hlenT' : K.tao.length = shape.length := by
    have := hg.sound.ok.origins
    rw [hg.size] at this
    exact this
  refine ⟨{ K3 with
      matrix := profileMatrix K3.shape d n l
      axes := K3.axes.set d tax
      ats := K3.ats.set d (some false)
      tao := K3.tao.set d none }, ?_, ⟨⟨⟨?_, ?_, ?_⟩, ?_, ?_⟩, ?_, ?_, ?_, ?_, ?_, ?_⟩⟩
  · unfold profileK
    have hkspacing : kax.spacing = .ok dk := hkl.spacing
    have hN : pyGet K.shape (d.val : ℤ) = .ok n := pyGet_nat (by rw [hg.size]; exact hn)
    have hconj := hg2.conjugate hd
    have hnn : shape.getD d.val 0 = n := by rw [List.getD_eq_getElem?_getD, hn]; rfl
    rw [hnn, Int.ofNat_eq_natCast] at hconj
    have hlen1 : ¬ cax.len = 1 := by omega
    simp only [hcl.spacing, bind, Except.bind, pyGet_nat hkax, hkspacing, hN, hdims, hcgrid]
    rw [show K.binaryNumber (fun x1 x2 => x1 * x2) ((Real.sqrt (dk * n / (2 * Real.pi / dk)) / Real.sqrt n : ℝ) : ℂ) = .ok K1 from hK1]
    simp only [initialTime_eq a (x0 d) (h d) (n := n) (by omega), ← hT, q1]
    have hp0 : pyGet [K2] 0 = .ok K2 := rfl
    have hk2 : pyGet K2.axes (d.val : ℤ) = .ok kax := by rw [hax2]; exact pyGet_nat hkax
    simp only [hp0, hk2, hkgrid, pyGet_ap k0 dk (n := n) (by omega), hconj, pyGet_ap (y0 d) (h d) (n := n) (by omega), hK3, hcn, l1,
      hlin, t1, hcheck]
    rw [if_neg (by omega)]
    rfl
  · show (K3.axes.set d tax).map Axis.len = K3.shape
    rw [List.map_set, hg3.sound.ok.lengths, t4]
    apply List.ext_getElem?
    intro e
    rw [List.getElem?_set]
    split_ifs with c1 c2
    · rw [← c1, hg3.size, hn]
    · rw [List.getElem?_eq_none (by omega)]
    · rfl
  · show (K3.ats.set d (some false)).length = K3.shape.length
    rw [List.length_set, hlenS, hg3.size]
  · show (K3.tao.set d none).length = K3.shape.length
    rw [List.length_set, hlenT, hg3.size]
  · intro ax hax
    rcases List.mem_or_eq_of_mem_set hax with hax | rfl
    · exact hg3.sound.valid ax hax
    · exact t7
  · exact hg3.sound.nonempty
  · exact hg3.size
  · refine ⟨tax, ?_, t2, t3, t8 hn2, t5⟩
    show (K3.axes.set d tax)[d.val]? = some tax
    rw [List.getElem?_set_self (by omega)]
  · constructor
    · show (K3.ats.set d (some false))[d.val]? = _
      rw [List.getElem?_set_self (by omega)]
    · show (K3.tao.set d none)[d.val]? = _
      rw [List.getElem?_set_self (by omega)]
  · intro e he
    refine ⟨?_, ?_, ?_⟩
    · show (K3.axes.set d tax)[e]? = _
      rw [List.getElem?_set_ne (Ne.symm he)]
      exact congrArg (·[e]?) hax2
    · show (K3.ats.set d (some false))[e]? = _
      rw [List.getElem?_set_ne (Ne.symm he)]
      by_cases hes : e < shape.length
      · rw [hg3.states e hes, hg.states e hes]
      · rw [List.getElem?_eq_none (by omega), List.getElem?_eq_none (by omega)]
    · show (K3.tao.set d none)[e]? = _
      rw [List.getElem?_set_ne (Ne.symm he)]
      by_cases hes : e < shape.length
      · have hse : shape[e]? = some shape[e] := List.getElem?_eq_getElem hes
        rw [(hg3.frequency rfl e _ hse).1, (hg.frequency rfl e _ hse).1, hye e he]
      · rw [List.getElem?_eq_none (by omega), List.getElem?_eq_none (by omega)]
  · exact ⟨q2.name, q2.unit⟩
  · intro idx hidx
    obtain ⟨i, hi⟩ : ∃ i, idx[d.val]? = some i := ⟨_, List.getElem?_eq_getElem (by rw [hidx.1]; exact hd)⟩
    have hin : i < n := hidx.2 _ _ _ hi hn
    have higet : idx.getD d.val 0 = i := by rw [List.getD_eq_getElem?_getD, hi]; rfl
    obtain ⟨g, g1, g2⟩ := l3 i hin
    have htime : ((i : ℝ) + if (profileArgs a shape.length d (h d / lightSpeed) false true).yieldZerothStep = true then 0 else 1) *
        (profileArgs a shape.length d (h d / lightSpeed) false true).dt = i * (h d / lightSpeed) := by
      simp [profileArgs]
    rw [htime] at g2
    show (match l[idx.getD d.val 0]? with
      | none => 0
      | some g => ∑ m ∈ Finset.range n, g.matrix.at' (idx.set d m)) = _
    rw [higet, g1]
    simp only
    unfold valueInPlane
    rw [Finset.mul_sum, Finset.mul_sum]
    apply Finset.sum_congr rfl
    intro m hm
    have hm := Finset.mem_range.1 hm
    have hset : InBounds shape (idx.set d m) := inBounds_set hidx hn hm
    have hw3 : waveVector K3 (idx.set d m) = waveVector K (idx.set d m) := by
      unfold waveVector gridAlong
      rw [show K3.axes = K.axes from hax2]
    have hwd : waveVector K (idx.set d m) d = k0 + m * dk := by
      unfold waveVector
      have : (idx.set d m).getD d.val 0 = m := by
        rw [List.getD_eq_getElem?_getD, List.getElem?_set_self (by rw [hidx.1]; exact hd)]
        rfl
      rw [this, hkm m hm]
    have hr3 := profile_removed a shape.length d hd (h d / lightSpeed) false true (waveVector K3 (idx.set d m))
    have hr1 := profile_removed a shape.length d hd T true false (waveVector K1 (idx.set d m))
    have hw1 : waveVector K1 (idx.set d m) = waveVector K (idx.set d m) := rfl
    rw [hw3] at hr3
    rw [hw1] at hr1
    unfold amplitudeAt
    by_cases hag : Against a (waveVector K (idx.set d m) d)
    · rw [if_pos hag, g2.removed _ hset (by rw [hw3]; exact hr3.2 hag)]
      simp
    · rw [if_neg hag, g2.kept _ hset (by rw [hw3]; exact fun hc => hag (hr3.1 hc)), hw3]
      have h3 : K3.matrix.at' (idx.set d m) = K2.matrix.at' (idx.set d m) *
          linearPhase true K2.axes [(d.val, y0 d)] (-(k0 * y0 d)) (idx.set d m) := rfl
      rw [h3, q2.kept _ hset (by rw [hw1]; exact fun hc => hag (hr1.1 hc)), hw1]
      have h1 : K1.matrix.at' (idx.set d m) = K.matrix.at' (idx.set d m) * c := rfl
      have hphase : linearPhase true K2.axes [(d.val, y0 d)] (-(k0 * y0 d)) (idx.set d m) =
          Complex.exp (1 * Complex.I * ((y0 d * (k0 + m * dk) + -(k0 * y0 d) : ℝ) : ℂ)) := by
        unfold linearPhase
        have hgm : ((K2.axes.map (·.grid)).getD d.val []).getD ((idx.set d m).getD d.val 0) 0 = k0 + m * dk := by
          rw [← hwd]
          unfold waveVector gridAlong
          rw [hax2]
          simp only [List.getD_eq_getElem?_getD, List.getElem?_map]
        simp only [List.map_cons, List.map_nil, List.sum_cons, List.sum_nil, hgm, if_true, add_zero]
      rw [h1, hphase, hyd, plane_phase (X := measuringPlane a (x0 d) (h d) n) (h := h d) (n := n) (by
          rw [hdkd]
          field_simp) (by split_ifs <;> simp) m, vacuumPhase_add, hcv, hkm m hm, hkm 0 (by omega)]
      simp only [Nat.cast_zero, zero_mul, add_zero]
      ring

/-- C70: the iterative algorithm of `time_profile_at_plane` for a field in the frequency domain. The dimension perpendicular to the plane
becomes time: its points have the distance `h/c` and start when that part of the field which is at the default plane in the
input gets to the plane asked for. At each of these times, the result is the inverse Fourier transform along that dimension of
the field propagated in vacuum to this time, evaluated in the plane, without the waves running against the direction, times a
constant phase `exp(-i k0 X)`, where `k0` is the first point of the grid in the frequency domain and `X` the position of the plane.
The other dimensions stay in the frequency domain. Partial: evenly spaced grids, at least two points; the phase should not be
there (see `time_profile_phase_violated`). -/
theorem time_profile_partial (spl : Splines ℝ) (hspl : ExactOnEven spl) (K : Field ℝ ℂ) (shape : List ℕ) (x0 h : ℕ → ℝ)
    (hg : OnGrid K shape true x0 h) (d : Fin 3) (n : ℕ) (hn : shape[d.val]? = some n) (a : ProfileArgs)
    (hdir : a.dir = 1 ∨ a.dir = -1) :
    ∃ r, timeProfileIterative spl K d a = .ok r ∧
      Profile a K r shape d (x0 d) (h d) ((gridAlong K d).getD 0 0) n := by
  have hd : d.val < shape.length := (List.getElem?_eq_some_iff.1 hn).1
  obtain ⟨f, f1, f2⟩ := hg.fftBack hspl
  obtain ⟨cax, c1, c2⟩ := f2.spatial rfl d hd
  have hcn : cax.len = n := by
    have := f2.axis_len c1
    rw [hn] at this
    exact (Option.some.inj this).symm
  obtain ⟨r, r1, r2⟩ := profileK_ok spl hspl K shape x0 h hg d n hn a hdir cax c2 hcn
  refine ⟨r, ?_, r2⟩
  have hdims : K.dims = shape.length := by
    rw [dims_sound hg.sound, hg.size]
  unfold timeProfileIterative
  simp only [hg.collective, bind, Except.bind, f1, pure, Except.pure, if_true, hdims]
  rw [if_neg (by omega), pyGet_nat c1]
  simp only [r1]

/-- C70: for a field in the spatial domain with two or three dimensions, the result is obtained from the profile of its transform by
transforming the other dimensions back. Partial: as for `time_profile_partial`, and at least two dimensions. -/
theorem time_profile_spatial_partial (spl : Splines ℝ) (hspl : ExactOnEven spl) (f : Field ℝ ℂ) (shape : List ℕ) (x0 h : ℕ → ℝ)
    (hg : OnGrid f shape false x0 h) (d : Fin 3) (n : ℕ) (hn : shape[d.val]? = some n) (h2 : 2 ≤ shape.length) (a : ProfileArgs)
    (hdir : a.dir = 1 ∨ a.dir = -1) :
    ∃ F q r, f.fft spl none "spatial" false = .ok F ∧ OnGrid F shape true x0 h ∧
      Profile a F q shape d (x0 d) (h d) ((gridAlong F d).getD 0 0) n ∧
      q.fft spl (some (((List.range shape.length).filter (· ≠ d.val)).map Int.ofNat)) "spatial" false = .ok r ∧
      timeProfileIterative spl f d a = .ok r ∧ r.shape = shape ∧
      (∀ M : List ℕ, M.Nodup → (∀ e, e ∈ M ↔ e < shape.length ∧ e ≠ d.val) → ∀ idx, InBounds shape idx →
        r.matrix.at' idx = M.foldl (fun g e => fourierAlong (2 * Real.pi / ((shape.getD e 0 : ℕ) * h e) / Real.sqrt (2 * Real.pi)) 1
          (gridAlong F e) (gridAlong r e) e g) q.matrix.at' idx) ∧
      (∀ e < shape.length, e ≠ d.val → gridAlong r e = (List.range (shape.getD e 0)).map fun (j : ℕ) => x0 e + j * h e) ∧
      r.axes[d.val]? = q.axes[d.val]? ∧ (∀ e < shape.length, r.ats[e]? = some (some false)) := by
  have hd : d.val < shape.length := (List.getElem?_eq_some_iff.1 hn).1
  have hpi := Real.pi_pos
  obtain ⟨F, F1, F2, _⟩ := hg.fft hspl
  have F1 := (fft_none hg).trans F1
  obtain ⟨cax, c1, c2⟩ := hg.spatial rfl d hd
  have hcn : cax.len = n := by
    have := hg.axis_len c1
    rw [hn] at this
    exact (Option.some.inj this).symm
  obtain ⟨q, q1, q2⟩ := profileK_ok spl hspl F shape x0 h F2 d n hn a hdir cax c2 hcn
  set L := (List.range shape.length).filter (· ≠ d.val) with hL
  have hmem : ∀ e, e ∈ L ↔ e < shape.length ∧ e ≠ d.val := by
    intro e
    rw [hL, List.mem_filter, List.mem_range]
    simp
  have hpt : ∀ e < shape.length, shape[e]? = some (shape.getD e 0) ∧ 2 ≤ shape.getD e 0 := fun e he => hg.points he
  have hdk : ∀ e < shape.length, 0 < 2 * Real.pi / ((shape.getD e 0 : ℕ) * h e) := by
    intro e he
    have h1 := hg.pos e he
    have h2 : (0 : ℝ) < (shape.getD e 0 : ℕ) := by
      have := (hpt e he).2
      exact_mod_cast (by omega : 0 < shape.getD e 0)
    positivity
  have hLne : L ≠ [] := by
    have : ∃ e, e ∈ L := by
      by_cases h0 : d.val = 0
      · exact ⟨1, (hmem 1).2 ⟨by omega, by omega⟩⟩
      · exact ⟨0, (hmem 0).2 ⟨by omega, by omega⟩⟩
    obtain ⟨e, he⟩ := this
    exact List.ne_nil_of_mem he
  have hex : ∀ e, ∃ k0, e < shape.length → ∃ ax, F.axes[e]? = some ax ∧
      EvenAxis ax k0 (2 * Real.pi / ((shape.getD e 0 : ℕ) * h e)) := by
    intro e
    by_cases he : e < shape.length
    · obtain ⟨_, ax, k0, h3, h4⟩ := F2.frequency rfl e _ (hpt e he).1
      exact ⟨k0, fun _ => ⟨ax, h3, h4⟩⟩
    · exact ⟨0, fun h => absurd h he⟩
  choose k0 hk0 using hex
  have hE : EvenDims q L true k0 (fun e => 2 * Real.pi / ((shape.getD e 0 : ℕ) * h e)) := by
    refine ⟨hLne, ?_, ?_, ?_, ?_⟩
    · intro e he
      have := hg.three
      have := ((hmem e).1 he).1
      omega
    · intro e he
      obtain ⟨e1, e2⟩ := (hmem e).1 he
      rw [(q2.others e e2).2.1]
      exact F2.states e e1
    · intro e he
      exact hdk e ((hmem e).1 he).1
    · intro e he
      obtain ⟨e1, e2⟩ := (hmem e).1 he
      rw [(q2.others e e2).1]
      exact hk0 e e1
  obtain ⟨r, r1, r2, r3, r4, r5, r6, r7⟩ := fft_value_partial spl hspl q q2.sound L true k0 _ hE "spatial" (Or.inl rfl)
  have hqs := q2.size
  refine ⟨F, q, r, F1, F2, q2, r1, ?_, by rw [r2, hqs], ?_, ?_, ?_, ?_⟩
  · have hdims : F.dims = shape.length := by
      rw [dims_sound F2.sound, F2.size]
    unfold timeProfileIterative
    simp only [hg.collective, bind, Except.bind, F1, pure, Except.pure, Bool.false_eq_true, if_false, hdims]
    rw [if_neg (by omega), pyGet_nat c1]
    simp only [q1]
    rw [Int.toNat_natCast, if_neg hLne]
    exact r1
  · intro M hM hMm idx hidx
    rw [r3 M hM (fun e => (hMm e).trans (hmem e).symm) idx (by rw [hqs]; exact hidx)]
    have : exponentSign true "spatial" = 1 := by simp [exponentSign]
    rw [this]
    have key : ∀ (M : List ℕ), (∀ e ∈ M, e ≠ d.val) → ∀ g : List ℕ → ℂ,
        M.foldl (fun g e => fourierAlong (2 * Real.pi / ((shape.getD e 0 : ℕ) * h e) / Real.sqrt (2 * Real.pi)) 1
          (gridAlong q e) (gridAlong r e) e g) g =
        M.foldl (fun g e => fourierAlong (2 * Real.pi / ((shape.getD e 0 : ℕ) * h e) / Real.sqrt (2 * Real.pi)) 1
          (gridAlong F e) (gridAlong r e) e g) g := by
      intro M
      induction M with
      | nil => intro _ g; rfl
      | cons e M ih =>
        intro he g
        have h1 : gridAlong q e = gridAlong F e := by
          unfold gridAlong
          rw [(q2.others e (he e (by simp))).1]
        rw [List.foldl_cons, List.foldl_cons, h1]
        exact ih (fun e' h' => he e' (by simp [h'])) _
    rw [key M (fun e he => ((hMm e).1 he).2)]
  · intro e he hed
    have heL := (hmem e).2 ⟨he, hed⟩
    have ht : q.tao[e]? = some (some (x0 e)) := by
      rw [(q2.others e hed).2.2]
      exact (F2.frequency rfl e _ (hpt e he).1).1
    rw [r5 e heL (shape.getD e 0) (x0 e) (by rw [hqs]; exact (hpt e he).1) ht]
    have h1 := hg.pos e he
    have h2 : (0 : ℝ) < (shape.getD e 0 : ℕ) := by
      have := (hpt e he).2
      exact_mod_cast (by omega : 0 < shape.getD e 0)
    apply List.map_congr_left
    intro j _
    congr 2
    field_simp
  · have := (r7 d.val (fun hc => ((hmem _).1 hc).2 rfl)).1
    exact this
  · intro e he
    by_cases hed : e = d.val
    · subst hed
      rw [(r7 d.val (fun hc => ((hmem _).1 hc).2 rfl)).2.1]
      exact q2.state.1
    · exact r6 e ((hmem e).2 ⟨he, hed⟩)

/-- C70: the modulus of the result is that of the field in the plane. -/
theorem time_profile_modulus (spl : Splines ℝ) (hspl : ExactOnEven spl) (K : Field ℝ ℂ) (shape : List ℕ) (x0 h : ℕ → ℝ)
    (hg : OnGrid K shape true x0 h) (d : Fin 3) (n : ℕ) (hn : shape[d.val]? = some n) (a : ProfileArgs)
    (hdir : a.dir = 1 ∨ a.dir = -1) :
    ∃ r, timeProfileIterative spl K d a = .ok r ∧ ∀ idx, InBounds shape idx →
      ‖r.matrix.at' idx‖ = ‖valueInPlane K d (2 * Real.pi / (n * h d)) n (amplitudeAt a K d
        (profileStart a (x0 d) (h d) n + (idx.getD d.val 0 : ℕ) * (h d / lightSpeed))) (measuringPlane a (x0 d) (h d) n) idx‖ := by
  obtain ⟨r, r1, r2⟩ := time_profile_partial spl hspl K shape x0 h hg d n hn a hdir
  refine ⟨r, r1, ?_⟩
  intro idx hidx
  rw [r2.value idx hidx, norm_mul, Complex.norm_exp]
  simp

/-- The value in the plane is the one of the inverse transform along the dimension, at a point of the spatial grid. -/
theorem valueInPlane_fft (spl : Splines ℝ) (hspl : ExactOnEven spl) (K : Field ℝ ℂ) (shape : List ℕ) (x0 h : ℕ → ℝ)
    (hg : OnGrid K shape true x0 h) (d : Fin 3) (n : ℕ) (hn : shape[d.val]? = some n) :
    ∃ f, K.fft spl (some [(d.val : ℤ)]) "spatial" false = .ok f ∧ ∀ idx, InBounds shape idx →
      f.matrix.at' idx = valueInPlane K d (2 * Real.pi / (n * h d)) n K.matrix.at' (x0 d + (idx.getD d.val 0 : ℕ) * h d) idx := by
  have hd : d.val < shape.length := (List.getElem?_eq_some_iff.1 hn).1
  have hpi := Real.pi_pos
  have hh := hg.pos d hd
  have hn2 : 2 ≤ n := hg.two _ (List.mem_of_getElem? hn)
  have hn' : (0 : ℝ) < n := by exact_mod_cast (by omega : 0 < n)
  obtain ⟨htao, kax, e0, hkax, hke⟩ := hg.frequency rfl d n hn
  have hklen : kax.len = n := by
    have := hg.axis_len hkax
    rw [hn] at this
    exact (Option.some.inj this).symm
  have hE : EvenDims K [d.val] true (fun _ => e0) (fun _ => 2 * Real.pi / (n * h d)) := by
    refine ⟨by simp, ?_, ?_, ?_, ?_⟩
    · intro e he
      have : e = d.val := by simpa using he
      have := d.isLt
      omega
    · intro e he
      obtain rfl : e = d.val := by simpa using he
      exact hg.states _ hd
    · intro e he
      positivity
    · intro e he
      obtain rfl : e = d.val := by simpa using he
      exact ⟨kax, hkax, hke⟩
  obtain ⟨f, f1, f2, f3, f4, f5, f6, f7⟩ := fft_value_partial spl hspl K hg.sound [d.val] true _ _ hE "spatial" (Or.inl rfl)
  refine ⟨f, f1, ?_⟩
  intro idx hidx
  rw [f3 [d.val] (by simp) (by simp) idx (by rw [hg.size]; exact hidx)]
  have hgr := f5 d.val (by simp) n (x0 d) (by rw [hg.size]; exact hn) htao
  obtain ⟨i, hi⟩ : ∃ i, idx[d.val]? = some i := ⟨_, List.getElem?_eq_getElem (by rw [hidx.1]; exact hd)⟩
  have hin : i < n := hidx.2 _ _ _ hi hn
  have higet : idx.getD d.val 0 = i := by rw [List.getD_eq_getElem?_getD, hi]; rfl
  have hX : (gridAlong f d.val).getD i 0 = x0 d + i * h d := by
    rw [hgr, List.getD_eq_getElem?_getD, List.getElem?_map, List.getElem?_range hin]
    simp only [Option.map_some, Option.getD_some]
    congr 2
    field_simp
  have hlen : (gridAlong K d.val).length = n := by
    unfold gridAlong
    rw [hkax]
    exact hklen
  simp only [List.foldl_cons, List.foldl_nil]
  unfold fourierAlong valueInPlane
  rw [hlen, higet, hX]
  congr 1
  apply Finset.sum_congr rfl
  intro m _
  congr 2
  simp only [exponentSign, if_true]
  rw [if_neg (by decide)]
  push_cast
  ring

/-! ### Examples and violations -/

example := time_profile_partial lineSplines lineSplines_exact (fieldFreq 1) [2] _ _ (fieldFreq_grid 1) 0 2 rfl {} (Or.inl rfl)

example := time_profile_spatial_partial lineSplines lineSplines_exact (field32At 0 0) [3, 2] _ _ (field32At_grid 0 0) 0 3 rfl
  (by simp) { value := some 5, dir := -1, tInput := 2 } (Or.inr rfl)

/-- C70 violated: the field with the wave vectors 1 and 2 and the amplitude 1 for both, measured in the plane `x = π` with
propagation in the positive direction. The first time is `-π/c`, and the value of the field in the plane at that time is
`2/√(2π)`, but the result is `-2/√(2π)`: the constant phase is not 1. -/
theorem time_profile_phase_violated :
    ∃ (a : ProfileArgs) (r : Field ℝ ℂ), timeProfileIterative lineSplines (fieldFreq 1) (0 : Fin 3) a = .ok r ∧
      a.dir = 1 ∧ measuringPlane a 0 Real.pi 2 = Real.pi ∧ profileStart a 0 Real.pi 2 = -(Real.pi / lightSpeed) ∧
      valueInPlane (fieldFreq 1) 0 1 2 (amplitudeAt a (fieldFreq 1) 0 (-(Real.pi / lightSpeed))) Real.pi [0] =
        (2 / Real.sqrt (2 * Real.pi) : ℝ) ∧
      r.matrix.at' [0] = -(2 / Real.sqrt (2 * Real.pi) : ℝ) := by
  have hpi := Real.pi_pos
  have hcs : (0 : ℝ) < lightSpeed := by unfold lightSpeed; norm_num
  let a : ProfileArgs := { value := some Real.pi }
  obtain ⟨r, r1, r2⟩ := time_profile_partial lineSplines lineSplines_exact (fieldFreq 1) [2] _ _ (fieldFreq_grid 1) 0 2 rfl a
    (Or.inl rfl)
  have hX : measuringPlane a 0 Real.pi 2 = Real.pi := rfl
  have hT : profileStart a 0 Real.pi 2 = -(Real.pi / lightSpeed) := by
    unfold profileStart
    rw [hX]
    simp only [defaultPlane, a]
    norm_num
    field_simp
    ring
  have hgr : gridAlong (fieldFreq 1) 0 = [1, 2] := by
    simp [gridAlong, fieldFreq, evenAxisOf, ap, List.range_succ]
    norm_num
  have hw1 : waveVector (fieldFreq 1) [1] = ![2, 0, 0] := by
    funext d
    fin_cases d
    · simp [waveVector, hgr]
    · simp [waveVector, gridAlong, fieldFreq]
    · simp [waveVector, gridAlong, fieldFreq]
  have hexp : ∀ m : ℕ, 0 < m → vacuumPhase ![(m : ℝ), 0, 0] (-(Real.pi / lightSpeed)) = Complex.exp (Complex.I * ((m * Real.pi : ℝ) : ℂ)) := by
    intro m hm
    unfold vacuumPhase
    congr 1
    have : Real.sqrt (![(m : ℝ), 0, 0] 0 ^ 2 + ![(m : ℝ), 0, 0] 1 ^ 2 + ![(m : ℝ), 0, 0] 2 ^ 2) = m := by
      simp
    rw [this]
    have : lightSpeed * (m : ℝ) * -(Real.pi / lightSpeed) = -(m * Real.pi) := by field_simp
    rw [this]
    push_cast
    ring
  have hp1 : Complex.exp (Complex.I * ((Real.pi : ℝ) : ℂ)) = -1 := by
    rw [mul_comm]
    exact Complex.exp_pi_mul_I
  have hp2 : Complex.exp (Complex.I * ((2 * Real.pi : ℝ) : ℂ)) = 1 := by
    have : Complex.I * ((2 * Real.pi : ℝ) : ℂ) = 2 * Real.pi * Complex.I := by push_cast; ring
    rw [this]
    exact Complex.exp_two_pi_mul_I
  have hval : valueInPlane (fieldFreq 1) 0 1 2 (amplitudeAt a (fieldFreq 1) 0 (-(Real.pi / lightSpeed))) Real.pi [0] =
      (2 / Real.sqrt (2 * Real.pi) : ℝ) := by
    have e1 := hexp 1 (by norm_num)
    have e2 := hexp 2 (by norm_num)
    simp only [Nat.cast_one, one_mul, Nat.cast_ofNat] at e1 e2
    unfold valueInPlane amplitudeAt Against
    rw [Finset.sum_range_succ, Finset.sum_range_one]
    have hv : ((0 : Fin 3) : ℕ) = 0 := rfl
    simp only [hv, List.set_cons_zero, freq_wave, hw1, e1, e2, hgr, hp1, hp2, a]
    norm_num
    simp only [fieldFreq]
    have hp1' : Complex.exp (Complex.I * (Real.pi : ℂ)) = -1 := hp1
    have hp2' : Complex.exp (Complex.I * (2 * (Real.pi : ℂ))) = 1 := by rw [← hp2]; push_cast; rfl
    simp [hp1', hp2']
    ring
  refine ⟨a, r, r1, rfl, hX, hT, hval, ?_⟩
  have := r2.value [0] freq_index
  have h1 : 2 * Real.pi / ((2 : ℕ) * Real.pi) = 1 := by push_cast; field_simp
  simp only [hX, hT, h1] at this
  rw [this]
  have hk0 : (gridAlong (fieldFreq 1) ((0 : Fin 3) : ℕ)).getD 0 0 = 1 := by
    have : ((0 : Fin 3) : ℕ) = 0 := rfl
    rw [this, hgr]
    rfl
  have ht : -(Real.pi / lightSpeed) + (([0] : List ℕ).getD ((0 : Fin 3) : ℕ) 0 : ℕ) * (Real.pi / lightSpeed) =
      -(Real.pi / lightSpeed) := by
    simp
  rw [hk0, ht, hval, one_mul, Complex.exp_neg, hp1]
  norm_num

end

end Postpic.Props
