import Verif.Props.FieldLinear
import Verif.Spec.FftLaws

/-!
# Relations between Fourier transforms (C116)
-/

set_option linter.unusedSectionVars false

set_option autoImplicit false

namespace Postpic.Props

open Postpic Postpic.Axes Postpic.Fields Postpic.Spec

noncomputable section

/-- C116: the order of the dimensions and repetitions do not matter. -/
theorem fft_axes_order (spl : Splines ℝ) (f : Fields.Field ℝ ℂ) {A B : List ℤ} (h : ∀ i, i ∈ A ↔ i ∈ B) (signs : String) (old : Bool) :
    f.fft spl (some A) signs old = f.fft spl (some B) signs old := by
  have e : A.dedup.insertionSort (· ≤ ·) = B.dedup.insertionSort (· ≤ ·) := by
    refine List.Perm.eq_of_pairwise' (r := (· ≤ ·)) (List.pairwise_insertionSort _ _) (List.pairwise_insertionSort _ _) ?_
    refine ((List.perm_insertionSort _ _).trans ?_).trans (List.perm_insertionSort _ _).symm
    exact (List.perm_ext_iff_of_nodup (List.nodup_dedup _) (List.nodup_dedup _)).2 fun i => by rw [List.mem_dedup, List.mem_dedup, h]
  unfold Field.fft
  simp only [Option.getD_some]
  rw [e]

/-- C116: without `axes` all dimensions are transformed. -/
theorem fft_axes_default (spl : Splines ℝ) (f : Fields.Field ℝ ℂ) (hf : 0 ∉ f.shape) (signs : String) (old : Bool) :
    f.fft spl none signs old = f.fft spl (some ((List.range f.shape.length).map Int.ofNat)) signs old := by
  have e : f.rangeDims = (List.range f.shape.length).map Int.ofNat := by
    unfold Field.rangeDims Field.dims
    rw [if_neg hf]
    rfl
  unfold Field.fft
  simp only [Option.getD_some, Option.getD_none]
  rw [e]

/-- C116: the convention of the signs for times is that for positions, for the complex conjugated values: the transform with `temporal` is the
complex conjugate of the transform of the complex conjugate with `spatial`, with the same axes, and exceptions are the same. -/
theorem fft_temporal (spl : Splines ℝ) (f : Fields.Field ℝ ℂ) (axes : Option (List ℤ)) (old : Bool) :
    f.fft spl axes "temporal" old = Except.map (each (starRingEnd ℂ)) ((each (starRingEnd ℂ) f).fft spl axes "spatial" old) := by
  rw [fft_plan, fft_plan]
  have e : fftPlan spl (each (starRingEnd ℂ) f) axes "spatial" = fftPlan spl f axes "temporal" := rfl
  rw [e]
  cases fftPlan spl f axes "temporal" with
  | error e => rfl
  | ok p =>
    simp only [Except.map, each, fftValues]
    have : ¬ ("spatial" = "temporal") := by decide
    simp only [if_true, if_neg this]
    rfl

/-- C116: other names of conventions raise an exception. -/
theorem fft_signs (spl : Splines ℝ) (f : Fields.Field ℝ ℂ) (axes : Option (List ℤ)) (signs : String) (old : Bool)
    (h : signs ≠ "spatial" ∧ signs ≠ "temporal") : f.fft spl axes signs old = .error .valueError := by
  unfold Field.fft
  rw [if_pos (by tauto)]
  rfl

/-- C116: dimensions may be transformed one after the other, or all in one call: the result is the same field. -/
theorem fft_separate (spl : Splines ℝ) (hspl : ExactOnEven spl) (f : Fields.Field ℝ ℂ) (hf : f.Sound) (M N : List ℕ) (hM : M ≠ []) (hN : N ≠ [])
    (hd : ∀ d ∈ M, d ∉ N) (state : Bool) (e0 h : ℕ → ℝ) (ht : Transformable f (M ++ N) state e0 h) (signs : String)
    (hs : signs = "spatial" ∨ signs = "temporal") (old : Bool) :
    ∃ F G H, f.fft spl (some ((M ++ N).map Int.ofNat)) signs old = .ok F ∧ f.fft spl (some (M.map Int.ofNat)) signs old = .ok G ∧
      G.fft spl (some (N.map Int.ofNat)) signs old = .ok H ∧ F.Same H := by
  obtain ⟨n, k0, hn, hk0, hready⟩ := ready hf ht
  obtain ⟨F, F1, F2, F3, F4, F5, F6, F7, F8⟩ := fft_sound hspl hf ht.some_dim hready hs old
  obtain ⟨G, G1, G2, G3, G4, G5, G6, G7, G8⟩ := fft_sound hspl hf hM (fun d hd => hready d (List.mem_append_left _ hd)) hs old
  have hN' : ∀ d ∈ N, d ∉ M := fun d h1 h2 => hd d h2 h1
  obtain ⟨H, H1, H2, H3, H4, H5, H6, H7, H8⟩ := fft_sound hspl G2 hN (x0 := fun d => e0 d + h d / 2) (h := h) (k0 := k0) (n := n) (state := state)
    (fun d hd => by
      obtain ⟨a1, a2, a3⟩ := G6 d (hN' d hd)
      rw [a1, a2, a3]
      exact hready d (List.mem_append_right _ hd)) hs old
  refine ⟨F, G, H, F1, G1, H1, ⟨by rw [show H.matrix.shape = G.shape from H5, show F.matrix.shape = f.shape from F5, G5], fun idx hi => ?_⟩, ?_,
    H3.trans (G3.trans F3.symm), H4.trans (G4.trans F4.symm), ?_, ?_⟩
  · have hi : InBounds f.shape idx := by
      rw [show H.matrix.shape = G.shape from H5, G5] at hi
      exact hi
    let A : ℕ → (List ℕ → ℂ) → List ℕ → ℂ := fun d g => fourierAlong (h d / Real.sqrt (2 * Real.pi)) (expSign state signs)
          (ap (if old && !state then 0 else e0 d + h d / 2) (h d) (n d))
          (ap (if old && state then 0 else k0 d) (2 * Real.pi / (n d * h d)) (n d)) d g
    have hA : ∀ d e, d ≠ e → ∀ g, A d (A e g) = A e (A d g) := fun d e hde g => fourierAlong_comm _ _ _ _ _ _ _ _ _ _ hde g
    have e1 : F.matrix.at' idx = (order (M ++ N)).foldl (fun g d => A d g) f.matrix.at' idx := F8 idx hi
    have e2 : H.matrix.at' idx = (order N).foldl (fun g d => A d g) G.matrix.at' idx := H8 idx (by rw [G5]; exact hi)
    have e3 : (order N).foldl (fun g d => A d g) G.matrix.at' idx =
        (order N).foldl (fun g d => A d g) ((order M).foldl (fun g d => A d g) f.matrix.at') idx := by
      refine foldl_congr_on (shape := f.shape) (order N) _ _ ?_ _ _ (fun idx hi => G8 idx hi) idx hi
      intro d hd g g' hg idx hidx
      exact fourierAlong_congr (hn d (List.mem_append_right _ (mem_order.1 hd))).1 _ _ _ _ (ap_length _ _ _) hg idx hidx
    rw [e2, e3, e1, ← List.foldl_append]
    refine congrFun (fold_perm A hA ?_ f.matrix.at') idx
    refine (order_perm (L := M ++ N) (M := order M ++ order N) ?_ ?_).symm
    · refine List.nodup_append.2 ⟨order_nodup _, order_nodup _, fun a ha b hb hab => ?_⟩
      subst hab
      exact hd a (mem_order.1 ha) (mem_order.1 hb)
    · intro d
      rw [List.mem_append, List.mem_append, mem_order, mem_order]
  · apply List.ext_getElem?
    intro d
    by_cases hdM : d ∈ M
    · have hm := List.mem_append_left N hdM
      obtain ⟨ax, a1, -⟩ := ht.axis d hm
      obtain ⟨ax', b1, b2, b3, b4, -, -, b7, -⟩ := G7 d hdM ax a1
      obtain ⟨ax'', c1, c2, c3, c4, -, -, c7, -⟩ := F7 d hm ax a1
      have h2 := (hn d hm).2.1
      rw [(H6 d (hd d hdM)).1, b1, c1, even_unique (c7 h2) (b7 h2) (b4.trans c4.symm) (b2.trans c2.symm) (b3.trans c3.symm)]
    · by_cases hdN : d ∈ N
      · have hm := List.mem_append_right M hdN
        obtain ⟨ax, a1, -⟩ := ht.axis d hm
        obtain ⟨ax', b1, b2, b3, b4, -, -, b7, -⟩ := H7 d hdN ax (by rw [(G6 d hdM).1]; exact a1)
        obtain ⟨ax'', c1, c2, c3, c4, -, -, c7, -⟩ := F7 d hm ax a1
        have h2 := (hn d hm).2.1
        rw [b1, c1, even_unique (c7 h2) (b7 h2) (b4.trans c4.symm) (b2.trans c2.symm) (b3.trans c3.symm)]
      · rw [(H6 d hdN).1, (G6 d hdM).1, (F6 d (by simp [hdM, hdN])).1]
  · apply List.ext_getElem?
    intro d
    by_cases hdM : d ∈ M
    · have hm := List.mem_append_left N hdM
      obtain ⟨ax, a1, -⟩ := ht.axis d hm
      obtain ⟨ax', -, -, -, -, -, -, -, b8, -⟩ := G7 d hdM ax a1
      obtain ⟨ax'', -, -, -, -, -, -, -, c8, -⟩ := F7 d hm ax a1
      rw [(H6 d (hd d hdM)).2.1, b8, c8]
    · by_cases hdN : d ∈ N
      · have hm := List.mem_append_right M hdN
        obtain ⟨ax, a1, -⟩ := ht.axis d hm
        obtain ⟨ax', -, -, -, -, -, -, -, b8, -⟩ := H7 d hdN ax (by rw [(G6 d hdM).1]; exact a1)
        obtain ⟨ax'', -, -, -, -, -, -, -, c8, -⟩ := F7 d hm ax a1
        rw [b8, c8]
      · rw [(H6 d hdN).2.1, (G6 d hdM).2.1, (F6 d (by simp [hdM, hdN])).2.1]
  · apply List.ext_getElem?
    intro d
    by_cases hdM : d ∈ M
    · have hm := List.mem_append_left N hdM
      obtain ⟨ax, a1, -⟩ := ht.axis d hm
      obtain ⟨ax', -, -, -, -, -, -, -, -, b8⟩ := G7 d hdM ax a1
      obtain ⟨ax'', -, -, -, -, -, -, -, -, c8⟩ := F7 d hm ax a1
      rw [(H6 d (hd d hdM)).2.2, b8, c8]
    · by_cases hdN : d ∈ N
      · have hm := List.mem_append_right M hdN
        obtain ⟨ax, a1, -⟩ := ht.axis d hm
        obtain ⟨ax', -, -, -, -, -, -, -, -, b8⟩ := H7 d hdN ax (by rw [(G6 d hdM).1]; exact a1)
        obtain ⟨ax'', -, -, -, -, -, -, -, -, c8⟩ := F7 d hm ax a1
        rw [b8, c8]
      · rw [(H6 d hdN).2.2, (G6 d hdM).2.2, (F6 d (by simp [hdM, hdN])).2.2]

theorem getD_set_ne {idx : List ℕ} {d e m : ℕ} (h : e ≠ d) : (idx.set d m).getD e 0 = idx.getD e 0 := by
  rw [List.getD_eq_getElem?_getD, List.getElem?_set_ne (Ne.symm h), ← List.getD_eq_getElem?_getD]

/-- C116: the transform of real values at the negative frequencies is the complex conjugate of the one at the frequencies. -/
theorem fft_real (spl : Splines ℝ) (hspl : ExactOnEven spl) (f : Fields.Field ℝ ℂ) (hf : f.Sound)
    (L : List ℕ) (state : Bool) (e0 h : ℕ → ℝ) (hL : EvenDims f L state e0 h) (signs : String)
    (hs : signs = "spatial" ∨ signs = "temporal") (hr : ∀ idx, InBounds f.shape idx → (f.matrix.at' idx).im = 0) :
    ∃ F, f.fft spl (some (L.map Int.ofNat)) signs false = .ok F ∧
      ∀ idx idx', Opposite F L idx idx' → F.matrix.at' idx' = (starRingEnd ℂ) (F.matrix.at' idx) := by
  obtain ⟨F, F1, F2, F3, -⟩ := fft_value_partial spl hspl f hf L state e0 h hL signs hs
  refine ⟨F, F1, fun idx idx' ho => ?_⟩
  rw [F3 L.dedup (List.nodup_dedup _) (fun d => List.mem_dedup) idx (F2 ▸ ho.first),
    F3 L.dedup (List.nodup_dedup _) (fun d => List.mem_dedup) idx' (F2 ▸ ho.second)]
  -- invariant: the places of the negative frequencies along the dimensions done
  have key : ∀ (M D : List ℕ) (g : List ℕ → ℂ), (∀ d ∈ M, d ∈ L) → M.Nodup → (∀ d ∈ D, d ∉ M) →
      (∀ i i', Opposite F D i i' → g i' = (starRingEnd ℂ) (g i)) →
      ∀ i i', Opposite F (M ++ D) i i' →
        M.foldl (fun g d => fourierAlong (h d / Real.sqrt (2 * Real.pi)) (exponentSign state signs) (gridAlong f d) (gridAlong F d) d g) g i' =
        (starRingEnd ℂ) (M.foldl (fun g d => fourierAlong (h d / Real.sqrt (2 * Real.pi)) (exponentSign state signs) (gridAlong f d) (gridAlong F d)
          d g) g i) := by
    intro M
    induction M with
    | nil => exact fun D g _ _ _ hg i i' hi => hg i i' hi
    | cons d M ih =>
      intro D g hM hnd hD hg i i' hi
      rw [List.nodup_cons] at hnd
      refine ih (d :: D) _ (fun e he => hM e (List.mem_cons_of_mem _ he)) hnd.2 ?_ ?_ i i' ⟨hi.first, hi.second, ?_, ?_⟩
      · intro e he
        rcases List.mem_cons.1 he with rfl | he
        · exact hnd.1
        · exact fun h' => hD e he (List.mem_cons_of_mem _ h')
      · intro j j' hj
        unfold fourierAlong
        beta_reduce
        rw [map_mul, map_sum, Complex.conj_ofReal]
        congr 1
        refine Finset.sum_congr rfl fun m hm => ?_
        obtain ⟨ax, a1, -⟩ := hL.axis d (hM d List.mem_cons_self)
        have hshape : F.shape[d]? = some ax.len := by
          rw [F2, ← hf.ok.lengths, List.getElem?_map, a1]
          rfl
        have hm' : m < ax.len := by
          have := Finset.mem_range.1 hm
          rw [gridAlong_eq a1] at this
          exact this
        rw [hg (j.set d m) (j'.set d m) ⟨inBounds_set hj.first hshape hm', inBounds_set hj.second hshape hm', ?_, ?_⟩, map_mul]
        · congr 1
          rw [hj.coordinate d List.mem_cons_self, ← Complex.exp_conj]
          congr 1
          simp only [map_mul, Complex.conj_I, Complex.conj_ofReal, Complex.ofReal_neg]
          ring
        · intro e he
          have hed : e ≠ d := fun h' => hD e he (h' ▸ List.mem_cons_self)
          rw [getD_set_ne hed, getD_set_ne hed]
          exact hj.coordinate e (List.mem_cons_of_mem _ he)
        · intro e he
          by_cases hed : e = d
          · subst hed
            rw [List.getElem?_set_self', List.getElem?_set_self']
            have l1 : j[e]? ≠ none := by
              rw [Ne, List.getElem?_eq_none_iff, hj.first.1]
              have := (List.getElem?_eq_some_iff.1 hshape).1
              omega
            have l2 : j'[e]? ≠ none := by
              rw [Ne, List.getElem?_eq_none_iff, hj.second.1]
              have := (List.getElem?_eq_some_iff.1 hshape).1
              omega
            cases h1 : j[e]? <;> cases h2 : j'[e]? <;> simp_all
          · rw [List.getElem?_set_ne (Ne.symm hed), List.getElem?_set_ne (Ne.symm hed)]
            exact hj.other e (by simp [hed, he])
      · intro e he
        exact hi.coordinate e (by
          simp only [List.mem_append, List.mem_cons] at he ⊢
          tauto)
      · intro e he
        exact hi.other e (by
          simp only [List.mem_append, List.mem_cons] at he ⊢
          tauto)
  refine key L.dedup [] f.matrix.at' (fun d hd => List.mem_dedup.1 hd) (List.nodup_dedup _) (by simp) ?_ idx idx' ⟨ho.first, ho.second, ?_, ?_⟩
  · intro i i' hi
    have : i' = i := List.ext_getElem? fun d => hi.other d (by simp)
    rw [this]
    exact (Complex.conj_eq_iff_im.2 (hr i (F2 ▸ hi.first))).symm
  · intro d hd
    exact ho.coordinate d (by simpa using hd)
  · intro d hd
    exact ho.other d (by simpa using hd)

/-- C116: at the frequency zero the transform is the sum of all samples along the transformed dimensions times the volume of a cell, over
`√(2π)` for each dimension. -/
theorem fft_zero (spl : Splines ℝ) (hspl : ExactOnEven spl) (f : Fields.Field ℝ ℂ) (hf : f.Sound)
    (L : List ℕ) (hnd : L.Nodup) (state : Bool) (e0 h : ℕ → ℝ) (hL : EvenDims f L state e0 h) (signs : String)
    (hs : signs = "spatial" ∨ signs = "temporal") :
    ∃ F, f.fft spl (some (L.map Int.ofNat)) signs false = .ok F ∧
      ∀ idx, InBounds f.shape idx → (∀ d ∈ L, (gridAlong F d).getD (idx.getD d 0) 0 = 0) →
        F.matrix.at' idx = L.foldl (fun g d => sumAlong (h d / Real.sqrt (2 * Real.pi)) (f.shape.getD d 0) d g) f.matrix.at' idx := by
  obtain ⟨F, F1, F2, F3, -⟩ := fft_value_partial spl hspl f hf L state e0 h hL signs hs
  refine ⟨F, F1, fun idx hi hk => ?_⟩
  rw [F3 L hnd (fun d => Iff.rfl) idx hi]
  have hlen : ∀ d ∈ L, (gridAlong f d).length = f.shape.getD d 0 := by
    intro d hd
    obtain ⟨ax, a1, -⟩ := hL.axis d hd
    rw [gridAlong_eq a1, List.getD_eq_getElem?_getD, ← hf.ok.lengths, List.getElem?_map, a1]
    rfl
  clear F3
  have gen : ∀ (M : List ℕ) (D : List ℕ) (g g' : List ℕ → ℂ), (∀ d ∈ M, d ∈ L) → M.Nodup → (∀ d ∈ D, d ∉ M) →
      (∀ i, (∀ d ∈ D, (gridAlong F d).getD (i.getD d 0) 0 = 0) → g i = g' i) →
      ∀ i, (∀ d ∈ M ++ D, (gridAlong F d).getD (i.getD d 0) 0 = 0) →
        M.foldl (fun g d => fourierAlong (h d / Real.sqrt (2 * Real.pi)) (exponentSign state signs) (gridAlong f d) (gridAlong F d) d g) g i =
        M.foldl (fun g d => sumAlong (h d / Real.sqrt (2 * Real.pi)) (f.shape.getD d 0) d g) g' i := by
    intro M
    induction M with
    | nil => exact fun D g g' _ _ _ hg i hi => hg i hi
    | cons d M ih =>
      intro D g g' hM hnd hD hg i hi
      rw [List.nodup_cons] at hnd
      refine ih (d :: D) _ _ (fun e he => hM e (List.mem_cons_of_mem _ he)) hnd.2 ?_ ?_ i ?_
      · intro e he
        rcases List.mem_cons.1 he with rfl | he
        · exact hnd.1
        · exact fun h' => hD e he (List.mem_cons_of_mem _ h')
      · intro j hj
        unfold fourierAlong sumAlong
        beta_reduce
        rw [hlen d (hM d List.mem_cons_self), hj d List.mem_cons_self]
        congr 1
        refine Finset.sum_congr rfl fun m _ => ?_
        rw [hg (j.set d m)]
        · simp
        · intro e he
          have hed : e ≠ d := fun h' => hD e he (h' ▸ List.mem_cons_self)
          rw [getD_set_ne hed]
          exact hj e (List.mem_cons_of_mem _ he)
      · intro e he
        exact hi e (by
          simp only [List.mem_append, List.mem_cons] at he ⊢
          tauto)
  exact gen L [] f.matrix.at' f.matrix.at' (fun _ h => h) hnd (by simp) (fun _ _ => rfl) idx (by simpa using hk)

/-! ## Examples -/

example : ∀ i : ℤ, i ∈ [1, 0, 1] ↔ i ∈ [0, 1] := by
  intro i
  simp
  tauto

example := fft_separate lineSplines lineSplines_exact field32 field32_sound [1] [0] (by simp) (by simp) (by simp) _ _ _ field32_dims
  "temporal" (Or.inr rfl) true

/-- A real field on the axes of `field32`. -/
def realField32 : Fields.Field ℝ ℂ := { field32 with matrix := ⟨[3, 2], fun idx => (idx.getD 0 0 : ℂ) ^ 2 + 5 * (idx.getD 1 0 : ℂ)⟩ }

theorem realField32_real (idx : List ℕ) : (realField32.matrix.at' idx).im = 0 := by
  have : realField32.matrix.at' idx = (((idx.getD 0 0 : ℝ) ^ 2 + 5 * (idx.getD 1 0 : ℝ) : ℝ) : ℂ) := by
    simp [realField32]
  rw [this, Complex.ofReal_im]

theorem realField32_sound : realField32.Sound := ⟨field32_sound.ok, field32_sound.valid, field32_sound.nonempty⟩

theorem realField32_dims : Transformable realField32 [1, 0] false (fun d => if d = 0 then 1 else -1) (fun d => if d = 0 then 2 else 1 / 2) :=
  ⟨⟨field32_dims.some_dim, field32_dims.number, field32_dims.state, field32_dims.pos, field32_dims.axis⟩, field32_dims.two⟩

/-- The 3 frequencies along the first dimension are the negative, zero and the positive one, of the 2 along the second one the last one is zero. -/
example : ∃ F, realField32.fft lineSplines (some ([1, 0].map Int.ofNat)) "spatial" false = .ok F ∧ Opposite F [1, 0] [0, 1] [2, 1] ∧
    F.matrix.at' [2, 1] = (starRingEnd ℂ) (F.matrix.at' [0, 1]) := by
  obtain ⟨F, F1, F2⟩ := fft_real lineSplines lineSplines_exact realField32 realField32_sound [1, 0] _ _ _ realField32_dims.toEvenDims "spatial"
    (Or.inl rfl) fun idx _ => realField32_real idx
  obtain ⟨F', G1, G2, -, G4, -⟩ := fft_value_partial lineSplines lineSplines_exact realField32 realField32_sound [1, 0] _ _ _
    realField32_dims.toEvenDims "spatial" (Or.inl rfl)
  rw [F1] at G1
  cases G1
  have e0 := G4 0 (by simp) 3 rfl rfl
  have e1 := G4 1 (by simp) 2 rfl rfl
  have ho : Opposite F [1, 0] [0, 1] [2, 1] := by
    refine ⟨?_, ?_, ?_, ?_⟩
    · rw [G2]
      exact inb_cons.2 ⟨by decide, inb_cons.2 ⟨by decide, ⟨rfl, by simp⟩⟩⟩
    · rw [G2]
      exact inb_cons.2 ⟨by decide, inb_cons.2 ⟨by decide, ⟨rfl, by simp⟩⟩⟩
    · intro d hd
      fin_cases hd
      · rw [e1]
        simp [List.range_succ]
      · rw [e0]
        simp [List.range_succ]
        ring
    · intro d hd
      match d with
      | 0 => simp at hd
      | 1 => simp at hd
      | d + 2 => simp
  exact ⟨F, F1, ho, F2 _ _ ho⟩

example := fft_zero lineSplines lineSplines_exact field32 field32_sound [1, 0] (by simp) _ _ _ field32_dims.toEvenDims "spatial" (Or.inl rfl)

end

end Postpic.Props
