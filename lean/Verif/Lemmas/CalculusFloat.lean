import Verif.Lemmas.Near
import Verif.Lemmas.FieldReduce
import Verif.Model.CalculusFloat

/-!
# Lemmas about integrals with rounding
-/

set_option autoImplicit false
set_option linter.unusedSectionVars false

namespace Postpic.Fields

open Postpic Postpic.Axes Postpic.Histogram Postpic.Spec

variable {K : Type} [_root_.Field K] [LinearOrder K] [IsStrictOrderedRing K] [FloorRing K] {rnd : K → Dbl K} {u : K}

theorem getD_map_abs (l : List K) (j : ℕ) : (l.map abs).getD j 0 = |l.getD j 0| := by
  rw [List.getD_eq_getElem?_getD, List.getD_eq_getElem?_getD, List.getElem?_map]
  cases l[j]? <;> simp

theorem boxesF_length (ax : Axis K) : (boxesF rnd ax).length = (cellSizes ax).length := by
  simp [boxesF, cellSizes, Nat.min_comm]

theorem boxesF_near (A : Accurate rnd u) (hu1 : u < 1) (ax : Axis K) (j : ℕ) :
    ∃ d, (boxesF rnd ax).getD j (.fin 0) = .fin d ∧ Near u 1 ((cellSizes ax).getD j 0) |(cellSizes ax).getD j 0| d := by
  have hu0 := A.nonneg
  by_cases hj : j < (boxesF rnd ax).length
  · have hj' : j < (cellSizes ax).length := by rwa [← boxesF_length (rnd := rnd)]
    rw [List.getD_eq_getElem _ _ hj, List.getD_eq_getElem _ _ hj']
    have e1 : (boxesF rnd ax)[j] = Dbl.sub rnd (.fin (ax.gridNode.tail[j]'(by simp [boxesF] at hj; simp; omega)))
        (.fin (ax.gridNode[j]'(by simp [boxesF] at hj; omega))) := by simp [boxesF]
    have e2 : (cellSizes ax)[j] = ax.gridNode.tail[j]'(by simp [boxesF] at hj; simp; omega) -
        ax.gridNode[j]'(by simp [boxesF] at hj; omega) := by simp [cellSizes]
    rw [e1, e2]
    obtain ⟨d, d1, d2⟩ := sub_near A (ax.gridNode.tail[j]'(by simp [boxesF] at hj; simp; omega)) (ax.gridNode[j]'(by simp [boxesF] at hj; omega))
    exact ⟨d, d1, near_round hu0 hu1 (near_refl _) d2⟩
  · refine ⟨0, by rw [List.getD_eq_default _ _ (by omega)], ?_⟩
    rw [List.getD_eq_default _ _ (by rw [← boxesF_length (rnd := rnd)]; omega), abs_zero]
    exact ⟨by simp, by simp⟩

/-- The values of the array are those of `e` after `k` roundings of numbers with the absolute values `m`. -/
def NearArr (u : K) (k : ℕ) (e m : List ℕ → K) (a : List ℕ → Dbl K) : Prop := ∀ idx, ∃ y, a idx = .fin y ∧ Near u k (e idx) (m idx) y

theorem nearAll_map {k : ℕ} {α : Type} (l : List α) (e m : α → K) (a : α → Dbl K) (h : ∀ x ∈ l, ∃ y, a x = .fin y ∧ Near u k (e x) (m x) y) :
    NearAll u k (l.map e) (l.map m) (l.map a) := by
  refine ⟨by simp, by simp, ?_⟩
  intro i hi
  rw [List.length_map] at hi
  obtain ⟨y, y1, y2⟩ := h l[i] (List.getElem_mem _)
  refine ⟨y, by simp [List.getElem?_eq_getElem hi, y1], ?_⟩
  simpa [List.getD, List.getElem?_eq_getElem hi] using y2

/-- The field is in order and has no empty dimension. -/
theorem integrateStepF_near (A : Accurate rnd u) (hu1 : u < 1) {add : List (Dbl K) → Dbl K} {n d : ℕ} (S : Summation rnd add n d)
    {f : Field K (Dbl K)} (hf : f.Sound) (hn : ∀ s ∈ f.shape, s ≤ n) {c : ℕ} {e m : List ℕ → K} (he : NearArr u c e m f.matrix.at')
    {a : ℤ} {k : ℕ} (ha : pyIdx f.shape.length a = some k) :
    ∃ r, f.integrateStepF rnd add a = .ok r ∧ r.Sound ∧ r.name = f.name ∧ r.unit = f.unit ∧
      r.shape = f.shape.eraseIdx k ∧ r.axes = f.axes.eraseIdx k ∧ r.ats = f.ats.eraseIdx k ∧
      r.tao = f.tao.eraseIdx k ∧
      NearArr u (c + (d + 2))
        (fun idx => ∑ i ∈ Finset.range ((f.axes.map cellSizes).getD k []).length, ((f.axes.map cellSizes).getD k []).getD i 0 • e (idx.insertIdx k i))
        (fun idx => ∑ i ∈ Finset.range ((f.axes.map fun ax => (cellSizes ax).map abs).getD k []).length,
          ((f.axes.map fun ax => (cellSizes ax).map abs).getD k []).getD i 0 • m (idx.insertIdx k i)) r.matrix.at' := by
  have hu0 := A.nonneg
  have hk := pyIdx_lt ha
  have hl := ok_axes_length hf.ok
  have hget : f.axes[k]? = some f.axes[k] := List.getElem?_eq_getElem (by omega)
  have hax := hf.valid f.axes[k] (List.getElem_mem _)
  have e1 : pyGet f.axes a = .ok f.axes[k] := pyGet_of (by rw [hl]; exact ha) hget
  have e2 : pyIdx f.dims.toNat a = some k := by rw [dims_sound hf]; exact ha
  have hs : f.shape[k]? = some (boxesF rnd f.axes[k]).length := by
    rw [boxesF_length, cellSizes_length hax, ← hf.ok.lengths, List.getElem?_map, hget]
    rfl
  have hdel : ∀ {α : Type} (l : List α), l.length = f.shape.length → pyDel l a = .ok (l.eraseIdx k) := by
    intro α l hl
    unfold pyDel
    rw [hl, ha]
  have hD : (f.axes.map cellSizes).getD k [] = cellSizes f.axes[k] := by
    rw [List.getD_eq_getElem?_getD, List.getElem?_map, hget]
    rfl
  have hD' : (f.axes.map fun ax => (cellSizes ax).map abs).getD k [] = (cellSizes f.axes[k]).map abs := by
    rw [List.getD_eq_getElem?_getD, List.getElem?_map, hget]
    rfl
  refine ⟨{ f with
      matrix := ⟨f.shape.eraseIdx k, fun idx => add ((List.range (boxesF rnd f.axes[k]).length).map fun j =>
        Dbl.mul rnd ((boxesF rnd f.axes[k]).getD j (.fin 0)) (f.matrix.at' (idx.insertIdx k j)))⟩
      axes := f.axes.eraseIdx k, ats := f.ats.eraseIdx k, tao := f.tao.eraseIdx k },
    ?_, ?_, rfl, rfl, rfl, rfl, rfl, rfl, ?_⟩
  · unfold Field.integrateStepF
    rw [e1]
    simp only [bind, Except.bind]
    rw [e2]
    simp only
    rw [hs]
    simp only [ne_eq, not_true_eq_false, if_false]
    rw [hdel f.axes hl, hdel f.ats hf.ok.states, hdel f.tao hf.ok.origins]
    rfl
  · refine ⟨⟨?_, ?_, ?_⟩, ?_, ?_⟩
    · show (f.axes.eraseIdx k).map Axis.len = f.shape.eraseIdx k
      rw [← List.eraseIdx_map, hf.ok.lengths]
    · show (f.ats.eraseIdx k).length = (f.shape.eraseIdx k).length
      rw [List.length_eraseIdx, List.length_eraseIdx, hf.ok.states]
    · show (f.tao.eraseIdx k).length = (f.shape.eraseIdx k).length
      rw [List.length_eraseIdx, List.length_eraseIdx, hf.ok.origins]
    · intro ax hmem
      exact hf.valid ax (List.mem_of_mem_eraseIdx hmem)
    · intro h0
      exact hf.nonempty (List.mem_of_mem_eraseIdx h0)
  · intro idx
    have hN : NearAll u (c + 2)
        ((List.range (boxesF rnd f.axes[k]).length).map fun j => (cellSizes f.axes[k]).getD j 0 • e (idx.insertIdx k j))
        ((List.range (boxesF rnd f.axes[k]).length).map fun j => ((cellSizes f.axes[k]).map abs).getD j 0 • m (idx.insertIdx k j))
        ((List.range (boxesF rnd f.axes[k]).length).map fun j =>
          Dbl.mul rnd ((boxesF rnd f.axes[k]).getD j (.fin 0)) (f.matrix.at' (idx.insertIdx k j))) := by
      refine nearAll_map _ _ _ _ ?_
      intro j _
      obtain ⟨b, b1, b2⟩ := boxesF_near A hu1 f.axes[k] j
      obtain ⟨y, y1, y2⟩ := he (idx.insertIdx k j)
      obtain ⟨z, z1, z2⟩ := mul_near A b y
      refine ⟨z, by rw [b1, y1, z1], ?_⟩
      rw [getD_map_abs, smul_eq_mul, smul_eq_mul, show c + 2 = 1 + c + 1 by ring]
      exact near_round hu0 hu1 (near_mul hu0 hu1 b2 y2) z2
    obtain ⟨y, y1, y2⟩ := nearAll_add A hu1 S hN (by
      rw [List.length_map, List.length_range]
      refine hn _ ?_
      rw [List.mem_iff_getElem?]
      exact ⟨k, hs⟩)
    refine ⟨y, y1, ?_⟩
    rw [hD, hD', List.length_map]
    beta_reduce
    rw [← lsum, ← lsum, ← boxesF_length (rnd := rnd), show c + (d + 2) = c + 2 + d by ring]
    exact y2

theorem fastLoopF_near (A : Accurate rnd u) (hu1 : u < 1) {add : List (Dbl K) → Dbl K} {n d : ℕ} (S : Summation rnd add n d)
    {f : Field K (Dbl K)} (hf : f.Sound) (hsn : ∀ s ∈ f.shape, s ≤ n) {c : ℕ} {e m : List ℕ → K} (he : NearArr u c e m f.matrix.at')
    {L : List ℕ} (hn : L.Nodup) (hL : ∀ i ∈ L, i < f.shape.length) :
    ∃ r, fastLoopF rnd add f (L.map Int.ofNat) = .ok r ∧ r.name = f.name ∧ r.unit = f.unit ∧
      r.shape = unflagged (flags f.shape.length L) f.shape ∧
      r.axes = unflagged (flags f.shape.length L) f.axes ∧
      r.ats = unflagged (flags f.shape.length L) f.ats ∧
      r.tao = unflagged (flags f.shape.length L) f.tao ∧
      ∀ idx, idx.length = r.shape.length → ∃ y, r.matrix.at' idx = .fin y ∧
        Near u (c + L.length * (d + 2)) (integral (f.axes.map cellSizes) (flags f.shape.length L) e idx)
          (integral (f.axes.map fun ax => (cellSizes ax).map abs) (flags f.shape.length L) m idx) y := by
  generalize hm : L.length = q
  induction q generalizing f L c e m with
  | zero =>
    have : L = [] := List.length_eq_zero_iff.1 hm
    subst this
    have hl := ok_axes_length hf.ok
    refine ⟨f, by simp [fastLoopF], rfl, rfl, ?_, ?_, ?_, ?_, ?_⟩
    · rw [unflagged_none _ _ rfl]
    · rw [unflagged_none _ _ hl]
    · rw [unflagged_none _ _ hf.ok.states]
    · rw [unflagged_none _ _ hf.ok.origins]
    · intro idx hidx
      obtain ⟨y, y1, y2⟩ := he idx
      refine ⟨y, y1, ?_⟩
      have h1 := integral_none (f.axes.map cellSizes) e idx (by simp [hidx, hl])
      have h2 := integral_none (f.axes.map fun ax => (cellSizes ax).map abs) m idx (by simp [hidx, hl])
      rw [List.length_map, hl] at h1 h2
      rw [h1, h2, Nat.zero_mul]
      exact y2
  | succ q ih =>
    cases L with
    | nil => simp at hm
    | cons a L =>
      rw [List.nodup_cons] at hn
      have ha := hL a (by simp)
      have hl := ok_axes_length hf.ok
      obtain ⟨r, h1, h2, h3, h4, h5, h6, h7, h8, h9⟩ := integrateStepF_near A hu1 S hf hsn he (pyIdx_nat ha)
      have hlen : r.shape.length = f.shape.length - 1 := by
        rw [h5, List.length_eraseIdx_of_lt ha]
      obtain ⟨r', g1, g3, g4, g5, g6, g7, g8, g9⟩ := ih h2 (by
          rw [h5]
          intro s hs
          exact hsn s (List.mem_of_mem_eraseIdx hs)) h9 (L := L.map (shiftDown a))
        (shiftDown_nodup hn.1 hn.2)
        (by rw [hlen]; exact shiftDown_lt hn.1 (fun i hi => hL i (List.mem_cons_of_mem _ hi)) ha)
        (by simpa using hm)
      rw [hlen] at g5 g6 g7 g8 g9
      have hins := flags_insert ha hn.1
      refine ⟨r', ?_, g3.trans h3, g4.trans h4, ?_, ?_, ?_, ?_, ?_⟩
      · rw [List.map_cons, fastLoopF]
        have : f.integrateStepF rnd add (Int.ofNat a) = .ok r := h1
        rw [this]
        simp only [bind, Except.bind]
        rw [← g1]
        congr 1
        rw [List.map_map, List.map_map]
        apply List.map_congr_left
        intro i hi
        simp only [Function.comp, shiftDown]
        have e : ∀ k : ℕ, Int.ofNat k = (k : ℤ) := fun _ => rfl
        simp only [e]
        split_ifs <;> omega
      · rw [g5, h5, hins, unflagged_insert ha (by rw [flags_length]; omega)]
      · rw [g6, h6, hins, unflagged_insert (by omega) (by rw [flags_length]; omega)]
      · rw [g7, h7, hins, unflagged_insert (by rw [hf.ok.states]; omega) (by rw [flags_length]; omega)]
      · rw [g8, h8, hins, unflagged_insert (by rw [hf.ok.origins]; omega) (by rw [flags_length]; omega)]
      · intro idx hidx
        have hc : idx.length = List.count false (flags (f.shape.length - 1) (L.map (shiftDown a))) := by
          rw [hidx, g5, h5]
          apply unflagged_count
          rw [flags_length, List.length_eraseIdx_of_lt ha]
        obtain ⟨y, y1, y2⟩ := g9 idx hidx
        refine ⟨y, y1, ?_⟩
        rw [hins, integral_insert _ (by rw [flags_length, List.length_map]; omega) (by rw [flags_length]; omega) hc,
          integral_insert _ (by rw [flags_length, List.length_map]; omega) (by rw [flags_length]; omega) hc,
          show c + (q + 1) * (d + 2) = c + (d + 2) + q * (d + 2) by ring]
        rw [h6] at y2
        simp only [List.eraseIdx_map] at y2 ⊢
        exact y2

theorem integrateFastF_near (A : Accurate rnd u) (hu1 : u < 1) {add : List (Dbl K) → Dbl K} {n d : ℕ} (S : Summation rnd add n d)
    {f : Field K (Dbl K)} (hf : f.Sound) (hsn : ∀ s ∈ f.shape, s ≤ n) {c : ℕ} {e m : List ℕ → K} (he : NearArr u c e m f.matrix.at')
    {L : List ℕ} (hL : ∀ i ∈ L, i < f.shape.length) :
    ∃ r, f.integrateFastF rnd add (L.map Int.ofNat) = .ok r ∧ r.name = f.name ∧ r.unit = f.unit ∧
      r.shape = unflagged (flags f.shape.length L) f.shape ∧
      r.axes = unflagged (flags f.shape.length L) f.axes ∧
      r.ats = unflagged (flags f.shape.length L) f.ats ∧
      r.tao = unflagged (flags f.shape.length L) f.tao ∧
      ∀ idx, idx.length = r.shape.length → ∃ y, r.matrix.at' idx = .fin y ∧
        Near u (c + L.dedup.length * (d + 2)) (integral (f.axes.map cellSizes) (flags f.shape.length L) e idx)
          (integral (f.axes.map fun ax => (cellSizes ax).map abs) (flags f.shape.length L) m idx) y := by
  have hd : (L.map Int.ofNat).dedup = L.dedup.map Int.ofNat :=
    List.dedup_map_of_injective Int.ofNat_injective L
  have hkeys : (L.dedup.map Int.ofNat).mapM (fun i => do
      let a ← pyGet f.shape i
      pure (a, i)) = (.ok (L.dedup.map fun i => (f.shape.getD i 0, (i : ℤ))) : Res _) := by
    apply mapM_of_forall2
    rw [List.forall₂_map_left_iff, List.forall₂_map_right_iff, List.forall₂_same]
    intro i hi
    have hi' := hL i (List.mem_dedup.1 hi)
    have : pyGet f.shape (Int.ofNat i) = .ok f.shape[i] :=
      pyGet_of (pyIdx_nat hi') (List.getElem?_eq_getElem hi')
    rw [this]
    simp only [bind, Except.bind, pure, Except.pure]
    rw [List.getD_eq_getElem _ _ hi']
    rfl
  let M := ((L.dedup.map fun i => (f.shape.getD i 0, i)).insertionSort
    (fun p q => p.1 ≤ q.1)).reverse.map (·.2)
  have hM : M.Perm L.dedup := by
    have h1 := (List.perm_insertionSort (fun p q : ℕ × ℕ => p.1 ≤ q.1)
      (L.dedup.map fun i => (f.shape.getD i 0, i)))
    have h2 := ((List.reverse_perm _).trans h1).map (·.2)
    rw [List.map_map] at h2
    have : List.map ((fun x : ℕ × ℕ => x.2) ∘ fun i => (f.shape.getD i 0, i)) L.dedup = L.dedup := by
      conv_rhs => rw [← List.map_id L.dedup]
      rfl
    rw [this] at h2
    exact h2
  obtain ⟨r, h1, h3, h4, h5, h6, h7, h8, h9⟩ := fastLoopF_near A hu1 S hf hsn he (L := M)
    (hM.nodup_iff.2 (List.nodup_dedup L))
    (fun i hi => hL i (List.mem_dedup.1 (hM.mem_iff.1 hi)))
  have hfl : flags f.shape.length M = flags f.shape.length L :=
    flags_congr fun d => by rw [hM.mem_iff, List.mem_dedup]
  rw [hfl, hM.length_eq] at h9
  rw [hfl] at h5 h6 h7 h8
  refine ⟨r, ?_, h3, h4, h5, h6, h7, h8, h9⟩
  unfold Field.integrateFastF
  rw [hd]
  have hsort : ((L.dedup.map fun i => (f.shape.getD i 0, (i : ℤ))).insertionSort
      (fun p q => p.1 ≤ q.1)).reverse.map (·.2) = M.map Int.ofNat := by
    have : (L.dedup.map fun i => (f.shape.getD i 0, (i : ℤ))).insertionSort
        (fun p q => p.1 ≤ q.1) = ((L.dedup.map fun i => (f.shape.getD i 0, i)).insertionSort
        (fun p q => p.1 ≤ q.1)).map fun p => (p.1, (p.2 : ℤ)) := by
      have := List.map_insertionSort (fun p q : ℕ × ℕ => p.1 ≤ q.1)
        (fun p q : ℕ × ℤ => p.1 ≤ q.1) (fun p : ℕ × ℕ => (p.1, (p.2 : ℤ)))
        (L.dedup.map fun i => (f.shape.getD i 0, i)) (fun a _ b _ => Iff.rfl)
      rw [this, List.map_map]
      rfl
    rw [this]
    simp only [M, List.map_reverse, List.map_map]
    rfl
  rw [← h1, ← hsort]
  simp only [bind, Except.bind] at hkeys ⊢
  rw [hkeys]

theorem mulBoxesF_near (A : Accurate rnd u) (hu1 : u < 1) {orig f : Field K (Dbl K)} (ho : orig.Sound) (h1 : f.axes = orig.axes)
    (h2 : f.shape = orig.shape) (h3 : f.shape.length ≤ 3) {k : ℕ} (hk : k < orig.shape.length) {c : ℕ} {e m : List ℕ → K}
    (he : NearArr u c e m f.matrix.at') :
    ∃ g, f.mulBoxesF rnd orig (Int.ofNat k) = .ok ⟨f.name, f.unit, ⟨f.shape, g⟩, f.axes, f.ats, f.tao⟩ ∧
      NearArr u (c + 2) (fun idx => ((orig.axes.map cellSizes).getD k []).getD (idx.getD k 0) 0 • e idx)
        (fun idx => ((orig.axes.map fun ax => (cellSizes ax).map abs).getD k []).getD (idx.getD k 0) 0 • m idx) g := by
  have hu0 := A.nonneg
  have hl := ok_axes_length ho.ok
  have hget : orig.axes[k]? = some orig.axes[k] := List.getElem?_eq_getElem (by omega)
  have hax := ho.valid orig.axes[k] (List.getElem_mem _)
  have ha : pyIdx orig.shape.length (Int.ofNat k) = some k := pyIdx_nat hk
  have e1 : pyGet orig.axes (Int.ofNat k) = .ok orig.axes[k] :=
    pyGet_of (by rw [hl]; exact ha) hget
  have e2 : pyIdx orig.dims.toNat (Int.ofNat k) = some k := by rw [dims_sound ho]; exact ha
  have hs : f.shape[k]? = some (boxesF rnd orig.axes[k]).length := by
    rw [h2, boxesF_length, cellSizes_length hax, ← ho.ok.lengths, List.getElem?_map, hget]
    rfl
  have hD : (orig.axes.map cellSizes).getD k [] = cellSizes orig.axes[k] := by
    rw [List.getD_eq_getElem?_getD, List.getElem?_map, hget]
    rfl
  have hD' : (orig.axes.map fun ax => (cellSizes ax).map abs).getD k [] = (cellSizes orig.axes[k]).map abs := by
    rw [List.getD_eq_getElem?_getD, List.getElem?_map, hget]
    rfl
  refine ⟨fun idx => Dbl.mul rnd (f.matrix.at' idx) ((boxesF rnd orig.axes[k]).getD (idx.getD k 0) (.fin 0)), ?_, ?_⟩
  · unfold Field.mulBoxesF
    rw [e1]
    simp only [bind, Except.bind]
    rw [e2]
    simp only
    rw [hs]
    simp only [ne_eq, not_true_eq_false, if_false]
    exact mkField_of_eq (by rw [h1, ho.ok.lengths, h2]) h3
  · intro idx
    rw [hD, hD']
    beta_reduce
    obtain ⟨b, b1, b2⟩ := boxesF_near A hu1 orig.axes[k] (idx.getD k 0)
    obtain ⟨y, y1, y2⟩ := he idx
    obtain ⟨z, z1, z2⟩ := mul_near A y b
    refine ⟨z, by rw [b1, y1, z1], ?_⟩
    rw [getD_map_abs, smul_eq_mul, smul_eq_mul, mul_comm _ (e idx), mul_comm _ (m idx)]
    exact near_round hu0 hu1 (near_mul hu0 hu1 y2 b2) z2

theorem mulAllBoxesF_near (A : Accurate rnd u) (hu1 : u < 1) {orig : Field K (Dbl K)} (ho : orig.Sound) (h3 : orig.shape.length ≤ 3)
    {L : List ℕ} (hL : ∀ i ∈ L, i < orig.shape.length) {f : Field K (Dbl K)} (h1 : f.axes = orig.axes)
    (h2 : f.shape = orig.shape) {c : ℕ} {e m : List ℕ → K} (he : NearArr u c e m f.matrix.at') :
    ∃ g, mulAllBoxesF rnd orig f (L.map Int.ofNat) = .ok ⟨f.name, f.unit, ⟨f.shape, g⟩, f.axes, f.ats, f.tao⟩ ∧
      NearArr u (c + 2 * L.length) (fun idx => weight (orig.axes.map cellSizes) L idx • e idx)
        (fun idx => weight (orig.axes.map fun ax => (cellSizes ax).map abs) L idx • m idx) g := by
  induction L generalizing f c e m with
  | nil =>
    refine ⟨f.matrix.at', ?_, ?_⟩
    · simp [mulAllBoxesF, Field.shape]
    · simpa [weight] using he
  | cons k L ih =>
    have hk := hL k (by simp)
    obtain ⟨g0, g01, g02⟩ := mulBoxesF_near A hu1 ho h1 h2 (by rw [h2]; exact h3) hk he
    obtain ⟨g, g1, g2⟩ := ih (fun i hi => hL i (List.mem_cons_of_mem _ hi))
      (f := ⟨f.name, f.unit, ⟨f.shape, g0⟩, f.axes, f.ats, f.tao⟩) h1 h2 g02
    refine ⟨g, ?_, ?_⟩
    · simp only [List.map_cons, mulAllBoxesF, bind, Except.bind]
      rw [g01]
      exact g1
    · intro idx
      obtain ⟨y, y1, y2⟩ := g2 idx
      refine ⟨y, y1, ?_⟩
      simp only [weight, List.map_cons, List.prod_cons, List.length_cons, smul_smul] at y2 ⊢
      rw [mul_comm (((orig.axes.map cellSizes).getD k []).getD (idx.getD k 0) 0),
        mul_comm (((orig.axes.map fun ax => (cellSizes ax).map abs).getD k []).getD (idx.getD k 0) 0),
        show c + 2 * (L.length + 1) = c + 2 + 2 * L.length by ring]
      exact y2

theorem fibre_length {shape : List ℕ} (h0 : 0 ∉ shape) (sel : List Bool) (idx : List ℕ) : (fibre shape sel idx).length ≤ shape.prod := by
  induction shape generalizing sel idx with
  | nil => simp [fibre]
  | cons s shape ih =>
    have h1 : 0 ∉ shape := fun h => h0 (List.mem_cons_of_mem _ h)
    have hs : 1 ≤ s := Nat.one_le_iff_ne_zero.2 fun h => h0 (by simp [h])
    have hp : 1 ≤ shape.prod := Nat.one_le_iff_ne_zero.2 (List.prod_ne_zero h1)
    cases sel with
    | nil => simp only [fibre, List.length_singleton, List.prod_cons]; nlinarith
    | cons b sel =>
      cases b with
      | true =>
        simp only [fibre, List.length_flatMap, List.length_map, List.prod_cons]
        rw [List.map_const', List.sum_replicate, List.length_range, smul_eq_mul]
        exact Nat.mul_le_mul_left _ (ih h1 sel idx)
      | false =>
        simp only [fibre, List.length_map, List.prod_cons]
        nlinarith [ih h1 sel idx.tail]

theorem integrateConstantF_near (A : Accurate rnd u) (hu1 : u < 1) {add : List (Dbl K) → Dbl K} {n d : ℕ} (S : Summation rnd add n d)
    (spl : Splines K) {f : Field K (Dbl K)} (hf : f.Sound) (hsn : f.shape.prod ≤ n)
    (h3 : f.shape.length ≤ 3) {c : ℕ} {e m : List ℕ → K} (he : NearArr u c e m f.matrix.at') {L : List ℕ} (hL : ∀ i ∈ L, i < f.shape.length) :
    ∃ r, f.integrateConstantF rnd add spl (L.map Int.ofNat) = .ok r ∧ r.name = f.name ∧ r.unit = f.unit ∧
      r.shape = unflagged (flags f.shape.length L) f.shape ∧
      r.axes = unflagged (flags f.shape.length L) f.axes ∧
      r.ats = unflagged (flags f.shape.length L) f.ats ∧
      r.tao = unflagged (flags f.shape.length L) f.tao ∧
      ∀ idx, idx.length = r.shape.length → ∃ y, r.matrix.at' idx = .fin y ∧
        Near u (c + 2 * L.dedup.length + d) (integral (f.axes.map cellSizes) (flags f.shape.length L) e idx)
          (integral (f.axes.map fun ax => (cellSizes ax).map abs) (flags f.shape.length L) m idx) y := by
  have hl := ok_axes_length hf.ok
  have hd : (L.map Int.ofNat).dedup.insertionSort (· ≤ ·) =
      (L.dedup.insertionSort (· ≤ ·)).map Int.ofNat := by
    rw [List.dedup_map_of_injective Int.ofNat_injective L]
    symm
    apply List.map_insertionSort
    intro a _ b _
    simp
  have hperm := List.perm_insertionSort (· ≤ ·) L.dedup
  generalize hM : L.dedup.insertionSort (· ≤ ·) = M at hd hperm
  have hMn : M.Nodup := hperm.nodup_iff.2 (List.nodup_dedup L)
  have hML : ∀ i ∈ M, i < f.shape.length :=
    fun i hi => hL i (List.mem_dedup.1 (hperm.mem_iff.1 hi))
  have hfl : flags f.shape.length M = flags f.shape.length L :=
    flags_congr fun d => by rw [hperm.mem_iff, List.mem_dedup]
  obtain ⟨g, g1, g2⟩ := mulAllBoxesF_near A hu1 hf h3 (L := M.reverse)
    (fun i hi => hML i (List.mem_reverse.1 hi)) (f := f) rfl rfl he
  have hf' : (⟨f.name, f.unit, ⟨f.shape, g⟩, f.axes, f.ats, f.tao⟩ : Field K (Dbl K)).Sound :=
    ⟨hf.ok, hf.valid, hf.nonempty⟩
  have hred := reduce_sound spl add hf' (l := M.map Int.ofNat) (p := M)
    (by
      rw [List.forall₂_map_left_iff, List.forall₂_same]
      intro i hi
      exact pyIdx_nat (hML i hi)) hMn (Or.inl (by
      intro i hi
      rw [List.mem_map] at hi
      obtain ⟨a, _, rfl⟩ := hi
      exact Int.natCast_nonneg a))
    (by
      refine le_trans ?_ h3
      rw [unflagged_count (flags_length _ _).symm]
      refine le_trans List.count_le_length ?_
      rw [flags_length]
      exact le_refl _)
  have hsh : (⟨f.name, f.unit, ⟨f.shape, g⟩, f.axes, f.ats, f.tao⟩ : Field K (Dbl K)).shape = f.shape := rfl
  simp only [hsh, hfl] at hred
  refine ⟨⟨f.name, f.unit, Arr.reduce add ⟨f.shape, g⟩ (flags f.shape.length L),
      unflagged (flags f.shape.length L) f.axes, unflagged (flags f.shape.length L) f.ats,
      unflagged (flags f.shape.length L) f.tao⟩, ?_, rfl, rfl, ?_, rfl, rfl, rfl, ?_⟩
  · unfold Field.integrateConstantF
    simp only [hd]
    rw [← List.map_reverse, g1]
    exact hred
  · exact keep_eq _ _
  · intro idx hidx
    have hbs : (f.axes.map cellSizes).map List.length = f.shape := by
      rw [← hf.ok.lengths, List.map_map]
      apply List.map_congr_left
      intro ax hax
      exact cellSizes_length (hf.valid ax hax)
    have hbs' : (f.axes.map fun ax => (cellSizes ax).map abs).map List.length = f.shape := by
      rw [← hbs, List.map_map, List.map_map]
      apply List.map_congr_left
      intro ax _
      simp
    have hlen : (f.axes.map cellSizes).length = f.shape.length := by simp [hl]
    have hlen' : (f.axes.map fun ax => (cellSizes ax).map abs).length = f.shape.length := by simp [hl]
    have hidx' : idx.length = (flags f.shape.length L).count false := by
      rw [hidx]
      show (keep (flags f.shape.length L) f.shape).length = _
      rw [keep_eq]
      exact unflagged_count (flags_length _ _).symm
    have key := fibre_integral (bs := f.axes.map cellSizes) (L := M) hMn
      (by rw [hlen]; exact hML) e (idx := idx) (by rw [hlen, hfl]; exact hidx')
    have key' := fibre_integral (bs := f.axes.map fun ax => (cellSizes ax).map abs) (L := M) hMn
      (by rw [hlen']; exact hML) m (idx := idx) (by rw [hlen', hfl]; exact hidx')
    rw [hbs, hlen, hfl] at key
    rw [hbs', hlen', hfl] at key'
    rw [← key, ← key']
    have hN := nearAll_map (u := u) (fibre f.shape (flags f.shape.length L) idx)
      (fun j => weight (f.axes.map cellSizes) M.reverse j • e j)
      (fun j => weight (f.axes.map fun ax => (cellSizes ax).map abs) M.reverse j • m j) g (fun j _ => g2 j)
    obtain ⟨y, y1, y2⟩ := nearAll_add A hu1 S hN (by
      rw [List.length_map]
      exact (fibre_length hf.nonempty _ _).trans hsn)
    refine ⟨y, y1, ?_⟩
    rw [List.length_reverse, hperm.length_eq] at y2
    simp only [weight_perm (List.reverse_perm M)] at y2
    exact y2

end Postpic.Fields
