import Verif.Lemmas.CalculusFloat
import Verif.Lemmas.FieldLinear
import Verif.Lemmas.StatisticsDouble

/-!
# Integrals along several dimensions with doubles, without underflow and overflow
-/

set_option autoImplicit false

namespace Postpic.Props

open Postpic Postpic.Axes Postpic.Fields Postpic.Histogram Postpic.Statistics Postpic.Spec

/-- The same orders of additions with 53 digits instead of doubles. -/
noncomputable def add53 {add : List (Dbl ℚ) → Dbl ℚ} {n d : ℕ} (S : Summation double add n d) (l : List (Dbl ℚ)) : Dbl ℚ :=
  if h : l.length ≤ n then sumF digits53 l (S l h).choose else .nan

theorem add53_summation {add : List (Dbl ℚ) → Dbl ℚ} {n d : ℕ} (S : Summation double add n d) : Summation digits53 (add53 S) n d := by
  intro l hl
  obtain ⟨h1, h2, -⟩ := (S l hl).choose_spec
  exact ⟨_, h1, h2, by unfold add53; exact dif_pos hl⟩

theorem add53_agree {add : List (Dbl ℚ) → Dbl ℚ} {n d : ℕ} (S : Summation double add n d) (hn : n ≤ 2 ^ 64) (hd : d ≤ 2 ^ 52) {a b : ℤ}
    (ha : -1022 ≤ a) (hb : b + 66 ≤ 1022) {xs : List ℚ} (hx : ∀ x ∈ xs, double x = .fin x ∧ Moderate a b x) (hl : xs.length ≤ n) :
    ∃ y, add (xs.map .fin) = .fin y ∧ add53 S (xs.map .fin) = .fin y ∧ double y = .fin y ∧ Moderate (a - 52) (b + 65) y := by
  have hl' : (xs.map Dbl.fin).length ≤ n := by rwa [List.length_map]
  have h4 : add53 S (xs.map .fin) = sumF digits53 (xs.map .fin) (S _ hl').choose := by
    unfold add53
    rw [dif_pos hl']
  obtain ⟨h1, h2, h3⟩ := (S _ hl').choose_spec
  generalize (S _ hl').choose = t at h1 h2 h3 h4
  rw [List.length_map] at h1
  have hd' : (t.depth : ℚ) ≤ 2 ^ 52 := by exact_mod_cast h2.trans hd
  obtain ⟨y, y1, y2, y3⟩ := sum_agree ha hb hx _ h1 (hl.trans hn) (by
    have := mul_le_mul_of_nonneg_right hd' (show (0 : ℚ) ≤ 1 / 2 ^ 53 by norm_num)
    refine this.trans ?_
    norm_num)
  exact ⟨y, h3.trans y1, h4.trans y2, y3⟩

/-- Rounded sizes of cells. -/
theorem boxes_agree {ax : Axis ℚ} {c : ℤ} (hc : c ≤ 1022) (h : ∀ x ∈ cellSizes ax, Moderate (-c) c x) {j : ℕ} (hj : j < (cellSizes ax).length) :
    ∃ z, (boxesF double ax).getD j (.fin 0) = .fin z ∧ (boxesF digits53 ax).getD j (.fin 0) = .fin z ∧ Moderate (-c) c z := by
  obtain ⟨e1, e2, e3, -⟩ := moderate_round (by omega) hc (h _ (List.getElem_mem hj))
  have key : ∀ rnd : ℚ → Dbl ℚ, (boxesF rnd ax).getD j (.fin 0) = rnd (cellSizes ax)[j] := by
    intro rnd
    have hj' : j < (boxesF rnd ax).length := by rwa [boxesF_length]
    rw [List.getD_eq_getElem _ _ hj']
    simp only [boxesF, cellSizes, List.getElem_zipWith, sub_eq_add_neg]
    rfl
  exact ⟨_, by rw [key, e1], by rw [key, e2], e3⟩

/-- The step of `_integrate_fast`. -/
theorem integrateStepF_ok {K : Type} [_root_.Field K] [LinearOrder K] [IsStrictOrderedRing K] [FloorRing K] (rnd : K → Dbl K)
    (add : List (Dbl K) → Dbl K) {f : Field K (Dbl K)} (hf : f.Sound) {a : ℤ} {k : ℕ} {ax : Axis K} (ha : pyIdx f.shape.length a = some k)
    (hax : f.axes[k]? = some ax) :
    f.integrateStepF rnd add a = .ok { f with
      matrix := ⟨f.shape.eraseIdx k, fun idx => add ((List.range (boxesF rnd ax).length).map fun j =>
        Dbl.mul rnd ((boxesF rnd ax).getD j (.fin 0)) (f.matrix.at' (idx.insertIdx k j)))⟩
      axes := f.axes.eraseIdx k, ats := f.ats.eraseIdx k, tao := f.tao.eraseIdx k } := by
  have hk := pyIdx_lt ha
  have hl := ok_axes_length hf.ok
  have hv := hf.valid ax (List.mem_of_getElem? hax)
  have e1 : pyGet f.axes a = .ok ax := pyGet_of (by rw [hl]; exact ha) hax
  have e2 : pyIdx f.dims.toNat a = some k := by rw [dims_sound hf]; exact ha
  have hs : f.shape[k]? = some (boxesF rnd ax).length := by
    rw [boxesF_length, cellSizes_length hv, ← hf.ok.lengths, List.getElem?_map, hax]
    rfl
  have hdel : ∀ {α : Type} (l : List α), l.length = f.shape.length → pyDel l a = .ok (l.eraseIdx k) := by
    intro α l hl
    unfold pyDel
    rw [hl, ha]
  unfold Field.integrateStepF
  rw [e1]
  simp only [bind, Except.bind]
  rw [e2]
  simp only
  rw [hs]
  simp only [ne_eq, not_true_eq_false, if_false]
  rw [hdel f.axes hl, hdel f.ats hf.ok.states, hdel f.tao hf.ok.origins]
  rfl

theorem eraseIdx_sound {K V : Type} [_root_.Field K] [LinearOrder K] [IsStrictOrderedRing K] {f : Field K V} (hf : f.Sound) (k : ℕ)
    (g : List ℕ → V) : ({ f with
      matrix := ⟨f.shape.eraseIdx k, g⟩, axes := f.axes.eraseIdx k, ats := f.ats.eraseIdx k, tao := f.tao.eraseIdx k } : Field K V).Sound := by
  refine ⟨⟨?_, ?_, ?_⟩, ?_, ?_⟩
  · show (f.axes.eraseIdx k).map Axis.len = f.shape.eraseIdx k
    rw [← List.eraseIdx_map, hf.ok.lengths]
  · show (f.ats.eraseIdx k).length = (f.shape.eraseIdx k).length
    rw [List.length_eraseIdx, List.length_eraseIdx, hf.ok.states]
  · show (f.tao.eraseIdx k).length = (f.shape.eraseIdx k).length
    rw [List.length_eraseIdx, List.length_eraseIdx, hf.ok.origins]
  · intro ax hmem
    exact hf.valid ax (List.mem_of_mem_eraseIdx hmem)
  · intro h0
    exact hf.nonempty (List.mem_of_mem_eraseIdx h0)

/-- Equal fields of doubles with limited exponents. -/
structure AgreeField (b : ℤ) (f g : Field ℚ (Dbl ℚ)) : Prop where
  shape : f.shape = g.shape
  axes : f.axes = g.axes
  ats : f.ats = g.ats
  tao : f.tao = g.tao
  name : f.name = g.name
  unit : f.unit = g.unit
  values : ∀ idx, InBounds f.shape idx → ∃ v, f.matrix.at' idx = .fin v ∧ g.matrix.at' idx = .fin v ∧ double v = .fin v ∧ Moderate (-b) b v

theorem fastLoopF_agree {add : List (Dbl ℚ) → Dbl ℚ} {n d : ℕ} (S : Summation double add n d) (hn : n ≤ 2 ^ 64) (hd : d ≤ 2 ^ 52) {c : ℤ}
    (hc : 0 ≤ c) (L : List ℕ) : ∀ {f g : Field ℚ (Dbl ℚ)} {b : ℤ}, f.Sound → g.Sound → AgreeField b f g → (∀ s ∈ f.shape, s ≤ n) →
    (∀ ax ∈ f.axes, ∀ x ∈ cellSizes ax, Moderate (-c) c x) → 0 ≤ b → b + L.length * (c + 65) ≤ 1000 → L.Nodup →
    (∀ i ∈ L, i < f.shape.length) →
    ∃ r r', fastLoopF double add f (L.map Int.ofNat) = .ok r ∧ fastLoopF digits53 (add53 S) g (L.map Int.ofNat) = .ok r' ∧
      AgreeField (b + L.length * (c + 65)) r r' := by
  generalize hm : L.length = q
  induction q generalizing L with
  | zero =>
    intro f g b hf hg h _ _ _ _ _ _
    have : L = [] := List.length_eq_zero_iff.1 hm
    subst this
    exact ⟨f, g, by simp [fastLoopF], by simp [fastLoopF], by simpa using h⟩
  | succ q ih =>
    intro f g b hf hg h hs hcell hb0 hb hnd hL
    cases L with
    | nil => simp at hm
    | cons a L =>
      rw [List.nodup_cons] at hnd
      have hlen : f.axes.length = f.shape.length := ok_axes_length hf.ok
      have ha := hL a (by simp)
      have hax : f.axes[a]? = some f.axes[a] := List.getElem?_eq_getElem (by omega)
      generalize f.axes[a] = ax at hax
      have hmem := List.mem_of_getElem? hax
      have hv := hf.valid ax hmem
      have hsa : f.shape[a]? = some (cellSizes ax).length := by
        rw [cellSizes_length hv, ← hf.ok.lengths, List.getElem?_map, hax]
        rfl
      have hqc : 0 ≤ (q : ℤ) * (c + 65) := by positivity
      push_cast at hb
      have hb' : b + (c + 65) + q * (c + 65) ≤ 1000 := by linarith
      have s1 := integrateStepF_ok double add hf (pyIdx_nat ha) hax
      have s2 := integrateStepF_ok digits53 (add53 S) hg (a := Int.ofNat a) (k := a) (ax := ax) (by rw [← h.shape]; exact pyIdx_nat ha)
        (by rw [← h.axes]; exact hax)
      have k1 := eraseIdx_sound hf a (fun idx => add ((List.range (boxesF double ax).length).map fun j =>
        Dbl.mul double ((boxesF double ax).getD j (.fin 0)) (f.matrix.at' (idx.insertIdx a j))))
      have k2 := eraseIdx_sound hg a (fun idx => add53 S ((List.range (boxesF digits53 ax).length).map fun j =>
        Dbl.mul digits53 ((boxesF digits53 ax).getD j (.fin 0)) (g.matrix.at' (idx.insertIdx a j))))
      have hag : AgreeField (b + (c + 65)) { f with
          matrix := ⟨f.shape.eraseIdx a, fun idx => add ((List.range (boxesF double ax).length).map fun j =>
            Dbl.mul double ((boxesF double ax).getD j (.fin 0)) (f.matrix.at' (idx.insertIdx a j)))⟩
          axes := f.axes.eraseIdx a, ats := f.ats.eraseIdx a, tao := f.tao.eraseIdx a } { g with
          matrix := ⟨g.shape.eraseIdx a, fun idx => add53 S ((List.range (boxesF digits53 ax).length).map fun j =>
            Dbl.mul digits53 ((boxesF digits53 ax).getD j (.fin 0)) (g.matrix.at' (idx.insertIdx a j)))⟩
          axes := g.axes.eraseIdx a, ats := g.ats.eraseIdx a, tao := g.tao.eraseIdx a } := by
        refine ⟨?_, by simp only [h.axes], by simp only [h.ats], by simp only [h.tao], h.name, h.unit, fun idx hidx => ?_⟩
        · show f.shape.eraseIdx a = g.shape.eraseIdx a
          rw [h.shape]
        · have hterm : ∀ j, ∃ z, j < (cellSizes ax).length →
              Dbl.mul double ((boxesF double ax).getD j (.fin 0)) (f.matrix.at' (idx.insertIdx a j)) = .fin z ∧
              Dbl.mul digits53 ((boxesF digits53 ax).getD j (.fin 0)) (g.matrix.at' (idx.insertIdx a j)) = .fin z ∧
              double z = .fin z ∧ Moderate (-(c + b)) (c + b) z := by
            intro j
            by_cases hj : j < (cellSizes ax).length
            · obtain ⟨x, x1, x2, x3⟩ := boxes_agree (by omega) (hcell ax hmem) hj
              obtain ⟨v, v1, v2, v3, v4⟩ := h.values _ (insertIdx_inBounds hsa hj hidx)
              obtain ⟨z, z1, z2, z3, z4, -⟩ := mul_agree x3 v4 (by omega) (by omega)
              refine ⟨z, fun _ => ⟨by rw [x1, v1, z1], by rw [x2, v2, z2], z4, ?_⟩⟩
              rwa [neg_add]
            · exact ⟨0, fun h => absurd h hj⟩
          choose z hz using hterm
          obtain ⟨y, y1, y2, y3, y4⟩ := add53_agree S hn hd (a := -(c + b)) (b := c + b) (by omega) (by omega)
            (xs := (List.range (cellSizes ax).length).map z) (by
              intro x hx
              obtain ⟨j, hj, rfl⟩ := List.mem_map.1 hx
              exact (hz j (List.mem_range.1 hj)).2.2) (by
              rw [List.length_map, List.length_range]
              exact hs _ (List.mem_of_getElem? hsa))
          refine ⟨y, ?_, ?_, y3, moderate_weaken y4 (by omega) (by omega)⟩
          · rw [← y1, List.map_map, boxesF_length]
            refine congrArg add (List.map_congr_left fun j hj => (hz j (List.mem_range.1 hj)).1)
          · rw [← y2, List.map_map, boxesF_length]
            refine congrArg (add53 S) (List.map_congr_left fun j hj => (hz j (List.mem_range.1 hj)).2.1)
      have hlen' : (f.shape.eraseIdx a).length = f.shape.length - 1 := List.length_eraseIdx_of_lt ha
      obtain ⟨r, r', r1, r2, r3⟩ := ih (L.map (shiftDown a)) (by simpa using hm) k1 k2 hag
        (fun s hs' => hs s (List.mem_of_mem_eraseIdx hs')) (fun ax hax => hcell ax (List.mem_of_mem_eraseIdx hax)) (by omega) hb'
        (shiftDown_nodup hnd.1 hnd.2)
        (by
          show ∀ i ∈ L.map (shiftDown a), i < (f.shape.eraseIdx a).length
          rw [hlen']
          exact shiftDown_lt hnd.1 (fun i hi => hL i (List.mem_cons_of_mem _ hi)) ha)
      have hL' : (L.map Int.ofNat).map (fun i => if Int.ofNat a < i then i - 1 else i) = (L.map (shiftDown a)).map Int.ofNat := by
        rw [List.map_map, List.map_map]
        apply List.map_congr_left
        intro i hi
        simp only [Function.comp, shiftDown]
        have e : ∀ k : ℕ, Int.ofNat k = (k : ℤ) := fun _ => rfl
        simp only [e]
        split_ifs <;> omega
      refine ⟨r, r', ?_, ?_, ?_⟩
      · rw [List.map_cons, fastLoopF, show f.integrateStepF double add (Int.ofNat a) = _ from s1]
        simp only [bind, Except.bind]
        rw [hL']
        exact r1
      · rw [List.map_cons, fastLoopF, s2]
        simp only [bind, Except.bind]
        rw [hL']
        exact r2
      · have : b + ((q + 1 : ℕ) : ℤ) * (c + 65) = b + (c + 65) + q * (c + 65) := by push_cast; ring
        rw [this]
        exact r3

/-- The order in which `_integrate_fast` goes through the dimensions. -/
theorem integrateFastF_order {K : Type} [_root_.Field K] [LinearOrder K] [IsStrictOrderedRing K] [FloorRing K] (f : Field K (Dbl K)) {L : List ℕ}
    (hL : ∀ i ∈ L, i < f.shape.length) : ∃ M : List ℕ, M.Perm L.dedup ∧ ∀ (rnd : K → Dbl K) (add : List (Dbl K) → Dbl K),
      f.integrateFastF rnd add (L.map Int.ofNat) = fastLoopF rnd add f (M.map Int.ofNat) := by
  have hd : (L.map Int.ofNat).dedup = L.dedup.map Int.ofNat :=
    List.dedup_map_of_injective Int.ofNat_injective L
  have hkeys : (L.dedup.map Int.ofNat).mapM (fun i => do
      let a ← pyGet f.shape i
      pure (a, i)) = (.ok (L.dedup.map fun i => (f.shape.getD i 0, (i : ℤ))) : Res _) := by
    apply mapM_of_forall2
    rw [List.forall₂_map_left_iff, List.forall₂_map_right_iff, List.forall₂_same]
    intro i hi
    have hi' := hL i (List.mem_dedup.1 hi)
    have : pyGet f.shape (Int.ofNat i) = .ok f.shape[i] :=
      pyGet_of (pyIdx_nat hi') (List.getElem?_eq_getElem hi')
    rw [this]
    simp only [bind, Except.bind, pure, Except.pure]
    rw [List.getD_eq_getElem _ _ hi']
    rfl
  refine ⟨((L.dedup.map fun i => (f.shape.getD i 0, i)).insertionSort (fun p q => p.1 ≤ q.1)).reverse.map (·.2), ?_, fun rnd add => ?_⟩
  · have h1 := (List.perm_insertionSort (fun p q : ℕ × ℕ => p.1 ≤ q.1)
      (L.dedup.map fun i => (f.shape.getD i 0, i)))
    have h2 := ((List.reverse_perm _).trans h1).map (·.2)
    rw [List.map_map] at h2
    have : List.map ((fun x : ℕ × ℕ => x.2) ∘ fun i => (f.shape.getD i 0, i)) L.dedup = L.dedup := by
      conv_rhs => rw [← List.map_id L.dedup]
      rfl
    rw [this] at h2
    exact h2
  · unfold Field.integrateFastF
    rw [hd]
    have hsort : ((L.dedup.map fun i => (f.shape.getD i 0, (i : ℤ))).insertionSort
        (fun p q => p.1 ≤ q.1)).reverse.map (·.2) =
        (((L.dedup.map fun i => (f.shape.getD i 0, i)).insertionSort (fun p q => p.1 ≤ q.1)).reverse.map (·.2)).map Int.ofNat := by
      have : (L.dedup.map fun i => (f.shape.getD i 0, (i : ℤ))).insertionSort
          (fun p q => p.1 ≤ q.1) = ((L.dedup.map fun i => (f.shape.getD i 0, i)).insertionSort
          (fun p q => p.1 ≤ q.1)).map fun p => (p.1, (p.2 : ℤ)) := by
        have := List.map_insertionSort (fun p q : ℕ × ℕ => p.1 ≤ q.1)
          (fun p q : ℕ × ℤ => p.1 ≤ q.1) (fun p : ℕ × ℕ => (p.1, (p.2 : ℤ)))
          (L.dedup.map fun i => (f.shape.getD i 0, i)) (fun a _ b _ => Iff.rfl)
        rw [this, List.map_map]
        rfl
      rw [this]
      simp only [List.map_reverse, List.map_map]
      rfl
    rw [← hsort]
    simp only [bind, Except.bind] at hkeys ⊢
    rw [hkeys]

theorem mulBoxesF_ok {K : Type} [_root_.Field K] [LinearOrder K] [IsStrictOrderedRing K] [FloorRing K] (rnd : K → Dbl K) {orig : Field K (Dbl K)}
    (ho : orig.Sound) (h3 : orig.shape.length ≤ 3) (v : List ℕ → Dbl K) {k : ℕ} {ax : Axis K} (hax : orig.axes[k]? = some ax) :
    Field.mulBoxesF rnd { orig with matrix := ⟨orig.shape, v⟩ } orig (Int.ofNat k) =
      .ok { orig with matrix := ⟨orig.shape, fun idx => Dbl.mul rnd (v idx) ((boxesF rnd ax).getD (idx.getD k 0) (.fin 0))⟩ } := by
  have hl := ok_axes_length ho.ok
  have hk := (List.getElem?_eq_some_iff.1 hax).1
  have hv := ho.valid ax (List.mem_of_getElem? hax)
  have ha : pyIdx orig.shape.length (Int.ofNat k) = some k := pyIdx_nat (by omega)
  have e1 : pyGet orig.axes (Int.ofNat k) = .ok ax := pyGet_of (by rw [hl]; exact ha) hax
  have e2 : pyIdx orig.dims.toNat (Int.ofNat k) = some k := by rw [dims_sound ho]; exact ha
  have hs : orig.shape[k]? = some (boxesF rnd ax).length := by
    rw [boxesF_length, cellSizes_length hv, ← ho.ok.lengths, List.getElem?_map, hax]
    rfl
  unfold Field.mulBoxesF
  rw [e1]
  simp only [bind, Except.bind]
  rw [e2]
  simp only
  have hs' : ({ orig with matrix := ⟨orig.shape, v⟩ } : Field K (Dbl K)).shape = orig.shape := rfl
  rw [hs', hs]
  simp only [ne_eq, not_true_eq_false, if_false]
  exact mkField_of_eq ho.ok.lengths h3

theorem mulAllBoxesF_agree {orig : Field ℚ (Dbl ℚ)} (ho : orig.Sound) (h3 : orig.shape.length ≤ 3) {c : ℤ} (hc : 0 ≤ c)
    (hcell : ∀ ax ∈ orig.axes, ∀ x ∈ cellSizes ax, Moderate (-c) c x) (L : List ℕ) : ∀ {v v' : List ℕ → Dbl ℚ} {b : ℤ}, 0 ≤ b →
    b + L.length * c ≤ 1000 → (∀ i ∈ L, i < orig.shape.length) →
    (∀ idx, InBounds orig.shape idx → ∃ x, v idx = .fin x ∧ v' idx = .fin x ∧ double x = .fin x ∧ Moderate (-b) b x) →
    ∃ w w', mulAllBoxesF double orig { orig with matrix := ⟨orig.shape, v⟩ } (L.map Int.ofNat) = .ok { orig with matrix := ⟨orig.shape, w⟩ } ∧
      mulAllBoxesF digits53 orig { orig with matrix := ⟨orig.shape, v'⟩ } (L.map Int.ofNat) = .ok { orig with matrix := ⟨orig.shape, w'⟩ } ∧
      ∀ idx, InBounds orig.shape idx → ∃ x, w idx = .fin x ∧ w' idx = .fin x ∧ double x = .fin x ∧
        Moderate (-(b + L.length * c)) (b + L.length * c) x := by
  induction L with
  | nil =>
    intro v v' b _ _ _ h
    exact ⟨v, v', rfl, rfl, by simpa using h⟩
  | cons k L ih =>
    intro v v' b hb0 hb hL h
    have hk := hL k (by simp)
    have hlen : orig.axes.length = orig.shape.length := ok_axes_length ho.ok
    have hax : orig.axes[k]? = some orig.axes[k] := List.getElem?_eq_getElem (by omega)
    generalize orig.axes[k] = ax at hax
    have hmem := List.mem_of_getElem? hax
    have hsk : orig.shape[k]? = some (cellSizes ax).length := by
      rw [cellSizes_length (ho.valid ax hmem), ← ho.ok.lengths, List.getElem?_map, hax]
      rfl
    have hqc : 0 ≤ (L.length : ℤ) * c := by positivity
    rw [List.length_cons] at hb ⊢
    push_cast at hb ⊢
    have hb' : b + c + L.length * c ≤ 1000 := by linarith
    obtain ⟨w, w', w1, w2, w3⟩ := ih (v := fun idx => Dbl.mul double (v idx) ((boxesF double ax).getD (idx.getD k 0) (.fin 0)))
      (v' := fun idx => Dbl.mul digits53 (v' idx) ((boxesF digits53 ax).getD (idx.getD k 0) (.fin 0))) (b := b + c) (by omega) hb'
      (fun i hi => hL i (List.mem_cons_of_mem _ hi)) (by
        intro idx hidx
        obtain ⟨x, x1, x2, x3, x4⟩ := h idx hidx
        have hj : idx.getD k 0 < (cellSizes ax).length := by
          have hkl : k < idx.length := by rw [hidx.1]; exact hk
          rw [List.getD_eq_getElem _ _ hkl]
          exact hidx.2 k _ _ (List.getElem?_eq_getElem hkl) hsk
        obtain ⟨z, z1, z2, z3⟩ := boxes_agree (by omega) (hcell ax hmem) hj
        obtain ⟨y, y1, y2, y3, y4, -⟩ := mul_agree x4 z3 (by omega) (by omega)
        refine ⟨y, by rw [x1, z1, y1], by rw [x2, z2, y2], y4, ?_⟩
        rwa [neg_add])
    refine ⟨w, w', ?_, ?_, ?_⟩
    · rw [List.map_cons, mulAllBoxesF, mulBoxesF_ok double ho h3 v hax]
      exact w1
    · rw [List.map_cons, mulAllBoxesF, mulBoxesF_ok digits53 ho h3 v' hax]
      exact w2
    · rw [show b + ((L.length : ℤ) + 1) * c = b + c + L.length * c by ring]
      exact w3

theorem integrateConstantF_agree {add : List (Dbl ℚ) → Dbl ℚ} {n d : ℕ} (S : Summation double add n d) (hn : n ≤ 2 ^ 64) (hd : d ≤ 2 ^ 52)
    (spl : Splines ℚ) {f : Field ℚ (Dbl ℚ)} (hf : f.Sound) (h3 : f.shape.length ≤ 3) (hsn : f.shape.prod ≤ n) {c : ℤ} (hc : 0 ≤ c)
    (hcell : ∀ ax ∈ f.axes, ∀ x ∈ cellSizes ax, Moderate (-c) c x) {L : List ℕ} {b : ℤ} (hb0 : 0 ≤ b) (hb : b + L.dedup.length * c ≤ 950)
    (hL : ∀ i ∈ L, i < f.shape.length)
    (hv : ∀ idx, InBounds f.shape idx → ∃ x, f.matrix.at' idx = .fin x ∧ double x = .fin x ∧ Moderate (-b) b x) :
    ∃ r r', f.integrateConstantF double add spl (L.map Int.ofNat) = .ok r ∧ f.integrateConstantF digits53 (add53 S) spl (L.map Int.ofNat) = .ok r' ∧
      r.shape = r'.shape ∧ r.axes = r'.axes ∧ r.ats = r'.ats ∧ r.tao = r'.tao ∧ r.name = r'.name ∧ r.unit = r'.unit ∧
      ∀ idx, InBounds r.shape idx → r.matrix.at' idx = r'.matrix.at' idx := by
  have hs : (L.map Int.ofNat).dedup.insertionSort (· ≤ ·) =
      (L.dedup.insertionSort (· ≤ ·)).map Int.ofNat := by
    rw [List.dedup_map_of_injective Int.ofNat_injective L]
    symm
    apply List.map_insertionSort
    intro a _ b _
    simp
  have hperm := List.perm_insertionSort (· ≤ ·) L.dedup
  generalize hM : L.dedup.insertionSort (· ≤ ·) = M at hs hperm
  have hMn : M.Nodup := hperm.nodup_iff.2 (List.nodup_dedup L)
  have hML : ∀ i ∈ M, i < f.shape.length :=
    fun i hi => hL i (List.mem_dedup.1 (hperm.mem_iff.1 hi))
  have hMl : (M.reverse.length : ℤ) = L.dedup.length := by rw [List.length_reverse, hperm.length_eq]
  obtain ⟨w, w', w1, w2, w3⟩ := mulAllBoxesF_agree hf h3 hc hcell M.reverse (v := f.matrix.at') (v' := f.matrix.at') hb0 (by rw [hMl]; omega)
    (fun i hi => hML i (List.mem_reverse.1 hi)) (fun idx hidx => by
      obtain ⟨x, x1, x2⟩ := hv idx hidx
      exact ⟨x, x1, x1, x2⟩)
  rw [hMl] at w3
  have hred : ∀ (add : List (Dbl ℚ) → Dbl ℚ) (g : List ℕ → Dbl ℚ), Field.reduce spl add { f with matrix := ⟨f.shape, g⟩ } (some (M.map Int.ofNat)) false =
      .ok ⟨f.name, f.unit, Arr.reduce add ⟨f.shape, g⟩ (flags f.shape.length M), unflagged (flags f.shape.length M) f.axes,
        unflagged (flags f.shape.length M) f.ats, unflagged (flags f.shape.length M) f.tao⟩ := by
    intro add g
    have hf' : ({ f with matrix := ⟨f.shape, g⟩ } : Field ℚ (Dbl ℚ)).Sound := ⟨hf.ok, hf.valid, hf.nonempty⟩
    exact reduce_sound spl add hf' (l := M.map Int.ofNat) (p := M)
      (by
        rw [List.forall₂_map_left_iff, List.forall₂_same]
        intro i hi
        exact pyIdx_nat (hML i hi)) hMn (Or.inl (by
        intro i hi
        rw [List.mem_map] at hi
        obtain ⟨a, _, rfl⟩ := hi
        exact Int.natCast_nonneg a))
      (by
        refine le_trans ?_ h3
        rw [unflagged_count (flags_length _ _).symm]
        refine le_trans List.count_le_length ?_
        rw [flags_length]
        exact le_refl _)
  refine ⟨⟨f.name, f.unit, Arr.reduce add ⟨f.shape, w⟩ (flags f.shape.length M), unflagged (flags f.shape.length M) f.axes,
      unflagged (flags f.shape.length M) f.ats, unflagged (flags f.shape.length M) f.tao⟩,
    ⟨f.name, f.unit, Arr.reduce (add53 S) ⟨f.shape, w'⟩ (flags f.shape.length M), unflagged (flags f.shape.length M) f.axes,
      unflagged (flags f.shape.length M) f.ats, unflagged (flags f.shape.length M) f.tao⟩,
    ?_, ?_, rfl, rfl, rfl, rfl, rfl, rfl, fun idx hidx => ?_⟩
  · unfold Field.integrateConstantF
    simp only [hs]
    rw [← List.map_reverse, show mulAllBoxesF double f f (M.reverse.map Int.ofNat) = _ from w1]
    exact hred _ _
  · unfold Field.integrateConstantF
    simp only [hs]
    rw [← List.map_reverse, show mulAllBoxesF digits53 f f (M.reverse.map Int.ofNat) = _ from w2]
    exact hred _ _
  · have hin : ∀ j ∈ fibre f.shape (flags f.shape.length M) idx, InBounds f.shape j := fun j hj =>
      fibre_inBounds f.shape _ idx j (flags_length _ _) hidx hj
    have hx : ∀ j, ∃ x, InBounds f.shape j → w j = .fin x ∧ w' j = .fin x ∧ double x = .fin x ∧
        Moderate (-(b + L.dedup.length * c)) (b + L.dedup.length * c) x := by
      intro j
      by_cases hj : InBounds f.shape j
      · obtain ⟨x, hx⟩ := w3 j hj
        exact ⟨x, fun _ => hx⟩
      · exact ⟨0, fun h => absurd h hj⟩
    choose x hx using hx
    obtain ⟨y, y1, y2, -⟩ := add53_agree S hn hd (a := -(b + L.dedup.length * c)) (b := b + L.dedup.length * c) (by omega) (by omega)
      (xs := (fibre f.shape (flags f.shape.length M) idx).map x) (by
        intro z hz
        obtain ⟨j, hj, rfl⟩ := List.mem_map.1 hz
        exact (hx j (hin j hj)).2.2) (by
        rw [List.length_map]
        exact (fibre_length hf.nonempty _ _).trans hsn)
    show add ((fibre f.shape (flags f.shape.length M) idx).map w) = add53 S ((fibre f.shape (flags f.shape.length M) idx).map w')
    rw [show (fibre f.shape (flags f.shape.length M) idx).map w = ((fibre f.shape (flags f.shape.length M) idx).map x).map .fin by
        rw [List.map_map]
        exact List.map_congr_left fun j hj => (hx j (hin j hj)).1,
      show (fibre f.shape (flags f.shape.length M) idx).map w' = ((fibre f.shape (flags f.shape.length M) idx).map x).map .fin by
        rw [List.map_map]
        exact List.map_congr_left fun j hj => (hx j (hin j hj)).2.1, y1, y2]

end Postpic.Props
