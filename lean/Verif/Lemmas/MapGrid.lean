import Mathlib.Tactic.FieldSimp
import Verif.Lemmas.AxisSearch
import Verif.Lemmas.FieldReduce
import Verif.Lemmas.FieldResolution
import Verif.Model.MapGrid

/-!
# Lemmas on fields in other coordinates
-/

set_option autoImplicit false
set_option linter.unusedSectionVars false

namespace Postpic.Fields

open Postpic Postpic.Axes Postpic.Spec

section
variable {K V : Type} [_root_.Field K] [LinearOrder K] [IsStrictOrderedRing K] [AddCommGroup V]
  [Module K V]

/-- Another size of the cells along one dimension is compensated by other values. -/
theorem integral_reweight {a : ℕ} {bs : List (List K)} {sel : List Bool} (hs : sel.length = bs.length)
    {b b' : List K} (hb : bs[a]? = some b) (hl : b'.length = b.length) (ha : sel[a]? = some true)
    {g g' : List ℕ → V}
    (h : ∀ j, InBounds (bs.map List.length) j →
      b'.getD (j.getD a 0) 0 • g' j = b.getD (j.getD a 0) 0 • g j) {idx : List ℕ}
    (hidx : InBounds (unflagged sel (bs.map List.length)) idx) :
    integral (bs.set a b') sel g' idx = integral bs sel g idx := by
  induction a generalizing bs sel g g' idx with
  | zero =>
    match bs, hb with
    | _ :: bs, hb =>
      simp at hb
      subst hb
      match sel, ha with
      | _ :: sel, ha =>
        simp at ha
        subst ha
        simp only [List.set_cons_zero, integral, hl]
        apply Finset.sum_congr rfl
        intro i hi
        rw [← integral_smul, ← integral_smul]
        apply integral_congr (by simpa using hs)
        · intro j hj
          have := h (i :: j) (inBounds_cons.2 ⟨by simpa using hi, hj⟩)
          simpa using this
        · simpa [unflagged] using hidx
  | succ a ih =>
    match bs, hb with
    | c :: bs, hb =>
      match sel, ha with
      | s :: sel, ha =>
        simp only [List.getElem?_cons_succ] at hb ha
        cases s with
        | true =>
          simp only [List.set_cons_succ, integral]
          apply Finset.sum_congr rfl
          intro i hi
          congr 1
          apply ih (by simpa using hs) hb ha
          · intro j hj
            have := h (i :: j) (inBounds_cons.2 ⟨by simpa using hi, hj⟩)
            simpa using this
          · simpa [unflagged] using hidx
        | false =>
          cases idx with
          | nil =>
            have := hidx.1
            simp [unflagged] at this
          | cons i idx =>
            simp only [List.map_cons, unflagged, Bool.false_eq_true, if_false] at hidx
            rw [inBounds_cons] at hidx
            simp only [List.set_cons_succ, integral]
            apply ih (by simpa using hs) hb ha _ hidx.2
            intro j hj
            have := h (i :: j) (inBounds_cons.2 ⟨hidx.1, hj⟩)
            simpa using this

/-- The axis with transformed nodes and grid points. -/
def mappedAxis (ax : Axis K) (T : K → K) : Axis K :=
  ⟨ax.name, ax.unit, ax.gridNode.map T, ax.grid.map T, (T ax.extent.1, T ax.extent.2)⟩

theorem mapped_wf {ax : Axis K} (hv : ValidAxis ax.gridNode ax.grid ax.extent) {T : K → K}
    (hT : (∀ a ∈ ax.gridNode ++ ax.grid, ∀ b ∈ ax.gridNode ++ ax.grid, a < b → T a < T b) ∨
      (∀ a ∈ ax.gridNode ++ ax.grid, ∀ b ∈ ax.gridNode ++ ax.grid, a < b → T b < T a)) :
    WellFormedAxis (ax.gridNode.map T) (ax.grid.map T) := by
  obtain ⟨hl, h⟩ := hv.wf
  refine ⟨by simpa using hl, ?_⟩
  have memN : ∀ {i : ℕ} {a : K}, ax.gridNode[i]? = some a → a ∈ ax.gridNode ++ ax.grid :=
    fun h => List.mem_append_left _ (List.mem_of_getElem? h)
  have memG : ∀ {i : ℕ} {a : K}, ax.grid[i]? = some a → a ∈ ax.gridNode ++ ax.grid :=
    fun h => List.mem_append_right _ (List.mem_of_getElem? h)
  have key : ∀ (P : K → K → Prop) (Q : K → K → Prop),
      (∀ a ∈ ax.gridNode ++ ax.grid, ∀ b ∈ ax.gridNode ++ ax.grid, Q a b → P (T a) (T b)) →
      (∀ (i : ℕ) (a g b : K), ax.gridNode[i]? = some a → ax.grid[i]? = some g →
        ax.gridNode[i + 1]? = some b → Q a g ∧ Q g b) →
      ∀ (i : ℕ) (a g b : K), (ax.gridNode.map T)[i]? = some a → (ax.grid.map T)[i]? = some g →
        (ax.gridNode.map T)[i + 1]? = some b → P a g ∧ P g b := by
    intro P Q hPQ hQ i a g b ha hg hb
    rw [List.getElem?_map, Option.map_eq_some_iff] at ha hg hb
    obtain ⟨a', ha', rfl⟩ := ha
    obtain ⟨g', hg', rfl⟩ := hg
    obtain ⟨b', hb', rfl⟩ := hb
    have := hQ i a' g' b' ha' hg' hb'
    exact ⟨hPQ _ (memN ha') _ (memG hg') this.1, hPQ _ (memG hg') _ (memN hb') this.2⟩
  rcases hT with hT | hT <;> rcases h with h | h
  · exact Or.inl (key _ (· < ·) hT h)
  · exact Or.inr (key _ (· > ·) (fun a ha b hb hab => hT b hb a ha hab) h)
  · exact Or.inr (key _ (· < ·) hT h)
  · exact Or.inl (key _ (· > ·) (fun a ha b hb hab => hT b hb a ha hab) h)

theorem mapped_valid {ax : Axis K} (hv : ValidAxis ax.gridNode ax.grid ax.extent) {T : K → K}
    (h : WellFormedAxis (ax.gridNode.map T) (ax.grid.map T)) :
    ValidAxis (mappedAxis ax T).gridNode (mappedAxis ax T).grid (mappedAxis ax T).extent := by
  refine ⟨h, ?_, ?_⟩
  · simp [mappedAxis, hv.first]
  · simp [mappedAxis, hv.last]

theorem mkAxis_mapped (spl : Splines K) {ax : Axis K}
    (hv : ValidAxis ax.gridNode ax.grid ax.extent) {T : K → K}
    (h : WellFormedAxis (ax.gridNode.map T) (ax.grid.map T)) :
    mkAxis spl { name := ax.name, unit := ax.unit, grid := some (ax.grid.map T),
                 gridNode := some (ax.gridNode.map T) } = .ok (mappedAxis ax T) := by
  obtain ⟨e, h1, h2, h3⟩ := mkAxis_wf spl ax.name ax.unit h
  rw [h1]
  have v := mapped_valid hv h
  have e1 : e.1 = T ax.extent.1 := by
    have := h2.symm.trans v.first
    simpa [mappedAxis] using this
  have e2 : e.2 = T ax.extent.2 := by
    have := h3.symm.trans v.last
    simpa [mappedAxis] using this
  rw [mappedAxis, ← e1, ← e2]

theorem mapped_sizes (ax : Axis K) (T : K → K) :
    cellSizes (mappedAxis ax T) = List.zipWith (fun a b => T b - T a) ax.gridNode ax.gridNode.tail := by
  simp only [cellSizes, mappedAxis, ← List.map_tail, List.zipWith_map]

theorem mapAxisGrid_sound (spl : Splines K) (eps : K) {f : Field K V} (hf : f.Sound) {axis : ℕ}
    {ax : Axis K} (hax : f.axes[axis]? = some ax) {T : K → K}
    (hT : WellFormedAxis (ax.gridNode.map T) (ax.grid.map T)) (pres : Bool)
    (jf : Option (K → Option K)) {j : K → K}
    (hj : pres = true → ∀ x ∈ ax.grid, (jf.getD (approx1dJacobianDet eps T)) x = some (j x) ∧ j x ≠ 0) :
    ∃ r, f.mapAxisGrid spl eps axis T pres jf = .ok r ∧ r.Sound ∧ r.shape = f.shape ∧
      r.name = f.name ∧ r.unit = f.unit ∧ r.ats = f.ats ∧ r.tao = f.tao ∧
      r.axes = f.axes.set axis (mappedAxis ax T) ∧
      ∀ idx, InBounds f.shape idx → r.matrix.at' idx =
        if pres then (j (ax.grid.getD (idx.getD axis 0) 0))⁻¹ • f.matrix.at' idx
        else f.matrix.at' idx := by
  have hl := ok_axes_length hf.ok
  obtain ⟨hlt, hget⟩ := List.getElem?_eq_some_iff.1 hax
  have hv := hf.valid ax (List.mem_of_getElem? hax)
  have hp : pyIdx f.axes.length (axis : ℤ) = some axis := pyIdx_nat hlt
  have g1 : pyGet f.axes (axis : ℤ) = .ok ax := pyGet_of hp hax
  have g2 := mkAxis_mapped spl hv hT
  have g3 : pySet f.axes (axis : ℤ) (mappedAxis ax T) = .ok (f.axes.set axis (mappedAxis ax T)) :=
    pySet_of _ hp
  have hd := dims_sound hf
  have hlen : f.shape[axis]? = some ax.len := by
    rw [← hf.ok.lengths, List.getElem?_map, hax]; rfl
  have hsound : ∀ m : Arr V, m.shape = f.shape →
      ({ f with matrix := m, axes := f.axes.set axis (mappedAxis ax T) } : Field K V).Sound := by
    intro m hm
    refine ⟨⟨?_, ?_, ?_⟩, ?_, ?_⟩
    · show (f.axes.set axis (mappedAxis ax T)).map Axis.len = m.shape
      rw [hm, ← hf.ok.lengths, List.map_set]
      have : (mappedAxis ax T).len = (f.axes.map Axis.len)[axis]'(by simpa using hlt) := by
        simp [mappedAxis, Axis.len, hget]
      rw [this, List.set_getElem_self]
    · show f.ats.length = m.shape.length
      rw [hm]; exact hf.ok.states
    · show f.tao.length = m.shape.length
      rw [hm]; exact hf.ok.origins
    · intro x hx
      rcases List.mem_or_eq_of_mem_set hx with h | h
      · exact hf.valid x h
      · rw [h]; exact mapped_valid hv hT
    · show 0 ∉ m.shape
      rw [hm]; exact hf.nonempty
  unfold Field.mapAxisGrid
  cases pres with
  | false =>
    simp only [Bool.false_eq_true, if_false, g1, g2, g3, bind, Except.bind, pure, Except.pure]
    exact ⟨_, rfl, hsound _ rfl, rfl, rfl, rfl, rfl, rfl, rfl, fun _ _ => rfl⟩
  | true =>
    have hj := hj rfl
    have c1 : ¬ f.dims ≤ (axis : ℤ) := by rw [hd]; omega
    have hm : ax.grid.mapM (fun x => divisor ((jf.getD (approx1dJacobianDet eps T)) x)) =
        .ok (ax.grid.map j) := by
      apply mapM_of_forall2
      rw [List.forall₂_map_right_iff, List.forall₂_same]
      intro x hx
      obtain ⟨h1, h2⟩ := hj x hx
      simp only [h1, divisor, if_neg h2]
    simp only [if_true, if_neg c1, g1, hlen, ne_eq, not_true_eq_false, if_false, hm, g2, g3, bind,
      Except.bind, pure, Except.pure]
    refine ⟨_, rfl, hsound _ rfl, rfl, rfl, rfl, rfl, rfl, rfl, ?_⟩
    intro idx hidx
    have hlt' : axis < idx.length := by rw [hidx.1]; omega
    have hi : idx.getD axis 0 < ax.grid.length := by
      refine hidx.2 axis _ _ ?_ hlen
      rw [List.getD_eq_getElem?_getD, List.getElem?_eq_getElem hlt']
      rfl
    show ((ax.grid.map j).getD (idx.getD axis 0) 0)⁻¹ • f.matrix.at' idx = _
    rw [List.getD_eq_getElem _ _ (by simpa using hi), List.getElem_map, List.getD_eq_getElem _ _ hi]

theorem mapAxisGrid_integral {f r : Field K V} (hf : f.Sound) (hr : r.Sound) {axis : ℕ} {ax : Axis K}
    (hax : f.axes[axis]? = some ax) {T : K → K} {j : K → K} (hj : ∀ x ∈ ax.grid, j x ≠ 0)
    (hs : r.shape = f.shape) (hra : r.axes = f.axes.set axis (mappedAxis ax T))
    (hval : ∀ idx, InBounds f.shape idx → r.matrix.at' idx =
      (j (ax.grid.getD (idx.getD axis 0) 0))⁻¹ • f.matrix.at' idx)
    (hslope : ∀ (i : ℕ) (a g b : K), ax.gridNode[i]? = some a → ax.grid[i]? = some g →
      ax.gridNode[i + 1]? = some b → T b - T a = j g * (b - a))
    {dims : List ℕ} (hd : ∀ i ∈ dims, i < f.shape.length) (hmem : axis ∈ dims) :
    ∃ s s', f.integrateFast (dims.map Int.ofNat) = .ok s ∧
      r.integrateFast (dims.map Int.ofNat) = .ok s' ∧ s'.matrix.Eqv s.matrix := by
  obtain ⟨s, s1, _, _, _, s5, _, _, _, s9⟩ := integrateFast_sound hf hd
  obtain ⟨s', t1, _, _, _, t5, _, _, _, t9⟩ := integrateFast_sound hr (L := dims)
    (by rw [hs]; exact hd)
  have hv := hf.valid ax (List.mem_of_getElem? hax)
  have hl := ok_axes_length hf.ok
  rw [hs] at t5 t9
  refine ⟨s, s', s1, t1, t5.trans s5.symm, ?_⟩
  intro idx hidx
  have hlens : (f.axes.map cellSizes).map List.length = f.shape := by
    rw [← hf.ok.lengths, List.map_map]
    apply List.map_congr_left
    intro x hx
    exact cellSizes_length (hf.valid x hx)
  have hvm : (cellSizes (mappedAxis ax T)).length = (cellSizes ax).length := by
    rw [mapped_sizes]; simp [cellSizes]
  have hsh : s'.matrix.shape = unflagged (flags f.shape.length dims) f.shape := t5
  rw [hsh] at hidx
  rw [t9 idx (by rw [hidx.1, t5]), s9 idx (by rw [hidx.1, s5]), hra, List.map_set]
  apply integral_reweight (b := cellSizes ax) (by rw [flags_length, List.length_map, hl])
    (by rw [List.getElem?_map, hax]; rfl) hvm
  · rw [flags_get _ _ _ (hd axis hmem)]
    simp [hmem]
  · intro jx hjx
    rw [hlens] at hjx
    rw [hval jx hjx, smul_smul]
    congr 1
    have hlen : f.shape[axis]? = some ax.len := by
      rw [← hf.ok.lengths, List.getElem?_map, hax]; rfl
    have hlt' : axis < jx.length := by rw [hjx.1]; exact hd axis hmem
    have hi : jx.getD axis 0 < ax.grid.length := by
      refine hjx.2 axis _ _ ?_ hlen
      rw [List.getD_eq_getElem?_getD, List.getElem?_eq_getElem hlt']
      rfl
    set i := jx.getD axis 0
    have hn := hv.wf.1
    have hcs := cellSizes_length hv
    have hi1 : i < (cellSizes ax).length := by rw [hcs]; exact hi
    have hi2 : i < (cellSizes (mappedAxis ax T)).length := by rw [hvm]; exact hi1
    rw [List.getD_eq_getElem _ _ hi2,
      List.getD_eq_getElem _ _ hi1, List.getD_eq_getElem _ _ hi]
    simp only [cellSizes, mappedAxis, List.getElem_zipWith, List.getElem_tail, List.getElem_map]
    rw [hslope i _ (ax.grid[i]) _ (List.getElem?_eq_getElem (by omega)) (List.getElem?_eq_getElem hi)
      (List.getElem?_eq_getElem (by omega))]
    have := hj _ (List.getElem_mem hi)
    field_simp
  · rw [hlens]; exact hidx

theorem approx_affine {eps a b x : K} (he : eps ≠ 0) (hx : x ≠ -1) :
    approx1dJacobianDet eps (fun x => a * x + b) x = some |a| := by
  have hdx : eps + eps * x ≠ 0 := by
    have : eps + eps * x = eps * (x + 1) := by ring
    rw [this]
    refine mul_ne_zero he ?_
    intro h
    apply hx
    linarith
  unfold approx1dJacobianDet
  simp only [if_neg hdx]
  congr 2
  rw [div_eq_iff (mul_ne_zero two_ne_zero hdx)]
  ring

end

section
variable {K : Type} [_root_.Field K] [LinearOrder K] [IsStrictOrderedRing K]

/-- Nodes and grid points in turn. -/
def weave : List K → List K → List K
  | a :: ns, g :: gs => a :: g :: weave ns gs
  | ns, [] => ns
  | [], _ => []

theorem weave_eq {r : K → K → Prop} {ns gs : List K} (h : Interleave r ns gs) :
    (List.zipWith (fun a b => [a, b]) ns gs).flatten ++ ns.getLast?.toList = weave ns gs := by
  induction gs generalizing ns with
  | nil =>
    match ns, h with
    | [_], _ => rfl
  | cons g gs ih =>
    match ns, h with
    | a :: b :: ns, h =>
      have := ih h.2.2
      simp only [List.zipWith_cons_cons, List.flatten_cons, weave, List.getLast?_cons_cons,
        List.cons_append, List.nil_append, this]

theorem weave_node {r : K → K → Prop} {ns gs : List K} (h : Interleave r ns gs) (i : ℕ) :
    (weave ns gs)[2 * i]? = ns[i]? := by
  induction gs generalizing ns i with
  | nil =>
    match ns, h with
    | [a], _ =>
      cases i with
      | zero => rfl
      | succ i => simp [weave]
  | cons g gs ih =>
    match ns, h with
    | a :: b :: ns, h =>
      cases i with
      | zero => rfl
      | succ i =>
        have : 2 * (i + 1) = 2 * i + 1 + 1 := by ring
        rw [this]
        simp only [weave, List.getElem?_cons_succ]
        exact ih h.2.2 i

theorem weave_grid {r : K → K → Prop} {ns gs : List K} (h : Interleave r ns gs) (i : ℕ) :
    (weave ns gs)[2 * i + 1]? = gs[i]? := by
  induction gs generalizing ns i with
  | nil =>
    match ns, h with
    | [a], _ => simp [weave]
  | cons g gs ih =>
    match ns, h with
    | a :: b :: ns, h =>
      cases i with
      | zero => rfl
      | succ i =>
        have : 2 * (i + 1) + 1 = 2 * i + 1 + 1 + 1 := by ring
        rw [this]
        simp only [weave, List.getElem?_cons_succ]
        exact ih h.2.2 i

theorem weave_length {r : K → K → Prop} {ns gs : List K} (h : Interleave r ns gs) :
    (weave ns gs).length = 2 * gs.length + 1 := by
  induction gs generalizing ns with
  | nil =>
    match ns, h with
    | [a], _ => rfl
  | cons g gs ih =>
    match ns, h with
    | a :: b :: ns, h =>
      simp only [weave, List.length_cons, ih h.2.2]
      ring

theorem weave_mono {r : K → K → Prop} {ns gs : List K} (h : Interleave r ns gs) :
    Mono r (weave ns gs) := by
  induction gs generalizing ns with
  | nil =>
    match ns, h with
    | [a], _ => trivial
  | cons g gs ih =>
    match ns, h with
    | a :: b :: ns, h =>
      have := ih h.2.2
      cases gs with
      | nil =>
        match ns, h with
        | [], h => exact ⟨h.1, h.2.1, trivial⟩
      | cons g' gs => exact ⟨h.1, h.2.1, this⟩

theorem searchLeft_of {l : List K} (hl : l.Pairwise (· < ·)) {m : ℕ} {x y v : K} (hx : l[m]? = some x)
    (hy : l[m + 1]? = some y) (h1 : x ≤ v) (h2 : v ≤ y) :
    searchLeft l v = if v = x then m else m + 1 := by
  have key : ∀ k ≤ l.length, (∀ a ∈ l.take k, a < v) → (∀ a, l[k]? = some a → ¬ a < v) →
      searchLeft l v = k := by
    intro k hk ha hb
    unfold searchLeft
    have e : l = l.take k ++ l.drop k := (List.take_append_drop k l).symm
    have e1 : (l.take k).takeWhile (fun a => decide (a < v)) = l.take k := by
      rw [List.takeWhile_eq_self_iff]
      intro a h
      simpa using ha a h
    have e2 : (l.drop k).takeWhile (fun a => decide (a < v)) = [] := by
      cases hd : l.drop k with
      | nil => rfl
      | cons a t =>
        have : l[k]? = some a := by
          have := congrArg List.head? hd
          simpa using this
        simp [hb a this]
    rw [e, List.takeWhile_append_of_pos, e2]
    · simp [hk]
    · intro a h
      simpa using ha a h
  obtain ⟨hm, hmx⟩ := List.getElem?_eq_some_iff.1 hx
  obtain ⟨hm', hmy⟩ := List.getElem?_eq_some_iff.1 hy
  have lt : ∀ k, ∀ a ∈ l.take k, ∃ i, i < k ∧ l[i]? = some a := by
    intro k a ha
    obtain ⟨i, hi, rfl⟩ := List.getElem_of_mem ha
    rw [List.length_take] at hi
    refine ⟨i, by omega, ?_⟩
    rw [List.getElem_take, List.getElem?_eq_getElem]
  split_ifs with hv
  · apply key m hm.le
    · intro a ha
      obtain ⟨i, hi, hia⟩ := lt m a ha
      rw [hv]
      exact pairwise_get hl hi hia hx
    · intro a ha
      rw [hx] at ha
      cases ha
      rw [hv]
      exact lt_irrefl _
  · apply key (m + 1) hm'.le
    · intro a ha
      obtain ⟨i, hi, hia⟩ := lt (m + 1) a ha
      have hxv := lt_of_le_of_ne h1 (Ne.symm hv)
      rcases Nat.lt_succ_iff_lt_or_eq.1 hi with h | h
      · exact lt_trans (pairwise_get hl h hia hx) hxv
      · rw [h, hx] at hia
        cases hia
        exact hxv
    · intro a ha
      rw [hy] at ha
      cases ha
      exact not_lt.2 h2

theorem interp1d_segment {pts : List (K × K)} (hp : (pts.map (·.1)).Pairwise (· < ·)) {m : ℕ}
    {p q : K × K} (hm : pts[m]? = some p) (hq : pts[m + 1]? = some q) {v : K} (h1 : p.1 ≤ v)
    (h2 : v ≤ q.1) : interp1d pts v = .ok (p.2 + (q.2 - p.2) / (q.1 - p.1) * (v - p.1)) := by
  have gx : (pts.map (·.1))[m]? = some p.1 := by rw [List.getElem?_map, hm]; rfl
  have gy : (pts.map (·.1))[m + 1]? = some q.1 := by rw [List.getElem?_map, hq]; rfl
  have hs := searchLeft_of hp gx gy h1 h2
  obtain ⟨hlm, _⟩ := List.getElem?_eq_some_iff.1 hm
  obtain ⟨hlq, _⟩ := List.getElem?_eq_some_iff.1 hq
  have hpq : p.1 < q.1 := pairwise_get hp (Nat.lt_succ_self m) gx gy
  have hne : pts ≠ [] := by rintro rfl; simp at hm
  have hh : pts.head? = some (pts.head hne) := List.head?_eq_some_head hne
  have hl : pts.getLast? = some (pts.getLast hne) := List.getLast?_eq_some_getLast hne
  have b1 : ¬ v < (pts.head hne).1 := by
    have : (pts.map (·.1))[0]? = some (pts.head hne).1 := by
      rw [List.getElem?_map, ← List.head?_eq_getElem?, hh]; rfl
    cases m with
    | zero =>
      rw [gx] at this
      have := Option.some.inj this
      rw [← this]
      exact not_lt.2 h1
    | succ m =>
      have := pairwise_get hp (Nat.succ_pos m) this gx
      exact not_lt.2 (this.le.trans h1)
  have b2 : ¬ (pts.getLast hne).1 < v := by
    have hlast : (pts.map (·.1))[pts.length - 1]? = some (pts.getLast hne).1 := by
      rw [List.getElem?_map, ← List.getLast?_eq_getElem?, hl]; rfl
    rcases Nat.lt_or_ge (m + 1) (pts.length - 1) with h | h
    · have := pairwise_get hp h gy hlast
      exact not_lt.2 (h2.trans this.le)
    · have e : pts.length - 1 = m + 1 := by omega
      rw [e, gy] at hlast
      rw [← Option.some.inj hlast]
      exact not_lt.2 h2
  unfold interp1d
  simp only [hh, hl, b1, b2, or_self, if_false, hs]
  by_cases hv : v = p.1
  · rw [if_pos hv]
    cases m with
    | zero =>
      have e : min (max 0 1) (pts.length - 1) = 1 := by omega
      rw [e]
      simp only [Nat.sub_self, hm, hq]
      congr 1
      rw [add_comm]
    | succ m =>
      have e : min (max (m + 1) 1) (pts.length - 1) = m + 1 := by omega
      rw [e]
      obtain ⟨o, ho⟩ : ∃ o, pts[m]? = some o := ⟨_, List.getElem?_eq_getElem (by omega)⟩
      have gz : (pts.map (·.1))[m]? = some o.1 := by rw [List.getElem?_map, ho]; rfl
      have hop : o.1 < p.1 := pairwise_get hp (Nat.lt_succ_self m) gz gx
      have : p.1 - o.1 ≠ 0 := by
        have := sub_pos.2 hop
        exact this.ne'
      simp only [Nat.add_sub_cancel, ho, hm]
      congr 1
      rw [hv]
      field_simp
      ring
  · rw [if_neg hv]
    have e : min (max (m + 1) 1) (pts.length - 1) = m + 1 := by omega
    rw [e]
    simp only [Nat.add_sub_cancel, hm, hq]
    congr 1
    rw [add_comm]

theorem gridAndNodes_eq {r : K → K → Prop} {ax : Axis K} (h : Interleave r ax.gridNode ax.grid) :
    ax.gridAndNodes = .ok ((weave ax.gridNode ax.grid).zip
      (linspace (-1 / 2) ((ax.len : K) - 1 / 2) (2 * ax.len + 1))) := by
  unfold Axis.gridAndNodes
  rw [if_neg (not_not.2 (interleave_length h))]
  simp only [weave_eq h, weave_length h]
  rfl

theorem points_get {r : K → K → Prop} {ax : Axis K} (h : Interleave r ax.gridNode ax.grid) {m : ℕ} {x : K}
    (hx : (weave ax.gridNode ax.grid)[m]? = some x) :
    ((weave ax.gridNode ax.grid).zip
      (linspace (-1 / 2) ((ax.len : K) - 1 / 2) (2 * ax.len + 1)))[m]? =
      some (x, ((m : K) - 1) / 2) := by
  obtain ⟨hm, _⟩ := List.getElem?_eq_some_iff.1 hx
  rw [weave_length h] at hm
  have hm' : m < 2 * ax.len + 1 := hm
  rw [List.getElem?_zip_eq_some]
  refine ⟨hx, ?_⟩
  rw [linspace_get _ _ _ _ hm']
  congr 1
  simp only [Nat.add_sub_cancel]
  by_cases h0 : ax.len = 0
  · have : m = 0 := by omega
    subst this
    simp
  · have : (ax.len : K) ≠ 0 := by exact_mod_cast h0
    push_cast
    field_simp
    ring

theorem points_fst {r : K → K → Prop} {ax : Axis K} (h : Interleave r ax.gridNode ax.grid) :
    ((weave ax.gridNode ax.grid).zip
      (linspace (-1 / 2) ((ax.len : K) - 1 / 2) (2 * ax.len + 1))).map (·.1) =
      weave ax.gridNode ax.grid := by
  apply List.map_fst_zip
  rw [weave_length h, linspace_length]
  exact le_refl _

theorem weave_ends {r : K → K → Prop} {ax : Axis K} (hv : ValidAxis ax.gridNode ax.grid ax.extent)
    (h : Interleave r ax.gridNode ax.grid) :
    (weave ax.gridNode ax.grid)[0]? = some ax.extent.1 ∧
      (weave ax.gridNode ax.grid)[2 * ax.grid.length]? = some ax.extent.2 := by
  constructor
  · have := weave_node h 0
    rw [Nat.mul_zero] at this
    rw [this, ← List.head?_eq_getElem?, hv.first]
  · rw [weave_node h, ← hv.last, List.getLast?_eq_getElem?, interleave_length h]
    rfl

theorem pairwise_le {r : K → K → Prop} {l : List K} (h : l.Pairwise r) {i j : ℕ} {a b : K} (hij : i ≤ j)
    (ha : l[i]? = some a) (hb : l[j]? = some b) : r a b ∨ a = b := by
  rcases Nat.lt_or_eq_of_le hij with h' | h'
  · exact Or.inl (pairwise_get h h' ha hb)
  · subst h'
    rw [ha] at hb
    exact Or.inr (Option.some.inj hb)

theorem nonlinear_inc {ax : Axis K} (hv : ValidAxis ax.gridNode ax.grid ax.extent)
    (h : Interleave (· < ·) ax.gridNode ax.grid) {m : ℕ} {x y v : K}
    (hx : (weave ax.gridNode ax.grid)[m]? = some x)
    (hy : (weave ax.gridNode ax.grid)[m + 1]? = some y) (h1 : x ≤ v) (h2 : v ≤ y) :
    ax.valueToIndexNonlinear v = .ok (((m : K) - 1) / 2 + 1 / 2 * ((v - x) / (y - x))) := by
  have hp : (weave ax.gridNode ax.grid).Pairwise (· < ·) := pairwise_of_mono lt_tr (weave_mono h)
  obtain ⟨e1, e2⟩ := weave_ends hv h
  have hl : m + 1 < 2 * ax.grid.length + 1 := by
    obtain ⟨hm, _⟩ := List.getElem?_eq_some_iff.1 hy
    rwa [weave_length h] at hm
  have b1 : ax.extent.1 ≤ v := by
    rcases pairwise_le hp (Nat.zero_le m) e1 hx with h | h
    · exact le_trans (le_of_lt h) h1
    · exact h ▸ h1
  have b2 : v ≤ ax.extent.2 := by
    rcases pairwise_le hp (show m + 1 ≤ 2 * ax.grid.length by omega) hy e2 with h | h
    · exact le_trans h2 (le_of_lt h)
    · exact h ▸ h2
  have hr : ax.isReversed = false := by
    unfold Axis.isReversed
    simpa using b1.trans b2
  unfold Axis.valueToIndexNonlinear
  simp only [gridAndNodes_eq h, hr, bind, Except.bind, Bool.false_eq_true, if_false]
  rw [min_eq_left (b1.trans b2), max_eq_right (b1.trans b2), max_eq_left b1, min_eq_left b2,
    interp1d_segment (by rw [points_fst h]; exact hp) (points_get h hx) (points_get h hy) h1 h2]
  congr 1
  push_cast
  have : y - x ≠ 0 := (sub_pos.2 (pairwise_get hp (Nat.lt_succ_self m) hx hy)).ne'
  field_simp
  ring

theorem nonlinear_dec {ax : Axis K} (hv : ValidAxis ax.gridNode ax.grid ax.extent)
    (h : Interleave (· > ·) ax.gridNode ax.grid) {m : ℕ} {x y v : K}
    (hx : (weave ax.gridNode ax.grid)[m]? = some x)
    (hy : (weave ax.gridNode ax.grid)[m + 1]? = some y) (h1 : v ≤ x) (h2 : y ≤ v) :
    ax.valueToIndexNonlinear v = .ok (((m : K) - 1) / 2 + 1 / 2 * ((v - x) / (y - x))) := by
  have hp : (weave ax.gridNode ax.grid).Pairwise (· > ·) := pairwise_of_mono gt_tr (weave_mono h)
  obtain ⟨e1, e2⟩ := weave_ends hv h
  have hl : m + 1 < 2 * ax.grid.length + 1 := by
    obtain ⟨hm, _⟩ := List.getElem?_eq_some_iff.1 hy
    rwa [weave_length h] at hm
  have b1 : v ≤ ax.extent.1 := by
    rcases pairwise_le hp (Nat.zero_le m) e1 hx with h | h
    · exact le_trans h1 (le_of_lt h)
    · exact h ▸ h1
  have b2 : ax.extent.2 ≤ v := by
    rcases pairwise_le hp (show m + 1 ≤ 2 * ax.grid.length by omega) hy e2 with h | h
    · exact le_trans (le_of_lt h) h2
    · exact h ▸ h2
  have hxy : y < x := pairwise_get hp (Nat.lt_succ_self m) hx hy
  have hr : ax.isReversed = true := by
    unfold Axis.isReversed
    have c1 : ax.extent.2 ≤ y := by
      rcases pairwise_le hp (show m + 1 ≤ 2 * ax.grid.length by omega) hy e2 with h | h
      · exact le_of_lt h
      · exact h.symm.le
    have c2 : x ≤ ax.extent.1 := by
      rcases pairwise_le hp (Nat.zero_le m) e1 hx with h | h
      · exact le_of_lt h
      · exact h.symm.le
    simpa using lt_of_le_of_lt c1 (lt_of_lt_of_le hxy c2)
  set pts := (weave ax.gridNode ax.grid).zip
      (linspace (-1 / 2) ((ax.len : K) - 1 / 2) (2 * ax.len + 1)) with hpts
  have hlen : pts.length = 2 * ax.grid.length + 1 := by
    rw [hpts, List.length_zip, weave_length h, linspace_length]
    simp [Axis.len]
  have gx : pts.reverse[2 * ax.grid.length - (m + 1) + 1]? = some (x, ((m : K) - 1) / 2) := by
    rw [List.getElem?_reverse (by omega), hlen]
    have : 2 * ax.grid.length + 1 - 1 - (2 * ax.grid.length - (m + 1) + 1) = m := by omega
    rw [this]
    exact points_get h hx
  have gy : pts.reverse[2 * ax.grid.length - (m + 1)]? = some (y, (((m + 1 : ℕ) : K) - 1) / 2) := by
    rw [List.getElem?_reverse (by omega), hlen]
    have : 2 * ax.grid.length + 1 - 1 - (2 * ax.grid.length - (m + 1)) = m + 1 := by omega
    rw [this]
    exact points_get h hy
  unfold Axis.valueToIndexNonlinear
  simp only [gridAndNodes_eq h, hr, bind, Except.bind, if_true]
  rw [min_eq_right (b2.trans b1), max_eq_left (b2.trans b1), max_eq_left b2, min_eq_left b1,
    interp1d_segment _ gy gx h2 h1]
  · congr 1
    push_cast
    have c1 : y - x ≠ 0 := (sub_neg.2 hxy).ne
    have c2 : x - y ≠ 0 := (sub_pos.2 hxy).ne'
    have : x - y = -(y - x) := by ring
    rw [this]
    field_simp
    ring
  · rw [List.map_reverse, points_fst h, List.pairwise_reverse]
    exact hp

end

end Postpic.Fields
