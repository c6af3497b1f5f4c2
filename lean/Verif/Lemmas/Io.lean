import Verif.Spec.Io
import Verif.Spec.FieldResolution
import Verif.Lemmas.FieldMoves
import Verif.Lemmas.FieldResolution
import Verif.Lemmas.Simulation

/-!
# Lemmas about importing and exporting
-/

set_option autoImplicit false
set_option linter.unusedSectionVars false

namespace Postpic.Io

open Postpic Postpic.Axes Postpic.Fields Postpic.Spec

/-! ### Names -/

theorem endsWith_iff (s t : String) : endsWith s t = true ↔ t.toList <:+ s.toList := by
  unfold endsWith
  exact List.isSuffixOf_iff_suffix

theorem endsWith_append (s t : String) : endsWith (s ++ t) t = true := by
  rw [endsWith_iff, String.toList_append]
  exact List.suffix_append _ _

theorem endsWith_trans {s t u : String} (h1 : endsWith s t = true) (h2 : endsWith t u = true) :
    endsWith s u = true := by
  rw [endsWith_iff] at *
  exact h2.trans h1

theorem endsWith_lower {s t : String} (h : endsWith s t = true) :
    endsWith (lower s) (lower t) = true := by
  rw [endsWith_iff] at *
  unfold lower
  rw [String.toList_map, String.toList_map]
  obtain ⟨l, hl⟩ := h
  rw [← hl, List.map_append]
  exact List.suffix_append _ _

theorem endsWith_npz {s : String} (h : endsWith s ".npz" = true) : endsWith (lower s) "npz" = true :=
  endsWith_trans (endsWith_lower h) (by decide +kernel)

theorem suffix_unique {s a b : String} (ha : endsWith s a = true) (hb : endsWith s b = true)
    (hl : a.toList.length = b.toList.length) : a = b := by
  rw [endsWith_iff] at ha hb
  rw [← String.toList_inj]
  exact (List.suffix_of_suffix_length_le ha hb hl.le).eq_of_length hl

/-! ### npz -/

section
variable {K V : Type} [_root_.Field K] [LinearOrder K] [IsStrictOrderedRing K]

theorem assignRow_same (m : ℕ) (l : List K) :
    assignRow m l.length l = .ok (l ++ List.replicate (m - l.length) 0) := by
  unfold assignRow
  rw [if_pos rfl]

theorem mkAxis_again (spl : Splines K) {ax : Axis K} (name unit : String)
    (hv : ValidAxis ax.gridNode ax.grid ax.extent) :
    mkAxis spl { name := name, unit := unit, gridNode := some ax.gridNode, grid := some ax.grid } =
      .ok { ax with name := name, unit := unit } := by
  obtain ⟨e, h1, h2, h3⟩ := mkAxis_wf spl name unit hv.wf
  rw [h1]
  have e1 := hv.first
  have e2 := hv.last
  rw [h2, Option.some.injEq] at e1
  rw [h3, Option.some.injEq] at e2
  have : e = ax.extent := Prod.ext e1 e2
  rw [this]

theorem roundtrip (spl : Splines K) (f : LField K V) (hf : f.field.Sound) (hne : f.field.shape ≠ [])
    (h3 : f.field.shape.length ≤ 3) :
    ∃ z, exportNpz f = .ok z ∧ importNpz spl z = .ok
      ⟨{ f.field with
          name := npStr f.field.name
          unit := npStr f.field.unit
          axes := f.field.axes.map fun ax =>
            { ax with name := npStr1 ax.name, unit := npStr1 ax.unit } },
        some (npStr f.shownLabel), npStr f.info⟩ := by
  obtain ⟨⟨fname, funit, m, axes, ats, tao⟩, label, info⟩ := f
  have hlen : axes.map Axis.len = m.shape := hf.ok.lengths
  have hne : m.shape ≠ [] := hne
  have h3 : m.shape.length ≤ 3 := h3
  have hval : ∀ ax ∈ axes, ValidAxis ax.gridNode ax.grid ax.extent := hf.valid
  have haxl : axes.length = m.shape.length := by rw [← hlen, List.length_map]
  set M := (axes.map fun ax => ax.gridNode.length).foldl max 0 with hM
  have hgl : ∀ ax ∈ axes, ax.gridNode.length - 1 = ax.grid.length := by
    intro ax hax
    have := (hval ax hax).wf.1
    omega
  have e1 : axes.mapM (fun ax => assignRow M ax.gridNode.length ax.gridNode) =
      .ok (axes.map fun ax => ax.gridNode ++ List.replicate (M - ax.gridNode.length) 0) := by
    apply mapM_of_get (by simp)
    intro k ax r hk hr
    rw [List.getElem?_map, hk, Option.map_some, Option.some.injEq] at hr
    rw [← hr]
    exact assignRow_same M ax.gridNode
  have e2 : axes.mapM (fun ax => assignRow (M - 1) (ax.gridNode.length - 1) ax.grid) =
      .ok (axes.map fun ax => ax.grid ++ List.replicate (M - 1 - ax.grid.length) 0) := by
    apply mapM_of_get (by simp)
    intro k ax r hk hr
    rw [List.getElem?_map, hk, Option.map_some, Option.some.injEq] at hr
    rw [← hr, hgl ax (List.mem_of_getElem? hk)]
    exact assignRow_same (M - 1) ax.grid
  have hz : exportNpz (⟨⟨fname, funit, m, axes, ats, tao⟩, label, info⟩ : LField K V) = .ok
      { matrix := m
        metaField := [npStr fname, npStr funit,
          npStr (⟨⟨fname, funit, m, axes, ats, tao⟩, label, info⟩ : LField K V).shownLabel, npStr info]
        edges := axes.map fun ax => ax.gridNode ++ List.replicate (M - ax.gridNode.length) 0
        grids := some (axes.map fun ax => ax.grid ++ List.replicate (M - 1 - ax.grid.length) 0)
        names := axes.map fun ax => npStr1 ax.name
        units := axes.map fun ax => npStr1 ax.unit
        lengthEdges := axes.map fun ax => ax.gridNode.length
        ats := ats
        tao := tao } := by
    unfold exportNpz
    rw [if_neg (by
      intro h0
      have : axes = [] := by simpa using h0
      rw [this] at hlen
      exact hne hlen.symm)]
    simp only [← hM, e1, e2, bind, Except.bind, pure, Except.pure]
  refine ⟨_, hz, ?_⟩
  unfold importNpz
  have e3 : (List.range axes.length).mapM (fun (nax : ℕ) =>
      mkAxis spl {
        name := (axes.map fun ax => npStr1 ax.name).getD nax ""
        unit := (axes.map fun ax => npStr1 ax.unit).getD nax ""
        gridNode := some (((axes.map fun ax =>
          ax.gridNode ++ List.replicate (M - ax.gridNode.length) (0 : K)).getD nax []).take
            ((axes.map fun ax => ax.gridNode.length).getD nax 0))
        grid := (some (axes.map fun ax =>
          ax.grid ++ List.replicate (M - 1 - ax.grid.length) (0 : K))).map fun g =>
            (g.getD nax []).take ((axes.map fun ax => ax.gridNode.length).getD nax 0 - 1) }) =
      .ok (axes.map fun ax => { ax with name := npStr1 ax.name, unit := npStr1 ax.unit }) := by
    apply mapM_of_get (by simp)
    intro k nax r hk hr
    obtain ⟨hkl, rfl⟩ := List.getElem?_eq_some_iff.1 hk
    have hkl' : k < axes.length := by simpa using hkl
    rw [List.getElem_range]
    have hax : axes[k]? = some axes[k] := List.getElem?_eq_getElem hkl'
    rw [List.getElem?_map, hax, Option.map_some, Option.some.injEq] at hr
    have hmem : axes[k] ∈ axes := List.getElem_mem hkl'
    simp only [List.getD_eq_getElem?_getD, List.getElem?_map, hax, Option.map_some,
      Option.getD_some, List.take_left', hgl _ hmem]
    rw [← hr]
    exact mkAxis_again spl _ _ (hval _ hmem)
  simp only [List.length_map, e3, bind, Except.bind]
  have e4 : mkField m (npStr fname) (npStr funit)
      (axes.map fun ax => { ax with name := npStr1 ax.name, unit := npStr1 ax.unit }) ats tao =
      .ok ⟨npStr fname, npStr funit, m,
        axes.map fun ax => { ax with name := npStr1 ax.name, unit := npStr1 ax.unit }, ats, tao⟩ := by
    unfold mkField
    rw [if_neg (by simp; omega), checkAxes_of_eq ?_ h3]
    · rfl
    · rw [List.map_map]
      exact hlen
  simp only [List.getD_cons_zero, List.getD_cons_succ]
  rw [e4]
  rfl

/-! ### vtk -/

theorem indicesF_length (shape : List ℕ) : (indicesF shape).length = shape.foldr (· * ·) 1 := by
  induction shape with
  | nil => rfl
  | cons n shape ih =>
    simp only [indicesF, List.length_flatMap, List.length_map, List.length_range, List.map_const',
      List.sum_replicate, smul_eq_mul, ih, List.foldr_cons]
    rw [mul_comm]

theorem flatMap_get {α β : Type} (l : List α) (n : ℕ) (g : α → List β) (hg : ∀ a, (g a).length = n)
    (k i : ℕ) (hi : i < n) (a : α) (ha : l[k]? = some a) :
    (l.flatMap g)[i + n * k]? = (g a)[i]? := by
  induction l generalizing k with
  | nil => simp at ha
  | cons b l ih =>
    rw [List.flatMap_cons]
    cases k with
    | zero =>
      simp only [List.getElem?_cons_zero, Option.some.injEq] at ha
      subst ha
      rw [List.getElem?_append_left (by rw [hg]; simpa using hi)]
      simp
    | succ k =>
      rw [List.getElem?_append_right (by rw [hg]; nlinarith), hg]
      have : i + n * (k + 1) - n = i + n * k := by
        rw [Nat.mul_add, mul_one]
        omega
      rw [this]
      exact ih k (by simpa using ha)

theorem indicesF_get : ∀ (shape idx : List ℕ), InBounds shape idx →
    (indicesF shape)[vtkPoint shape idx]? = some idx
  | [], idx, h => by
    have : idx = [] := List.length_eq_zero_iff.1 h.1
    subst this
    rfl
  | n :: shape, [], h => by
    have := h.1
    simp at this
  | n :: shape, i :: idx, h => by
    have h1 : i < n := h.2 0 i n rfl rfl
    have h2 : InBounds shape idx :=
      ⟨by simpa using h.1, fun d j m hj hm => h.2 (d + 1) j m hj hm⟩
    simp only [indicesF, vtkPoint]
    rw [flatMap_get (indicesF shape) n _ (by simp) _ i h1 idx (indicesF_get shape idx h2)]
    simp [h1]

theorem indicesF_mem : ∀ (shape idx : List ℕ), idx ∈ indicesF shape → InBounds shape idx
  | [], idx, h => by
    simp only [indicesF, List.mem_singleton] at h
    subst h
    exact ⟨rfl, by simp⟩
  | n :: shape, idx, h => by
    simp only [indicesF, List.mem_flatMap, List.mem_map, List.mem_range] at h
    obtain ⟨t, ht, i, hi, rfl⟩ := h
    obtain ⟨h1, h2⟩ := indicesF_mem shape t ht
    refine ⟨by simp [h1], ?_⟩
    intro d j m hj hm
    cases d with
    | zero =>
      simp only [List.getElem?_cons_zero, Option.some.injEq] at hj hm
      omega
    | succ d => exact h2 d j m hj hm

theorem ravelF_get {W : Type} (a : Arr W) (idx : List ℕ) (h : InBounds a.shape idx) :
    (ravelF a)[vtkPoint a.shape idx]? = some (a.at' idx) := by
  unfold ravelF
  rw [List.getElem?_map, indicesF_get _ _ h]
  rfl

theorem ravelF_length {W : Type} (a : Arr W) : (ravelF a).length = a.shape.foldr (· * ·) 1 := by
  unfold ravelF
  rw [List.length_map, indicesF_length]

/-- The data block. -/
theorem transformData_get [Inhabited V] (fields : List (Field K V)) (shape : List ℕ)
    (hne : fields ≠ []) (hsh : ∀ f ∈ fields, f.shape = shape) :
    ∃ data, transformData fields = .ok data ∧
      data.length = shape.foldr (· * ·) 1 * fields.length ∧
      ∀ (c : ℕ) (f : Field K V) (idx : List ℕ), fields[c]? = some f → InBounds shape idx →
        data[vtkPoint shape idx * fields.length + c]? = some (f.matrix.at' idx) := by
  cases fields with
  | nil => exact absurd rfl hne
  | cons f0 fs =>
    set rows := (f0 :: fs).map fun f => ravelF f.matrix with hrows
    set N := shape.foldr (· * ·) 1 with hN
    have hlen : ∀ f ∈ f0 :: fs, (ravelF f.matrix).length = N := by
      intro f hf
      have : f.matrix.shape = shape := hsh f hf
      rw [ravelF_length, this]
    have hv : vstack rows = .ok ⟨[rows.length, N],
        fun idx => (rows.getD (idx.getD 0 0) []).getD (idx.getD 1 0) default⟩ := by
      rw [hrows, List.map_cons]
      unfold vstack
      dsimp only
      rw [if_pos]
      · rw [hlen f0 (by simp)]
      · rw [List.all_eq_true]
        intro s hs
        obtain ⟨f, hf, rfl⟩ := List.mem_map.1 hs
        simp [hlen f (by simp [hf]), hlen f0 (by simp)]
    refine ⟨_, by unfold transformData; rw [hv]; rfl, ?_, ?_⟩
    · rw [ravelF_length]
      simp [hrows, mul_comm]
    · intro c f idx hc hidx
      have hcl : c < (f0 :: fs).length := (List.getElem?_eq_some_iff.1 hc).1
      have hp : (ravelF f.matrix)[vtkPoint shape idx]? = some (f.matrix.at' idx) := by
        have := hsh f (List.mem_of_getElem? hc)
        have h' := ravelF_get f.matrix idx (by rw [show f.matrix.shape = shape from this]; exact hidx)
        rwa [show f.matrix.shape = shape from this] at h'
      have hpl : vtkPoint shape idx < N := by
        rw [← hlen f (List.mem_of_getElem? hc)]
        exact (List.getElem?_eq_some_iff.1 hp).1
      have hb : InBounds [rows.length, N] [c, vtkPoint shape idx] := by
        refine ⟨rfl, ?_⟩
        intro d i n hi hn
        match d with
        | 0 =>
          simp at hi hn
          subst hi hn
          simpa [hrows] using hcl
        | 1 =>
          simp at hi hn
          subst hi hn
          exact hpl
        | (d + 2) => simp at hi
      have := ravelF_get (⟨[rows.length, N],
        fun idx => (rows.getD (idx.getD 0 0) []).getD (idx.getD 1 0) default⟩ : Arr V) _ hb
      simp only [vtkPoint, mul_zero, add_zero] at this
      rw [show vtkPoint shape idx * (f0 :: fs).length + c = c + rows.length * vtkPoint shape idx by
        simp [hrows]; ring]
      rw [this]
      simp only [List.getD_cons_zero, List.getD_cons_succ]
      rw [List.getD_eq_getElem?_getD, List.getD_eq_getElem?_getD, hrows, List.getElem?_map, hc,
        Option.map_some, Option.getD_some, hp, Option.getD_some]

theorem isclose_refl (a : K) : isclose a a = true := by
  unfold isclose
  rw [decide_eq_true_iff, sub_self, abs_zero]
  positivity

theorem iscloseAll_refl (l : List K) : iscloseAll l l = .ok true := by
  unfold iscloseAll bcast
  rw [if_pos rfl]
  simp only [Except.ok.injEq, List.all_eq_true]
  intro p hp
  obtain ⟨a, ha⟩ := List.mem_iff_getElem?.1 hp
  rw [List.getElem?_zip_eq_some] at ha
  have : p.1 = p.2 := Option.some.inj (ha.1.symm.trans ha.2)
  rw [this]
  exact isclose_refl _

theorem axesEq_refl (l : List (Axis K)) : axesEq l l = .ok true := by
  induction l with
  | nil => rfl
  | cons a l ih =>
    unfold axesEq axisEq
    simp only [isclose_refl, iscloseAll_refl, ih]
    simp [bind, Except.bind, pure, Except.pure]

theorem isclose_iff (a b : K) : isclose a b = true ↔ Close a b := by
  unfold isclose Close
  rw [decide_eq_true_iff, show (10 : K) ^ 8 = 100000000 by norm_num, show (10 : K) ^ 5 = 100000 by norm_num]

/-- The result is a comparison or a `ValueError`. -/
def BoolOrValue (r : Res Bool) : Prop := (∃ b, r = .ok b) ∨ r = .error .valueError

theorem iscloseAll_apart {a b : List K} (h : Apart a b) : iscloseAll a b = .ok false ∨ iscloseAll a b = .error .valueError := by
  obtain ⟨i, x, y, hx, hy, hn⟩ := h
  rw [← isclose_iff, Bool.not_eq_true] at hn
  unfold iscloseAll
  cases hb : bcast a b with
  | none => exact Or.inr rfl
  | some l =>
    left
    have hm : (x, y) ∈ l := by
      unfold bcast at hb
      split at hb
      · cases hb
        rw [List.mem_iff_getElem?]
        exact ⟨i, by rw [List.getElem?_zip_eq_some]; exact ⟨hx, hy⟩⟩
      · split at hb
        · next u =>
          cases hb
          cases i with
          | zero =>
            cases hx
            exact List.mem_map.2 ⟨y, List.mem_of_getElem? hy, rfl⟩
          | succ i => simp at hx
        · next u =>
          cases hb
          cases i with
          | zero =>
            cases hy
            exact List.mem_map.2 ⟨x, List.mem_of_getElem? hx, rfl⟩
          | succ i => simp at hy
        · cases hb
    have : (l.all fun p => isclose p.1 p.2) = false := by
      rw [Bool.eq_false_iff]
      intro hall
      rw [List.all_eq_true] at hall
      have := hall _ hm
      rw [hn] at this
      cases this
    simp only [this]

theorem iscloseAll_bool (a b : List K) : BoolOrValue (iscloseAll a b) := by
  unfold iscloseAll
  split
  · exact Or.inr rfl
  · exact Or.inl ⟨_, rfl⟩

theorem axisEq_bool (a b : Axis K) : BoolOrValue (axisEq a b) := by
  unfold axisEq
  split
  · exact Or.inl ⟨_, rfl⟩
  · rcases iscloseAll_bool a.gridNode b.gridNode with ⟨c, h⟩ | h
    · rw [h]
      cases c
      · exact Or.inl ⟨_, rfl⟩
      · exact iscloseAll_bool a.grid b.grid
    · rw [h]
      exact Or.inr rfl

theorem axisEq_differ {p q : Axis K} (h : ¬ Close p.extent.1 q.extent.1 ∨ ¬ Close p.extent.2 q.extent.2 ∨
    Apart p.gridNode q.gridNode ∨ Apart p.grid q.grid) : axisEq p q = .ok false ∨ axisEq p q = .error .valueError := by
  unfold axisEq
  by_cases hc : (!(isclose p.extent.1 q.extent.1 && isclose p.extent.2 q.extent.2)) = true
  · rw [if_pos hc]
    exact Or.inl rfl
  rw [if_neg hc]
  have hc' : Close p.extent.1 q.extent.1 ∧ Close p.extent.2 q.extent.2 := by
    rw [← isclose_iff, ← isclose_iff]
    simpa using hc
  rcases iscloseAll_bool p.gridNode q.gridNode with ⟨c, hn⟩ | hn
  · rw [hn]
    cases c with
    | false => exact Or.inl rfl
    | true =>
      rcases h with h | h | h | h
      · exact absurd hc'.1 h
      · exact absurd hc'.2 h
      · rcases iscloseAll_apart h with h | h <;> rw [h] at hn <;> cases hn
      · exact iscloseAll_apart h
  · rw [hn]
    exact Or.inr rfl

theorem axesEq_bool (l m : List (Axis K)) : BoolOrValue (axesEq l m) := by
  induction l generalizing m with
  | nil => cases m <;> exact Or.inl ⟨_, rfl⟩
  | cons a l ih =>
    cases m with
    | nil => exact Or.inl ⟨_, rfl⟩
    | cons b m =>
      unfold axesEq
      split
      · exact Or.inl ⟨_, rfl⟩
      · rcases axisEq_bool a b with ⟨c, h⟩ | h
        · rw [h]
          cases c
          · exact Or.inl ⟨_, rfl⟩
          · exact ih m
        · rw [h]
          exact Or.inr rfl

theorem axesEq_differ {l m : List (Axis K)} (h : GridsDiffer l m) : axesEq l m = .ok false ∨ axesEq l m = .error .valueError := by
  induction l generalizing m with
  | nil =>
    cases m with
    | nil =>
      rcases h with h | ⟨d, p, q, hp, -⟩
      · exact absurd rfl h
      · simp at hp
    | cons b m => exact Or.inl rfl
  | cons a l ih =>
    cases m with
    | nil => exact Or.inl rfl
    | cons b m =>
      unfold axesEq
      by_cases hl : l.length ≠ m.length
      · rw [if_pos hl]
        exact Or.inl rfl
      rw [if_neg hl]
      rcases axisEq_bool a b with ⟨c, hab⟩ | hab
      · rw [hab]
        cases c with
        | false => exact Or.inl rfl
        | true =>
          rcases h with h | ⟨d, p, q, hp, hq, h⟩
          · simp only [List.length_cons] at h
            omega
          · cases d with
            | zero =>
              cases hp
              cases hq
              rcases axisEq_differ h with h | h <;> rw [h] at hab <;> cases hab
            | succ d => exact ih (Or.inr ⟨d, p, q, hp, hq, h⟩)
      · rw [hab]
        exact Or.inr rfl

/-- The comparison of all fields with the first one. -/
theorem mapM_differ {V : Type} (fs : List (Field K V)) (m : List (Axis K)) (f : Field K V) (hf : f ∈ fs)
    (h : GridsDiffer f.axes m) : (∃ l, (fs.mapM fun f => axesEq f.axes m) = .ok l ∧ l.all id = false) ∨
      (fs.mapM fun f => axesEq f.axes m) = .error .valueError := by
  induction fs with
  | nil => cases hf
  | cons g fs ih =>
    have hall : (∃ l, (fs.mapM fun f => axesEq f.axes m) = .ok l) ∨
        (fs.mapM fun f => axesEq f.axes m) = .error .valueError := by
      clear ih hf
      induction fs with
      | nil => exact Or.inl ⟨[], rfl⟩
      | cons g fs ih =>
        rw [List.mapM_cons]
        rcases axesEq_bool g.axes m with ⟨c, h⟩ | h
        · rw [h]
          rcases ih with ⟨l, h⟩ | h
          · simp only [bind, Except.bind, h]
            exact Or.inl ⟨_, rfl⟩
          · simp only [bind, Except.bind, h]
            exact Or.inr trivial
        · rw [h]
          exact Or.inr rfl
    rw [List.mapM_cons]
    rcases List.mem_cons.1 hf with rfl | hf
    · rcases axesEq_differ h with h | h
      · rw [h]
        rcases hall with ⟨l, h⟩ | h
        · simp only [bind, Except.bind, h]
          exact Or.inl ⟨_, rfl, rfl⟩
        · simp only [bind, Except.bind, h]
          exact Or.inr trivial
      · rw [h]
        exact Or.inr rfl
    · rcases axesEq_bool g.axes m with ⟨c, h⟩ | h
      · rw [h]
        rcases ih hf with ⟨l, h, hl⟩ | h
        · simp only [bind, Except.bind, h]
          exact Or.inl ⟨_, rfl, by rw [List.all_cons, hl, Bool.and_false]⟩
        · simp only [bind, Except.bind, h]
          exact Or.inr trivial
      · rw [h]
        exact Or.inr rfl

/-- The axis appended by `atleast_nd`. -/
def unitAxis (K : Type) [_root_.Field K] : Axis K :=
  ⟨"", "", [-(1 / 2), 1 / 2], [(-(1 / 2) + 1 / 2) / 2], (-(1 / 2), 1 / 2)⟩

theorem mkAxis_unit (spl : Splines K) :
    mkAxis spl { gridNode := some [-(1 / 2), 1 / 2] } = .ok (unitAxis K) := by
  have h : (-(1 / 2) : K) < 1 / 2 := by norm_num
  simp [mkAxis, monotonicity, increasing, gridOfNodes, mids, unitAxis, h, bind, Except.bind, pure,
    Except.pure]

theorem unit_even : EvenAxis (unitAxis K) (-(1 / 2)) 1 := by
  refine ⟨?_, ?_, ?_⟩
  · simp only [unitAxis, List.length_singleton]
    rw [show List.range (1 + 1) = [0, 1] from rfl]
    simp
    norm_num
  · simp only [unitAxis, List.length_singleton]
    rw [show List.range 1 = [0] from rfl]
    simp
  · simp [unitAxis]
    norm_num

/-- The result of `atleast_nd(3)`. -/
def up (spl : Splines K) (f : Field K V) : Field K V :=
  match f.atleastNd spl 3 with
  | .ok r => r
  | .error _ => f

theorem up_spec (spl : Splines K) {f : Field K V} (hf : f.Sound) (h3 : f.shape.length ≤ 3) :
    f.atleastNd spl 3 = .ok (up spl f) ∧
      (up spl f).shape = f.shape ++ List.replicate (3 - f.shape.length) 1 ∧
      (up spl f).axes = f.axes ++ List.replicate (3 - f.shape.length) (unitAxis K) ∧
      ∀ idx, InBounds (up spl f).shape idx →
        (up spl f).matrix.at' idx = f.matrix.at' (idx.take f.shape.length) := by
  unfold up
  by_cases hn : f.shape.length = 3
  · have : f.atleastNd spl 3 = .ok f := by
      unfold Field.atleastNd
      rw [dims_sound hf, if_pos (by omega)]
    rw [this]
    refine ⟨rfl, by simp [hn], by simp [hn], ?_⟩
    intro idx hidx
    have hl : idx.length = f.shape.length := hidx.1
    show f.matrix.at' idx = _
    rw [List.take_of_length_le (by omega)]
  · have hk : ((3 : ℤ) - f.shape.length).toNat = 3 - f.shape.length := by omega
    have : f.atleastNd spl 3 = .ok { f with
        matrix := ⟨f.shape ++ List.replicate (3 - f.shape.length) 1,
          fun idx => f.matrix.at' (idx.take f.shape.length)⟩
        axes := f.axes ++ List.replicate (3 - f.shape.length) (unitAxis K)
        tao := f.tao ++ List.replicate (3 - f.shape.length) none
        ats := f.ats ++ List.replicate (3 - f.shape.length) f.transformState } := by
      unfold Field.atleastNd
      rw [dims_sound hf, if_neg (by omega), mkAxis_unit, hk]
      rfl
    rw [this]
    exact ⟨rfl, rfl, rfl, fun _ _ => rfl⟩

theorem vtkPoint_append (shape idx : List ℕ) (k : ℕ) (h : idx.length = shape.length) :
    vtkPoint (shape ++ List.replicate k 1) (idx ++ List.replicate k 0) = vtkPoint shape idx := by
  induction shape generalizing idx with
  | nil =>
    have : idx = [] := List.length_eq_zero_iff.1 h
    subst this
    simp only [List.nil_append, vtkPoint]
    induction k with
    | zero => rfl
    | succ k ih => simp [List.replicate_succ, vtkPoint, ih]
  | cons n shape ih =>
    cases idx with
    | nil => simp at h
    | cons i idx =>
      simp only [List.cons_append, vtkPoint]
      rw [ih idx (by simpa using h)]

theorem inBounds_append {shape idx : List ℕ} (k : ℕ) (h : InBounds shape idx) :
    InBounds (shape ++ List.replicate k 1) (idx ++ List.replicate k 0) := by
  refine ⟨by simp [h.1], ?_⟩
  intro d i n hi hn
  by_cases hd : d < shape.length
  · rw [List.getElem?_append_left (by rw [h.1]; exact hd)] at hi
    rw [List.getElem?_append_left hd] at hn
    exact h.2 d i n hi hn
  · rw [List.getElem?_append_right (by rw [h.1]; omega), List.getElem?_replicate] at hi
    rw [List.getElem?_append_right (by omega), List.getElem?_replicate] at hn
    split_ifs at hi hn
    simp only [Option.some.injEq] at hi hn
    omega

/-- The coordinates of evenly spaced points. -/
theorem structured_coordinates {f : Field K V} (hd : f.dims = 3)
    (he : ∀ ax ∈ f.axes, ∃ e0 h, EvenAxis ax e0 h ∧ 0 < h ∧ 0 < ax.len) :
    ∃ ds, structuredPoints f = .ok ds ∧ vtkDimensions ds = f.axes.map Axis.len ∧
      ∀ (idx : List ℕ) (d i : ℕ) (ax : Axis K), idx[d]? = some i → f.axes[d]? = some ax →
        i < ax.len → (vtkCoordinates ds idx)[d]? = ax.grid[i]? := by
  have e1 : f.axes.mapM (fun ax => pyGet ax.grid 0) =
      .ok (f.axes.map fun ax => ax.grid.headD 0) := by
    apply mapM_of_get (by simp)
    intro k ax r hk hr
    rw [List.getElem?_map, hk, Option.map_some, Option.some.injEq] at hr
    obtain ⟨e0, h, _, _, hp⟩ := he ax (List.mem_of_getElem? hk)
    have hp : 0 < ax.grid.length := hp
    unfold pyGet pyIdx
    rw [if_pos (by omega), if_pos (by omega), ← hr]
    cases hg : ax.grid with
    | nil => rw [hg] at hp; simp at hp
    | cons a l => rfl
  have hs : ∀ ax ∈ f.axes, ∃ s, ax.spacing = .ok s := by
    intro ax hax
    obtain ⟨e0, h, h1, h2, h3⟩ := he ax hax
    exact ⟨h, even_spacing h1 h2 h3⟩
  have e2 : f.axes.mapM (fun ax => ax.spacing) =
      .ok (f.axes.map fun ax => match ax.spacing with | .ok s => s | .error _ => 0) := by
    apply mapM_of_get (by simp)
    intro k ax r hk hr
    rw [List.getElem?_map, hk, Option.map_some, Option.some.injEq] at hr
    obtain ⟨s, hs⟩ := hs ax (List.mem_of_getElem? hk)
    rw [hs] at hr ⊢
    rw [← hr]
  refine ⟨.structuredPoints (f.axes.map Axis.len) (f.axes.map fun ax => ax.grid.headD 0)
    (f.axes.map fun ax => match ax.spacing with | .ok s => s | .error _ => 0), ?_, rfl, ?_⟩
  · unfold structuredPoints
    rw [hd, if_neg (by simp), e1, e2]
    rfl
  · intro idx d i ax hi hax hil
    obtain ⟨e0, h, h1, h2, h3⟩ := he ax (List.mem_of_getElem? hax)
    obtain ⟨_, g2, _⟩ := even_iff.1 h1
    simp only [vtkCoordinates]
    have hz : ((f.axes.map fun ax => match ax.spacing with | .ok s => s | .error _ => 0).zip idx)[d]? =
        some (h, i) := by
      rw [List.getElem?_zip_eq_some]
      refine ⟨?_, hi⟩
      rw [List.getElem?_map, hax, Option.map_some, even_spacing h1 h2 h3]
    have ho : (f.axes.map fun ax => ax.grid.headD 0)[d]? = some (e0 + h / 2) := by
      rw [List.getElem?_map, hax, Option.map_some]
      have : ax.grid.head? = some (e0 + h / 2) := by
        rw [List.head?_eq_getElem?, g2, ap_get _ _ _ _ h3]
        simp
      rw [List.headD_eq_head?_getD, this, Option.getD_some]
    rw [List.getElem?_zipWith, ho, hz, g2, ap_get _ _ _ _ hil]

theorem rectilinear_coordinates {f : Field K V} (hd : f.axes.length = 3) :
    ∃ ds, rectilinearGrid f = .ok ds ∧ vtkDimensions ds = f.axes.map Axis.len ∧
      ∀ (idx : List ℕ) (d i : ℕ) (ax : Axis K), idx[d]? = some i → f.axes[d]? = some ax →
        i < ax.len → (vtkCoordinates ds idx)[d]? = ax.grid[i]? := by
  refine ⟨.rectilinearGrid (f.axes.map (·.grid)), ?_, ?_, ?_⟩
  · unfold rectilinearGrid
    rw [if_neg (by simpa using hd)]
    rfl
  · simp only [vtkDimensions, List.map_map]
    rfl
  · intro idx d i ax hi hax hil
    simp only [vtkCoordinates]
    rw [List.getElem?_zipWith, List.getElem?_map, hax, hi]
    simp only [Option.map_some]
    have hil : i < ax.grid.length := hil
    rw [List.getD_eq_getElem?_getD, List.getElem?_eq_getElem hil]
    rfl

theorem foldl_foldr_mul (l : List ℕ) : l.foldl (· * ·) 1 = l.foldr (· * ·) 1 := by
  have : ∀ (l : List ℕ) (a : ℕ), l.foldl (· * ·) a = a * l.foldr (· * ·) 1 := by
    intro l
    induction l with
    | nil => simp
    | cons b l ih => intro a; rw [List.foldl_cons, ih, List.foldr_cons]; ring
  rw [this, one_mul]

theorem pyGet_zero {α : Type} {l : List α} {a : α} (h : l.head? = some a) : pyGet l 0 = .ok a := by
  cases l with
  | nil => simp at h
  | cons b l =>
    simp only [List.head?_cons, Option.some.injEq] at h
    subst h
    unfold pyGet pyIdx
    rw [if_pos (by omega), if_pos (by simp)]
    rfl

/-- The check of the axes: the fields which are exported. -/
def AxesChecked (unst : List (Field K V) → Res (List (Field K V))) (unstagger skip : Bool) (given fields : List (Field K V)) : Prop :=
  ∃ g0 gs same, given = g0 :: gs ∧ gs.mapM (fun f => axesEq f.axes g0.axes) = .ok same ∧
    (if !same.all id then (if unstagger then unst given else if !skip then throw .valueError else pure given)
      else pure given : Res (List (Field K V))) = .ok fields

/-- Exporting fields of one shape, after the check. The grid is that of the first one. -/
theorem export_checked [Inhabited V] (spl : Splines K)
    (unst : List (Field K V) → Res (List (Field K V))) (kind : VtkKind) (unstagger skip : Bool)
    (given fields : List (Field K V)) (hpre : AxesChecked unst unstagger skip given fields) (shape : List ℕ) (axes : List (Axis K))
    (hs : ∀ f ∈ fields, f.Sound ∧ f.shape = shape) (haxes : fields.head?.map (·.axes) = some axes)
    (hdim : shape.length = 2 ∨ shape.length = 3)
    (hkind : if kind = .vectors then fields.length = 3 else fields.length ≤ 4)
    (hax : (∀ ax ∈ axes, ∃ e0 h, EvenAxis ax e0 h ∧ 0 < h) ∨ ∃ ax ∈ axes, ax.isLinear = false) :
    ∃ v, exportArraydata spl unst kind unstagger skip given = .ok v ∧
      v.points = shape.foldr (· * ·) 1 ∧ v.components = fields.length ∧
      v.data.length = v.points * v.components ∧
      vtkDimensions v.dataset = shape ++ List.replicate (3 - shape.length) 1 ∧
      ∀ idx, InBounds shape idx →
        (∀ (c : ℕ) (f : Field K V), fields[c]? = some f →
          v.data[vtkPoint shape idx * fields.length + c]? = some (f.matrix.at' idx)) ∧
        ∀ (d i : ℕ) (ax : Axis K), idx[d]? = some i → axes[d]? = some ax →
          (vtkCoordinates v.dataset (idx ++ List.replicate (3 - shape.length) 0))[d]? =
            ax.grid[i]? := by
  obtain ⟨g0, gs, same, rfl, hsame, hpre⟩ := hpre
  obtain ⟨f0, fs, rfl⟩ := List.exists_cons_of_ne_nil (l := fields) (by rintro rfl; cases haxes)
  obtain ⟨s0, sh0⟩ := hs f0 (by simp)
  have ax0 : f0.axes = axes := Option.some.inj haxes
  have h3 : shape.length ≤ 3 := by omega
  have hup : ∀ f ∈ f0 :: fs, _ := fun f hf => up_spec spl (hs f hf).1
    (by rw [(hs f hf).2]; exact h3)
  set k := 3 - shape.length with hk
  have hmap : (f0 :: fs).mapM (fun f => f.atleastNd spl 3) = .ok ((f0 :: fs).map (up spl)) := by
    apply mapM_of_get (by simp)
    intro m f r hm hr
    rw [List.getElem?_map, hm, Option.map_some, Option.some.injEq] at hr
    rw [← hr]
    exact (hup f (List.mem_of_getElem? hm)).1
  have ushape : ∀ f ∈ f0 :: fs, (up spl f).shape = shape ++ List.replicate k 1 := by
    intro f hf
    rw [(hup f hf).2.1, (hs f hf).2]
  have uaxes : (up spl f0).axes = axes ++ List.replicate k (unitAxis K) := by
    rw [(hup f0 (by simp)).2.2.1, ax0, sh0]
  have hlen : axes.map Axis.len = shape := by rw [← ax0, ← sh0]; exact s0.ok.lengths
  have haxl : axes.length = shape.length := by rw [← hlen, List.length_map]
  have hpos : ∀ ax ∈ axes, 0 < ax.len := by
    intro ax hax
    rcases Nat.eq_zero_or_pos ax.len with h0 | h0
    · exact absurd (by rw [sh0, ← hlen, ← h0]; exact List.mem_map_of_mem hax) s0.nonempty
    · exact h0
  have hlen' : (axes ++ List.replicate k (unitAxis K)).map Axis.len = shape ++ List.replicate k 1 := by
    rw [List.map_append, hlen, List.map_replicate]
    rfl
  -- the grid
  have hds : ∃ ds, (if (up spl f0).axes.all (fun ax => ax.isLinear) then structuredPoints (up spl f0)
        else rectilinearGrid (up spl f0)) = .ok ds ∧
      vtkDimensions ds = shape ++ List.replicate k 1 ∧
      ∀ (idx : List ℕ) (d i : ℕ) (ax : Axis K), idx[d]? = some i →
        (axes ++ List.replicate k (unitAxis K))[d]? = some ax →
        i < ax.len → (vtkCoordinates ds idx)[d]? = ax.grid[i]? := by
    have hdims : (up spl f0).dims = 3 := by
      unfold Field.dims
      rw [ushape f0 (by simp), if_neg]
      · simp; omega
      · have := s0.nonempty
        rw [sh0] at this
        simp only [List.mem_append, List.mem_replicate, not_or]
        exact ⟨this, by omega⟩
    rcases hax with hev | ⟨ax, hm, hl⟩
    · have hev' : ∀ ax ∈ (up spl f0).axes, ∃ e0 h, EvenAxis ax e0 h ∧ 0 < h ∧ 0 < ax.len := by
        intro ax hax
        rw [uaxes, List.mem_append] at hax
        rcases hax with hax | hax
        · obtain ⟨e0, h, h1, h2⟩ := hev ax hax
          exact ⟨e0, h, h1, h2, hpos ax hax⟩
        · rw [(List.mem_replicate.1 hax).2]
          exact ⟨_, 1, unit_even, one_pos, Nat.one_pos⟩
      rw [if_pos]
      · obtain ⟨ds, g1, g2, g3⟩ := structured_coordinates hdims hev'
        rw [uaxes] at g2 g3
        exact ⟨ds, g1, by rw [g2, hlen'], g3⟩
      · rw [List.all_eq_true]
        intro ax hax
        obtain ⟨e0, h, h1, _⟩ := hev' ax hax
        exact even_linear h1
    · rw [if_neg]
      · obtain ⟨ds, g1, g2, g3⟩ := rectilinear_coordinates (f := up spl f0)
          (by rw [uaxes]; simp; omega)
        rw [uaxes] at g2 g3
        exact ⟨ds, g1, by rw [g2, hlen'], g3⟩
      · rw [List.all_eq_true]
        intro hall
        have := hall ax (by rw [uaxes]; simp [hm])
        rw [hl] at this
        cases this
  obtain ⟨ds, d1, d2, d3⟩ := hds
  obtain ⟨data, t1, t2, t3⟩ := transformData_get ((f0 :: fs).map (up spl))
    (shape ++ List.replicate k 1) (by simp) (by
      intro f hf
      obtain ⟨g, hg, rfl⟩ := List.mem_map.1 hf
      exact ushape g hg)
  have hprod : (shape ++ List.replicate k 1).foldr (· * ·) 1 = shape.foldr (· * ·) 1 := by
    rw [List.foldr_append]
    congr 1
    clear * -
    induction k with
    | zero => rfl
    | succ k ih => rw [List.replicate_succ, List.foldr_cons, ih]
  refine ⟨⟨ds, (up spl f0).shape.foldl (· * ·) 1, ((f0 :: fs).map (up spl)).length, data⟩,
    ?_, ?_, by simp, ?_, d2, ?_⟩
  · unfold exportArraydata
    rw [pyGet_zero (l := g0 :: gs) (a := g0) rfl]
    simp only [bind, Except.bind, List.tail_cons, hsame]
    by_cases hsm : (!same.all id) = true
    on_goal 1 =>
      rw [if_pos hsm] at hpre ⊢
      simp only [hpre]
    on_goal 2 =>
      rw [if_neg hsm] at hpre ⊢
      simp only [hpre]
    all_goals
      rw [pyGet_zero (l := f0 :: fs) (a := f0) rfl]
      simp only [sh0]
      rw [if_neg (by omega), if_neg (by omega), hmap]
      simp only
      rw [pyGet_zero (l := (f0 :: fs).map (up spl)) (a := up spl f0) rfl]
      have k1 : ¬ (kind = .vectors ∧ ((f0 :: fs).map (up spl)).length ≠ 3) := by
        rintro ⟨rfl, h⟩
        rw [if_pos rfl] at hkind
        exact h (by simpa using hkind)
      have k2 : ¬ (kind = .scalars ∧ 4 < ((f0 :: fs).map (up spl)).length) := by
        rintro ⟨rfl, h⟩
        rw [if_neg (by decide)] at hkind
        rw [List.length_map] at h
        omega
      simp only
      by_cases hl : ((up spl f0).axes.all fun ax => ax.isLinear) = true
      · rw [if_pos hl] at d1 ⊢
        simp only [d1]
        rw [if_neg k1, if_neg k2, t1]
        rfl
      · rw [if_neg hl] at d1 ⊢
        simp only [d1]
        rw [if_neg k1, if_neg k2, t1]
        rfl
  · show (up spl f0).shape.foldl (· * ·) 1 = _
    rw [ushape f0 (by simp), foldl_foldr_mul, hprod]
  · show data.length = (up spl f0).shape.foldl (· * ·) 1 * ((f0 :: fs).map (up spl)).length
    rw [t2, ushape f0 (by simp), foldl_foldr_mul]
  · intro idx hidx
    have hb := inBounds_append k hidx
    constructor
    · intro c f hc
      have hm : f ∈ f0 :: fs := List.mem_of_getElem? hc
      have := t3 c (up spl f) (idx ++ List.replicate k 0)
        (by rw [List.getElem?_map, hc]; rfl) hb
      rw [vtkPoint_append _ _ _ hidx.1, List.length_map] at this
      show data[_]? = _
      rw [this, (hup f hm).2.2.2 _ (by rw [ushape f hm]; exact hb), (hs f hm).2,
        List.take_left' hidx.1]
    · intro d i ax hi hax
      have hd : d < axes.length := (List.getElem?_eq_some_iff.1 hax).1
      refine d3 _ d i ax ?_ ?_ ?_
      · rw [List.getElem?_append_left (by rw [hidx.1]; omega)]
        exact hi
      · rw [List.getElem?_append_left hd]
        exact hax
      · refine hidx.2 d i ax.len hi ?_
        rw [← hlen, List.getElem?_map, hax]
        rfl

/-- Exporting fields with the same axes. -/
theorem export_sound [Inhabited V] (spl : Splines K)
    (unst : List (Field K V) → Res (List (Field K V))) (kind : VtkKind) (unstagger skip : Bool)
    (fields : List (Field K V)) (shape : List ℕ) (axes : List (Axis K))
    (hne : fields ≠ []) (hs : ∀ f ∈ fields, f.Sound ∧ f.shape = shape ∧ f.axes = axes)
    (hdim : shape.length = 2 ∨ shape.length = 3)
    (hkind : if kind = .vectors then fields.length = 3 else fields.length ≤ 4)
    (hax : (∀ ax ∈ axes, ∃ e0 h, EvenAxis ax e0 h ∧ 0 < h) ∨ ∃ ax ∈ axes, ax.isLinear = false) :
    ∃ v, exportArraydata spl unst kind unstagger skip fields = .ok v ∧
      v.points = shape.foldr (· * ·) 1 ∧ v.components = fields.length ∧
      v.data.length = v.points * v.components ∧
      vtkDimensions v.dataset = shape ++ List.replicate (3 - shape.length) 1 ∧
      ∀ idx, InBounds shape idx →
        (∀ (c : ℕ) (f : Field K V), fields[c]? = some f →
          v.data[vtkPoint shape idx * fields.length + c]? = some (f.matrix.at' idx)) ∧
        ∀ (d i : ℕ) (ax : Axis K), idx[d]? = some i → axes[d]? = some ax →
          (vtkCoordinates v.dataset (idx ++ List.replicate (3 - shape.length) 0))[d]? =
            ax.grid[i]? := by
  obtain ⟨f0, fs, rfl⟩ := List.exists_cons_of_ne_nil hne
  have ax0 := (hs f0 (by simp)).2.2
  refine export_checked spl unst kind unstagger skip _ _ ⟨f0, fs, List.replicate fs.length true, rfl, ?_, ?_⟩ shape axes
    (fun f hf => ⟨(hs f hf).1, (hs f hf).2.1⟩) (by rw [← ax0]; rfl) hdim hkind hax
  · apply mapM_of_get (by simp)
    intro m f b hm hb
    rw [List.getElem?_replicate] at hb
    split_ifs at hb
    rw [Option.some.injEq] at hb
    rw [← hb, (hs f (by simp [List.mem_of_getElem? hm])).2.2, ax0]
    exact axesEq_refl axes
  · have : (!(List.replicate fs.length true).all id) = false := by simp
    rw [this]
    rfl

/-- Axes with the same numbers of points can be compared. -/
theorem axesEq_total {l m : List (Axis K)} (h1 : l.map (·.grid.length) = m.map (·.grid.length))
    (h2 : l.map (·.gridNode.length) = m.map (·.gridNode.length)) : ∃ b, axesEq l m = .ok b := by
  have hcl : ∀ a b : List K, a.length = b.length → ∃ c, iscloseAll a b = .ok c := by
    intro a b h
    unfold iscloseAll bcast
    rw [if_pos h]
    exact ⟨_, rfl⟩
  induction l generalizing m with
  | nil => cases m <;> exact ⟨_, rfl⟩
  | cons a l ih =>
    cases m with
    | nil => exact ⟨_, rfl⟩
    | cons b m =>
      simp only [List.map_cons, List.cons.injEq] at h1 h2
      obtain ⟨c, hc⟩ := hcl _ _ h2.1
      obtain ⟨e, he⟩ := hcl _ _ h1.1
      obtain ⟨g, hg⟩ := ih h1.2 h2.2
      unfold axesEq axisEq
      split
      · exact ⟨_, rfl⟩
      · split
        · exact ⟨_, rfl⟩
        · rw [hc]
          cases c
          · exact ⟨_, rfl⟩
          · simp only [bind, Except.bind, Bool.not_true, Bool.false_eq_true, if_false, he]
            cases e
            · exact ⟨_, rfl⟩
            · exact ⟨g, hg⟩

end

end Postpic.Io
