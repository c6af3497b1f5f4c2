import Verif.Spec.KspaceExtent
import Verif.Lemmas.Kspace
import Verif.Lemmas.Propagate
import Verif.Lemmas.FieldIndex
import Verif.Lemmas.Compat

/-!
# Lemmas about parts of fields
-/

set_option autoImplicit false

namespace Postpic.Spec

open Postpic Postpic.Axes Postpic.Fields

theorem unflagged_none {α β : Type} (l : List α) (flags : List β) (f : β → Bool) (hf : ∀ b ∈ flags, f b = false)
    (hl : flags.length = l.length) : unflagged (flags.map f) l = l := by
  induction l generalizing flags with
  | nil =>
    cases flags
    · rfl
    · simp at hl
  | cons x l ih =>
    match flags, hl with
    | b :: flags, hl =>
      rw [List.map_cons, hf b List.mem_cons_self]
      show x :: unflagged (flags.map f) l = _
      rw [ih flags (fun b hb => hf b (List.mem_cons_of_mem _ hb)) (by simpa using hl)]

theorem selShape_parts (lo hi : List ℕ) (h : lo.length = hi.length) :
    selShape (List.zipWith Sel.part lo hi) = List.zipWith (fun s t => t - s) lo hi := by
  induction lo generalizing hi with
  | nil => cases hi <;> rfl
  | cons a lo ih =>
    match hi, h with
    | b :: hi, h =>
      show (b - a) :: selShape (List.zipWith Sel.part lo hi) = _
      rw [ih hi (by simpa using h)]
      rfl

theorem selIdx_parts (lo hi idx : List ℕ) (h : lo.length = hi.length) (h' : idx.length = lo.length) :
    selIdx (List.zipWith Sel.part lo hi) idx = List.zipWith (· + ·) lo idx := by
  induction lo generalizing hi idx with
  | nil => cases hi <;> rfl
  | cons a lo ih =>
    match hi, h, idx, h' with
    | b :: hi, h, i :: idx, h' =>
      show (a + i) :: selIdx (List.zipWith Sel.part lo hi) idx = _
      rw [ih hi idx (by simpa using h) (by simpa using h')]
      rfl

theorem ap_part (a h : ℝ) {n s t : ℕ} (hs : s ≤ t) (ht : t ≤ n) :
    ((ap a h n).take t).drop s = ap (a + s * h) h (t - s) := by
  apply ap_ext
  · rw [List.length_drop, List.length_take, ap_length, min_eq_left ht]
  · intro i hi
    rw [List.getElem?_drop, List.getElem?_take, if_pos (by omega), ap_get _ _ _ _ (by omega)]
    push_cast
    congr 1
    ring

/-- A part of an even axis. -/
theorem even_part {ax ax' : Axis ℝ} {e0 h : ℝ} {s t : ℕ} (he : EvenAxis ax e0 h) (hs : SubAxis (ax, .part s t) ax') :
    EvenAxis ax' (e0 + s * h) h ∧ ax'.len = t - s := by
  obtain ⟨-, -, h1, h2, h3, h4, h5⟩ := hs
  simp only at h2 h3 h4
  rw [even_iff] at he
  have hlen : ax.len = ax.grid.length := rfl
  have g1 : ax'.grid = ap (e0 + s * h + h / 2) h (t - s) := by
    rw [h3, he.2.1, ap_part _ _ (by omega) h2]
    congr 1
    ring
  have hl : ax'.len = t - s := by
    show ax'.grid.length = _
    rw [g1, ap_length]
  have g2 : ax'.gridNode = ap (e0 + s * h) h (t - s + 1) := by
    rw [h4, he.1, ap_part _ _ (by omega) (by omega)]
    congr 1
    omega
  refine ⟨even_iff.2 ⟨by rw [hl]; exact g2, by rw [hl]; exact g1, ?_⟩, hl⟩
  have k1 := h5.first
  have k2 := h5.last
  rw [g2, ap_head] at k1
  rw [g2, ap_last] at k2
  rw [hl]
  exact Prod.ext (Option.some.inj k1).symm (Option.some.inj k2).symm

variable {f : Field ℝ ℂ} {shape : List ℕ} {x0 h : ℕ → ℝ}

/-- The slices for a part of the grid. -/
def partSlices (lo hi : List ℕ) : List Slice := List.zipWith (fun (s t : ℕ) => (⟨some (s : ℤ), some (t : ℤ), false⟩ : Slice)) lo hi

theorem OnGrid.cut (spl : Splines ℝ) (hg : OnGrid f shape false x0 h) {lo hi : List ℕ} (hlo : lo.length = shape.length)
    (hhi : hi.length = shape.length)
    (hb : ∀ (d s t n : ℕ), lo[d]? = some s → hi[d]? = some t → shape[d]? = some n → s + 2 ≤ t ∧ t ≤ n) :
    ∃ g, f.getitem spl ((partSlices lo hi).map Key.slice) = .ok g ∧
      OnGrid g (List.zipWith (fun s t => t - s) lo hi) false (fun d => x0 d + lo.getD d 0 * h d) h ∧ PartOf f g lo := by
  have hall : ∀ d < shape.length, ∃ (ax : Axis ℝ) (s t n : ℕ), f.axes[d]? = some ax ∧ lo[d]? = some s ∧ hi[d]? = some t ∧
      shape[d]? = some n ∧ ax.len = n ∧ s + 2 ≤ t ∧ t ≤ n ∧ EvenAxis ax (x0 d - h d / 2) (h d) := by
    intro d hd
    obtain ⟨ax, a1, a2⟩ := hg.spatial rfl d hd
    have e1 : lo[d]? = some lo[d] := List.getElem?_eq_getElem (by omega)
    have e2 : hi[d]? = some hi[d] := List.getElem?_eq_getElem (by omega)
    have e3 : shape[d]? = some shape[d] := List.getElem?_eq_getElem hd
    obtain ⟨b1, b2⟩ := hb d _ _ _ e1 e2 e3
    refine ⟨ax, _, _, _, a1, e1, e2, e3, ?_, b1, b2, a2⟩
    have := hg.sound.ok.lengths
    rw [hg.size] at this
    have k : (f.axes.map (·.len))[d]? = some ax.len := by rw [List.getElem?_map, a1]; rfl
    rw [this, e3] at k
    exact (Option.some.inj k).symm
  have hkey : ∀ (d : ℕ) (ax : Axis ℝ) (k : Key ℝ), f.axes[d]? = some ax → ((partSlices lo hi).map Key.slice)[d]? = some k →
      ∃ s t : ℕ, lo[d]? = some s ∧ hi[d]? = some t ∧ s + 2 ≤ t ∧ t ≤ ax.len ∧
        k = .slice ⟨some (s : ℤ), some (t : ℤ), false⟩ := by
    intro d ax k hax hk
    have hd : d < shape.length := by
      have := (List.getElem?_eq_some_iff.1 hax).1
      rwa [ok_axes_length hg.sound.ok, hg.size] at this
    obtain ⟨ax', s, t, n, c1, c2, c3, c4, c5, c6, c7, c8⟩ := hall d hd
    rw [hax] at c1
    cases c1
    refine ⟨s, t, c2, c3, c6, by omega, ?_⟩
    unfold partSlices at hk
    rw [List.getElem?_map, List.getElem?_zipWith, c2, c3] at hk
    exact (Option.some.inj hk).symm
  obtain ⟨r, sels, g1, g2, g3, g4, g5, g6, g7, g8, g9, g10, g11⟩ := getitem_sound spl hg.sound
    ((partSlices lo hi).map Key.slice) (by
      rw [hg.size]
      simp [partSlices, hlo, hhi]) (by rw [hg.size]; exact hg.three) (by
      intro d ax k hax hk
      obtain ⟨s, t, -, -, h1, h2, rfl⟩ := hkey d ax k hax hk
      refine ⟨rfl, ?_, ?_, ?_⟩
      · intro i hi
        cases hi
        omega
      · intro h0
        have := Option.some.inj h0
        omega
      · rw [Compat.sliceFwd_range _ _ _ h2]
        intro h0
        have := congrArg List.length h0
        simp at this
        omega)
  have hsels : sels = List.zipWith Sel.part lo hi := by
    apply List.ext_getElem?
    intro d
    by_cases hd : d < shape.length
    · obtain ⟨ax, s, t, n, c1, c2, c3, c4, c5, c6, c7, c8⟩ := hall d hd
      obtain ⟨sel, hsel⟩ : ∃ sel, sels[d]? = some sel := ⟨_, List.getElem?_eq_getElem (by rw [g3, hg.size]; exact hd)⟩
      have hk : ((partSlices lo hi).map (Key.slice (K := ℝ)))[d]? = some (.slice ⟨some (s : ℤ), some (t : ℤ), false⟩) := by
        unfold partSlices
        rw [List.getElem?_map, List.getElem?_zipWith, c2, c3]
        rfl
      have hm := g4 d ax _ sel c1 hk hsel
      rw [hsel, List.getElem?_zipWith, c2, c3]
      cases sel with
      | one k => exact absurd hm (by simp [KeyMeans])
      | part m q =>
        simp only [KeyMeans] at hm
        rw [Compat.sliceFwd_range _ _ _ (by omega)] at hm
        have hlen := congrArg List.length hm
        have hhead := congrArg (fun l => l[0]?) hm
        simp only [List.length_drop, List.length_range] at hlen
        simp only [List.getElem?_drop] at hhead
        rw [List.getElem?_range (by omega), List.getElem?_range (by omega)] at hhead
        have h0 := Option.some.inj hhead
        have hm' : m = s := by omega
        have hq' : q = t := by omega
        rw [hm', hq']
    · rw [List.getElem?_eq_none (by rw [g3, hg.size]; omega), List.getElem?_eq_none (by simp; omega)]
  subst hsels
  have hno : ∀ b ∈ List.zipWith Sel.part lo hi, b.isOne = false := by
    intro b hb
    obtain ⟨d, hd, rfl⟩ := List.getElem_of_mem hb
    rw [List.getElem_zipWith]
    rfl
  have hzl : (List.zipWith Sel.part lo hi).length = shape.length := by simp [hlo, hhi]
  have hal : f.axes.length = shape.length := by rw [ok_axes_length hg.sound.ok, hg.size]
  rw [unflagged_none _ _ _ hno (by rw [List.length_zip, hzl, hal, min_self])] at g8
  rw [unflagged_none _ _ _ hno (by rw [hzl, hg.sound.ok.states, hg.size])] at g9
  rw [unflagged_none _ _ _ hno (by rw [hzl, hg.sound.ok.origins, hg.size])] at g10
  rw [selShape_parts _ _ (by omega)] at g7
  have hnl : (List.zipWith (fun s t => t - s) lo hi).length = shape.length := by simp [hlo, hhi]
  refine ⟨r, g1, ⟨g2, g7, ?_, ?_, ?_, ?_, ?_, ?_, by simp⟩, ⟨?_, g5, g6, g9, g10⟩⟩
  · intro h0
    rw [h0] at hnl
    exact hg.some_dim (List.length_eq_zero_iff.1 hnl.symm)
  · rw [hnl]
    exact hg.three
  · intro n hn
    obtain ⟨d, hd, rfl⟩ := List.getElem_of_mem hn
    rw [List.getElem_zipWith]
    have hd' : d < shape.length := by omega
    have := hb d _ _ _ (List.getElem?_eq_getElem (by omega)) (List.getElem?_eq_getElem (by omega))
      (List.getElem?_eq_getElem hd')
    omega
  · rw [hnl]
    exact hg.pos
  · rw [hnl, g9]
    exact hg.states
  · intro _ d hd
    rw [hnl] at hd
    obtain ⟨ax, s, t, n, c1, c2, c3, c4, c5, c6, c7, c8⟩ := hall d hd
    have hz : (f.axes.zip (List.zipWith Sel.part lo hi))[d]? = some (ax, .part s t) := by
      rw [List.getElem?_zip_eq_some]
      refine ⟨c1, ?_⟩
      rw [List.getElem?_zipWith, c2, c3]
    have hra : r.axes.length = shape.length := by
      rw [← g8.length_eq, List.length_zip, hzl, hal, min_self]
    have hr : r.axes[d]? = some r.axes[d] := List.getElem?_eq_getElem (by omega)
    have hsub : SubAxis (ax, .part s t) r.axes[d] := by
      have := (List.forall₂_iff_get.1 g8).2 d (by rw [List.length_zip, hzl, hal, min_self]; exact hd) (by omega)
      simp only [List.get_eq_getElem] at this
      have hz' := (List.getElem?_eq_some_iff.1 hz).2
      rw [hz'] at this
      exact this
    refine ⟨_, hr, ?_⟩
    have := (even_part c8 hsub).1
    rw [List.getD_eq_getElem?_getD, c2]
    have e : x0 d + (s : ℝ) * h d - h d / 2 = x0 d - h d / 2 + s * h d := by ring
    simp only [Option.getD_some]
    rw [e]
    exact this
  · intro idx hidx
    rw [g11 idx hidx, selIdx_parts _ _ _ (by omega)]
    rw [hidx.1, g7, hnl, hlo]

theorem pairsOf_get {α : Type} (l : List α) (d : ℕ) {a b : α} (ha : l[2 * d]? = some a) (hb : l[2 * d + 1]? = some b) :
    (pairsOf l)[d]? = some (a, b) := by
  induction d generalizing l with
  | zero =>
    match l, ha, hb with
    | x :: y :: l, ha, hb =>
      simp at ha hb
      subst ha hb
      rfl
    | [x], ha, hb => simp at hb
  | succ d ih =>
    match l, ha, hb with
    | x :: y :: l, ha, hb =>
      show (pairsOf l)[d]? = _
      exact ih l (by simpa [Nat.mul_add] using ha) (by simpa [Nat.mul_add] using hb)
    | [x], ha, hb => simp [Nat.mul_add] at hb
    | [], ha, hb => simp at hb

theorem pairsOf_length {α : Type} (N : ℕ) (l : List α) (h : l.length = 2 * N) : (pairsOf l).length = N := by
  induction N generalizing l with
  | zero =>
    cases l
    · rfl
    · simp at h
  | succ N ih =>
    match l, h with
    | x :: y :: l, h =>
      show (pairsOf l).length + 1 = _
      rw [ih l (by simp at h; omega)]
    | [x], h => simp at h; omega
    | [], h => simp at h

/-- The slices for the limits. -/
theorem OnGrid.slices (hg : OnGrid f shape false x0 h) {ext : List ℝ} (he : ExtentFits ext shape x0 h) :
    ∃ lo hi : List ℕ, lo.length = shape.length ∧ hi.length = shape.length ∧ f.extentToSlices ext = .ok (partSlices lo hi) ∧
      (∀ (d s t n : ℕ), lo[d]? = some s → hi[d]? = some t → shape[d]? = some n → s + 2 ≤ t ∧ t ≤ n) ∧
      PointsWithin ext shape lo (List.zipWith (fun s t => t - s) lo hi) x0 h := by
  have hlim : ∀ d < shape.length, ∃ a b, ext[2 * d]? = some a ∧ ext[2 * d + 1]? = some b := fun d hd =>
    ⟨_, _, List.getElem?_eq_getElem (by rw [he.count]; omega), List.getElem?_eq_getElem (by rw [he.count]; omega)⟩
  have hone : ∀ d, ∃ s t : ℕ, d < shape.length → ∃ (ax : Axis ℝ) (a b : ℝ), f.axes[d]? = some ax ∧ ext[2 * d]? = some a ∧
      ext[2 * d + 1]? = some b ∧ ax.extentToSlice (some a) (some b) = .ok ⟨some (s : ℤ), some (t : ℤ), false⟩ ∧
      s + 2 ≤ t ∧ t ≤ shape.getD d 0 ∧
      ∀ i : ℕ, i < shape.getD d 0 → ((s ≤ i ∧ i < t) ↔ (a ≤ x0 d + i * h d ∧ x0 d + i * h d < b)) := by
    intro d
    by_cases hd : d < shape.length
    · obtain ⟨a, b, ha, hb⟩ := hlim d hd
      obtain ⟨ax, c1, c2⟩ := hg.spatial rfl d hd
      have hpos := hg.pos d hd
      have hn : ax.len = shape.getD d 0 := by
        have := hg.sound.ok.lengths
        rw [hg.size] at this
        rw [← this, List.getD_eq_getElem?_getD, List.getElem?_map, c1]
        rfl
      have hv := hg.sound.valid ax (List.mem_of_getElem? c1)
      have hev := even_iff.1 c2
      obtain ⟨i, hi, i1, i2⟩ := he.points d a b ha hb
      have hgrid : ∀ j : ℕ, j < ax.len → ax.grid[j]? = some (x0 d + j * h d) := by
        intro j hj
        rw [hev.2.1, ap_get _ _ _ _ hj]
        congr 1
        ring
      have hx : ax.extent = (x0 d - h d / 2, x0 d + (((shape.getD d 0 : ℕ) : ℝ) - 1 / 2) * h d) := by
        rw [hev.2.2, hn]
        congr 1
        ring
      have hlt : x0 d + (i : ℝ) * h d < x0 d + (i + 1 : ℕ) * h d := by
        push_cast
        linarith
      have hnn : (1 : ℝ) ≤ (shape.getD d 0 : ℕ) := by exact_mod_cast (by omega : 1 ≤ shape.getD d 0)
      have hk : KeyOk ax (.range (some a) (some b)) := by
        simp only [KeyOk, Option.getD_some, hx]
        left
        refine ⟨?_, by linarith, he.inside d a b ha hb, _, List.mem_of_getElem? (hgrid i (by omega)), i1, by linarith⟩
        nlinarith
      obtain ⟨s, t, e1, e2, e3, e4⟩ := range_numbers hv hk
      have hmean : ∀ j : ℕ, j < shape.getD d 0 → ((s ≤ j ∧ j < t) ↔ (a ≤ x0 d + j * h d ∧ x0 d + j * h d < b)) := by
        intro j hj
        have := e2 j _ (hgrid j (by omega))
        simp only [Option.getD_some] at this
        rw [this]
        constructor
        · rintro (h' | h')
          · exact h'
          · exfalso
            linarith
        · exact Or.inl
      have m1 := (hmean i (by omega)).2 ⟨i1, by linarith⟩
      have m2 := (hmean (i + 1) hi).2 ⟨by linarith, i2⟩
      exact ⟨s, t, fun _ => ⟨ax, a, b, c1, ha, hb, e1, by omega, by omega, hmean⟩⟩
    · exact ⟨0, 0, fun h => absurd h hd⟩
  choose s t hst using hone
  have hget : ∀ (u : ℕ → ℕ) (d : ℕ), d < shape.length → ((List.range shape.length).map u)[d]? = some (u d) := by
    intro u d hd
    rw [List.getElem?_map, List.getElem?_range hd]
    rfl
  refine ⟨(List.range shape.length).map s, (List.range shape.length).map t, by simp, by simp, ?_, ?_, ?_⟩
  · unfold Field.extentToSlices
    have hdims : f.dims = (shape.length : ℤ) := by
      have h1 := hg.size
      have h2 := hg.some_dim
      have h3 := dims_sound hg.sound
      rw [hg.size] at h3
      have h4 : 0 < shape.length := List.length_pos_iff.2 h2
      omega
    rw [if_neg (by rw [hdims, he.count]; push_cast; omega)]
    have hal : f.axes.length = shape.length := by rw [ok_axes_length hg.sound.ok, hg.size]
    have hpl := pairsOf_length shape.length ext he.count
    apply mapM_of_forall2
    rw [List.forall₂_iff_get]
    refine ⟨by simp [partSlices, hal, hpl], ?_⟩
    intro d h1 h2
    have hd : d < shape.length := by simpa [hal, hpl] using h1
    obtain ⟨ax, a, b, c1, c2, c3, c4, -⟩ := hst d hd
    have hz : (f.axes.zip (pairsOf ext))[d]? = some (ax, (a, b)) :=
      List.getElem?_zip_eq_some.2 ⟨c1, pairsOf_get ext d c2 c3⟩
    simp only [List.get_eq_getElem, (List.getElem?_eq_some_iff.1 hz).2, c4, partSlices, List.getElem_zipWith,
      List.getElem_map, List.getElem_range]
  · intro d s' t' n h1 h2 h3
    have hd := (List.getElem?_eq_some_iff.1 h3).1
    rw [hget _ _ hd] at h1 h2
    obtain rfl := Option.some.inj h1
    obtain rfl := Option.some.inj h2
    obtain ⟨ax, a, b, c1, c2, c3, c4, c5, c6, -⟩ := hst d hd
    rw [List.getD_eq_getElem?_getD, h3] at c6
    exact ⟨c5, c6⟩
  · intro d a b i ha hb hi
    have hd : d < shape.length := by
      by_contra hd
      rw [List.getD_eq_default _ _ (not_lt.1 hd)] at hi
      omega
    obtain ⟨ax, a', b', c1, c2, c3, c4, c5, c6, c7⟩ := hst d hd
    rw [ha] at c2
    rw [hb] at c3
    cases c2
    cases c3
    rw [List.getD_eq_getElem?_getD, List.getD_eq_getElem?_getD, List.getElem?_zipWith, hget _ _ hd, hget _ _ hd]
    simp only [Option.getD_some]
    rw [← c7 i hi]
    omega

/-- Changing to the spatial domain keeps the grid. -/
theorem OnGrid.ensureSpatial {state : Bool} {spl : Splines ℝ} (hspl : ExactOnEven spl) (hg : OnGrid f shape state x0 h) :
    ∃ S, f.ensureTransformState spl (.all false) = .ok S ∧ OnGrid S shape false x0 h ∧ (state = false → S = f) := by
  unfold Field.ensureTransformState
  rw [hg.toTransform_eq]
  cases state with
  | false => exact ⟨f, rfl, hg, fun _ => rfl⟩
  | true =>
    obtain ⟨S, h1, h2⟩ := hg.fftBack hspl
    refine ⟨S, ?_, h2, by simp⟩
    simp only [bind, Except.bind, Bool.true_eq_false, if_false]
    rw [if_neg (by simpa using hg.range_ne), ← fft_none hg]
    exact h1

theorem lookup_mapped {α β : Type} (l : List (String × α)) (φ : α → β) (k : String) :
    (l.map fun q => (q.1, φ q.2)).lookup k = (l.lookup k).map φ := by
  induction l with
  | nil => rfl
  | cons q l ih =>
    rw [List.map_cons, List.lookup_cons, List.lookup_cons]
    cases k == q.1
    · exact ih
    · rfl

open Classical in
/-- All fields are cut with the limits of the component. -/
theorem applyExtent_ok {spl : Splines ℝ} (hspl : ExactOnEven spl) {fields : List (String × Field ℝ ℂ)} {component : String}
    {main : Field ℝ ℂ} {state : Bool} (hmain : fields.lookup component = some main) (hg : OnGrid main shape state x0 h)
    (hall : ∀ q ∈ fields, ∃ s a b, OnGrid q.2 shape s a b) {ext : List ℝ} (he : ExtentFits ext shape x0 h) :
    ∃ (lo n : List ℕ) (φ : Field ℝ ℂ → Field ℝ ℂ), lo.length = shape.length ∧ n.length = shape.length ∧
      PointsWithin ext shape lo n x0 h ∧ applyExtent spl component fields ext = .ok (fields.map fun q => (q.1, φ q.2)) ∧
      ∀ (g : Field ℝ ℂ) (s : Bool) (a b : ℕ → ℝ), OnGrid g shape s a b → ∃ S, g.ensureTransformState spl (.all false) = .ok S ∧
        OnGrid S shape false a b ∧ (s = false → S = g) ∧ PartOf S (φ g) lo ∧
        OnGrid (φ g) n false (fun d => a d + lo.getD d 0 * b d) b := by
  obtain ⟨S, s1, s2, s3⟩ := hg.ensureSpatial hspl
  obtain ⟨lo, hi, l1, l2, l3, l4, l5⟩ := s2.slices he
  have hcut : ∀ (g : Field ℝ ℂ), ∃ S φ, ∀ (s : Bool) (a b : ℕ → ℝ), OnGrid g shape s a b →
      g.ensureTransformState spl (.all false) = .ok S ∧ OnGrid S shape false a b ∧ (s = false → S = g) ∧
      S.getitem spl ((partSlices lo hi).map Key.slice) = .ok φ ∧
      OnGrid φ (List.zipWith (fun s t => t - s) lo hi) false (fun d => a d + lo.getD d 0 * b d) b ∧ PartOf S φ lo := by
    intro g
    by_cases hgg : ∃ s a b, OnGrid g shape s a b
    · obtain ⟨s, a, b, hgg⟩ := hgg
      obtain ⟨S, u1, u2, u3⟩ := hgg.ensureSpatial hspl
      obtain ⟨φ, v1, v2, v3⟩ := u2.cut spl l1 l2 l4
      refine ⟨S, φ, ?_⟩
      intro s' a' b' hgg'
      obtain ⟨S', u1', u2', u3'⟩ := hgg'.ensureSpatial hspl
      obtain rfl := Except.ok.inj (u1.symm.trans u1')
      obtain ⟨φ', v1', v2', v3'⟩ := u2'.cut spl l1 l2 l4
      obtain rfl := Except.ok.inj (v1.symm.trans v1')
      exact ⟨u1, u2', u3', v1, v2', v3⟩
    · exact ⟨g, g, fun s a b h' => absurd ⟨s, a, b, h'⟩ hgg⟩
  choose σ φ hφ using hcut
  refine ⟨lo, List.zipWith (fun s t => t - s) lo hi, φ, l1, by simp [l1, l2], l5, ?_, ?_⟩
  · unfold applyExtent
    have h1 : (fields.mapM fun q => do
        let g ← q.2.ensureTransformState spl (.all false)
        return (q.1, g)) = (.ok (fields.map fun q => (q.1, σ q.2)) : Res _) := by
      apply mapM_of_forall2
      rw [List.forall₂_map_right_iff, List.forall₂_same]
      intro q hq
      obtain ⟨s, a, b, hgq⟩ := hall q hq
      rw [(hφ q.2 s a b hgq).1]
      rfl
    rw [h1]
    simp only [bind, Except.bind]
    unfold cutFields
    rw [lookup_mapped, hmain]
    have hS : σ main = S := Except.ok.inj ((hφ main _ _ _ hg).1.symm.trans s1)
    simp only [Option.map_some, hS, l3, bind, Except.bind]
    apply mapM_of_forall2
    rw [List.forall₂_map_left_iff, List.forall₂_map_right_iff, List.forall₂_same]
    intro q hq
    obtain ⟨s, a, b, hgq⟩ := hall q hq
    simp only [(hφ q.2 s a b hgq).2.2.2.1]
    rfl
  · intro g s a b hgg
    obtain ⟨h1, h2, h3, h4, h5, h6⟩ := hφ g s a b hgg
    exact ⟨σ g, h1, h2, h3, h6, h5⟩

end Postpic.Spec
