import Mathlib.Tactic.Ring
import Mathlib.Tactic.FieldSimp
import Mathlib.Tactic.Linarith
import Mathlib.Algebra.Order.Floor.Ring
import Verif.Spec.FieldResolution
import Verif.Lemmas.FieldReduce

/-!
# Lemmas about evenly spaced axes, padding, derivatives and resolution
-/

set_option autoImplicit false
set_option linter.unusedSectionVars false

namespace Postpic.Fields

open Postpic Postpic.Axes Postpic.Spec

section
variable {K : Type} [_root_.Field K] [LinearOrder K] [IsStrictOrderedRing K]

/-- `m` numbers starting at `a` with step `h`. -/
def ap (a h : K) (m : ℕ) : List K := (List.range m).map fun (i : ℕ) => a + (i : K) * h

theorem ap_length (a h : K) (m : ℕ) : (ap a h m).length = m := by simp [ap]

theorem ap_get (a h : K) (m i : ℕ) (hi : i < m) : (ap a h m)[i]? = some (a + i * h) := by
  simp [ap, hi]

theorem ap_ext {l : List K} {a h : K} {m : ℕ} (h1 : l.length = m)
    (h2 : ∀ i < m, l[i]? = some (a + i * h)) : l = ap a h m := by
  apply List.ext_getElem?
  intro i
  by_cases hi : i < m
  · rw [h2 i hi, ap_get _ _ _ _ hi]
  · rw [List.getElem?_eq_none (by omega), List.getElem?_eq_none (by rw [ap_length]; omega)]

theorem centers_ap (a h : K) (m : ℕ) :
    ((List.range m).map fun (i : ℕ) => a + ((i : K) + 1 / 2) * h) = ap (a + h / 2) h m := by
  apply ap_ext (by simp)
  intro i hi
  simp [hi]
  ring

theorem even_iff {ax : Axis K} {e0 h : K} : EvenAxis ax e0 h ↔
    ax.gridNode = ap e0 h (ax.len + 1) ∧ ax.grid = ap (e0 + h / 2) h ax.len ∧
      ax.extent = (e0, e0 + (ax.len : K) * h) := by
  constructor
  · rintro ⟨h1, h2, h3⟩
    exact ⟨h1, h2.trans (centers_ap _ _ _), h3⟩
  · rintro ⟨h1, h2, h3⟩
    exact ⟨h1, h2.trans (centers_ap _ _ _).symm, h3⟩

theorem linspace_ap (a b : K) (m : ℕ) : linspace a b (m + 1) = ap a ((b - a) / (m : K)) (m + 1) := by
  simp [linspace, ap]

theorem mids_ap (a h : K) (m : ℕ) : mids (ap a h (m + 1)) = ap (a + h / 2) h m := by
  apply ap_ext
  · simp [mids_length, ap_length]
  · intro i hi
    rw [mids_get _ i _ _ (ap_get _ _ _ _ (by omega)) (ap_get _ _ _ _ (by omega))]
    push_cast
    congr 1
    field_simp
    ring

theorem ap_head (a h : K) (m : ℕ) : (ap a h (m + 1)).head? = some a := by
  rw [List.head?_eq_getElem?, ap_get _ _ _ _ (by omega)]
  simp

theorem ap_last (a h : K) (m : ℕ) : (ap a h (m + 1)).getLast? = some (a + m * h) := by
  rw [List.getLast?_eq_getElem?, ap_length, ap_get _ _ _ _ (by omega)]
  simp

theorem ap_inner (a h : K) (m : ℕ) : (ap a h (m + 2)).tail.dropLast = ap (a + h) h m := by
  apply ap_ext
  · simp [ap_length]
  · intro i hi
    rw [List.getElem?_dropLast, List.getElem?_tail, List.length_tail, ap_length,
      if_pos (by omega), ap_get _ _ _ _ (by omega)]
    push_cast
    congr 1
    ring

theorem ap_mono (a : K) {h : K} (hh : 0 < h) (m : ℕ) : (ap a h m).Pairwise (· < ·) := by
  unfold ap
  rw [List.pairwise_map]
  refine List.pairwise_lt_range.imp ?_
  intro i j hij
  have : (i : K) < j := by exact_mod_cast hij
  have := mul_lt_mul_of_pos_right this hh
  linarith

theorem even_valid {ax : Axis K} {e0 h : K} (he : EvenAxis ax e0 h) (hh : 0 < h) :
    ValidAxis ax.gridNode ax.grid ax.extent := by
  obtain ⟨h1, h2, h3⟩ := even_iff.1 he
  refine ⟨?_, ?_, ?_⟩
  · rw [h1, h2, wf_iff, ← mids_ap]
    left
    exact interleave_mids mid_lt (mono_of_pairwise (ap_mono _ hh _))
      (by intro hn; have := congrArg List.length hn; simp [ap_length] at this)
  · rw [h1, h3, ap_head]
  · rw [h1, h3, ap_last]

theorem isclose_self (a : K) : isclose a a = true := by
  simp only [isclose, sub_self, abs_zero, decide_eq_true_eq]
  positivity

theorem even_linear {ax : Axis K} {e0 h : K} (he : EvenAxis ax e0 h) : ax.isLinear = true := by
  obtain ⟨h1, h2, h3⟩ := even_iff.1 he
  unfold Axis.isLinear
  split_ifs with hlen
  · rfl
  · unfold isLinearList
    rw [h1, ap_head, ap_last]
    simp only
    rw [ap_length, linspace_ap]
    have hne : (ax.len : K) ≠ 0 := by
      have : ax.len ≠ 0 := by omega
      exact_mod_cast this
    have : (e0 + (ax.len : K) * h - e0) / (ax.len : K) = h := by
      field_simp
      ring
    rw [this, List.all_eq_true]
    intro p hp
    have hpp : p.1 = p.2 := by
      obtain ⟨i, hi, rfl⟩ := List.mem_iff_getElem.1 hp
      simp
    rw [hpp]
    exact isclose_self _

theorem even_spacing {ax : Axis K} {e0 h : K} (he : EvenAxis ax e0 h) (hh : 0 < h) (hn : 0 < ax.len) :
    ax.spacing = .ok h := by
  obtain ⟨h1, h2, h3⟩ := even_iff.1 he
  have hl := even_linear he
  unfold Axis.spacing
  rw [hl]
  obtain ⟨m, hm⟩ : ∃ m, ax.len = m + 1 := ⟨ax.len - 1, by omega⟩
  have e : ax.gridNode = e0 :: (e0 + h) :: (ap e0 h (ax.len + 1)).tail.tail := by
    rw [h1, hm]
    simp [ap, List.range_succ_eq_map]
  rw [e]
  simp [abs_of_pos hh]

/-- The axis with the given cells. -/
def evenAxisOf (name unit : String) (e0 h : K) (n : ℕ) : Axis K :=
  ⟨name, unit, ap e0 h (n + 1), ap (e0 + h / 2) h n, (e0, e0 + n * h)⟩

theorem evenAxisOf_even (name unit : String) (e0 h : K) (n : ℕ) :
    EvenAxis (evenAxisOf name unit e0 h n) e0 h := by
  rw [even_iff]
  have : (evenAxisOf name unit e0 h n).len = n := ap_length _ _ _
  rw [this]
  exact ⟨rfl, rfl, rfl⟩

theorem mkAxis_even {spl : Splines K} (hspl : ExactOnEven spl) (name unit : String) {e0 e1 h : K}
    {n : ℕ} (hn : 0 < n) (he : e1 = e0 + n * h) :
    mkAxis spl { name := name, unit := unit, extent := some (e0, e1), n := some (n : ℤ) } =
      .ok (evenAxisOf name unit e0 h n) := by
  have hnk : (n : K) ≠ 0 := by exact_mod_cast hn.ne'
  have hlin : linspace e0 e1 (n + 1) = ap e0 h (n + 1) := by
    rw [linspace_ap, he]
    congr 1
    field_simp
    ring
  have hg : gridOfNodes spl (ap e0 h (n + 1)) = .ok (ap (e0 + h / 2) h n) := by
    unfold gridOfNodes
    split_ifs with h3
    · have := hspl.centers e0 h n hn
      rw [centers_ap] at this
      rw [← this]
      rfl
    · have hl := ap_length e0 h (n + 1)
      rw [← mids_ap]
      match hx : ap e0 h (n + 1), hl with
      | a :: b :: l, _ => rfl
      | [a], hl => simp at hl; omega
  have e2 : ((n : ℤ) + 1).toNat = n + 1 := by omega
  have e3 : ¬ ((n : ℤ) + 1 < 0) := by omega
  simp only [mkAxis, bind, Except.bind, pure, Except.pure, if_neg e3, e2, hlin, hg, ap_head, ap_last]
  simp [he, ap_length, evenAxisOf]

end

/-! ### Padding -/

section
variable {K V : Type} [_root_.Field K] [LinearOrder K] [IsStrictOrderedRing K] [FloorRing K]

theorem width_num {h : K} (hh : 0 < h) {w : PadWidth K} {p : ℕ} (hw : MeansCells h w p) :
    w.num h = p := by
  cases w with
  | cells n => exact hw
  | length l =>
    obtain ⟨h1, h2⟩ := hw
    show ⌈l / h⌉ = (p : ℤ)
    rw [Int.ceil_eq_iff]
    push_cast
    rw [lt_div_iff₀ hh, div_le_iff₀ hh]
    exact ⟨h1, h2⟩

/-- The padded axis. -/
def paddedAxis (ax : Axis K) (e0 h : K) (p : ℕ × ℕ) : Axis K :=
  if p.1 + p.2 = 0 then ax
  else evenAxisOf ax.name ax.unit (e0 - p.1 * h) h (p.1 + ax.len + p.2)

theorem padAxis_even {spl : Splines K} (hspl : ExactOnEven spl) {ax : Axis K} {e0 h : K}
    (he : EvenAxis ax e0 h) (hh : 0 < h) (hn : 0 < ax.len) (o : Option K)
    {w : PadWidth K × PadWidth K} {p : ℕ × ℕ} (h1 : MeansCells h w.1 p.1)
    (h2 : MeansCells h w.2 p.2) :
    padAxis spl ax o w = .ok (paddedAxis ax e0 h p, if p.1 + p.2 = 0 then o else none,
      ((p.1 : ℤ), (p.2 : ℤ))) := by
  obtain ⟨e1, e2, e3⟩ := even_iff.1 he
  unfold padAxis
  rw [even_spacing he hh hn]
  simp only [bind, Except.bind]
  rw [width_num hh h1, width_num hh h2]
  by_cases hz : p.1 + p.2 = 0
  · rw [if_pos (by omega), if_pos hz]
    simp [paddedAxis, hz, pure, Except.pure]
  · rw [if_neg (by omega), if_neg hz]
    have hlen : (ax.gridNode.length : ℤ) - 1 + p.1 + p.2 = ((p.1 + ax.len + p.2 : ℕ) : ℤ) := by
      rw [e1, ap_length]
      push_cast
      ring
    rw [hlen, e3]
    have := mkAxis_even hspl ax.name ax.unit (e0 := e0 - ((p.1 : ℤ) : K) * h)
      (e1 := e0 + (ax.len : K) * h + ((p.2 : ℤ) : K) * h) (h := h) (n := p.1 + ax.len + p.2)
      (by omega) (by push_cast; ring)
    simp only
    rw [this]
    simp only [paddedAxis, if_neg hz, pure, Except.pure, Int.cast_natCast]

theorem paddedAxis_even {ax : Axis K} {e0 h : K} (he : EvenAxis ax e0 h) (p : ℕ × ℕ) :
    EvenAxis (paddedAxis ax e0 h p) (e0 - p.1 * h) h ∧
      (paddedAxis ax e0 h p).len = p.1 + ax.len + p.2 ∧
      (paddedAxis ax e0 h p).name = ax.name ∧ (paddedAxis ax e0 h p).unit = ax.unit := by
  unfold paddedAxis
  split_ifs with hz
  · obtain ⟨h1, h2⟩ : p.1 = 0 ∧ p.2 = 0 := by omega
    refine ⟨?_, by omega, rfl, rfl⟩
    rw [h1]
    simpa using he
  · exact ⟨evenAxisOf_even _ _ _ _ _, ap_length _ _ _, rfl, rfl⟩

theorem even_shift {ax ax' : Axis K} {e0 h : K} {p : ℕ} (he : EvenAxis ax e0 h)
    (he' : EvenAxis ax' (e0 - p * h) h) {i : ℕ} (hi : i < ax.len) (hi' : p + i < ax'.len) :
    ax'.grid[p + i]? = ax.grid[i]? := by
  obtain ⟨_, e2, _⟩ := even_iff.1 he
  obtain ⟨_, e2', _⟩ := even_iff.1 he'
  rw [e2, e2', ap_get _ _ _ _ hi, ap_get _ _ _ _ hi']
  push_cast
  congr 1
  ring

theorem pad_sound {spl : Splines K} (hspl : ExactOnEven spl) {f : Field K V} (hf : f.Sound)
    (hne : f.shape ≠ [])
    {w : List (PadWidth K × PadWidth K)} {p : List (ℕ × ℕ)} {eh : List (K × K)}
    (hw : w.length = f.shape.length) (hp : p.length = f.shape.length)
    (heh : eh.length = f.shape.length)
    (h : ∀ (d : ℕ) (ax : Axis K) (wd : PadWidth K × PadWidth K) (pd : ℕ × ℕ) (x : K × K),
      f.axes[d]? = some ax → w[d]? = some wd → p[d]? = some pd → eh[d]? = some x →
      EvenAxis ax x.1 x.2 ∧ 0 < x.2 ∧ MeansCells x.2 wd.1 pd.1 ∧ MeansCells x.2 wd.2 pd.2) (c : V) :
    ∃ r, f.pad spl w c = .ok r ∧ r.name = f.name ∧ r.unit = f.unit ∧ r.ats = f.ats ∧
      r.matrix = f.matrix.pad p c ∧ r.axes.length = f.axes.length ∧
      ∀ (d : ℕ) (ax : Axis K) (pd : ℕ × ℕ) (x : K × K),
        f.axes[d]? = some ax → p[d]? = some pd → eh[d]? = some x →
        r.axes[d]? = some (paddedAxis ax x.1 x.2 pd) ∧
        r.tao[d]? = (f.tao[d]?).map fun o => if pd.1 + pd.2 = 0 then o else none := by
  have hl := ok_axes_length hf.ok
  have ht := hf.ok.origins
  let R : List (Axis K × Option K × (ℤ × ℤ)) := (List.range f.shape.length).pmap
    (fun d (hd : d < f.shape.length) =>
      (paddedAxis f.axes[d] eh[d].1 eh[d].2 p[d], if p[d].1 + p[d].2 = 0 then f.tao[d] else none,
        ((p[d].1 : ℤ), (p[d].2 : ℤ)))) (fun d hd => by simpa using hd)
  have hRl : R.length = f.shape.length := by simp [R]
  have hRd : ∀ d (hd : d < f.shape.length), R[d]? = some
      (paddedAxis f.axes[d] eh[d].1 eh[d].2 p[d], if p[d].1 + p[d].2 = 0 then f.tao[d] else none,
        ((p[d].1 : ℤ), (p[d].2 : ℤ))) := by
    intro d hd
    simp [R, hd]
  have hmap : ((f.axes.zip f.tao).zip w).mapM (fun q => padAxis spl q.1.1 q.1.2 q.2) = .ok R := by
    apply mapM_of_forall2
    rw [List.forall₂_iff_get]
    refine ⟨by simp [hRl, hl, ht, hw], ?_⟩
    intro d h1 h2
    have hd : d < f.shape.length := hRl ▸ h2
    obtain ⟨a1, a2, a3, a4⟩ := h d f.axes[d] w[d] p[d] eh[d] (List.getElem?_eq_getElem _)
      (List.getElem?_eq_getElem _) (List.getElem?_eq_getElem _) (List.getElem?_eq_getElem _)
    have hpos : 0 < f.axes[d].len := by
      apply Nat.pos_of_ne_zero
      intro h0
      apply hf.nonempty
      rw [← hf.ok.lengths, List.mem_map]
      exact ⟨f.axes[d], List.getElem_mem _, h0⟩
    have := padAxis_even hspl a1 a2 hpos f.tao[d] a3 a4
    have hR := hRd d hd
    rw [List.getElem?_eq_getElem h2, Option.some.injEq] at hR
    simp only [List.get_eq_getElem, List.getElem_zip]
    rw [hR, this]
  have hany : (R.any fun q => decide (q.2.2.1 < 0 ∨ q.2.2.2 < 0)) = false := by
    rw [List.any_eq_false]
    intro q hq
    obtain ⟨d, hd, rfl⟩ := List.mem_iff_getElem.1 hq
    have hR := hRd d (hRl ▸ hd)
    rw [List.getElem?_eq_getElem hd, Option.some.injEq] at hR
    rw [hR]
    simp
  have hw' : ¬ ((w.length : ℤ) ≠ f.dims) := by
    rw [dims_sound hf, hw]
    simp
  have hpR : (R.map fun q => (q.2.2.1.toNat, q.2.2.2.toNat)) = p := by
    apply List.ext_getElem?
    intro d
    rw [List.getElem?_map]
    by_cases hd : d < f.shape.length
    · rw [hRd d hd, List.getElem?_eq_getElem (by omega)]
      simp
    · rw [List.getElem?_eq_none (by omega), List.getElem?_eq_none (by omega)]
      rfl
  refine ⟨{ f with matrix := f.matrix.pad p c, axes := R.map (·.1), tao := R.map (·.2.1) }, ?_, rfl,
    rfl, rfl, rfl, by simp [hRl, hl], ?_⟩
  · have hz : ¬ f.axes = [] := fun h0 => hne (List.length_eq_zero_iff.1 (by rw [← hl, h0]; rfl))
    unfold Field.pad
    rw [if_neg hz]
    simp only [if_neg hw']
    rw [hmap]
    simp only [bind, Except.bind]
    rw [hany]
    simp only [Bool.false_eq_true, if_false]
    rw [hpR]
    rfl
  · intro d ax pd x hax hpd hx
    have hd : d < f.shape.length := by
      have := (List.getElem?_eq_some_iff.1 hax).1
      omega
    rw [List.getElem?_eq_getElem (by omega), Option.some.injEq] at hax hpd hx
    subst hax hpd hx
    simp only
    rw [List.getElem?_map, List.getElem?_map, hRd d hd, List.getElem?_eq_getElem (by omega)]
    exact ⟨rfl, rfl⟩

theorem zip_all_iff {idx : List ℕ} {p : List (ℕ × ℕ)} {s : List ℕ} (_ : idx.length = s.length)
    (_ : p.length = s.length) :
    ((List.zip idx (List.zip p s)).all
        (fun q => decide (q.2.1.1 ≤ q.1 ∧ q.1 < q.2.1.1 + q.2.2))) = true ↔
      ∀ (d i n : ℕ) (q : ℕ × ℕ), idx[d]? = some i → p[d]? = some q → s[d]? = some n →
        q.1 ≤ i ∧ i < q.1 + n := by
  rw [List.all_eq_true]
  constructor
  · intro h d i n q hi hq hn
    have := h (i, q, n) (by
      rw [List.mem_iff_getElem?]
      refine ⟨d, ?_⟩
      rw [List.getElem?_zip_eq_some]
      refine ⟨hi, ?_⟩
      rw [List.getElem?_zip_eq_some]
      exact ⟨hq, hn⟩)
    simpa using this
  · intro h x hx
    rw [List.mem_iff_getElem?] at hx
    obtain ⟨d, hd⟩ := hx
    rw [List.getElem?_zip_eq_some, List.getElem?_zip_eq_some] at hd
    have := h d x.1 x.2.2 x.2.1 hd.1 hd.2.1 hd.2.2
    simpa using this

theorem pad_inside (m : Arr V) {p : List (ℕ × ℕ)} (c : V) (hp : p.length = m.shape.length)
    {idx j : List ℕ} (hj : InBounds m.shape j) (hidx : idx.length = m.shape.length)
    (h : ∀ (d k : ℕ) (q : ℕ × ℕ), j[d]? = some k → p[d]? = some q → idx[d]? = some (q.1 + k)) :
    (m.pad p c).at' idx = m.at' j := by
  simp only [Arr.pad]
  rw [if_pos]
  · congr 1
    apply List.ext_getElem?
    intro d
    rw [List.getElem?_zipWith]
    by_cases hd : d < m.shape.length
    · have hjd : j[d]? = some (j[d]'(by rw [hj.1]; exact hd)) := List.getElem?_eq_getElem _
      have hpd : p[d]? = some (p[d]'(by omega)) := List.getElem?_eq_getElem _
      rw [h d _ _ hjd hpd, hpd, hjd]
      simp
    · rw [List.getElem?_eq_none (by omega), List.getElem?_eq_none (l := j) (by rw [hj.1]; omega)]
  · rw [zip_all_iff hidx hp]
    intro d i n q hi hq hn
    have hd := (List.getElem?_eq_some_iff.1 hn).1
    have hjd : j[d]? = some (j[d]'(by rw [hj.1]; exact hd)) := List.getElem?_eq_getElem _
    have := h d _ _ hjd hq
    rw [hi, Option.some.injEq] at this
    have h2 := hj.2 d _ n hjd hn
    omega

theorem pad_outside (m : Arr V) {p : List (ℕ × ℕ)} (c : V) (hp : p.length = m.shape.length)
    {idx : List ℕ} (hidx : idx.length = m.shape.length)
    (h : ∃ (d i n : ℕ) (q : ℕ × ℕ), idx[d]? = some i ∧ p[d]? = some q ∧ m.shape[d]? = some n ∧
      ¬ (q.1 ≤ i ∧ i < q.1 + n)) :
    (m.pad p c).at' idx = c := by
  simp only [Arr.pad]
  rw [if_neg]
  rw [zip_all_iff hidx hp]
  intro hall
  obtain ⟨d, i, n, q, h1, h2, h3, h4⟩ := h
  exact h4 (hall d i n q h1 h2 h3)

end

/-! ### Halving the resolution -/

theorem evens_get {α : Type} (l : List α) (i : ℕ) : (evens l)[i]? = l[2 * i]? := by
  induction hn : l.length using Nat.strong_induction_on generalizing l i with
  | _ n ih =>
    match l with
    | [] => simp [evens]
    | [a] => cases i <;> simp [evens]
    | a :: b :: l =>
      cases i with
      | zero => simp [evens]
      | succ i =>
        simp only [evens, List.getElem?_cons_succ]
        rw [ih l.length (by simp at hn; omega) l i rfl]
        have : 2 * (i + 1) = 2 * i + 1 + 1 := by ring
        rw [this]
        simp

theorem insertIdx_modify (j : List ℕ) (a i : ℕ) (g : ℕ → ℕ) :
    (j.insertIdx a i).modify a g = j.insertIdx a (g i) := by
  induction a generalizing j with
  | zero => simp
  | succ a ih =>
    cases j with
    | nil => simp
    | cons x j => simp [ih]

section
variable {K V : Type} [_root_.Field K] [LinearOrder K] [IsStrictOrderedRing K] [AddCommGroup V]
  [Module K V]

theorem axisHalf_sound (spl : Splines K) {ax : Axis K} (hv : ValidAxis ax.gridNode ax.grid ax.extent) :
    ∃ ax', ax.halfResolution spl = .ok ax' ∧ ax'.len = ax.len / 2 ∧
      ax'.gridNode = evens ax.gridNode ∧ ax'.name = ax.name ∧ ax'.unit = ax.unit ∧
      ValidAxis ax'.gridNode ax'.grid ax'.extent := by
  obtain ⟨e, h1, h2, h3⟩ := mkAxis_wf spl ax.name ax.unit (wf_half hv.wf)
  refine ⟨_, h1, ?_, rfl, rfl, rfl, ⟨wf_half hv.wf, h2, h3⟩⟩
  simp only [Axis.len, List.length_zipWith, evens_length, List.length_dropLast, List.length_tail]
  omega

theorem half_sound (spl : Splines K) {f : Field K V} (hf : f.Sound) {a : ℕ} {ax : Axis K}
    (ha2 : a ≤ 2) (hax : f.axes[a]? = some ax) (h2 : 2 ≤ ax.len) :
    ∃ r ax', f.halfResolution spl a = .ok r ∧ r.Sound ∧ r.axes = f.axes.set a ax' ∧
      ax.halfResolution spl = .ok ax' ∧ ax'.len = ax.len / 2 ∧
      ax'.gridNode = evens ax.gridNode ∧ ax'.name = ax.name ∧ ax'.unit = ax.unit ∧
      r.shape = f.shape.set a (ax.len / 2) ∧ r.name = f.name ∧ r.unit = f.unit ∧ r.ats = f.ats ∧
      r.tao = f.tao.set a none ∧
      r.matrix.at' = fun idx => (1 / 2 : K) • (f.matrix.at' (idx.modify a fun k => 2 * k) +
        f.matrix.at' (idx.modify a fun k => 2 * k + 1)) := by
  have hal := (List.getElem?_eq_some_iff.1 hax).1
  have hl := ok_axes_length hf.ok
  have hmem : ax ∈ f.axes := List.mem_of_getElem? hax
  obtain ⟨ax', e1, e2, e3, e4, e5, e6⟩ := axisHalf_sound spl (hf.valid ax hmem)
  have hs : f.shape[a]? = some ax.len := by
    rw [← hf.ok.lengths, List.getElem?_map, hax]; rfl
  have hchk : checkAxisObj (f.shape.set a (ax.len / 2)) a ax' = .ok () := by
    unfold checkAxisObj
    rw [if_neg (by omega), List.getElem?_set_self (by omega)]
    simp [e2]
  refine ⟨⟨f.name, f.unit, ⟨f.shape.set a (ax.len / 2), fun idx =>
        (1 / 2 : K) • (f.matrix.at' (idx.modify a fun k => 2 * k) +
          f.matrix.at' (idx.modify a fun k => 2 * k + 1))⟩, f.axes.set a ax', f.ats, f.tao.set a none⟩,
      ax', ?_, ?_, rfl, e1, e2, e3, e4, e5, rfl, rfl, rfl, rfl, rfl, rfl⟩
  · unfold Field.halfResolution
    rw [if_neg (by omega), hs, hax]
    simp only [e1, bind, Except.bind, hchk]
    rfl
  · refine ⟨⟨?_, ?_, ?_⟩, ?_, ?_⟩
    · show (f.axes.set a ax').map Axis.len = f.shape.set a (ax.len / 2)
      rw [List.map_set, hf.ok.lengths, e2]
    · show f.ats.length = (f.shape.set a (ax.len / 2)).length
      rw [List.length_set, hf.ok.states]
    · show (f.tao.set a none).length = (f.shape.set a (ax.len / 2)).length
      rw [List.length_set, List.length_set, hf.ok.origins]
    · intro b hb
      rcases List.mem_or_eq_of_mem_set hb with hb | rfl
      · exact hf.valid b hb
      · exact e6
    · intro h0
      have h0 : 0 ∈ f.shape.set a (ax.len / 2) := h0
      rcases List.mem_or_eq_of_mem_set h0 with h0 | h0
      · exact hf.nonempty h0
      · omega

theorem sum_pairs (m : ℕ) (g : ℕ → V) :
    ∑ k ∈ Finset.range (2 * m), g k = ∑ i ∈ Finset.range m, (g (2 * i) + g (2 * i + 1)) := by
  induction m with
  | zero => simp
  | succ m ih =>
    rw [show 2 * (m + 1) = 2 * m + 1 + 1 by ring, Finset.sum_range_succ, Finset.sum_range_succ, ih,
      Finset.sum_range_succ]
    abel

theorem cellSizes_get {ax : Axis K} {i : ℕ} {x y : K} (hx : ax.gridNode[i]? = some x)
    (hy : ax.gridNode[i + 1]? = some y) : (cellSizes ax)[i]? = some (y - x) := by
  unfold cellSizes
  rw [List.getElem?_zipWith, hx, List.getElem?_tail, hy]

theorem half_cells {ax ax' : Axis K} (hv : ValidAxis ax.gridNode ax.grid ax.extent)
    (hn : ax'.gridNode = evens ax.gridNode) {m i : ℕ} (hm : ax.len = 2 * m) (hi : i < m) :
    (cellSizes ax').getD i 0 = (cellSizes ax).getD (2 * i) 0 + (cellSizes ax).getD (2 * i + 1) 0 := by
  have hl : ax.gridNode.length = 2 * m + 1 := by rw [← hm]; exact hv.wf.1
  have g : ∀ k, k ≤ 2 * m → ∃ x, ax.gridNode[k]? = some x := fun k hk =>
    ⟨_, List.getElem?_eq_getElem (by omega)⟩
  obtain ⟨x, hx⟩ := g (2 * i) (by omega)
  obtain ⟨y, hy⟩ := g (2 * i + 1) (by omega)
  obtain ⟨z, hz⟩ := g (2 * i + 1 + 1) (by omega)
  have h1 : ax'.gridNode[i]? = some x := by rw [hn, evens_get]; exact hx
  have h2 : ax'.gridNode[i + 1]? = some z := by
    rw [hn, evens_get, show 2 * (i + 1) = 2 * i + 1 + 1 by ring]; exact hz
  simp only [List.getD_eq_getElem?_getD]
  rw [cellSizes_get h1 h2, cellSizes_get hx hy, cellSizes_get hy hz]
  simp

theorem half_integral (spl : Splines K) {f : Field K V} (hf : f.Sound) {a m : ℕ} {ax : Axis K}
    (ha2 : a ≤ 2) (hax : f.axes[a]? = some ax) (hm : ax.len = 2 * m) (hm0 : 0 < m)
    (hc : ∀ i < m, (cellSizes ax)[2 * i]? = (cellSizes ax)[2 * i + 1]?) {r : Field K V}
    (hr : f.halfResolution spl a = .ok r) {L : List ℕ} (hL : a ∈ L) {idx : List ℕ}
    (hidx : idx.length = (flags f.shape.length L).count false) :
    integral (r.axes.map cellSizes) (flags f.shape.length L) r.matrix.at' idx =
      integral (f.axes.map cellSizes) (flags f.shape.length L) f.matrix.at' idx := by
  obtain ⟨r', ax', h1, h2, h3, _, h5, h6, _, _, h7, _, _, _, _, h8⟩ := half_sound spl hf ha2 hax (by omega)
  rw [hr] at h1
  obtain rfl := Except.ok.inj h1
  have hal := (List.getElem?_eq_some_iff.1 hax).1
  have hl := ok_axes_length hf.ok
  have hfl : flags f.shape.length L =
      (flags (f.shape.length - 1) ((L.filter (· ≠ a)).map (shiftDown a))).insertIdx a true := by
    rw [← flags_insert (by omega) (by simp)]
    apply flags_congr
    intro d
    by_cases hd : d = a
    · simp [hd, hL]
    · simp [hd]
  rw [hfl] at hidx ⊢
  have hcount : idx.length =
      (flags (f.shape.length - 1) ((L.filter (· ≠ a)).map (shiftDown a))).count false := by
    rw [hidx]
    have hle : a ≤ (flags (f.shape.length - 1) ((L.filter (· ≠ a)).map (shiftDown a))).length := by
      rw [flags_length]; omega
    rw [(List.perm_insertIdx true _ hle).count_eq, List.count_cons]
    simp
  rw [integral_insert _ (by rw [flags_length, List.length_map, h3, List.length_set]; omega)
    (by rw [flags_length]; omega) hcount,
    integral_insert _ (by rw [flags_length, List.length_map]; omega)
    (by rw [flags_length]; omega) hcount]
  have hget : (r.axes.map cellSizes).getD a [] = cellSizes ax' := by
    rw [h3, List.getD_eq_getElem?_getD, List.getElem?_map, List.getElem?_set_self hal]
    rfl
  have hget' : (f.axes.map cellSizes).getD a [] = cellSizes ax := by
    rw [List.getD_eq_getElem?_getD, List.getElem?_map, hax]
    rfl
  have hmem : ax ∈ f.axes := List.mem_of_getElem? hax
  have hlen : (cellSizes ax).length = 2 * m := by rw [cellSizes_length (hf.valid ax hmem), hm]
  have hlen' : (cellSizes ax').length = m := by
    have hmem' : ax' ∈ r.axes := by rw [h3]; exact List.mem_set hal ax'
    rw [cellSizes_length (h2.valid ax' hmem'), h5, hm]
    omega
  congr 1
  · rw [h3, List.map_set]
    rw [List.eraseIdx_set_eq]
  · funext j
    rw [hget, hget', hlen, hlen', sum_pairs]
    apply Finset.sum_congr rfl
    intro i hi
    have hi : i < m := by simpa using hi
    have hce : (cellSizes ax).getD (2 * i) 0 = (cellSizes ax).getD (2 * i + 1) 0 := by
      rw [List.getD_eq_getElem?_getD, List.getD_eq_getElem?_getD, hc i hi]
    rw [half_cells (hf.valid ax hmem) h6 hm hi, h8]
    simp only [insertIdx_modify]
    rw [hce, ← smul_add, smul_smul]
    congr 1
    ring

/-! ### `autoreduce` -/

theorem halveLoop_sound (spl : Splines K) {maxlen : ℤ} (hm : 1 ≤ maxlen) {a : ℕ} (ha2 : a ≤ 2)
    (fuel : ℕ) {f : Field K V} (hf : f.Sound) {ax : Axis K} (hax : f.axes[a]? = some ax)
    (hfuel : ax.len < fuel) :
    ∃ r, halveLoop spl maxlen a fuel f = some (.ok r) ∧ r.Sound ∧
      ∃ n : ℕ, (n : ℤ) ≤ maxlen ∧ n ≤ ax.len ∧ r.shape = f.shape.set a n := by
  have hs : f.shape[a]? = some ax.len := by
    rw [← hf.ok.lengths, List.getElem?_map, hax]; rfl
  induction fuel generalizing f ax with
  | zero => omega
  | succ fuel ih =>
    unfold halveLoop
    rw [hax]
    simp only
    by_cases h : maxlen < ax.len
    · rw [if_pos h]
      obtain ⟨r, ax', h1, h2, h3, _, h5, _, _, _, h7, _⟩ := half_sound spl hf ha2 hax (by omega)
      rw [h1]
      have hal := (List.getElem?_eq_some_iff.1 hax).1
      have hax' : r.axes[a]? = some ax' := by rw [h3, List.getElem?_set_self hal]
      obtain ⟨r', g1, g2, n, g3, g4, g5⟩ := ih h2 hax' (by omega) (by
        rw [← h2.ok.lengths, List.getElem?_map, hax']; rfl)
      refine ⟨r', g1, g2, n, g3, by omega, ?_⟩
      rw [g5, h7, List.set_set]
    · rw [if_neg h]
      refine ⟨f, rfl, hf, ax.len, by omega, le_refl _, ?_⟩
      apply List.ext_getElem?
      intro d
      rw [List.getElem?_set]
      by_cases hd : a = d
      · subst hd
        rw [if_pos rfl, if_pos (List.getElem?_eq_some_iff.1 hs).1, hs]
      · rw [if_neg hd]

theorem reduceLoop_sound (spl : Splines K) {maxlen : ℤ} (hm : 1 ≤ maxlen) (fuel : ℕ) {L : List ℕ}
    (hL : ∀ i ∈ L, i ≤ 2) {f : Field K V} (hf : f.Sound) (hLn : ∀ i ∈ L, i < f.shape.length)
    (hfuel : ∀ n ∈ f.shape, n < fuel) :
    ∃ r, reduceLoop spl maxlen fuel L f = some (.ok r) ∧ r.Sound ∧
      r.shape.length = f.shape.length ∧
      (∀ (d n n' : ℕ), f.shape[d]? = some n → r.shape[d]? = some n' → n' ≤ n) ∧
      ∀ d ∈ L, ∀ n, r.shape[d]? = some n → (n : ℤ) ≤ maxlen := by
  induction L generalizing f with
  | nil =>
    refine ⟨f, rfl, hf, rfl, ?_, by simp⟩
    intro d n n' h1 h2
    rw [h1] at h2
    exact (Option.some.inj h2).symm.le
  | cons a L ih =>
    have haf := hLn a (by simp)
    have hl := ok_axes_length hf.ok
    have hax : f.axes[a]? = some f.axes[a] := List.getElem?_eq_getElem (by omega)
    have hs : f.shape[a]? = some f.axes[a].len := by
      rw [← hf.ok.lengths, List.getElem?_map, hax]; rfl
    obtain ⟨r, h1, h2, n, h3, h4, h5⟩ := halveLoop_sound spl hm (hL a (by simp)) fuel hf hax
      (hfuel _ (List.mem_of_getElem? hs))
    have hlen : r.shape.length = f.shape.length := by rw [h5, List.length_set]
    have hle : ∀ (d n n' : ℕ), f.shape[d]? = some n → r.shape[d]? = some n' → n' ≤ n := by
      intro d x y hx hy
      rw [h5, List.getElem?_set] at hy
      by_cases hd : a = d
      · subst hd
        rw [if_pos rfl, if_pos haf] at hy
        rw [hs] at hx
        have := Option.some.inj hx
        have := Option.some.inj hy
        omega
      · rw [if_neg hd, hx] at hy
        exact (Option.some.inj hy).symm.le
    obtain ⟨r', g1, g2, g3, g4, g5⟩ := ih (fun i hi => hL i (List.mem_cons_of_mem _ hi)) h2
      (fun i hi => by rw [hlen]; exact hLn i (List.mem_cons_of_mem _ hi)) (by
        intro x hx
        obtain ⟨d, hd⟩ := List.mem_iff_getElem?.1 hx
        have hdl := (List.getElem?_eq_some_iff.1 hd).1
        have hfd : f.shape[d]? = some (f.shape[d]'(by omega)) := List.getElem?_eq_getElem _
        have := hle d _ x hfd hd
        have := hfuel _ (List.mem_of_getElem? hfd)
        omega)
    refine ⟨r', ?_, g2, g3.trans hlen, ?_, ?_⟩
    · unfold reduceLoop
      rw [h1]
      exact g1
    · intro d x y hx hy
      have hdl := (List.getElem?_eq_some_iff.1 hx).1
      have hrd : r.shape[d]? = some (r.shape[d]'(by omega)) := List.getElem?_eq_getElem _
      exact le_trans (g4 d _ y hrd hy) (hle d x _ hx hrd)
    · intro d hd y hy
      rcases List.mem_cons.1 hd with rfl | hd
      · have hrd : r.shape[d]? = some n := by rw [h5, List.getElem?_set_self haf]
        have := g4 d n y hrd hy
        omega
      · exact g5 d hd y hy

end

/-! ### Derivative -/

section
variable {K V : Type} [_root_.Field K] [LinearOrder K] [IsStrictOrderedRing K]

theorem mkAxis_grid {spl : Splines K} (name unit : String) {ns gs : List K}
    (hn : nodesOfGrid spl gs none = .ok ns) (h : WellFormedAxis ns gs) :
    ∃ e, mkAxis spl { name := name, unit := unit, grid := some gs } = .ok ⟨name, unit, ns, gs, e⟩ ∧
      ns.head? = some e.1 ∧ ns.getLast? = some e.2 := by
  rw [wf_iff] at h
  have hl : ns.length = gs.length + 1 := h.elim interleave_length interleave_length
  have hne : ns ≠ [] := by rintro rfl; simp at hl
  have h2 : monotonicity gs ≠ 0 := (monotonicity_ne_zero gs).2
    (h.imp (interleave_mono_grid lt_tr) (interleave_mono_grid gt_tr))
  have h3 := checkGrid_ok h
  refine ⟨(ns.head hne, ns.getLast hne), ?_, List.head?_eq_some_head hne, List.getLast?_eq_some_getLast hne⟩
  simp only [mkAxis, bind, Except.bind, pure, Except.pure, if_neg h2, hn, h3,
    List.head?_eq_some_head hne, List.getLast?_eq_some_getLast hne]

theorem nodesOfGrid_ap {spl : Splines K} (hspl : ExactOnEven spl) (a h : K) {m : ℕ} (hm : 2 ≤ m) :
    nodesOfGrid spl (ap a h m) none = .ok (ap (a - h / 2) h (m + 1)) := by
  obtain ⟨m, rfl⟩ : ∃ k, m = k + 2 := ⟨m - 2, by omega⟩
  have hi : innerNodes spl (ap a h (m + 2)) = ap (a + h / 2) h (m + 1) := by
    unfold innerNodes
    split_ifs
    · have := hspl.inner a h (m + 1) (by omega)
      rw [centers_ap] at this
      exact this
    · exact mids_ap _ _ _
  have hc : ap a h (m + 2) = a :: (ap a h (m + 2)).tail := by
    simp [ap, List.range_succ_eq_map]
  have hnode : nodesOfGrid spl (ap a h (m + 2)) none =
      .ok ((a + (a - (innerNodes spl (ap a h (m + 2))).head?.getD 0)) ::
        innerNodes spl (ap a h (m + 2)) ++
        [(ap a h (m + 2)).getLast?.getD a + ((ap a h (m + 2)).getLast?.getD a -
          (innerNodes spl (ap a h (m + 2))).getLast?.getD 0)]) := by
    have hlen : 1 < (ap a h (m + 2)).length := by rw [ap_length]; omega
    generalize ap a h (m + 2) = l at hc hlen
    rw [hc] at hlen ⊢
    simp only [nodesOfGrid, if_pos hlen]
  rw [hnode, hi, ap_head, ap_last, show m + 2 = (m + 1) + 1 from rfl, ap_last]
  congr 1
  apply ap_ext
  · simp [ap_length]
  · intro i hi
    rcases Nat.eq_zero_or_pos i with rfl | hp
    · simp
      ring
    · obtain ⟨j, rfl⟩ : ∃ j, i = j + 1 := ⟨i - 1, by omega⟩
      rw [List.cons_append, List.getElem?_cons_succ]
      by_cases hj : j < m + 1
      · rw [List.getElem?_append_left (by rw [ap_length]; exact hj), ap_get _ _ _ _ hj]
        push_cast
        congr 1
        ring
      · obtain rfl : j = m + 1 := by omega
        rw [List.getElem?_append_right (by rw [ap_length]), ap_length]
        simp
        ring

theorem wf_ap (a : K) {h : K} (hh : 0 < h) (m : ℕ) :
    WellFormedAxis (ap (a - h / 2) h (m + 1)) (ap a h m) := by
  rw [wf_iff]
  have : ap a h m = mids (ap (a - h / 2) h (m + 1)) := by
    rw [mids_ap]
    congr 1
    ring
  rw [this]
  left
  exact interleave_mids mid_lt (mono_of_pairwise (ap_mono _ hh _))
    (by intro hn; have := congrArg List.length hn; simp [ap_length] at this)

theorem deriv_axis {spl : Splines K} (hspl : ExactOnEven spl) {ax : Axis K} {e0 h : K}
    (he : EvenAxis ax e0 h) (hh : 0 < h) (hn : 2 ≤ ax.len) :
    ∃ ax', mkAxis spl { name := ax.name, unit := ax.unit, grid := some ax.gridNode.tail.dropLast } =
        .ok ax' ∧ ax'.name = ax.name ∧ ax'.unit = ax.unit ∧ ax'.grid = ap (e0 + h) h (ax.len - 1) ∧
      ValidAxis ax'.gridNode ax'.grid ax'.extent ∧ (3 ≤ ax.len → EvenAxis ax' (e0 + h / 2) h) := by
  obtain ⟨h1, h2, h3⟩ := even_iff.1 he
  have hg : ax.gridNode.tail.dropLast = ap (e0 + h) h (ax.len - 1) := by
    rw [h1, show ax.len + 1 = (ax.len - 1) + 2 by omega, ap_inner]
  rw [hg]
  by_cases h3 : 3 ≤ ax.len
  · have hnn := nodesOfGrid_ap hspl (e0 + h) h (m := ax.len - 1) (by omega)
    obtain ⟨e, g1, g2, g3⟩ := mkAxis_grid ax.name ax.unit hnn (wf_ap _ hh _)
    refine ⟨_, g1, rfl, rfl, rfl, ⟨wf_ap _ hh _, g2, g3⟩, fun _ => ?_⟩
    rw [even_iff]
    rw [ap_head] at g2
    rw [ap_last] at g3
    have g2 := Option.some.inj g2
    have g3 := Option.some.inj g3
    have e1 : e0 + h - h / 2 = e0 + h / 2 := by ring
    have e2 : e0 + h / 2 + h / 2 = e0 + h := by ring
    simp only [Axis.len, ap_length]
    refine ⟨by rw [e1], by rw [e2], ?_⟩
    rw [Prod.ext_iff]
    refine ⟨by rw [← g2, e1], ?_⟩
    show e.2 = _
    rw [← g3, e1]
    rfl
  · have hl : ax.len - 1 = 1 := by omega
    rw [hl]
    have hap : ap (e0 + h) h 1 = [e0 + h] := by simp [ap]
    have hnn : nodesOfGrid spl [e0 + h] none = .ok [e0 + h - 1 / 2, e0 + h + 1 / 2] := by
      simp [nodesOfGrid, innerNodes, mids]
    have hw : WellFormedAxis [e0 + h - 1 / 2, e0 + h + 1 / 2] [e0 + h] := by
      have := wf_ap (e0 + h) (h := 1) one_pos 1
      simp [ap, List.range_succ] at this
      have e : e0 + h + 1 / 2 = e0 + h - 2⁻¹ + 1 := by ring
      rw [e, one_div]
      exact this
    obtain ⟨e, g1, g2, g3⟩ := mkAxis_grid ax.name ax.unit hnn hw
    rw [hap]
    exact ⟨_, g1, rfl, rfl, rfl, ⟨hw, g2, g3⟩, fun h => absurd h h3⟩

variable [AddCommGroup V] [Module K V]

theorem modify_pred {s : List ℕ} {k n : ℕ} (h : s[k]? = some n) :
    s.modify k (· - 1) = s.set k (n - 1) := by
  apply List.ext_getElem?
  intro d
  rw [List.getElem?_modify, List.getElem?_set]
  have := (List.getElem?_eq_some_iff.1 h).1
  by_cases hd : k = d
  · subst hd
    rw [h, if_pos rfl, if_pos this]
    simp
  · simp [hd]

theorem derivative_sound {spl : Splines K} (hspl : ExactOnEven spl) {f : Field K V} (hf : f.Sound)
    (h3 : f.shape.length ≤ 3) {a : ℤ} {k : ℕ} {ax : Axis K} {e0 h : K}
    (ha : pyIdx f.shape.length a = some k) (hax : f.axes[k]? = some ax) (he : EvenAxis ax e0 h)
    (hh : 0 < h) (hn : 2 ≤ ax.len) :
    ∃ r ax', f.derivativeStagger spl a = .ok r ∧ r.Sound ∧ r.axes = f.axes.set k ax' ∧
      r.shape = f.shape.set k (ax.len - 1) ∧ r.name = f.name ++ "'" ∧ r.unit = f.unit ∧
      ax'.name = ax.name ∧ ax'.unit = ax.unit ∧ ax'.grid = ap (e0 + h) h (ax.len - 1) ∧
      (3 ≤ ax.len → EvenAxis ax' (e0 + h / 2) h) ∧
      r.matrix.at' = fun idx =>
        h⁻¹ • (f.matrix.at' (idx.modify k (· + 1)) - f.matrix.at' idx) := by
  have hk := pyIdx_lt ha
  have hl := ok_axes_length hf.ok
  obtain ⟨ax', g1, g2, g3, g4, g5, g6⟩ := deriv_axis hspl he hh hn
  have e1 : pyGet f.axes a = .ok ax := pyGet_of (by rw [hl]; exact ha) hax
  have e2 : pyIdx f.dims.toNat a = some k := by rw [dims_sound hf]; exact ha
  have e3 : pySet f.axes a ax' = .ok (f.axes.set k ax') := by
    unfold pySet
    rw [hl, ha]
  have hs : f.shape[k]? = some ax.len := by
    rw [← hf.ok.lengths, List.getElem?_map, hax]; rfl
  have hm := modify_pred hs
  have hlen' : ax'.len = ax.len - 1 := by rw [Axis.len, g4, ap_length]
  have hlens : (f.axes.set k ax').map Axis.len = f.shape.modify k (· - 1) := by
    rw [hm, List.map_set, hf.ok.lengths, hlen']
  refine ⟨⟨f.name ++ "'", f.unit, ⟨f.shape.modify k (· - 1), fun idx =>
      h⁻¹ • (f.matrix.at' (idx.modify k (· + 1)) - f.matrix.at' idx)⟩, f.axes.set k ax',
      (f.shape.modify k (· - 1)).map fun _ => some false,
      (f.shape.modify k (· - 1)).map fun _ => none⟩,
    ax', ?_, ⟨⟨hlens, by simp [Field.shape], by simp [Field.shape]⟩, ?_, ?_⟩, rfl, hm, rfl, rfl, g2, g3, g4,
      g6, rfl⟩
  · unfold Field.derivativeStagger
    rw [e1]
    simp only [bind, Except.bind, even_linear he, g1, e3, e2, even_spacing he hh (by omega)]
    exact mkField_of_eq hlens (by simpa using h3)
  · intro b hb
    rcases List.mem_or_eq_of_mem_set hb with hb | rfl
    · exact hf.valid b hb
    · exact g5
  · intro h0
    have h0 : 0 ∈ f.shape.modify k (· - 1) := h0
    rw [hm] at h0
    rcases List.mem_or_eq_of_mem_set h0 with h0 | h0
    · exact hf.nonempty h0
    · omega

theorem even_cells {ax : Axis K} {e0 h : K} (he : EvenAxis ax e0 h) {i : ℕ} (hi : i < ax.len) :
    (cellSizes ax).getD i 0 = h := by
  obtain ⟨h1, _, _⟩ := even_iff.1 he
  rw [List.getD_eq_getElem?_getD, cellSizes_get (x := e0 + i * h) (y := e0 + (i + 1 : ℕ) * h)
    (by rw [h1]; exact ap_get _ _ _ _ (by omega)) (by rw [h1]; exact ap_get _ _ _ _ (by omega))]
  push_cast
  simp
  ring

end

end Postpic.Fields
