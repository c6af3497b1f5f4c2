import Mathlib.Algebra.Field.GeomSum
import Mathlib.Algebra.BigOperators.Field
import Mathlib.Analysis.SpecialFunctions.Complex.Log
import Verif.Model.Fft
import Verif.Spec.Fft
import Verif.Lemmas.FieldResolution

/-!
# Lemmas about Fourier transforms
-/

set_option autoImplicit false

namespace Postpic.Fields

open Postpic Postpic.Axes Postpic.Spec

noncomputable section

/-! ### The transform along one axis and phases -/

theorem getD_set_self (idx : List ℕ) (i j : ℕ) (h : i < idx.length) : (idx.set i j).getD i 0 = j := by
  rw [List.getD_eq_getElem?_getD, List.getElem?_set_self h]
  rfl

theorem getD_set_ne (idx : List ℕ) (i k j : ℕ) (h : i ≠ k) :
    (idx.set i j).getD k 0 = idx.getD k 0 := by
  rw [List.getD_eq_getElem?_getD, List.getElem?_set_ne h, List.getD_eq_getElem?_getD]

theorem dftAlong_mul (inv : Bool) (n i : ℕ) {w g : List ℕ → ℂ}
    (hw : ∀ idx j, w (idx.set i j) = w idx) :
    dftAlong inv n i (fun idx => g idx * w idx) = fun idx => dftAlong inv n i g idx * w idx := by
  funext idx
  simp only [dftAlong, hw, Finset.sum_mul]
  apply Finset.sum_congr rfl
  intro j _
  ring

theorem dft_mul (inv : Bool) (shape : List ℕ) (l : List ℕ) {w g : List ℕ → ℂ}
    (hw : ∀ i ∈ l, ∀ idx j, w (idx.set i j) = w idx) :
    dft inv shape l (fun idx => g idx * w idx) = fun idx => dft inv shape l g idx * w idx := by
  induction l generalizing g with
  | nil => rfl
  | cons i l ih =>
    simp only [dft, List.foldl_cons]
    rw [dftAlong_mul inv _ i (hw i (by simp))]
    exact ih fun j hj => hw j (by simp [hj])

/-- Multiplying with phases before and after all transforms is the same as doing it for one axis
after the other. -/
theorem dft_phases (inv : Bool) (shape : List ℕ) (l : List ℕ) (hl : l.Nodup) (pre post : ℕ → List ℕ → ℂ)
    (h1 : ∀ i k, i ≠ k → ∀ idx j, pre k (idx.set i j) = pre k idx)
    (h2 : ∀ i k, i ≠ k → ∀ idx j, post k (idx.set i j) = post k idx) (g : List ℕ → ℂ) (idx : List ℕ) :
    dft inv shape l (fun idx => g idx * (l.map fun i => pre i idx).prod) idx *
        (l.map fun i => post i idx).prod =
      l.foldl (fun g i => fun idx =>
        dftAlong inv (shape.getD i 0) i (fun idx => g idx * pre i idx) idx * post i idx) g idx := by
  induction l generalizing g with
  | nil => simp [dft]
  | cons i l ih =>
    obtain ⟨hi, hl⟩ := List.nodup_cons.1 hl
    rw [List.foldl_cons, ← ih hl]
    have hne : ∀ k ∈ l, k ≠ i := fun k hk h => hi (h ▸ hk)
    simp only [dft, List.foldl_cons, List.map_cons, List.prod_cons]
    have e1 : dftAlong inv (shape.getD i 0) i
          (fun idx => g idx * (pre i idx * (l.map fun i => pre i idx).prod)) =
        fun idx => dftAlong inv (shape.getD i 0) i (fun idx => g idx * pre i idx) idx *
          (l.map fun i => pre i idx).prod := by
      rw [← dftAlong_mul]
      · congr 1
        funext idx
        ring
      · intro idx j
        congr 1
        apply List.map_congr_left
        intro k hk
        exact h1 i k (hne k hk).symm idx j
    rw [e1]
    have e2 := dft_mul inv shape l (w := post i)
      (g := fun idx => dftAlong inv (shape.getD i 0) i (fun idx => g idx * pre i idx) idx *
          (l.map fun i => pre i idx).prod) (fun k hk idx j => h2 k i (hne k hk) idx j)
    have e3 : (fun idx => dftAlong inv (shape.getD i 0) i (fun idx => g idx * pre i idx) idx * post i idx *
          (l.map fun i => pre i idx).prod) =
        (fun idx => dftAlong inv (shape.getD i 0) i (fun idx => g idx * pre i idx) idx *
          (l.map fun i => pre i idx).prod * post i idx) := by
      funext idx
      ring
    rw [e3]
    have e4 := congrFun e2 idx
    simp only [dft] at e4
    rw [e4]
    ring

theorem linearPhase_prod (state : Bool) (axes : List (Axis ℝ)) (l : List ℕ) (v : ℕ → ℝ) (phi : ℕ → ℝ)
    (idx : List ℕ) :
    linearPhase state axes (l.map fun i => (i, v i)) (l.map phi).sum idx =
      (l.map fun i => Complex.exp ((if state then 1 else -1) * Complex.I *
        ((v i * ((axes.map (·.grid)).getD i []).getD (idx.getD i 0) 0 + phi i : ℝ) : ℂ))).prod := by
  unfold linearPhase
  simp only [List.map_map, Function.comp_def]
  induction l with
  | nil => simp
  | cons i l ih =>
    simp only [List.map_cons, List.sum_cons, List.prod_cons]
    rw [← ih, ← Complex.exp_add]
    congr 1
    push_cast
    ring

theorem fftNorm_prod (l : List FftAxis) (h : ∀ p ∈ l, 0 < p.dx) :
    fftNorm l = (l.map fun p => p.dx * Real.sqrt p.n / Real.sqrt (2 * Real.pi)).prod := by
  have key : (l.map (·.dx)).prod * (l.map fun p => (p.n : ℝ)).prod /
      ((2 * Real.pi) ^ l.length / (l.map (·.dx)).prod) =
      (l.map fun p => p.dx ^ 2 * p.n / (2 * Real.pi)).prod := by
    induction l with
    | nil => simp
    | cons p l ih =>
      have := ih fun q hq => h q (by simp [hq])
      simp only [List.map_cons, List.prod_cons, List.length_cons]
      rw [← this]
      have hp := (h p (by simp)).ne'
      have hl : (l.map (·.dx)).prod ≠ 0 := by
        apply List.prod_ne_zero
        simp only [List.mem_map, not_exists, not_and]
        intro q hq
        exact (h q (by simp [hq])).ne'
      have hpi := Real.pi_ne_zero
      field_simp
      ring
  unfold fftNorm
  simp only
  rw [key]
  clear key
  induction l with
  | nil => simp
  | cons p l ih =>
    simp only [List.map_cons, List.prod_cons]
    have hp := (h p (by simp)).le
    rw [Real.sqrt_mul (by positivity), ih fun q hq => h q (by simp [hq])]
    congr 1
    rw [Real.sqrt_div (by positivity), Real.sqrt_mul (by positivity), Real.sqrt_sq hp]

/-- Steps which agree on the indices of an array agree when done one after the other. -/
theorem foldl_congr_on {shape : List ℕ} (l : List ℕ) (F G : (List ℕ → ℂ) → ℕ → List ℕ → ℂ)
    (h : ∀ i ∈ l, ∀ g g' : List ℕ → ℂ, (∀ idx, InBounds shape idx → g idx = g' idx) →
      ∀ idx, InBounds shape idx → F g i idx = G g' i idx) (g g' : List ℕ → ℂ)
    (hg : ∀ idx, InBounds shape idx → g idx = g' idx) (idx : List ℕ) (hidx : InBounds shape idx) :
    l.foldl F g idx = l.foldl G g' idx := by
  induction l generalizing g g' with
  | nil => exact hg idx hidx
  | cons i l ih =>
    exact ih (fun j hj => h j (by simp [hj])) _ _ fun idx hidx => h i (by simp) g g' hg idx hidx

theorem inBounds_set {shape idx : List ℕ} (h : InBounds shape idx) {i j n : ℕ} (hn : shape[i]? = some n)
    (hj : j < n) : InBounds shape (idx.set i j) := by
  refine ⟨by rw [List.length_set]; exact h.1, ?_⟩
  intro d a m h1 h2
  rw [List.getElem?_set] at h1
  split_ifs at h1 with hd hl
  · subst hd
    rw [hn] at h2
    have := Option.some.inj h1
    have := Option.some.inj h2
    omega
  · exact h.2 d a m h1 h2

theorem inBounds_getD {shape idx : List ℕ} (h : InBounds shape idx) {i n : ℕ} (hn : shape[i]? = some n) :
    i < idx.length ∧ idx.getD i 0 < n := by
  have hi : i < idx.length := by rw [h.1]; exact (List.getElem?_eq_some_iff.1 hn).1
  refine ⟨hi, ?_⟩
  have h1 : idx[i]? = some idx[i] := List.getElem?_eq_getElem hi
  rw [List.getD_eq_getElem?_getD, h1]
  exact h.2 i _ n h1 hn

theorem ap_getD (a h : ℝ) (m i : ℕ) (hi : i < m) : (ap a h m).getD i 0 = a + i * h := by
  rw [List.getD_eq_getElem?_getD, ap_get _ _ _ _ hi]
  rfl

/-- One step of the transform: the two phases make it a sum with the coordinates of the grids. -/
theorem fft_step {shape : List ℕ} {i n : ℕ} (hn : shape[i]? = some n) (hn0 : 0 < n) (state old : Bool)
    (x0 h k0 : ℝ) (hh : 0 < h) (g g' : List ℕ → ℂ) (hg : ∀ idx, InBounds shape idx → g idx = g' idx)
    (xg kg : List ℝ) (hx : xg = ap x0 h n) (hk : kg = ap k0 (2 * Real.pi / (n * h)) n) (idx : List ℕ)
    (hidx : InBounds shape idx) :
    dftAlong state n i (fun idx => g idx * Complex.exp ((if state then 1 else -1) * Complex.I *
        (((if old && state then 0 else k0) * xg.getD (idx.getD i 0) 0 + 0 : ℝ) : ℂ))) idx *
      (((h * Real.sqrt n / Real.sqrt (2 * Real.pi) : ℝ) : ℂ) * Complex.exp ((if !state then 1 else -1) *
        Complex.I * (((if old && !state then 0 else -x0) * kg.getD (idx.getD i 0) 0 + x0 * k0 : ℝ) : ℂ))) =
      fourierAlong (h / Real.sqrt (2 * Real.pi)) (if state then 1 else -1)
        (ap (if old && !state then 0 else x0) h n)
        (ap (if old && state then 0 else k0) (2 * Real.pi / (n * h)) n) i g' idx := by
  obtain ⟨hil, hin⟩ := inBounds_getD hidx hn
  simp only [dftAlong, fourierAlong, ap_length, Finset.sum_mul, Finset.mul_sum]
  apply Finset.sum_congr rfl
  intro j hj
  have hj : j < n := by simpa using hj
  rw [getD_set_self _ _ _ hil, hx, hk, ap_getD _ _ _ _ hj, ap_getD _ _ _ _ hin, ap_getD _ _ _ _ hin,
    ap_getD _ _ _ _ hj, hg _ (inBounds_set hidx hn hj)]
  set m := idx.getD i 0
  have hsq : (Real.sqrt n : ℂ) ≠ 0 := by
    have : Real.sqrt n ≠ 0 := (Real.sqrt_pos.2 (by exact_mod_cast hn0)).ne'
    exact_mod_cast this
  have hnc : (n : ℂ) ≠ 0 := by exact_mod_cast hn0.ne'
  have hhc : (h : ℂ) ≠ 0 := by exact_mod_cast hh.ne'
  have hexp : ∀ a b c : ℂ, Complex.exp a * Complex.exp b * Complex.exp c = Complex.exp (a + b + c) := by
    intro a b c
    rw [Complex.exp_add, Complex.exp_add]
  have hgoal : ∀ (E : ℂ) (a b c : ℂ), a + b + c = E →
      ((Real.sqrt n)⁻¹ : ℝ) * Complex.exp a * (g' (idx.set i j) * Complex.exp b) *
        (((h * Real.sqrt n / Real.sqrt (2 * Real.pi) : ℝ) : ℂ) * Complex.exp c) =
      ((h / Real.sqrt (2 * Real.pi) : ℝ) : ℂ) * (g' (idx.set i j) * Complex.exp E) := by
    intro E a b c hE
    rw [← hE, ← hexp]
    push_cast
    field_simp
  apply hgoal
  cases state <;> cases old <;> simp <;> field_simp <;> ring

/-! ### The new axes -/

/-- Evenly spaced grid points with spacing `h`. -/
structure Lin (ax : Axis ℝ) (x0 h : ℝ) : Prop where
  grid : ax.grid = ap x0 h ax.len
  spacing : ax.spacing = .ok h
  linear : ax.isLinear = true
  pos : 0 < h
  len : 0 < ax.len

theorem Lin.of_even {ax : Axis ℝ} {e0 h : ℝ} (he : EvenAxis ax e0 h) (hh : 0 < h) (hn : 0 < ax.len) :
    Lin ax (e0 + h / 2) h :=
  ⟨(even_iff.1 he).2.1, even_spacing he hh hn, even_linear he, hh, hn⟩

/-- The first point of the new grid. -/
def firstK (o : Option ℝ) (n : ℕ) (h : ℝ) : ℝ := o.getD (-((n / 2 : ℕ) : ℝ) * (2 * Real.pi / (n * h)))

theorem freqGrid_ap (n : ℕ) (h : ℝ) :
    freqGrid n h = ap (-((n / 2 : ℕ) : ℝ) * (2 * Real.pi / (n * h))) (2 * Real.pi / (n * h)) n := by
  apply ap_ext
  · simp [freqGrid]
  · intro i hi
    simp [freqGrid, hi]
    ring

theorem ap_shift (a h c : ℝ) (n : ℕ) : (ap a h n).map (· + c) = ap (a + c) h n := by
  apply ap_ext
  · simp [ap_length]
  · intro i hi
    rw [List.getElem?_map, ap_get _ _ _ _ hi]
    simp
    ring

theorem pyGet_nat {α : Type} {l : List α} {i : ℕ} {v : α} (h : l[i]? = some v) :
    pyGet l (i : ℤ) = .ok v :=
  pyGet_of (pyIdx_nat (List.getElem?_eq_some_iff.1 h).1) h

theorem pyGet_ap (a h : ℝ) {n : ℕ} (hn : 0 < n) : pyGet (ap a h n) 0 = .ok a := by
  have := pyGet_nat (i := 0) (ap_get a h n 0 hn)
  simpa using this

variable {f : Field ℝ ℂ}

theorem conjugateGrid_eq (hf : f.Sound) {i : ℕ} {ax : Axis ℝ} {o : Option ℝ} {x0 h : ℝ}
    (hax : f.axes[i]? = some ax) (ho : f.tao[i]? = some o) (hl : Lin ax x0 h) :
    f.conjugateGrid i = .ok (ap (firstK o ax.len h) (2 * Real.pi / (ax.len * h)) ax.len) := by
  have hs : f.shape[i]? = some ax.len := by
    rw [← hf.ok.lengths, List.getElem?_map, hax]; rfl
  unfold Field.conjugateGrid
  rw [pyGet_nat hax]
  simp only [bind, Except.bind, hl.spacing, pyGet_nat hs, pyGet_nat ho]
  cases o with
  | none =>
    rw [freqGrid_ap]
    rfl
  | some o =>
    simp only
    rw [freqGrid_ap, pyGet_ap _ _ hl.len]
    simp only
    rw [ap_shift]
    simp [firstK, pure, Except.pure]

theorem fftAxis_eq (hf : f.Sound) {i : ℕ} {ax : Axis ℝ} {o : Option ℝ} {x0 h : ℝ}
    (hax : f.axes[i]? = some ax) (ho : f.tao[i]? = some o) (hl : Lin ax x0 h) :
    f.fftAxis i = .ok ⟨i, h, ax.len, x0,
      ap (firstK o ax.len h) (2 * Real.pi / (ax.len * h)) ax.len, firstK o ax.len h⟩ := by
  have hs : f.shape[i]? = some ax.len := by
    rw [← hf.ok.lengths, List.getElem?_map, hax]; rfl
  unfold Field.fftAxis
  rw [conjugateGrid_eq hf hax ho hl]
  have hg : pyGet ax.grid 0 = .ok x0 := by rw [hl.grid]; exact pyGet_ap _ _ hl.len
  simp only [bind, Except.bind, pyGet_nat hax, hg, pyGet_ap _ _ hl.len, hl.spacing, pyGet_nat hs]
  rfl

theorem conj_axis {spl : Splines ℝ} (hspl : ExactOnEven spl) (name unit : String) (k0 : ℝ) {dk : ℝ}
    (hdk : 0 < dk) {n : ℕ} (hn : 0 < n) :
    ∃ ax', mkAxis spl { name := name, unit := unit, grid := some (ap k0 dk n) } = .ok ax' ∧
      ax'.name = name ∧ ax'.unit = unit ∧ ax'.len = n ∧ ax'.grid = ap k0 dk n ∧
      Lin ax' k0 (if n = 1 then 1 else dk) ∧ ValidAxis ax'.gridNode ax'.grid ax'.extent ∧
      (2 ≤ n → EvenAxis ax' (k0 - dk / 2) dk) := by
  by_cases h2 : 2 ≤ n
  · have hnn := nodesOfGrid_ap hspl k0 dk h2
    obtain ⟨e, g1, g2, g3⟩ := mkAxis_grid name unit hnn (wf_ap _ hdk _)
    have he : EvenAxis (⟨name, unit, ap (k0 - dk / 2) dk (n + 1), ap k0 dk n, e⟩ : Axis ℝ)
        (k0 - dk / 2) dk := by
      rw [even_iff]
      rw [ap_head] at g2
      rw [ap_last] at g3
      have g2 := Option.some.inj g2
      have g3 := Option.some.inj g3
      have e2 : k0 - dk / 2 + dk / 2 = k0 := by ring
      simp only [Axis.len, ap_length]
      refine ⟨trivial, by rw [e2], ?_⟩
      rw [Prod.ext_iff]
      exact ⟨g2.symm, g3.symm⟩
    refine ⟨_, g1, rfl, rfl, ap_length _ _ _, rfl, ?_, ⟨wf_ap _ hdk _, g2, g3⟩, fun _ => he⟩
    have := Lin.of_even he hdk (by simp only [Axis.len, ap_length]; exact hn)
    rw [if_neg (by omega)]
    have e2 : k0 - dk / 2 + dk / 2 = k0 := by ring
    rwa [e2] at this
  · obtain rfl : n = 1 := by omega
    have hap : ap k0 dk 1 = [k0] := by simp [ap]
    have hnn : nodesOfGrid spl [k0] none = .ok [k0 - 1 / 2, k0 + 1 / 2] := by
      simp [nodesOfGrid, innerNodes, mids]
    have hw : WellFormedAxis [k0 - 1 / 2, k0 + 1 / 2] [k0] := by
      have := wf_ap k0 (h := 1) one_pos 1
      simp [ap, List.range_succ] at this
      have e : k0 + 1 / 2 = k0 - 2⁻¹ + 1 := by ring
      rw [e, one_div]
      exact this
    obtain ⟨e, g1, g2, g3⟩ := mkAxis_grid name unit hnn hw
    rw [hap]
    refine ⟨_, g1, rfl, rfl, rfl, rfl, ⟨?_, ?_, ?_, by norm_num, by simp [Axis.len]⟩, ⟨hw, g2, g3⟩,
      fun h => absurd h h2⟩
    · simp [Axis.len, ap]
    · have e1 : k0 + 1 / 2 - (k0 - 1 / 2) = 1 := by ring
      have e2 : (⟨name, unit, [k0 - 1 / 2, k0 + 1 / 2], [k0], e⟩ : Axis ℝ).isLinear = true := by
        simp [Axis.isLinear, Axis.len]
      simp only [Axis.spacing, e2, e1]
      simp
    · simp [Axis.isLinear, Axis.len]

theorem setConjugateAxes_eq {spl : Splines ℝ} {shape : List ℕ} (state : Bool) (info : ℕ → FftAxis)
    (hi : ∀ d, (info d).i = d) (new : ℕ → Axis ℝ) (l : List ℕ) (hl : l.Nodup) (axes : List (Axis ℝ))
    (h : ∀ d ∈ l, d ≤ 2 ∧ ∃ ax, axes[d]? = some ax ∧ shape[d]? = some (new d).len ∧
      mkAxis spl { name := conjugateName state ax.name, unit := conjugateUnit state ax.unit
                   grid := some (info d).newGrid } = .ok (new d)) :
    ∃ axes', setConjugateAxes spl shape state (l.map info) axes = .ok axes' ∧
      axes'.length = axes.length ∧
      ∀ d, axes'[d]? = if d ∈ l then some (new d) else axes[d]? := by
  induction l generalizing axes with
  | nil => exact ⟨axes, rfl, rfl, fun d => by simp⟩
  | cons i l ih =>
    obtain ⟨hil, hl⟩ := List.nodup_cons.1 hl
    obtain ⟨h2, ax, h3, h4, h5⟩ := h i (by simp)
    have hlt := (List.getElem?_eq_some_iff.1 h3).1
    obtain ⟨axes', g1, g2, g3⟩ := ih hl (axes.set i (new i)) (by
      intro d hd
      obtain ⟨a1, a2, a3, a4, a5⟩ := h d (by simp [hd])
      refine ⟨a1, a2, ?_, a4, a5⟩
      rw [List.getElem?_set_ne (by rintro rfl; exact hil hd)]
      exact a3)
    refine ⟨axes', ?_, by rw [g2, List.length_set], ?_⟩
    · have hchk : checkAxisObj shape i (new i) = .ok () := by
        unfold checkAxisObj
        rw [if_neg (by omega), h4]
        simp
      simp only [List.map_cons, setConjugateAxes, hi, bind, Except.bind, pyGet_nat h3, h5, hchk]
      exact g1
    · intro d
      rw [g3 d]
      by_cases hd : d ∈ l
      · simp [hd]
      · by_cases hdi : d = i
        · subst hdi
          simp [hd, hlt]
        · rw [if_neg hd, if_neg (by simp [hd, hdi]), List.getElem?_set_ne (Ne.symm hdi)]

theorem foldl_set {α : Type} (v : ℕ → α) (l : List ℕ) (a : List α) (d : ℕ) :
    (l.foldl (fun s i => s.set i (v i)) a)[d]? = if d ∈ l then (a[d]?).map fun _ => v d else a[d]? := by
  induction l generalizing a with
  | nil => simp
  | cons i l ih =>
    rw [List.foldl_cons, ih, List.getElem?_set]
    by_cases hd : d ∈ l
    · simp only [hd, if_true, List.mem_cons, or_true]
      by_cases hi : i = d
      · subst hi
        rw [if_pos rfl]
        by_cases hlt : i < a.length
        · simp [hlt]
        · rw [if_neg hlt, List.getElem?_eq_none (by omega)]
      · rw [if_neg hi]
    · by_cases hi : i = d
      · subst hi
        rw [if_neg hd, if_pos rfl, if_pos (List.mem_cons_self)]
        by_cases hlt : i < a.length
        · simp [hlt]
        · rw [if_neg hlt, List.getElem?_eq_none (by omega)]
          rfl
      · rw [if_neg hd, if_neg hi, if_neg (by simp [hd, Ne.symm hi])]

theorem allLinear_eq {axes : List (Axis ℝ)} {l : List ℕ}
    (h : ∀ d ∈ l, ∃ ax, axes[d]? = some ax ∧ ax.isLinear = true) :
    allLinear axes (l.map Int.ofNat) = .ok true := by
  induction l with
  | nil => rfl
  | cons i l ih =>
    obtain ⟨ax, h1, h2⟩ := h i (by simp)
    simp only [List.map_cons, allLinear, bind, Except.bind, Int.ofNat_eq_natCast, pyGet_nat h1, h2,
      if_true]
    exact ih fun d hd => h d (by simp [hd])

theorem allState_eq {ats : List (Option Bool)} {b : Bool} {l : List ℕ}
    (h : ∀ d ∈ l, ats[d]? = some (some b)) : allState ats b (l.map Int.ofNat) = .ok true := by
  induction l with
  | nil => rfl
  | cons i l ih =>
    simp only [List.map_cons, allState, bind, Except.bind, Int.ofNat_eq_natCast,
      pyGet_nat (h i (by simp)), if_true]
    exact ih fun d hd => h d (by simp [hd])

theorem collectiveState_eq {ats : List (Option Bool)} {b : Bool} {l : List ℕ} (hl : l ≠ [])
    (h : ∀ d ∈ l, ats[d]? = some (some b)) :
    collectiveState ats (l.map Int.ofNat) = .ok (some b) := by
  unfold collectiveState
  cases b with
  | true =>
    rw [allState_eq h]
    rfl
  | false =>
    have h1 : allState ats true (l.map Int.ofNat) = .ok false := by
      cases l with
      | nil => exact absurd rfl hl
      | cons i l =>
        simp [allState, bind, Except.bind, pyGet_nat (h i (by simp)), pure, Except.pure]
    simp only [h1, allState_eq h, bind, Except.bind, pure, Except.pure]
    rfl

/-! ### The whole transform -/

theorem fourierAlong_conj (c s : ℝ) (xs ks : List ℝ) (d : ℕ) (g : List ℕ → ℂ) :
    (fun idx => (starRingEnd ℂ) (fourierAlong c s xs ks d (fun idx => (starRingEnd ℂ) (g idx)) idx)) =
      fourierAlong c (-s) xs ks d g := by
  funext idx
  simp only [fourierAlong, map_mul, map_sum, Complex.conj_ofReal, Complex.conj_conj, ← Complex.exp_conj,
    Complex.conj_I]
  congr 1
  apply Finset.sum_congr rfl
  intro n _
  congr 2
  push_cast
  ring

theorem fold_conj (c s : ℕ → ℝ) (xs ks : ℕ → List ℝ) (l : List ℕ) (g : List ℕ → ℂ) :
    (fun idx => (starRingEnd ℂ) (l.foldl (fun g d => fourierAlong (c d) (s d) (xs d) (ks d) d g)
        (fun idx => (starRingEnd ℂ) (g idx)) idx)) =
      l.foldl (fun g d => fourierAlong (c d) (-s d) (xs d) (ks d) d g) g := by
  induction l generalizing g with
  | nil => simp
  | cons d l ih =>
    simp only [List.foldl_cons]
    rw [← fourierAlong_conj, ← ih]
    simp

/-- The axes which are transformed, in the order in which this is done. -/
def order (l : List ℕ) : List ℕ := l.dedup.insertionSort (· ≤ ·)

theorem order_nodup (l : List ℕ) : (order l).Nodup :=
  (List.perm_insertionSort _ _).nodup_iff.2 (List.nodup_dedup l)

theorem mem_order {l : List ℕ} {d : ℕ} : d ∈ order l ↔ d ∈ l := by
  rw [order, (List.perm_insertionSort _ _).mem_iff, List.mem_dedup]

theorem order_int (l : List ℕ) :
    (l.map Int.ofNat).dedup.insertionSort (· ≤ ·) = (order l).map Int.ofNat := by
  rw [List.dedup_map_of_injective Int.ofNat_injective]
  unfold order
  symm
  apply List.map_insertionSort
  intro a _ b _
  simp

/-- The sign of the exponent. -/
def expSign (state : Bool) (signs : String) : ℝ :=
  if state = (decide (signs = "temporal")) then -1 else 1

theorem fft_sound {spl : Splines ℝ} (hspl : ExactOnEven spl) (hf : f.Sound) {L : List ℕ} (hL : L ≠ [])
    {x0 h k0 : ℕ → ℝ} {n : ℕ → ℕ} {state : Bool}
    (hax : ∀ d ∈ L, d ≤ 2 ∧ f.ats[d]? = some (some state) ∧ ∃ ax o, f.axes[d]? = some ax ∧
      f.tao[d]? = some o ∧ Lin ax (x0 d) (h d) ∧ n d = ax.len ∧ k0 d = firstK o ax.len (h d))
    {signs : String} (hs : signs = "spatial" ∨ signs = "temporal") (old : Bool) :
    ∃ r, f.fft spl (some (L.map Int.ofNat)) signs old = .ok r ∧ r.Sound ∧ r.name = f.name ∧
      r.unit = f.unit ∧ r.shape = f.shape ∧
      (∀ d, d ∉ L → r.axes[d]? = f.axes[d]? ∧ r.ats[d]? = f.ats[d]? ∧ r.tao[d]? = f.tao[d]?) ∧
      (∀ d ∈ L, ∀ ax, f.axes[d]? = some ax → ∃ ax', r.axes[d]? = some ax' ∧
        ax'.name = conjugateName state ax.name ∧ ax'.unit = conjugateUnit state ax.unit ∧
        ax'.len = n d ∧ ax'.grid = ap (k0 d) (2 * Real.pi / (n d * h d)) (n d) ∧
        Lin ax' (k0 d) (if n d = 1 then 1 else 2 * Real.pi / (n d * h d)) ∧
        (2 ≤ n d → EvenAxis ax' (k0 d - 2 * Real.pi / (n d * h d) / 2) (2 * Real.pi / (n d * h d))) ∧
        r.ats[d]? = some (some !state) ∧ r.tao[d]? = some (some (x0 d))) ∧
      ∀ idx, InBounds f.shape idx → r.matrix.at' idx =
        (order L).foldl (fun g d => fourierAlong (h d / Real.sqrt (2 * Real.pi)) (expSign state signs)
          (ap (if old && !state then 0 else x0 d) (h d) (n d))
          (ap (if old && state then 0 else k0 d) (2 * Real.pi / (n d * h d)) (n d)) d g)
          f.matrix.at' idx := by
  have hL' : ∀ d ∈ order L, d ∈ L := fun d hd => mem_order.1 hd
  have hlen := ok_axes_length hf.ok
  have hone : order L ≠ [] := by
    cases L with
    | nil => exact absurd rfl hL
    | cons a L =>
      intro h0
      have : a ∈ order (a :: L) := mem_order.2 (by simp)
      rw [h0] at this
      simp at this
  let info : ℕ → FftAxis := fun d => ⟨d, h d, n d, x0 d, ap (k0 d) (2 * Real.pi / (n d * h d)) (n d), k0 d⟩
  have hdk : ∀ d ∈ L, 0 < 2 * Real.pi / (n d * h d) := by
    intro d hd
    obtain ⟨_, _, ax, o, _, _, a1, a2, _⟩ := hax d hd
    have h1 := a1.len
    have h2 := a1.pos
    have h3 : (0 : ℝ) < n d := by rw [a2]; exact_mod_cast h1
    positivity
  have hn0 : ∀ d ∈ L, 0 < n d := by
    intro d hd
    obtain ⟨_, _, ax, o, _, _, a1, a2, _⟩ := hax d hd
    rw [a2]
    exact a1.len
  -- the new axes
  have hnew : ∀ d, ∃ ax', d ∈ L → ∀ ax, f.axes[d]? = some ax →
      mkAxis spl { name := conjugateName state ax.name, unit := conjugateUnit state ax.unit
                   grid := some (ap (k0 d) (2 * Real.pi / (n d * h d)) (n d)) } = .ok ax' ∧
      ax'.name = conjugateName state ax.name ∧ ax'.unit = conjugateUnit state ax.unit ∧ ax'.len = n d ∧
      ax'.grid = ap (k0 d) (2 * Real.pi / (n d * h d)) (n d) ∧
      Lin ax' (k0 d) (if n d = 1 then 1 else 2 * Real.pi / (n d * h d)) ∧
      ValidAxis ax'.gridNode ax'.grid ax'.extent ∧
      (2 ≤ n d → EvenAxis ax' (k0 d - 2 * Real.pi / (n d * h d) / 2) (2 * Real.pi / (n d * h d))) := by
    intro d
    by_cases hd : d ∈ L
    · obtain ⟨_, _, ax, o, a0, _, _⟩ := hax d hd
      obtain ⟨ax', g⟩ := conj_axis hspl (conjugateName state ax.name) (conjugateUnit state ax.unit) (k0 d)
        (hdk d hd) (hn0 d hd)
      refine ⟨ax', fun _ ax2 h2 => ?_⟩
      rw [a0] at h2
      obtain rfl := Option.some.inj h2
      exact g
    · exact ⟨⟨"", "", [], [], (0, 0)⟩, fun h => absurd h hd⟩
  choose new hnew using hnew
  have hmapM : ((order L).map Int.ofNat).mapM f.fftAxis = .ok ((order L).map info) := by
    apply mapM_of_forall2
    rw [List.forall₂_map_left_iff, List.forall₂_map_right_iff, List.forall₂_same]
    intro d hd
    obtain ⟨_, _, ax, o, a0, a1, a2, a3, a4⟩ := hax d (hL' d hd)
    have := fftAxis_eq hf a0 a1 a2
    simp only [Int.ofNat_eq_natCast, info, a3, a4]
    exact this
  obtain ⟨axes', hset, hset1, hset2⟩ := setConjugateAxes_eq (spl := spl) (shape := f.shape) state info
    (fun _ => rfl) new (order L) (order_nodup L) f.axes (by
      intro d hd
      obtain ⟨h2, _, ax, o, a0, a1, a2, a3, a4⟩ := hax d (hL' d hd)
      obtain ⟨b1, _, _, b4, _⟩ := hnew d (hL' d hd) ax a0
      refine ⟨h2, ax, a0, ?_, b1⟩
      rw [b4, a3, ← hf.ok.lengths, List.getElem?_map, a0]
      rfl)
  have hneg : ((order L).map Int.ofNat).any (fun i => decide (i < 0)) = false := by
    rw [List.any_eq_false]
    intro i hi
    rw [List.mem_map] at hi
    obtain ⟨d, _, rfl⟩ := hi
    simp
  have hlin := allLinear_eq (axes := f.axes) (l := order L) (by
    intro d hd
    obtain ⟨_, _, ax, o, a0, a1, a2, _⟩ := hax d (hL' d hd)
    exact ⟨ax, a0, a2.linear⟩)
  have hcol := collectiveState_eq hone fun d hd => (hax d (hL' d hd)).2.1
  let conj : ℂ → ℂ := fun z => if signs = "temporal" then (starRingEnd ℂ) z else z
  let l := (order L).map info
  let m1 : List ℕ → ℂ := fun idx => conj (f.matrix.at' idx) * linearPhase state f.axes
    (l.map fun p => (p.i, if old && state then 0 else p.k0)) 0 idx
  let m3 : List ℕ → ℂ := fun idx => conj (fftNorm l * dft state f.shape (l.map (·.i)) m1 idx *
    linearPhase (!state) axes' (l.map fun p => (p.i, if old && !state then 0 else -p.x0))
      (l.map fun p => p.x0 * p.k0).sum idx)
  have hres : f.fft spl (some (L.map Int.ofNat)) signs old = .ok ⟨f.name, f.unit, ⟨f.shape, m3⟩, axes',
      l.foldl (fun s p => s.set p.i (some !state)) f.ats,
      l.foldl (fun s p => s.set p.i (some p.x0)) f.tao⟩ := by
    unfold Field.fft
    rw [if_neg (not_not.2 hs)]
    simp only [bind, Except.bind, Option.getD_some, order_int, hlin, hcol, hmapM, hneg, hset, pure,
      Except.pure]
    rfl
  have hats : ∀ d, (l.foldl (fun s p => s.set p.i (some !state)) f.ats)[d]? =
      if d ∈ L then (f.ats[d]?).map fun _ => some !state else f.ats[d]? := by
    intro d
    show (((order L).map info).foldl _ f.ats)[d]? = _
    rw [List.foldl_map, foldl_set (fun _ => some !state)]
    simp only [mem_order]
  have htao : ∀ d, (l.foldl (fun s p => s.set p.i (some p.x0)) f.tao)[d]? =
      if d ∈ L then (f.tao[d]?).map fun _ => some (x0 d) else f.tao[d]? := by
    intro d
    show (((order L).map info).foldl _ f.tao)[d]? = _
    rw [List.foldl_map, foldl_set (fun d => some (x0 d))]
    simp only [mem_order]
  have hfoldl : ∀ {α : Type} (v : FftAxis → α) (a : List α) (l : List FftAxis),
      (l.foldl (fun s p => s.set p.i (v p)) a).length = a.length := by
    intro α v a l
    induction l generalizing a with
    | nil => rfl
    | cons p l ih => rw [List.foldl_cons, ih, List.length_set]
  refine ⟨_, hres, ⟨⟨?_, ?_, ?_⟩, ?_, hf.nonempty⟩, rfl, rfl, rfl, ?_, ?_, ?_⟩
  · apply List.ext_getElem?
    intro d
    show (axes'.map Axis.len)[d]? = f.shape[d]?
    rw [List.getElem?_map, hset2]
    by_cases hd : d ∈ L
    · obtain ⟨_, _, ax, o, a0, a1, a2, a3, a4⟩ := hax d hd
      rw [if_pos (mem_order.2 hd), ← hf.ok.lengths, List.getElem?_map, a0]
      simp only [Option.map_some]
      rw [(hnew d hd ax a0).2.2.2.1, a3]
    · rw [if_neg (fun h => hd (mem_order.1 h)), ← hf.ok.lengths, List.getElem?_map]
  · show (l.foldl _ f.ats).length = f.shape.length
    rw [hfoldl (fun _ => some !state), hf.ok.states]
  · show (l.foldl _ f.tao).length = f.shape.length
    rw [hfoldl (fun p => some p.x0), hf.ok.origins]
  · intro b hb
    obtain ⟨d, hd⟩ := List.mem_iff_getElem?.1 hb
    have hd : axes'[d]? = some b := hd
    rw [hset2] at hd
    split_ifs at hd with hm
    · obtain rfl := Option.some.inj hd
      obtain ⟨_, _, ax, o, a0, _⟩ := hax d (hL' d hm)
      exact (hnew d (hL' d hm) ax a0).2.2.2.2.2.2.1
    · exact hf.valid b (List.mem_of_getElem? hd)
  · intro d hd
    refine ⟨?_, ?_, ?_⟩
    · show axes'[d]? = _
      rw [hset2, if_neg (fun h => hd (mem_order.1 h))]
    · show (l.foldl _ f.ats)[d]? = _
      rw [hats, if_neg hd]
    · show (l.foldl _ f.tao)[d]? = _
      rw [htao, if_neg hd]
  · intro d hd ax a0
    obtain ⟨b1, b2, b3, b4, b5, b6, b7, b8⟩ := hnew d hd ax a0
    refine ⟨new d, ?_, b2, b3, b4, b5, b6, b8, ?_, ?_⟩
    · show axes'[d]? = _
      rw [hset2, if_pos (mem_order.2 hd)]
    · show (l.foldl _ f.ats)[d]? = _
      rw [hats, if_pos hd, (hax d hd).2.1]
      rfl
    · show (l.foldl _ f.tao)[d]? = _
      obtain ⟨_, _, ax, o, _, a1, _⟩ := hax d hd
      rw [htao, if_pos hd, a1]
      rfl
  · intro idx hidx
    -- without conjugation
    have hcore : ∀ (g : List ℕ → ℂ) (idx : List ℕ), InBounds f.shape idx →
        fftNorm l * dft state f.shape (l.map (·.i)) (fun idx => g idx * linearPhase state f.axes
          (l.map fun p => (p.i, if old && state then 0 else p.k0)) 0 idx) idx *
        linearPhase (!state) axes' (l.map fun p => (p.i, if old && !state then 0 else -p.x0))
          (l.map fun p => p.x0 * p.k0).sum idx =
        (order L).foldl (fun g d => fourierAlong (h d / Real.sqrt (2 * Real.pi)) (if state then 1 else -1)
          (ap (if old && !state then 0 else x0 d) (h d) (n d))
          (ap (if old && state then 0 else k0 d) (2 * Real.pi / (n d * h d)) (n d)) d g) g idx := by
      intro g idx hidx
      have e1 : ∀ idx, linearPhase state f.axes (l.map fun p => (p.i, if old && state then 0 else p.k0)) 0 idx =
          ((order L).map fun i => Complex.exp ((if state then 1 else -1) * Complex.I *
            (((if old && state then 0 else k0 i) *
              ((f.axes.map (·.grid)).getD i []).getD (idx.getD i 0) 0 + 0 : ℝ) : ℂ))).prod := by
        intro idx
        have := linearPhase_prod state f.axes (order L) (fun i => if old && state then 0 else k0 i)
          (fun _ => 0) idx
        simp only [List.map_const', List.sum_replicate, smul_zero] at this
        rw [← this]
        show linearPhase state f.axes (((order L).map info).map _) 0 idx = _
        rw [List.map_map]
        rfl
      have e2 : linearPhase (!state) axes' (l.map fun p => (p.i, if old && !state then 0 else -p.x0))
          (l.map fun p => p.x0 * p.k0).sum idx =
          ((order L).map fun i => Complex.exp ((if !state then 1 else -1) * Complex.I *
            (((if old && !state then 0 else -x0 i) *
              ((axes'.map (·.grid)).getD i []).getD (idx.getD i 0) 0 + x0 i * k0 i : ℝ) : ℂ))).prod := by
        rw [← linearPhase_prod (!state) axes' (order L) (fun i => if old && !state then 0 else -x0 i)
          (fun i => x0 i * k0 i) idx]
        show linearPhase (!state) axes' (((order L).map info).map _) (((order L).map info).map _).sum idx = _
        rw [List.map_map, List.map_map]
        rfl
      have e3 : fftNorm l = ((order L).map fun d => h d * Real.sqrt (n d) / Real.sqrt (2 * Real.pi)).prod := by
        rw [fftNorm_prod]
        · show (((order L).map info).map _).prod = _
          rw [List.map_map]
          rfl
        · intro p hp
          obtain ⟨d, hd, rfl⟩ := List.mem_map.1 hp
          obtain ⟨_, _, ax, o, _, _, a2, _⟩ := hax d (hL' d hd)
          exact a2.pos
      have e4 : l.map (·.i) = order L := by
        show ((order L).map info).map _ = _
        rw [List.map_map]
        exact List.map_id _
      rw [e2, e3, e4]
      simp only [e1]
      have e5 : ∀ (A B : ℕ → ℂ) (D : ℂ) (s : List ℕ), (s.map A).prod * D * (s.map B).prod =
          D * (s.map fun i => A i * B i).prod := by
        intro A B D s
        rw [List.prod_map_mul]
        ring
      have e6 : (((((order L).map fun d => h d * Real.sqrt (n d) / Real.sqrt (2 * Real.pi)).prod : ℝ)) : ℂ) =
          ((order L).map fun d => ((h d * Real.sqrt (n d) / Real.sqrt (2 * Real.pi) : ℝ) : ℂ)).prod := by
        rw [← Complex.ofRealHom_eq_coe, map_list_prod, List.map_map]
        rfl
      rw [e6, e5]
      rw [dft_phases state f.shape (order L) (order_nodup L)
        (fun i idx => Complex.exp ((if state then 1 else -1) * Complex.I *
            (((if old && state then 0 else k0 i) *
              ((f.axes.map (·.grid)).getD i []).getD (idx.getD i 0) 0 + 0 : ℝ) : ℂ)))
        (fun i idx => ((h i * Real.sqrt (n i) / Real.sqrt (2 * Real.pi) : ℝ) : ℂ) *
          Complex.exp ((if !state then 1 else -1) * Complex.I *
            (((if old && !state then 0 else -x0 i) *
              ((axes'.map (·.grid)).getD i []).getD (idx.getD i 0) 0 + x0 i * k0 i : ℝ) : ℂ)))
        (fun i k hik idx j => by simp only [getD_set_ne idx i k j hik])
        (fun i k hik idx j => by simp only [getD_set_ne idx i k j hik])]
      refine foldl_congr_on (order L) _ _ ?_ g g (fun _ _ => rfl) idx hidx
      intro d hd g g' hg idx hidx
      obtain ⟨_, _, ax, o, a0, a1, a2, a3, a4⟩ := hax d (hL' d hd)
      have hsd : f.shape[d]? = some (n d) := by
        rw [← hf.ok.lengths, List.getElem?_map, a0, a3]
        rfl
      have hsd' : f.shape.getD d 0 = n d := by
        rw [List.getD_eq_getElem?_getD, hsd]
        rfl
      rw [hsd']
      have hxg : (f.axes.map (·.grid)).getD d [] = ap (x0 d) (h d) (n d) := by
        rw [List.getD_eq_getElem?_getD, List.getElem?_map, a0, a3]
        exact a2.grid
      have hkg : (axes'.map (·.grid)).getD d [] = ap (k0 d) (2 * Real.pi / (n d * h d)) (n d) := by
        rw [List.getD_eq_getElem?_getD, List.getElem?_map, hset2, if_pos hd]
        exact (hnew d (hL' d hd) ax a0).2.2.2.2.1
      exact fft_step hsd (hn0 d (hL' d hd)) state old (x0 d) (h d) (k0 d) a2.pos g g' hg _ _ hxg hkg idx hidx
    show m3 idx = _
    by_cases ht : signs = "temporal"
    · have := hcore (fun idx => (starRingEnd ℂ) (f.matrix.at' idx)) idx hidx
      have hm3 : m3 idx = (starRingEnd ℂ) ((order L).foldl (fun g d =>
          fourierAlong (h d / Real.sqrt (2 * Real.pi)) (if state then 1 else -1)
          (ap (if old && !state then 0 else x0 d) (h d) (n d))
          (ap (if old && state then 0 else k0 d) (2 * Real.pi / (n d * h d)) (n d)) d g)
          (fun idx => (starRingEnd ℂ) (f.matrix.at' idx)) idx) := by
        rw [← this]
        simp only [m3, m1, conj, if_pos ht]
      rw [hm3]
      have hc := congrFun (fold_conj (fun d => h d / Real.sqrt (2 * Real.pi))
        (fun _ => if state then 1 else -1) (fun d => ap (if old && !state then 0 else x0 d) (h d) (n d))
        (fun d => ap (if old && state then 0 else k0 d) (2 * Real.pi / (n d * h d)) (n d)) (order L)
        f.matrix.at') idx
      rw [hc]
      have hsg : (-(if state then (1 : ℝ) else -1)) = expSign state signs := by
        cases state <;> simp [expSign, ht]
      rw [hsg]
    · have := hcore f.matrix.at' idx hidx
      have hsg : (if state then (1 : ℝ) else -1) = expSign state signs := by
        cases state <;> simp [expSign, ht]
      rw [hsg] at this
      rw [← this]
      simp only [m3, m1, conj, if_neg ht]

end

end Postpic.Fields
