import Verif.Model.FieldCalc
import Verif.Spec.FieldCalc
import Verif.Lemmas.Calculus
import Verif.Lemmas.Broadcast
import Verif.Props.ReaderGrid

/-!
# C67: components, energy densities and divergence of the fields in a dump
-/

set_option autoImplicit false
set_option linter.unusedSectionVars false

namespace Postpic.Props

open Postpic Postpic.Axes Postpic.Fields Postpic.Spec Postpic.Readers

section
variable {K : Type} [_root_.Field K] [LinearOrder K] [IsStrictOrderedRing K]

/-- Adding arrays with the same shape. -/
theorem binary_same {V : Type} (g : V → V → V) {a b : Arr V} (hs : b.shape = a.shape)
    (h2 : ∀ m ∈ a.shape, 2 ≤ m) :
    ∃ r, Arr.binary g a b = .ok r ∧ r.shape = a.shape ∧
      ∀ idx, idx.length = a.shape.length → r.at' idx = g (a.at' idx) (b.at' idx) := by
  have hb : bshape a.shape b.shape = some a.shape := by
    rw [hs]
    exact (bshape_iff _ _ _).2 ⟨by simp, fun k => Or.inl ⟨rfl, Or.inl rfl⟩⟩
  have hi : ∀ idx : List ℕ, idx.length = a.shape.length → bindex a.shape idx = idx := by
    intro idx hidx
    unfold bindex
    rw [hidx, Nat.sub_self, List.drop_zero]
    apply List.ext_getElem?
    intro k
    rw [List.getElem?_zipWith]
    by_cases hk : k < a.shape.length
    · rw [List.getElem?_eq_getElem hk, List.getElem?_eq_getElem (by omega : k < idx.length)]
      have := h2 _ (List.getElem_mem hk)
      simp only
      rw [if_neg (by omega)]
    · rw [List.getElem?_eq_none (by omega : a.shape.length ≤ k), List.getElem?_eq_none (by omega : idx.length ≤ k)]
  refine ⟨⟨a.shape, fun idx => g (a.at' (bindex a.shape idx)) (b.at' (bindex b.shape idx))⟩, ?_, rfl, ?_⟩
  · unfold Arr.binary
    rw [hb]
  · intro idx hidx
    show g (a.at' (bindex a.shape idx)) (b.at' (bindex b.shape idx)) = _
    rw [hs, hi idx hidx]

/-- The field made from an array. -/
theorem quantity_ok {spl : Splines K} (hspl : ExactOnEven spl) (twoPi : K) {r : Reader K} {d : EMDump K}
    (hr : d.node = r.gridnode) (ho : d.order = defaultOrder ∨ d.order = fbpicOrder) {key : String} {D : ℕ}
    {n : ℕ → ℕ} {o h : ℕ → K} (hg : ReaderGrid r d.order key D n o h) {data : Arr K}
    (hs : data.shape = (List.range D).map n) (name unit : String) :
    ∃ q, d.quantity spl twoPi data name unit key = .ok q ∧ q.unit = unit ∧ q.field.name = name ∧
      ReadOn q.field r d.order key D ∧ q.field.matrix.Eqv data := by
  obtain ⟨f, h1, h2, h3, h4, h5⟩ := read_field_partial spl hspl twoPi r d.order ho data name key D hg.one hg.three
    n o h hs hg.points hg.reader
  refine ⟨⟨f, unit⟩, ?_, rfl, h2, ⟨h4, h5⟩, h3⟩
  unfold EMDump.quantity
  rw [hr, h1]
  rfl

/-- C67: the components of the fields have the data of the dump, the unit V/m or T, and the grid the reader
describes for the component. Partial: for the radial and azimuthal component of B the unit is wrong (see
`component_unit_violated`). -/
theorem component_partial {spl : Splines K} (hspl : ExactOnEven spl) (twoPi : K) (r : Reader K) (d : EMDump K)
    (hr : d.node = r.gridnode) (ho : d.order = defaultOrder ∨ d.order = fbpicOrder) (c : String) (D : ℕ) (n : ℕ → ℕ)
    (o h : ℕ → K) (data : Arr K) (hs : data.shape = (List.range D).map n) (key : String)
    (hg : ReaderGrid r d.order key D n o h) :
    (d.dataE c = .ok data → d.gridkeyE c = .ok key →
      ∃ q, d.fieldE spl twoPi c = .ok q ∧ q.unit = "V/m" ∧ q.field.name = "E" ++ c ∧
        ReadOn q.field r d.order key D ∧ q.field.matrix.Eqv data) ∧
    (d.dataB c = .ok data → d.gridkeyB c = .ok key → c = "x" ∨ c = "y" ∨ c = "z" →
      ∃ q, d.fieldB spl twoPi c = .ok q ∧ q.unit = "T" ∧ q.field.name = "B" ++ c ∧
        ReadOn q.field r d.order key D ∧ q.field.matrix.Eqv data) := by
  constructor
  · intro hd hk
    obtain ⟨q, h1, h2⟩ := quantity_ok hspl twoPi hr ho hg hs ("E" ++ c) "V/m"
    refine ⟨q, ?_, h2⟩
    unfold EMDump.fieldE
    rw [hd, hk]
    exact h1
  · intro hd hk hc
    have hu : unitB c = "T" := by
      rcases hc with rfl | rfl | rfl <;> rfl
    obtain ⟨q, h1, h2⟩ := quantity_ok hspl twoPi hr ho hg hs ("B" ++ c) "T"
    refine ⟨q, ?_, h2⟩
    unfold EMDump.fieldB
    rw [hd, hk]
    simp only [bind, Except.bind, hu]
    exact h1

theorem sumSquares_ok {s : List ℕ} (h2 : ∀ m ∈ s, 2 ≤ m) {a b c : Arr K} (ha : a.shape = s) (hb : b.shape = s)
    (hc : c.shape = s) :
    ∃ r, sumSquares a b c = .ok r ∧ r.shape = s ∧
      ∀ idx, idx.length = s.length → r.at' idx = a.at' idx ^ 2 + b.at' idx ^ 2 + c.at' idx ^ 2 := by
  obtain ⟨p, p1, p2, p3⟩ := binary_same (· + ·) (a := Arr.sq a) (b := Arr.sq b) (hb.trans ha.symm)
    (by rw [show (Arr.sq a).shape = s from ha]; exact h2)
  have p2' : p.shape = s := p2.trans ha
  obtain ⟨q, q1, q2, q3⟩ := binary_same (· + ·) (a := p) (b := Arr.sq c) (hc.trans p2'.symm)
    (by rw [p2']; exact h2)
  refine ⟨q, ?_, q2.trans p2', ?_⟩
  · unfold sumSquares
    rw [p1]
    exact q1
  · intro idx hidx
    rw [q3 idx (by rw [p2']; exact hidx), p3 idx (by rw [show (Arr.sq a).shape = s from ha]; exact hidx)]
    rfl

/-- The components of a vector field: three arrays of the same shape. -/
structure Components (get : String → Res (Arr K)) (s : List ℕ) (v : ℕ → Arr K) : Prop where
  data : ∀ k < 3, get (letter k) = .ok (v k)
  shape : ∀ k < 3, (v k).shape = s

theorem mem_shape {D : ℕ} {n : ℕ → ℕ} (h : ∀ d < D, 2 ≤ n d) : ∀ m ∈ (List.range D).map n, 2 ≤ m := by
  intro m hm
  obtain ⟨d, hd, rfl⟩ := List.mem_map.1 hm
  exact h d (List.mem_range.1 hd)

theorem dataEnergy_ok {get : String → Res (Arr K)} {s : List ℕ} (h2 : ∀ m ∈ s, 2 ≤ m) {v : ℕ → Arr K}
    (hv : Components get s v) :
    ∃ r, sumSquares (v 0) (v 1) (v 2) = .ok r ∧ r.shape = s ∧
      ∀ idx, idx.length = s.length → r.at' idx = ∑ k ∈ Finset.range 3, (v k).at' idx ^ 2 := by
  obtain ⟨r, h1, h3, h4⟩ := sumSquares_ok h2 (hv.shape 0 (by omega)) (hv.shape 1 (by omega)) (hv.shape 2 (by omega))
  refine ⟨r, h1, h3, ?_⟩
  intro idx hidx
  rw [h4 idx hidx]
  simp [Finset.sum_range_succ]

/-- C67: the energy densities are ε₀/2 E², B²/(2 μ₀) and their sum, at every point, in J/m³. Partial: the
components are taken as if they were given on the grid of the x component (of E, or of B for the magnetic
energy density), although codes with staggered grids write them at different places. -/
theorem energy_density_partial {spl : Splines K} (hspl : ExactOnEven spl) (twoPi eps0 mu0 : K) (r : Reader K)
    (d : EMDump K) (hr : d.node = r.gridnode) (ho : d.order = defaultOrder ∨ d.order = fbpicOrder) (D : ℕ)
    (n : ℕ → ℕ) (oE hE oB hB : ℕ → K) (E B : ℕ → Arr K) (hcE : Components d.dataE ((List.range D).map n) E)
    (hcB : Components d.dataB ((List.range D).map n) B) (keyE keyB : String) (hkE : d.gridkeyE "x" = .ok keyE)
    (hkB : d.gridkeyB "x" = .ok keyB) (hgE : ReaderGrid r d.order keyE D n oE hE)
    (hgB : ReaderGrid r d.order keyB D n oB hB) :
    ∃ qE qM qEM, d.energydensityE spl twoPi eps0 = .ok qE ∧ d.energydensityM spl twoPi mu0 = .ok qM ∧
      d.energydensityEM spl twoPi eps0 mu0 = .ok qEM ∧
      (qE.unit = "J/m^3" ∧ qM.unit = "J/m^3" ∧ qEM.unit = "J/m^3") ∧
      (ReadOn qE.field r d.order keyE D ∧ ReadOn qM.field r d.order keyB D ∧ ReadOn qEM.field r d.order keyE D) ∧
      (qE.field.matrix.shape = (List.range D).map n ∧ qM.field.matrix.shape = (List.range D).map n ∧
        qEM.field.matrix.shape = (List.range D).map n) ∧
      ∀ idx, InBounds ((List.range D).map n) idx →
        qE.field.matrix.at' idx = eps0 / 2 * ∑ k ∈ Finset.range 3, (E k).at' idx ^ 2 ∧
        qM.field.matrix.at' idx = 1 / (2 * mu0) * ∑ k ∈ Finset.range 3, (B k).at' idx ^ 2 ∧
        qEM.field.matrix.at' idx = qE.field.matrix.at' idx + qM.field.matrix.at' idx := by
  have h2 := mem_shape hgE.points
  obtain ⟨e, e1, e2, e3⟩ := dataEnergy_ok h2 hcE
  obtain ⟨m, m1, m2, m3⟩ := dataEnergy_ok h2 hcB
  have eE : d.dataEnergyE eps0 = .ok (Arr.scale (1 / 2 * eps0) e) := by
    unfold EMDump.dataEnergyE
    have a0 := hcE.data 0 (by omega)
    have a1 := hcE.data 1 (by omega)
    have a2 := hcE.data 2 (by omega)
    simp only [letter, List.getD_cons_zero, List.getD_cons_succ] at a0 a1 a2
    simp only [a0, a1, a2, bind, Except.bind, e1]
    rfl
  have eM : d.dataEnergyM mu0 = .ok (Arr.scale (1 / 2 / mu0) m) := by
    unfold EMDump.dataEnergyM
    have a0 := hcB.data 0 (by omega)
    have a1 := hcB.data 1 (by omega)
    have a2 := hcB.data 2 (by omega)
    simp only [letter, List.getD_cons_zero, List.getD_cons_succ] at a0 a1 a2
    simp only [a0, a1, a2, bind, Except.bind, m1]
    rfl
  have sE : (Arr.scale (1 / 2 * eps0) e).shape = (List.range D).map n := e2
  have sM : (Arr.scale (1 / 2 / mu0) m).shape = (List.range D).map n := m2
  obtain ⟨t, t1, t2, t3⟩ := binary_same (· + ·) (a := Arr.scale (1 / 2 * eps0) e) (b := Arr.scale (1 / 2 / mu0) m)
    (sM.trans sE.symm) (by rw [sE]; exact h2)
  obtain ⟨qE, a1, a2, _, a4, a5⟩ := quantity_ok hspl twoPi hr ho hgE sE "Energy Density Electric-Field" "J/m^3"
  obtain ⟨qM, b1, b2, _, b4, b5⟩ := quantity_ok hspl twoPi hr ho hgB sM "Energy Density Magnetic-Field" "J/m^3"
  obtain ⟨qT, c1, c2, _, c4, c5⟩ := quantity_ok hspl twoPi hr ho hgE (t2.trans sE) "Energy Density EM-Field" "J/m^3"
  refine ⟨qE, qM, qT, ?_, ?_, ?_, ⟨a2, b2, c2⟩, ⟨a4, b4, c4⟩, ⟨a5.1.trans sE, b5.1.trans sM, c5.1.trans (t2.trans sE)⟩, ?_⟩
  · unfold EMDump.energydensityE
    rw [eE, hkE]
    exact a1
  · unfold EMDump.energydensityM
    rw [eM, hkB]
    exact b1
  · unfold EMDump.energydensityEM
    rw [eE, eM]
    simp only [bind, Except.bind]
    rw [t1, hkE]
    exact c1
  · intro idx hidx
    have hl := hidx.1
    have vE : qE.field.matrix.at' idx = 1 / 2 * eps0 * e.at' idx := by
      rw [a5.2 idx (by rw [a5.1, sE]; exact hidx)]
      rfl
    have vM : qM.field.matrix.at' idx = 1 / 2 / mu0 * m.at' idx := by
      rw [b5.2 idx (by rw [b5.1, sM]; exact hidx)]
      rfl
    have vT : qT.field.matrix.at' idx = 1 / 2 * eps0 * e.at' idx + 1 / 2 / mu0 * m.at' idx := by
      rw [c5.2 idx (by rw [c5.1, t2, sE]; exact hidx), t3 idx (by rw [sE]; exact hl)]
      rfl
    refine ⟨?_, ?_, ?_⟩
    · rw [vE, e3 idx hl]
      ring
    · rw [vM, m3 idx hl, div_div]
    · rw [vT, vE, vM]

theorem gradientUnit_ok {a : Arr K} {k m : ℕ} (hk : a.shape[k]? = some m) (h2 : 2 ≤ m) :
    ∃ g, Arr.gradientUnit K a k = .ok g ∧ g.shape = a.shape ∧
      ∀ idx, InBounds a.shape idx → g.at' idx = cellSlope a k m idx := by
  refine ⟨⟨a.shape, fun idx => gradientEven (1 : K) (fun j => a.at' (idx.set k j)) m (idx.getD k 0)⟩, ?_, rfl, ?_⟩
  · unfold Arr.gradientUnit
    rw [hk]
    simp only
    rw [if_neg (by omega)]
  · intro idx hidx
    have hlt : k < idx.length := by
      rw [hidx.1]
      exact (List.getElem?_eq_some_iff.1 hk).1
    have hself : idx.set k (idx.getD k 0) = idx := by
      rw [List.getD_eq_getElem _ _ hlt, List.set_getElem_self]
    change gradientEven (1 : K) (fun j => a.at' (idx.set k j)) m (idx.getD k 0) = cellSlope a k m idx
    unfold gradientEven cellSlope
    simp only
    split_ifs with h0 h1
    · rw [h0] at hself
      rw [hself]
      simp
    · rw [h1] at hself
      rw [hself]
      simp
    · simp only [smul_eq_mul, mul_one]
      ring

/-- C67: `divE` is, at every point, the sum of the changes per cell of each component along its own
direction, in one, two and three dimensions. Partial: these are not divided by the size of the cells (see
`divE_linear_partial` and `divE_violated`). -/
theorem divE_partial {spl : Splines K} (hspl : ExactOnEven spl) (twoPi : K) (r : Reader K) (d : EMDump K)
    (hr : d.node = r.gridnode) (ho : d.order = defaultOrder ∨ d.order = fbpicOrder) (D : ℕ) (n : ℕ → ℕ)
    (o h : ℕ → K) (E : ℕ → Arr K) (hE : ∀ k < D, d.dataE (letter k) = .ok (E k))
    (hs : ∀ k < D, (E k).shape = (List.range D).map n) (hD : d.simdims = D) (key : String)
    (hk : d.gridkeyE "x" = .ok key) (hg : ReaderGrid r d.order key D n o h) :
    ∃ q, d.divE spl twoPi = .ok q ∧ q.unit = "V/m^2" ∧ ReadOn q.field r d.order key D ∧
      q.field.matrix.shape = (List.range D).map n ∧
      ∀ idx, InBounds ((List.range D).map n) idx →
        q.field.matrix.at' idx = ∑ k ∈ Finset.range D, cellSlope (E k) k (n k) idx := by
  have h2 := mem_shape hg.points
  have hgrad : ∀ k < D, ∃ g, Arr.gradientUnit K (E k) k = .ok g ∧ g.shape = (List.range D).map n ∧
      ∀ idx, InBounds ((List.range D).map n) idx → g.at' idx = cellSlope (E k) k (n k) idx := by
    intro k hk
    obtain ⟨g, g1, g2, g3⟩ := gradientUnit_ok (a := E k) (k := k) (m := n k) (by rw [hs k hk]; simp [hk])
      (hg.points k hk)
    rw [hs k hk] at g2 g3
    exact ⟨g, g1, g2, g3⟩
  have hdata : ∃ g, d.dataDivE = .ok g ∧ g.shape = (List.range D).map n ∧
      ∀ idx, InBounds ((List.range D).map n) idx →
        g.at' idx = ∑ k ∈ Finset.range D, cellSlope (E k) k (n k) idx := by
    have h1 := hg.one
    have h3 := hg.three
    unfold EMDump.dataDivE
    rw [hD]
    interval_cases D
    · obtain ⟨g, g1, g2, g3⟩ := hgrad 0 (by omega)
      have e0 := hE 0 (by omega)
      simp only [letter, List.getD_cons_zero] at e0
      refine ⟨g, ?_, g2, ?_⟩
      · simp only [Nat.cast_one, e0, bind, Except.bind]
        rw [if_neg (by rw [hs 0 (by omega)]; simp)]
        exact g1
      · intro idx hidx
        rw [g3 idx hidx]
        simp
    · obtain ⟨g, g1, g2, g3⟩ := hgrad 0 (by omega)
      obtain ⟨g', g1', g2', g3'⟩ := hgrad 1 (by omega)
      have e0 := hE 0 (by omega)
      have e1 := hE 1 (by omega)
      simp only [letter, List.getD_cons_zero, List.getD_cons_succ] at e0 e1
      obtain ⟨t, t1, t2, t3⟩ := binary_same (· + ·) (a := g) (b := g') (g2'.trans g2.symm) (by rw [g2]; exact h2)
      refine ⟨t, ?_, t2.trans g2, ?_⟩
      · simp only [Nat.cast_ofNat, e0, e1, bind, Except.bind, g1, g1', t1]
      · intro idx hidx
        rw [t3 idx (by rw [g2]; exact hidx.1), g3 idx hidx, g3' idx hidx]
        simp [Finset.sum_range_succ]
    · obtain ⟨g, g1, g2, g3⟩ := hgrad 0 (by omega)
      obtain ⟨g', g1', g2', g3'⟩ := hgrad 1 (by omega)
      obtain ⟨g'', g1'', g2'', g3''⟩ := hgrad 2 (by omega)
      have e0 := hE 0 (by omega)
      have e1 := hE 1 (by omega)
      have e2 := hE 2 (by omega)
      simp only [letter, List.getD_cons_zero, List.getD_cons_succ] at e0 e1 e2
      obtain ⟨t, t1, t2, t3⟩ := binary_same (· + ·) (a := g) (b := g') (g2'.trans g2.symm) (by rw [g2]; exact h2)
      have t2' := t2.trans g2
      obtain ⟨u, u1, u2, u3⟩ := binary_same (· + ·) (a := t) (b := g'') (g2''.trans t2'.symm) (by rw [t2']; exact h2)
      refine ⟨u, ?_, u2.trans t2', ?_⟩
      · simp only [Nat.cast_ofNat, e0, e1, e2, bind, Except.bind, g1, g1', g1'', t1, u1]
      · intro idx hidx
        rw [u3 idx (by rw [t2']; exact hidx.1), t3 idx (by rw [g2]; exact hidx.1), g3 idx hidx, g3' idx hidx,
          g3'' idx hidx]
        simp [Finset.sum_range_succ]
  obtain ⟨g, g1, g2, g3⟩ := hdata
  obtain ⟨q, a1, a2, _, a4, a5⟩ := quantity_ok hspl twoPi hr ho hg g2 "div E" "V/m^2"
  refine ⟨q, ?_, a2, a4, a5.1.trans g2, ?_⟩
  · unfold EMDump.divE
    rw [g1, hk]
    exact a1
  · intro idx hidx
    rw [a5.2 idx (by rw [a5.1, g2]; exact hidx), g3 idx hidx]

/-- The position of the grid point with this index along dimension `j`. -/
def position (o h : ℕ → K) (idx : List ℕ) (j : ℕ) : K := o j + ((idx.getD j 0 : ℕ) + 1 / 2 : K) * h j

/-- C67: for a field which depends linearly on the position, E_k = a_k + Σ_j b_kj x_j, `divE` returns
Σ_k b_kk h_k with the spacings h_k; the divergence is Σ_k b_kk. So the result is right if the spacings
are 1. -/
theorem divE_linear_partial {spl : Splines K} (hspl : ExactOnEven spl) (twoPi : K) (r : Reader K) (d : EMDump K)
    (hr : d.node = r.gridnode) (ho : d.order = defaultOrder ∨ d.order = fbpicOrder) (D : ℕ) (n : ℕ → ℕ)
    (o h : ℕ → K) (E : ℕ → Arr K) (hE : ∀ k < D, d.dataE (letter k) = .ok (E k))
    (hs : ∀ k < D, (E k).shape = (List.range D).map n) (hD : d.simdims = D) (key : String)
    (hk : d.gridkeyE "x" = .ok key) (hg : ReaderGrid r d.order key D n o h) (a : ℕ → K) (b : ℕ → ℕ → K)
    (hlin : ∀ k < D, ∀ idx, InBounds ((List.range D).map n) idx →
      (E k).at' idx = a k + ∑ j ∈ Finset.range D, b k j * position o h idx j) :
    ∃ q, d.divE spl twoPi = .ok q ∧ ∀ idx, InBounds ((List.range D).map n) idx →
      q.field.matrix.at' idx = ∑ k ∈ Finset.range D, b k k * h k := by
  obtain ⟨q, h1, _, _, _, h5⟩ := divE_partial hspl twoPi r d hr ho D n o h E hE hs hD key hk hg
  refine ⟨q, h1, ?_⟩
  intro idx hidx
  rw [h5 idx hidx]
  apply Finset.sum_congr rfl
  intro k hk
  rw [Finset.mem_range] at hk
  have hlt : k < idx.length := by
    rw [hidx.1]
    simpa using hk
  have hget : ((List.range D).map n)[k]? = some (n k) := by simp [hk]
  have hset : ∀ i, i < n k → InBounds ((List.range D).map n) (idx.set k i) := by
    intro i hi
    refine ⟨by rw [List.length_set]; exact hidx.1, ?_⟩
    intro e j m hj hm
    rw [List.getElem?_set] at hj
    split_ifs at hj with h1
    · subst h1
      rw [hget] at hm
      cases hj
      cases hm
      exact hi
    · exact hidx.2 e j m hj hm
  have hpos : ∀ i j, position o h (idx.set k i) j =
      if j = k then o k + ((i : ℕ) + 1 / 2 : K) * h k else position o h idx j := by
    intro i j
    unfold position
    rw [List.getD_eq_getElem?_getD, List.getElem?_set]
    by_cases hjk : k = j
    · subst hjk
      simp [hlt]
    · rw [if_neg hjk, if_neg (Ne.symm hjk), ← List.getD_eq_getElem?_getD]
  have hdiff : ∀ i i', i < n k → i' < n k →
      (E k).at' (idx.set k i) - (E k).at' (idx.set k i') = b k k * h k * ((i : K) - (i' : K)) := by
    intro i i' hi hi'
    rw [hlin k hk _ (hset i hi), hlin k hk _ (hset i' hi')]
    have : ∀ i, ∑ j ∈ Finset.range D, b k j * position o h (idx.set k i) j =
        b k k * (o k + ((i : ℕ) + 1 / 2 : K) * h k) +
          ∑ j ∈ (Finset.range D).erase k, b k j * position o h idx j := by
      intro i
      rw [← Finset.add_sum_erase _ _ (Finset.mem_range.2 hk), hpos i k, if_pos rfl]
      congr 1
      apply Finset.sum_congr rfl
      intro j hj
      rw [hpos i j, if_neg (Finset.mem_erase.1 hj).1]
    rw [this i, this i']
    ring
  have hik : idx.getD k 0 < n k := by
    rw [List.getD_eq_getElem _ _ hlt]
    exact hidx.2 k _ _ (List.getElem?_eq_getElem hlt) hget
  have hself : idx.set k (idx.getD k 0) = idx := by
    rw [List.getD_eq_getElem _ _ hlt, List.set_getElem_self]
  have hn2 := hg.points k hk
  unfold cellSlope
  simp only
  split_ifs with c0 c1
  · have := hdiff 1 0 (by omega) (by omega)
    rw [c0] at hself
    rw [hself] at this
    rw [this]
    push_cast
    ring
  · have := hdiff (n k - 1) (n k - 2) (by omega) (by omega)
    rw [c1] at hself
    rw [hself] at this
    rw [this]
    have e : ((n k - 1 : ℕ) : K) - ((n k - 2 : ℕ) : K) = 1 := by
      rw [Nat.cast_sub (by omega), Nat.cast_sub (by omega)]
      push_cast
      ring
    rw [e, mul_one]
  · rw [hdiff _ _ (by omega) (by omega)]
    have : 1 ≤ idx.getD k 0 := by omega
    rw [Nat.cast_add, Nat.cast_sub this]
    push_cast
    ring

end
/-! ### Examples -/

/-- All records of this dump are given on the same grid: from 10 to 90 with spacing 20, and from 20 to 35
with spacing 5. -/
def sameDump : PmdDump ℚ := fun _ => some record43

/-- E = (x, 3 y, 7), B = (1, 2, 2). -/
def emDump : EMDump ℚ where
  dataE c := .ok ⟨[4, 3], fun idx => if c = "x" then 20 + 20 * idx.getD 0 0 else
    if c = "y" then 3 * (45 / 2 + 5 * idx.getD 1 0) else 7⟩
  dataB c := .ok ⟨[4, 3], fun _ => if c = "x" then 1 else 2⟩
  gridkeyE c := .ok ("fields/E/" ++ c)
  gridkeyB c := .ok ("fields/B/" ++ c)
  node := sameDump.reader.gridnode
  order := defaultOrder
  simdims := 2

theorem sameDump_grid (key : String) (hk : key = "fields/E/x" ∨ key = "fields/B/x") :
    ReaderGrid sameDump.reader defaultOrder key 2 (fun d => if d = 0 then 4 else 3)
      (fun d => if d = 0 then 10 else 20) (fun d => if d = 0 then 20 else 5) where
  one := by omega
  three := by omega
  points := by
    intro d hd
    interval_cases d <;> simp
  reader := by
    intro d hd axis hax
    interval_cases d <;> (simp [defaultOrder] at hax; subst hax; rcases hk with rfl | rfl <;>
      exact ⟨by decide +kernel, rfl, by decide +kernel, by simp⟩)

example : Components emDump.dataE [4, 3] (fun k => ⟨[4, 3], fun idx => if k = 0 then 20 + 20 * idx.getD 0 0 else
    if k = 1 then 3 * (45 / 2 + 5 * idx.getD 1 0) else 7⟩) where
  data := by
    intro k hk
    interval_cases k <;> simp [letter, emDump]
  shape := by
    intro k hk
    rfl

example : (emDump.energydensityE midSplines 6 2).map
      (fun q => (q.field.matrix.at' [1, 2], q.field.matrix.shape, q.field.axes.length)) =
    .ok (40 ^ 2 + (3 * (65 / 2)) ^ 2 + 7 ^ 2, [4, 3], 2) ∧
  (emDump.energydensityM midSplines 6 2).map (fun q => q.field.matrix.at' [1, 2]) = .ok (9 / 4) ∧
  (emDump.energydensityEM midSplines 6 2 2).map (fun q => q.field.matrix.at' [1, 2]) =
    .ok (40 ^ 2 + (3 * (65 / 2)) ^ 2 + 7 ^ 2 + 9 / 4) := by
  refine ⟨?_, ?_, ?_⟩ <;> decide +kernel

example : ∃ q, emDump.divE midSplines 6 = .ok q ∧ ∀ idx, InBounds [4, 3] idx → q.field.matrix.at' idx = 35 := by
  obtain ⟨q, h1, h2⟩ := divE_linear_partial midSplines_exact 6 sameDump.reader emDump rfl (Or.inl rfl) 2
    (fun d => if d = 0 then 4 else 3) (fun d => if d = 0 then 10 else 20) (fun d => if d = 0 then 20 else 5)
    (fun k => ⟨[4, 3], fun idx => if k = 0 then 20 + 20 * idx.getD 0 0 else 3 * (45 / 2 + 5 * idx.getD 1 0)⟩)
    (by intro k hk; interval_cases k <;> simp [letter, emDump]) (by intro k hk; rfl) rfl "fields/E/x" rfl
    (sameDump_grid _ (Or.inl rfl)) (fun _ => 0) (fun k j => if k = j then (if k = 0 then 1 else 3) else 0)
    (by
      intro k hk idx _
      interval_cases k
      · simp [position, Finset.sum_range_succ]
        ring
      · simp [position, Finset.sum_range_succ]
        ring)
  refine ⟨q, h1, ?_⟩
  intro idx hidx
  rw [h2 idx hidx]
  simp [Finset.sum_range_succ]
  norm_num

/-- C67 is violated: the divergence of E = (x, 3 y, 7) is 1 + 3 = 4 everywhere, but with cells of 20 m by 5 m
`divE` returns 20 + 15 = 35. -/
theorem divE_violated : (∀ i < 4, emDump.node "fields/E/x" (.str "x") = .ok [10, 30, 50, 70, 90] ∧
      (emDump.dataE "x").map (fun a => a.at' [i, 0]) = .ok (20 + 20 * (i : ℚ))) ∧
    (emDump.divE midSplines 6).map (fun q => (q.field.matrix.at' [1, 2], q.unit)) = .ok (35, "V/m^2") := by
  refine ⟨?_, ?_⟩ <;> decide +kernel

/-- C67 is violated: the radial and azimuthal components of the magnetic field are given in V/m. -/
theorem component_unit_violated : ∀ c ∈ ["r", "theta"],
    (emDump.fieldB midSplines 6 c).map (fun q => q.unit) = .ok "V/m" ∧
    (emDump.fieldB midSplines 6 "x").map (fun q => q.unit) = .ok "T" := by
  decide +kernel

/-- C67 is violated: components which the dump gives at different places (here the second half a cell to the
right of the first, as on a staggered grid) are added as if they were at the same place. -/
theorem energy_density_stagger_violated :
    let d : EMDump ℚ := { emDump with node := fun key axis =>
      if key = "fields/E/y" ∧ axis = .str "x" then .ok [20, 40, 60, 80, 100] else emDump.node key axis }
    (d.fieldE midSplines 6 "x").map (fun q => q.field.axes.head?.map fun | .axis ax => ax.grid | .array l => l) =
      .ok (some [20, 40, 60, 80]) ∧
    (d.fieldE midSplines 6 "y").map (fun q => q.field.axes.head?.map fun | .axis ax => ax.grid | .array l => l) =
      .ok (some [30, 50, 70, 90]) ∧
    (d.energydensityE midSplines 6 2).map (fun q => q.field.matrix.at' [1, 2]) =
      (emDump.energydensityE midSplines 6 2).map (fun q => q.field.matrix.at' [1, 2]) := by
  refine ⟨?_, ?_, ?_⟩ <;> decide +kernel

end Postpic.Props
