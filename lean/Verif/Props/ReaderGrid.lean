import Mathlib.Tactic.IntervalCases
import Verif.Lemmas.ReaderGrid
import Verif.Props.Fft

/-!
# C45: grids reported by the dump readers
-/

set_option autoImplicit false
set_option linter.unusedSectionVars false

namespace Postpic.Props

open Postpic Postpic.Axes Postpic.Fields Postpic.Spec Postpic.Readers

section
variable {K : Type} [_root_.Field K] [LinearOrder K] [IsStrictOrderedRing K]

/-- C45: for every reader which uses the methods of the interface, and every grid with at least one point:
there is one more node than grid points, each grid point is in the middle between its nodes, the distance of
the nodes is the grid spacing and the first node is the offset. Missing: grids without points, see
`reader_grid_violated`; readers which override the methods, see `dummy_grid_violated`. -/
theorem reader_grid_partial (r : Reader K) (key : String) (axis : AxisKey) (o h : K) (n : ℕ) (hn : 0 < n)
    (ho : r.gridoffset key axis = .ok o) (hp : r.gridpoints key axis = .ok (.int n))
    (hs : r.gridspacing key axis = .ok h) :
    ∃ nodes grid, r.gridnode key axis = .ok nodes ∧ r.grid key axis = .ok grid ∧
      grid.length = n ∧ nodes.length = n + 1 ∧ nodes.head? = some o ∧
      ∀ (i : ℕ) (a b g : K), nodes[i]? = some a → nodes[i + 1]? = some b → grid[i]? = some g →
        g = (a + b) / 2 ∧ b - a = h := by
  refine ⟨_, _, gridnode_ok ho hp hs, grid_ok hn ho hp hs, ap_length _ _ _, ap_length _ _ _, ?_, ?_⟩
  · rw [List.head?_eq_getElem?, ap_get _ _ _ _ (by omega)]
    simp
  · intro i a b g ha hb hg
    have hi : i < n := by
      have := (List.getElem?_eq_some_iff.1 hg).1
      rwa [ap_length] at this
    rw [ap_get _ _ _ _ (by omega)] at ha hb
    rw [ap_get _ _ _ _ hi] at hg
    obtain rfl := Option.some.inj ha
    obtain rfl := Option.some.inj hb
    obtain rfl := Option.some.inj hg
    push_cast
    constructor <;> ring

/-- The points of a grid. -/
theorem reader_grid_points (r : Reader K) (key : String) (axis : AxisKey) (o h : K) (n : ℕ) (hn : 0 < n)
    (ho : r.gridoffset key axis = .ok o) (hp : r.gridpoints key axis = .ok (.int n))
    (hs : r.gridspacing key axis = .ok h) :
    r.grid key axis = .ok ((List.range n).map fun (i : ℕ) => o + ((i : K) + 1 / 2) * h) := by
  rw [grid_ok hn ho hp hs, ← centers_ap]

/-- C45: the extent of the simulation box is given by the first and the last node of the first of the known keys
which is in the dump, its number of points and spacing are those of this key. -/
theorem reader_simextent (r : Reader K) (axis : AxisKey) (pre post : List String) (key : String)
    (hk : r.simgridkeys = pre ++ key :: post)
    (hpre : ∀ k ∈ pre, r.gridoffset k axis = .error .keyError ∧ r.gridpoints k axis = .error .keyError)
    (o h : K) (n : ℕ) (hn : 0 < n) (ho : r.gridoffset key axis = .ok o)
    (hp : r.gridpoints key axis = .ok (.int n)) (hs : r.gridspacing key axis = .ok h) :
    ∃ nodes a b, r.gridnode key axis = .ok nodes ∧ nodes.head? = some a ∧ nodes.getLast? = some b ∧
      r.simextent axis = .ok (a, b) ∧ r.simgridpoints axis = .ok (.int n) ∧ r.simgridspacing axis = .ok h := by
  have hnk : (n : K) ≠ 0 := by exact_mod_cast hn.ne'
  have hext : r.simextent axis = .ok (o, o + h * n) := by
    unfold Reader.simextent
    rw [hk, firstKey_skip]
    · simp [firstKey, Reader.extentOf, ho, hp, hs, bind, Except.bind, pure, Except.pure, Points.val]
    · intro k hk
      simp [Reader.extentOf, (hpre k hk).1, bind, Except.bind]
  have hpts : r.simgridpoints axis = .ok (.int n) := by
    unfold Reader.simgridpoints
    rw [hk, firstKey_skip]
    · simp [firstKey, hp]
    · exact fun k hk => (hpre k hk).2
  refine ⟨_, o, o + h * n, gridnode_ok ho hp hs, ?_, ?_, hext, hpts, ?_⟩
  · rw [List.head?_eq_getElem?, ap_get _ _ _ _ (by omega)]
    simp
  · rw [List.getLast?_eq_getElem?, ap_length, ap_get _ _ _ _ (by omega)]
    simp [mul_comm]
  · unfold Reader.simgridspacing
    simp only [hext, hpts, bind, Except.bind, spacingOf, Points.val, Int.cast_natCast]
    rw [if_neg hnk]
    congr 1
    field_simp
    ring

/-- C45: without any of the known keys the simulation box is refused with a KeyError. -/
theorem reader_simextent_missing (r : Reader K) (axis : AxisKey)
    (h : ∀ k ∈ r.simgridkeys, r.gridoffset k axis = .error .keyError ∧ r.gridpoints k axis = .error .keyError) :
    r.simextent axis = .error .keyError ∧ r.simgridpoints axis = .error .keyError := by
  unfold Reader.simextent Reader.simgridpoints
  constructor
  · rw [← List.append_nil r.simgridkeys, firstKey_skip]
    · rfl
    · intro k hk
      simp [Reader.extentOf, (h k hk).1, bind, Except.bind]
  · rw [← List.append_nil r.simgridkeys, firstKey_skip]
    · rfl
    · exact fun k hk => (h k hk).2

end

/-- A record of an openPMD file with its own description of the grid. -/
def record43 : PmdRecord ℚ := ⟨⟨some [1, 2], some [2, 1 / 2], some 10⟩, ⟨none, none, none⟩, [4, 3]⟩

/-- A record which uses the description of its parent. -/
def record05 : PmdRecord ℚ := ⟨⟨none, none, none⟩, ⟨some [-1], some [1], some 2⟩, [0, 5]⟩

/-- A dump with these records. -/
def pmdDump : PmdDump ℚ := fun key =>
  if key = "fields/E/z" then some record43 else if key = "fields/rho" then some record05 else none

example : pmdDump.reader.gridoffset "fields/E/z" (.str "x") = .ok 10 ∧
    pmdDump.reader.gridspacing "fields/E/z" (.str "x") = .ok 20 ∧
    pmdDump.reader.gridnode "fields/E/z" (.str "x") = .ok [10, 30, 50, 70, 90] ∧
    pmdDump.reader.grid "fields/E/z" (.str "x") = .ok [20, 40, 60, 80] ∧
    pmdDump.reader.simextent (.int 0) = .ok (10, 90) ∧
    pmdDump.reader.simgridspacing (.str "y") = .ok 5 := by
  refine ⟨?_, ?_, ?_, ?_, ?_, ?_⟩ <;> decide +kernel

example : pmdDump.reader.simgridkeys = ["fields/E/x", "fields/E/y"] ++ "fields/E/z" ::
      ["fields/B/x", "fields/B/y", "fields/B/z"] ∧
    (∀ k ∈ ["fields/E/x", "fields/E/y"], pmdDump.reader.gridoffset k (.str "x") = .error .keyError) := by
  refine ⟨rfl, ?_⟩
  decide +kernel

/-- A grid without points has one node, and two grid points. -/
theorem reader_grid_violated : pmdDump.reader.gridnode "fields/rho" (.str "x") = .ok [-2] ∧
    pmdDump.reader.grid "fields/rho" (.str "x") = .ok [-1, -1] := by
  refine ⟨?_, ?_⟩ <;> decide +kernel

/-! ### EPOCH -/

section
variable {K : Type} [_root_.Field K] [LinearOrder K] [IsStrictOrderedRing K]

/-- A variable on the mesh between `x0` and `x1` along dimension `a`, with `m` nodes and `n` points. The
positions in `gridMid` begin half a cell after those of the mesh. -/
structure OnMesh (b : SdfBlock K) (a : ℕ) (x0 x1 : K) (m : ℤ) (n : ℕ) : Prop where
  lower : b.grid.extents[a]? = some x0
  upper : b.grid.extents[a + b.grid.dims.length]? = some x1
  nodes : b.grid.dims[a]? = some m
  cells : m ≠ 1
  points : b.dims[a]? = some (n : ℤ)
  pos : 0 < n
  first : ∃ l, b.grid.data[a]? = some (x0 :: l)
  middle : ∃ l, b.gridMid[a]? = some ((x0 + (x1 - x0) / ((m - 1 : ℤ) : K) / 2) :: l)

private theorem get_nat {α : Type} {l : List α} {k : ℕ} {v : α} (h : l[k]? = some v) : pyGet l (k : ℤ) = .ok v :=
  pyGet_of (pyIdx_nat (List.getElem?_eq_some_iff.1 h).1) h

private theorem sdf_methods (d : SdfDump K) (key : String) (axis : AxisKey) (a : ℕ) (b : SdfBlock K)
    (ha : axesidentify axis = .ok a) (hb : d.block key = some b) {x0 x1 : K} {m : ℤ} {n : ℕ}
    (hm : OnMesh b a x0 x1 m n) :
    d.reader.gridspacing key axis = .ok ((x1 - x0) / ((m - 1 : ℤ) : K)) ∧
    d.reader.gridpoints key axis = .ok (.int n) ∧
    d.reader.gridoffset key axis = .ok (if (staggerOf key b).testBit a then x0 else
      x0 - (x1 - x0) / ((m - 1 : ℤ) : K) / 2) := by
  have hs : d.gridspacing key axis = .ok ((x1 - x0) / ((m - 1 : ℤ) : K)) := by
    have e := get_nat hm.upper
    push_cast at e
    have hc : ¬ (m - 1 = 0) := by have := hm.cells; omega
    simp only [SdfDump.gridspacing, ha, SdfDump.get, hb, bind, Except.bind, e, get_nat hm.lower, get_nat hm.nodes,
      if_neg hc, pure, Except.pure]
  refine ⟨hs, ?_, ?_⟩
  · simp only [SdfDump.reader, SdfDump.gridpoints, ha, SdfDump.get, hb, bind, Except.bind, get_nat hm.points, pure,
      Except.pure]
  · obtain ⟨l1, h1⟩ := hm.first
    obtain ⟨l2, h2⟩ := hm.middle
    have z : ∀ (x : K) l, pyGet (x :: l) 0 = .ok x := fun x l => get_nat (k := 0) rfl
    simp only [SdfDump.reader, SdfDump.gridoffset, ha, hs, SdfDump.get, hb, bind, Except.bind, get_nat h1, get_nat h2,
      z, pure, Except.pure]
    split_ifs
    · congr 1
      ring
    · rfl

/-- C45: the positions of a variable of EPOCH. Along every axis the grid points are the nodes of the mesh, moved up by
half a cell exactly if the bit of this axis is set in the stagger code. -/
theorem epoch_positions (d : SdfDump K) (key : String) (axis : AxisKey) (a : ℕ) (b : SdfBlock K)
    (ha : axesidentify axis = .ok a) (hb : d.block key = some b) (x0 x1 dx : K) (m : ℤ) (n : ℕ)
    (hm : OnMesh b a x0 x1 m n) (hdx : dx = (x1 - x0) / ((m - 1 : ℤ) : K)) :
    d.reader.gridspacing key axis = .ok dx ∧
    d.reader.grid key axis = .ok ((List.range n).map fun (i : ℕ) =>
      x0 + (i : K) * dx + if (staggerOf key b).testBit a then dx / 2 else 0) := by
  obtain ⟨h1, h2, h3⟩ := sdf_methods d key axis a b ha hb hm
  rw [← hdx] at h1 h3
  refine ⟨h1, ?_⟩
  rw [reader_grid_points _ _ _ _ _ _ hm.pos h3 h2 h1]
  congr 1
  apply List.map_congr_left
  intro i _
  split_ifs <;> ring

/-- C45: the code used for a variable is the one saved in the dump. If none is saved, the electric field and its
average is staggered along exactly the axis of the component, and the magnetic field along exactly the other
axes; derived variables are not staggered. -/
theorem epoch_stagger (b : SdfBlock K) :
    (∀ key s, b.stagger = some s → staggerOf key b = s) ∧
    (b.stagger = none → ∀ (c : Fin 3) (average : Bool), ∃ kE kB,
      epochKeyE (.int c) average = .ok kE ∧ epochKeyB (.int c) average = .ok kB ∧
      ∀ a : Fin 3, (staggerOf kE b).testBit a = decide (a = c) ∧ (staggerOf kB b).testBit a = decide (a ≠ c)) ∧
    (b.stagger = none → ∀ name, staggerOf ("Derived/" ++ name) b = 0) := by
  refine ⟨?_, ?_, ?_⟩
  · intro key s h
    simp only [staggerOf, h]
  · intro h c average
    have key : ∀ (c : Fin 3) (average : Bool), ∃ kE kB sE sB,
        epochKeyE (.int c) average = .ok kE ∧ epochKeyB (.int c) average = .ok kB ∧
        defaultStagger.lookup kE = some sE ∧ defaultStagger.lookup kB = some sB ∧
        ∀ a : Fin 3, sE.testBit a = decide (a = c) ∧ sB.testBit a = decide (a ≠ c) := by
      intro c average
      fin_cases c <;> cases average
      · exact ⟨"Electric Field/Ex", "Magnetic Field/Bx", 1, 6, by decide +kernel⟩
      · exact ⟨"Electric Field/Ex_averaged", "Magnetic Field/Bx_averaged", 1, 6, by decide +kernel⟩
      · exact ⟨"Electric Field/Ey", "Magnetic Field/By", 2, 5, by decide +kernel⟩
      · exact ⟨"Electric Field/Ey_averaged", "Magnetic Field/By_averaged", 2, 5, by decide +kernel⟩
      · exact ⟨"Electric Field/Ez", "Magnetic Field/Bz", 4, 3, by decide +kernel⟩
      · exact ⟨"Electric Field/Ez_averaged", "Magnetic Field/Bz_averaged", 4, 3, by decide +kernel⟩
    obtain ⟨kE, kB, sE, sB, h1, h2, h3, h4, h5⟩ := key c average
    refine ⟨kE, kB, h1, h2, ?_⟩
    simpa only [staggerOf, h, h3, h4] using h5
  · intro h name
    have hl : defaultStagger.lookup ("Derived/" ++ name) = none := by
      rw [List.lookup_eq_none_iff]
      intro p hp
      rw [bne_iff_ne]
      intro e
      have e' := congrArg (fun s : String => s.toList.head?) e
      have hD : ("Derived/" ++ name).toList.head? = some 'D' := by
        rw [String.toList_append]
        rfl
      have hall : ∀ p ∈ defaultStagger, p.1.toList.head? ≠ some 'D' := by decide +kernel
      exact hall p hp (e'.symm.trans hD)
    simp only [staggerOf, h, hl]

/-- C45: for a variable staggered along the axis the nodes begin and end at the ends of the simulation box, and the
spacing of the simulation is the one of the variable. Missing: the other variables, see
`epoch_simextent_violated`. -/
theorem epoch_simextent_partial (d : SdfDump K) (key : String) (axis : AxisKey) (a : ℕ) (b : SdfBlock K)
    (ha : axesidentify axis = .ok a) (hb : d.block key = some b) (hmesh : d.mesh = some b.grid) (x0 x1 : K) (n : ℕ)
    (hm : OnMesh b a x0 x1 (n + 1) n) (hst : (staggerOf key b).testBit a = true) :
    ∃ nodes h, d.reader.gridnode key axis = .ok nodes ∧ nodes.head? = some x0 ∧ nodes.getLast? = some x1 ∧
      d.simextent axis = .ok (x0, x1) ∧ d.simgridpoints axis = .ok (.int n) ∧
      d.reader.gridspacing key axis = .ok h ∧ d.simgridspacing axis = .ok h := by
  obtain ⟨h1, h2, h3⟩ := sdf_methods d key axis a b ha hb hm
  have hnk : (n : K) ≠ 0 := by exact_mod_cast hm.pos.ne'
  rw [hst, if_pos rfl] at h3
  rw [show (((n : ℤ) + 1 - 1 : ℤ) : K) = n by push_cast; ring] at h1
  have e := get_nat hm.upper
  push_cast at e
  have hlt : ¬ (a + b.grid.dims.length ≥ b.grid.extents.length) := by
    have := (List.getElem?_eq_some_iff.1 hm.upper).1
    omega
  have hext : d.simextent axis = .ok (x0, x1) := by
    simp only [SdfDump.simextent, SdfDump.getMesh, hmesh, ha, bind, Except.bind, if_neg hlt, get_nat hm.lower, e, pure,
      Except.pure]
  have hpts : d.simgridpoints axis = .ok (.int n) := by
    simp only [SdfDump.simgridpoints, SdfDump.getMesh, hmesh, ha, bind, Except.bind, get_nat hm.nodes, pure,
      Except.pure]
    congr 2
    ring
  refine ⟨_, _, gridnode_ok h3 h2 h1, ?_, ?_, hext, hpts, h1, ?_⟩
  · rw [List.head?_eq_getElem?, ap_get _ _ _ _ (by omega)]
    simp
  · rw [List.getLast?_eq_getElem?, ap_length, ap_get _ _ _ _ (by omega)]
    congr 1
    rw [Nat.add_sub_cancel]
    field_simp
    ring
  · simp only [SdfDump.simgridspacing, hext, hpts, bind, Except.bind, spacingOf, Points.val, Int.cast_natCast]
    rw [if_neg hnk]

end

/-- A dump with two cells along `x` and one along `y`. -/
def mesh21 : SdfMesh ℚ := ⟨[0, 1, 4, 2], [3, 2], [[0, 2, 4], [1, 2]]⟩

/-- A variable on this mesh. -/
def block21 (stagger : Option ℕ) : SdfBlock ℚ := ⟨mesh21, [[1, 3], [3 / 2]], [2, 1], stagger⟩

/-- The dump; the density is saved with its stagger code. -/
def epochDump : SdfDump ℚ where
  block key := if key = "Electric Field/Ex" then some (block21 none)
    else if key = "Derived/Number_Density" then some (block21 (some 0)) else none
  mesh := some mesh21

example : OnMesh (block21 none) 0 0 4 3 2 ∧ OnMesh (block21 (some 0)) 1 1 2 2 1 ∧
    epochDump.reader.grid "Electric Field/Ex" (.str "x") = .ok [1, 3] ∧
    epochDump.reader.grid "Derived/Number_Density" (.str "x") = .ok [0, 2] ∧
    epochDump.reader.grid "Electric Field/Ex" (.str "y") = .ok [1] ∧
    (staggerOf "Electric Field/Ex" (block21 none)).testBit 0 = true := by
  refine ⟨⟨by decide +kernel, by decide +kernel, by decide +kernel, by decide, by decide +kernel, by decide, ⟨[2, 4], rfl⟩,
    ⟨[3], ?_⟩⟩, ⟨by decide +kernel, by decide +kernel, by decide +kernel, by decide, by decide +kernel, by decide, ⟨[2], rfl⟩,
    ⟨[], ?_⟩⟩, ?_, ?_, ?_, ?_⟩ <;> decide +kernel

/-- The nodes of a variable which is not staggered do not begin at the end of the simulation box. -/
theorem epoch_simextent_violated :
    epochDump.reader.gridnode "Derived/Number_Density" (.str "x") = .ok [-1, 1, 3] ∧
    epochDump.simextent (.str "x") = .ok (0, 4) := by
  refine ⟨?_, ?_⟩ <;> decide +kernel

/-! ### openPMD, fbpic and Smilei -/

section
variable {K : Type} [_root_.Field K] [LinearOrder K] [IsStrictOrderedRing K]

/-- C45: the positions of a record of openPMD in SI units. The description is taken from the record if it has a unit, and
from its parent otherwise. -/
theorem openpmd_positions (d : PmdDump K) (key : String) (axis : AxisKey) (a : ℕ) (r : PmdRecord K)
    (attrs : PmdAttrs K) (ha : axesidentify axis = .ok a) (hr : d key = some r)
    (hattrs : (r.attrs.unit ≠ none ∧ attrs = r.attrs) ∨ (r.attrs.unit = none ∧ attrs = r.parent))
    (off sp : List K) (x h u : K) (n : ℕ) (hn : 0 < n)
    (h1 : attrs.offset = some off) (h2 : attrs.spacing = some sp) (h3 : attrs.unit = some u)
    (hx : off[a]? = some x) (hh : sp[a]? = some h) (hs : r.shape[a]? = some n) :
    d.reader.gridspacing key axis = .ok (h * u) ∧
    d.reader.grid key axis = .ok ((List.range n).map fun (i : ℕ) => (x + ((i : K) + 1 / 2) * h) * u) := by
  have hg : r.gridAttrs = attrs := by
    unfold PmdRecord.gridAttrs
    rcases hattrs with ⟨e, rfl⟩ | ⟨e, rfl⟩
    · rw [if_pos (Option.isSome_iff_ne_none.2 e)]
    · rw [e]
      rfl
  have g1 : d.reader.gridspacing key axis = .ok (h * u) := by
    simp only [PmdDump.reader, PmdDump.gridspacing, ha, hr, hg, h2, h3, orKeyError, bind, Except.bind, get_nat hh, pure,
      Except.pure]
  have g2 : d.reader.gridoffset key axis = .ok (x * u) := by
    simp only [PmdDump.reader, PmdDump.gridoffset, ha, hr, hg, h1, h3, orKeyError, bind, Except.bind, get_nat hx, pure,
      Except.pure]
  have g3 : d.reader.gridpoints key axis = .ok (.int n) := by
    simp only [PmdDump.reader, PmdDump.gridpoints, ha, hr, orKeyError, bind, Except.bind, get_nat hs, pure, Except.pure]
  refine ⟨g1, ?_⟩
  rw [reader_grid_points _ _ _ _ _ _ hn g2 g3 g1]
  congr 1
  apply List.map_congr_left
  intro i _
  ring

/-- C45: the grids of fbpic. Along the radius and `z` they are given by the first and second entries of the
description; the nodes of the angle divide the circle in as many cells as there are angles. -/
theorem fbpic_positions (twoPi : K) (d : PmdDump K) (key : String) (r : PmdRecord K) (hr : d key = some r)
    (nm nr nz : ℕ) (hshape : r.shape = [nm, nr, nz]) (o0 o1 h0 h1 u : K) (ol hl : List K)
    (e1 : r.gridAttrs.offset = some (o0 :: o1 :: ol)) (e2 : r.gridAttrs.spacing = some (h0 :: h1 :: hl))
    (e3 : r.gridAttrs.unit = some u) (hnr : 0 < nr) (hnz : 0 < nz) (hnm : 0 < nm) :
    (fbpicReader twoPi d).grid key (.str "r") =
      .ok ((List.range nr).map fun (i : ℕ) => o0 * u + ((i : K) + 1 / 2) * (h0 * u)) ∧
    (fbpicReader twoPi d).grid key (.str "z") =
      .ok ((List.range nz).map fun (i : ℕ) => o1 * u + ((i : K) + 1 / 2) * (h1 * u)) ∧
    (fbpicReader twoPi d).gridnode key (.str "theta") =
      .ok ((List.range ((nm + 1) / 2 + 1)).map fun (i : ℕ) => (i : K) * (twoPi / ((nm + 1) / 2 : ℕ))) := by
  have hN : 0 < (nm + 1) / 2 := by omega
  have pr : fbpicPoints d key (.str "r") = .ok nr := by
    simp only [fbpicPoints, axesidentify, hr, orKeyError, hshape, fbpicShape, bind, Except.bind]
    rfl
  have pz : fbpicPoints d key (.str "z") = .ok nz := by
    simp only [fbpicPoints, axesidentify, hr, orKeyError, hshape, fbpicShape, bind, Except.bind]
    rfl
  have pt : fbpicPoints d key (.str "theta") = .ok ((nm + 1) / 2) := by
    simp only [fbpicPoints, axesidentify, hr, orKeyError, hshape, fbpicShape, bind, Except.bind]
    rfl
  have z : ∀ (x y : K) l, pyGet (x :: y :: l) ((0 : ℕ) : ℤ) = .ok x := fun x y l => get_nat rfl
  have z1 : ∀ (x y : K) l, pyGet (x :: y :: l) ((1 : ℕ) : ℤ) = .ok y := fun x y l => get_nat rfl
  refine ⟨?_, ?_, ?_⟩
  · refine reader_grid_points _ _ _ _ _ _ hnr ?_ ?_ ?_
    · simp [fbpicReader, fbpicOffset, axesidentify, fbpicRemap, PmdDump.gridoffset, hr, orKeyError, e1, e3, bind,
        Except.bind, pure, Except.pure]
      have := z o0 o1 ol
      push_cast at this
      rw [this]
    · simp only [fbpicReader, pr, bind, Except.bind, pure, Except.pure]
    · simp [fbpicReader, fbpicSpacing, axesidentify, fbpicRemap, PmdDump.gridspacing, hr, orKeyError, e2, e3, bind,
        Except.bind, pure, Except.pure]
      have := z h0 h1 hl
      push_cast at this
      rw [this]
  · refine reader_grid_points _ _ _ _ _ _ hnz ?_ ?_ ?_
    · simp [fbpicReader, fbpicOffset, axesidentify, fbpicRemap, PmdDump.gridoffset, hr, orKeyError, e1, e3, bind,
        Except.bind, pure, Except.pure]
      have := z1 o0 o1 ol
      push_cast at this
      rw [this]
    · simp only [fbpicReader, pz, bind, Except.bind, pure, Except.pure]
    · simp [fbpicReader, fbpicSpacing, axesidentify, fbpicRemap, PmdDump.gridspacing, hr, orKeyError, e2, e3, bind,
        Except.bind, pure, Except.pure]
      have := z1 h0 h1 hl
      push_cast at this
      rw [this]
  · have := gridnode_ok (r := fbpicReader twoPi d) (key := key) (axis := .str "theta") (o := 0)
      (h := twoPi / ((nm + 1) / 2 : ℕ)) (n := (nm + 1) / 2)
      (by simp [fbpicReader, fbpicOffset, axesidentify, bind, Except.bind, pure, Except.pure])
      (by simp only [fbpicReader, pt, bind, Except.bind, pure, Except.pure])
      (by
        simp only [fbpicReader, fbpicSpacing, bind, Except.bind, pure, Except.pure, axesidentify, pt, if_true]
        rw [if_neg hN.ne'])
    rw [this]
    simp [ap]

/-- C45: fields of Smilei without modes have the grid of their record; for fields with modes the first axis is described by
the record of mode 0. -/
theorem smilei_positions (d : PmdDump K) (modes : List String) (key : String) :
    (key ∉ modes → ∀ axis, axesidentify axis ≠ .ok 91 →
      (smileiReader d modes).grid key axis = d.reader.grid key axis ∧
      (smileiReader d modes).gridnode key axis = d.reader.gridnode key axis) ∧
    (key ∈ modes → ∀ (r : PmdRecord K) (nx nr : ℕ), d (key ++ "_mode_0") = some r → r.shape = [nx, nr] →
      (smileiReader d modes).grid key (.str "x") = d.reader.grid (key ++ "_mode_0") (.str "x")) := by
  constructor
  · intro hk axis hax
    have : (smileiReader d modes).gridnode key axis = d.reader.gridnode key axis := by
      unfold Reader.gridnode
      simp only [smileiReader, smileiOffset, smileiPoints, smileiSpacing, hk, false_and, if_false, PmdDump.reader]
      cases ha : axesidentify axis with
      | error e =>
        simp [PmdDump.gridoffset, ha, bind, Except.bind]
      | ok a =>
        have : a ≠ 91 := fun e => hax (by rw [ha, e])
        simp [bind, Except.bind, this]
    refine ⟨?_, this⟩
    unfold Reader.grid
    rw [this]
  · intro hk r nx nr hr hs
    unfold Reader.grid Reader.gridnode
    simp only [smileiReader, smileiOffset, smileiPoints, smileiSpacing, hk, PmdDump.reader, axesidentify, bind, Except.bind,
      PmdDump.gridoffset, PmdDump.gridpoints, PmdDump.gridspacing, hr, orKeyError, hs, smileiShape, smileiAxis]
    rfl

/-- The radial grid of fields of Smilei with modes can never be read: the number of points is a float. -/
theorem smilei_radial_violated (d : PmdDump K) (modes : List String) (key : String) (hk : key ∈ modes) (r : PmdRecord K)
    (nx nr : ℕ) (hr : d (key ++ "_mode_0") = some r) (hs : r.shape = [nx, nr]) :
    ∀ nodes, (smileiReader d modes).gridnode key (.str "r") ≠ .ok nodes := by
  intro nodes h
  have hp : (smileiReader d modes).gridpoints key (.str "r") = .ok (.float ((nr : K) / 2)) := by
    simp only [smileiReader, smileiPoints, hk, axesidentify, bind, Except.bind, hr, orKeyError, hs, smileiShape]
    rfl
  unfold Reader.gridnode at h
  simp only [hp, bind, Except.bind] at h
  split at h
  · exact absurd h (by simp)
  · split at h
    · exact absurd h (by simp)
    · exact absurd h (by simp [linspaceNum, Points.succ])

end

/-! ### The dummy reader -/

/-- C45: the dummy reader has one more node than grid points, both begin and end at the ends of the simulation box. -/
theorem dummy_grid_partial (dims : ℕ) (axis : AxisKey) (nodes : List ℚ) (h : dummyNode dims axis = .ok nodes) :
    ∃ (grid : List ℚ) (a b : ℚ), dummyGrid dims axis = .ok grid ∧ nodes.length = grid.length + 1 ∧ dummyExtent (K := ℚ) dims axis = .ok (a, b) ∧
      nodes.head? = some a ∧ nodes.getLast? = some b := by
  unfold dummyNode at h
  obtain ⟨p, hp, h⟩ := bind_ok h
  have key : ∀ dims axid : ℕ, ∀ p, (do let t ← dummyTable dims; pyGet t axid : Res (ℤ × ℤ × ℕ)) = .ok p → 2 ≤ p.2.2 := by
    intro dims axid p hp
    obtain ⟨t, ht, hp⟩ := bind_ok hp
    obtain ⟨k, _, hk⟩ := pyGet_eq hp
    have hm := List.mem_of_getElem? hk
    unfold dummyTable at ht
    split at ht
    · cases ht
      simp at hm
      subst hm
      decide
    · cases ht
      simp at hm
      rcases hm with rfl | rfl <;> decide
    · cases ht
      simp at hm
      rcases hm with rfl | rfl | rfl <;> decide
    · simp at ht
  have h2 : 2 ≤ p.2.2 := by
    unfold dummyArgs at hp
    obtain ⟨axid, _, hp⟩ := bind_ok hp
    by_cases hc : axid ≥ dims
    · simp [hc, bind, Except.bind, throw, throwThe, MonadExceptOf.throw] at hp
    · simp only [if_neg hc] at hp
      exact key dims axid p hp
  simp only [pure, Except.pure, Except.ok.injEq] at h
  subst h
  have hlen : ∀ m, (linspace (p.1 : ℚ) (p.2.1 : ℚ) m).length = m := fun m => by simp [linspace]
  have ends : ∀ m, 2 ≤ m → (linspace (p.1 : ℚ) (p.2.1 : ℚ) m).head? = some (p.1 : ℚ) ∧
      (linspace (p.1 : ℚ) (p.2.1 : ℚ) m).getLast? = some (p.2.1 : ℚ) := by
    intro m hm
    obtain ⟨k, rfl⟩ : ∃ k, m = k + 1 := ⟨m - 1, by omega⟩
    have hk : (k : ℚ) ≠ 0 := by
      have : 0 < k := by omega
      exact_mod_cast this.ne'
    rw [linspace_ap]
    constructor
    · rw [List.head?_eq_getElem?, ap_get _ _ _ _ (by omega)]
      simp
    · rw [List.getLast?_eq_getElem?, ap_length, ap_get _ _ _ _ (by omega), Nat.add_sub_cancel]
      congr 1
      field_simp
      ring
  have hg : dummyGrid (K := ℚ) dims axis = .ok (linspace (p.1 : ℚ) (p.2.1 : ℚ) p.2.2) := by
    simp only [dummyGrid, hp, bind, Except.bind, pure, Except.pure]
  refine ⟨_, p.1, p.2.1, hg, ?_, ?_, (ends _ (by omega)).1, (ends _ (by omega)).2⟩
  · rw [hlen, hlen]
  · have g0 : pyGet (linspace (p.1 : ℚ) (p.2.1 : ℚ) p.2.2) 0 = .ok (p.1 : ℚ) := by
      have := (ends _ h2).1
      rw [List.head?_eq_getElem?] at this
      exact get_nat (k := 0) this
    have g1 : pyGet (linspace (p.1 : ℚ) (p.2.1 : ℚ) p.2.2) (-1) = .ok (p.2.1 : ℚ) := by
      have := (ends _ h2).2
      rw [List.getLast?_eq_getElem?] at this
      refine pyGet_of ?_ this
      unfold pyIdx
      rw [hlen, if_neg (by omega), if_pos (by omega)]
      congr 1
      omega
    simp only [dummyExtent, hg, g0, g1, bind, Except.bind, pure, Except.pure]

example : ∃ nodes : List ℚ, dummyNode 2 (.str "y") = .ok nodes := ⟨_, rfl⟩

/-- The grid points of the dummy reader are not in the middle between the nodes, and its number of grid points is the list
of these. -/
theorem dummy_grid_violated :
    ∃ nodes grid : List ℚ, dummyNode 1 (.str "x") = .ok nodes ∧ dummyGrid 1 (.str "x") = .ok grid ∧
      nodes.take 2 = [-2, -2 + 1 / 50] ∧ grid.take 1 = [-2] ∧ dummySimgridpoints 1 (.str "x") = .ok grid := by
  refine ⟨_, _, rfl, rfl, ?_, ?_, rfl⟩ <;> decide +kernel

/-! ### Fields made from dumps -/

section
variable {K V : Type} [_root_.Field K] [LinearOrder K] [IsStrictOrderedRing K]

/-- C45: the field made from the data of a key has these data, and along every dimension the grid and nodes the reader
reports for this key. Missing: dimensions of length one, see `read_field_single_violated`; the keyword `Ntheta`,
see `read_field_ntheta_violated`. -/
theorem read_field_partial (spl : Splines K) (hspl : ExactOnEven spl) (twoPi : K) (r : Reader K)
    (order : AxisKey × AxisKey × AxisKey) (horder : order = defaultOrder ∨ order = fbpicOrder) (data : Arr V)
    (name key : String) (D : ℕ) (hD : 0 < D) (hD3 : D ≤ 3) (n : ℕ → ℕ) (o h : ℕ → K)
    (hshape : data.shape = (List.range D).map n) (hn : ∀ d < D, 2 ≤ n d)
    (hr : ∀ d < D, ∀ axis, [order.1, order.2.1, order.2.2][d]? = some axis →
      r.gridoffset key axis = .ok (o d) ∧ r.gridpoints key axis = .ok (.int (n d)) ∧
      r.gridspacing key axis = .ok (h d) ∧ h d ≠ 0) :
    ∃ f, createField spl twoPi r.gridnode order data name key {} = .ok f ∧ f.name = name ∧ f.matrix.Eqv data ∧
      f.axes.length = D ∧
      ∀ d < D, ∀ axis, [order.1, order.2.1, order.2.2][d]? = some axis →
        ∃ ax, f.axes[d]? = some (.axis ax) ∧ AxisKey.str ax.name = axis ∧ ax.unit = "m" ∧
          r.gridnode key axis = .ok ax.gridNode ∧ r.grid key axis = .ok ax.grid := by
  have hkey : ∀ d < D, [order.1, order.2.1, order.2.2][d]? = some (orderKey order d) := by
    intro d hd
    have : d < 3 := by omega
    interval_cases d <;> rfl
  obtain ⟨axid, names, hids⟩ : ∃ (axid : ℕ → ℕ) (names : ℕ → String), ∀ d < 3,
      axesidentify (orderKey order d) = .ok (axid d) ∧ axid d % 90 = d ∧ axisName (axid d) = .ok (names d) ∧
      orderKey order d = .str (names d) := by
    rcases horder with rfl | rfl
    · refine ⟨fun d => d, fun d => ["x", "y", "z"].getD d "", ?_⟩
      intro d hd
      interval_cases d <;> exact ⟨rfl, rfl, rfl, rfl⟩
    · refine ⟨fun d => [90, 91, 2].getD d 0, fun d => ["r", "theta", "z"].getD d "", ?_⟩
      intro d hd
      interval_cases d <;> exact ⟨rfl, rfl, rfl, rfl⟩
  obtain ⟨f, f1, f2, f3, f4⟩ := createField_ok hspl twoPi (node := r.gridnode) (order := order) (gridkey := key) name hD hD3
    hshape hn (axid := axid) (names := names) (o := o) (h := h) (by
      intro d hd
      obtain ⟨i1, i2, i3, _⟩ := hids d (by omega)
      obtain ⟨r1, r2, r3, r4⟩ := hr d hd _ (hkey d hd)
      exact ⟨i1, i2, i3, r4, gridnode_ok r1 r2 r3⟩)
  refine ⟨f, f1, f2, f3, by rw [f4]; simp, ?_⟩
  intro d hd axis hax
  obtain rfl : orderKey order d = axis := Option.some.inj ((hkey d hd).symm.trans hax)
  obtain ⟨r1, r2, r3, r4⟩ := hr d hd _ hax
  have := hn d hd
  refine ⟨evenAxisOf (names d) "m" (o d) (h d) (n d), ?_, (hids d (by omega)).2.2.2.symm, rfl, gridnode_ok r1 r2 r3,
    grid_ok (by omega) r1 r2 r3⟩
  rw [f4]
  simp [hd]

/-- C45: data whose length along the first axis differs from the number of points of the reader are refused. -/
theorem read_field_refuses (spl : Splines K) (hspl : ExactOnEven spl) (twoPi : K) (r : Reader K) (data : Arr V)
    (name key : String) (hD3 : data.shape.length ≤ 3) (h01 : ∀ m ∈ data.shape, 2 ≤ m) (m : ℕ)
    (hm : data.shape[0]? = some m) (n : ℕ) (hn : 0 < n) (o h : K) (ho : r.gridoffset key (.str "x") = .ok o)
    (hp : r.gridpoints key (.str "x") = .ok (.int n)) (hs : r.gridspacing key (.str "x") = .ok h) (hh : h ≠ 0)
    (hne : n ≠ m) :
    createField spl twoPi r.gridnode defaultOrder data name key {} = .error .valueError := by
  have hsq := squeeze_eqv data fun k hk => by have := h01 k hk; omega
  obtain ⟨f, f1, f2, f3⟩ := default_ok hspl (Arr.squeeze data)
    (by rw [hsq.1]; intro h0; have := h01 0 h0; omega) (by rw [hsq.1]; exact hD3)
  have hobj := getaxisobj_ok hspl twoPi (node := r.gridnode) (gridkey := key) (axis := .str "x") (axid := 0) (name := "x")
    rfl rfl hh hn (gridnode_ok ho hp hs)
  have g : pyGet f.matrix.shape 0 = .ok m := by
    refine get_nat (k := 0) ?_
    rw [f2, hsq.1]
    exact hm
  have hlen : (AxisObj.axis (evenAxisOf "x" "m" o h n)).len ≠ m := by
    show (ap _ _ _).length ≠ m
    rw [ap_length]
    exact hne
  unfold createField
  simp only [f1, bind, Except.bind, ReadField.setgrid, defaultOrder, hobj]
  unfold ReadField.setaxisobj
  simp only [axesidentify, bind, Except.bind]
  have g' : pyGet f.matrix.shape ((0 % 90 : ℕ) : ℤ) = .ok m := g
  simp only [g']
  rw [if_pos hlen]
  rfl

end

/-- A field with two dimensions, read from the dump above. -/
example : (createField midSplines 6 pmdDump.reader.gridnode defaultOrder
      (⟨[4, 3], fun idx => 10 * idx.getD 0 0 + idx.getD 1 0⟩ : Arr ℚ) "Ez" "fields/E/z" {}).map
        (fun f => (f.matrix.shape, f.axes.length)) = .ok ([4, 3], 2) ∧
    (pmdDump.reader.gridoffset "fields/E/z" (.str "y"), pmdDump.reader.gridspacing "fields/E/z" (.str "y")) =
      (.ok 20, .ok 5) := by
  refine ⟨?_, ?_⟩ <;> decide +kernel

/-- Data with a single cell along one dimension cannot be read: this dimension is removed from the data but the axes are
set as if it was there. -/
theorem read_field_single_violated :
    (createField midSplines 6 (fun _ axis => if axis = .str "x" then .ok [0, 1] else .ok [0, 1, 2, 3]) defaultOrder
      (⟨[1, 3], fun _ => 1⟩ : Arr ℚ) "Ez" "fields/E/z" {}).map (fun f => f.matrix.shape) = .error .valueError := by
  decide +kernel

/-- With a number of angles a plain array takes the place of the axis. -/
theorem read_field_ntheta_violated :
    (createField midSplines 6 (fun _ _ => .ok [0, 1, 2]) fbpicOrder
      (⟨[2, 3], fun _ => 1⟩ : Arr ℚ) "Er" "fields/E/r" { ntheta := some 3 }).map
        (fun f => f.axes.map fun | .axis _ => none | .array l => some l) = .ok [none, some [0, 2, 4]] := by
  decide +kernel

end Postpic.Props
