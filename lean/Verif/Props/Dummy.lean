import Mathlib.Tactic.IntervalCases
import Mathlib.Tactic.FinCases
import Verif.Spec.Dummy
import Verif.Lemmas.Field
import Verif.Lemmas.Axis
import Verif.Model.Series

/-!
# C100: the data of the dummy reader
-/

set_option autoImplicit false

namespace Postpic.Props

open Postpic Postpic.Axes Postpic.Readers Postpic.Spec Postpic.Constants

variable {S T : Type}

/-- The reader, if there is one. -/
theorem dummyInit_eq (rng : Rng S) (rf : RandFunc S T) (n : ℕ) (dims : ℤ) (seed : Option ℤ) (s s1 : S × T)
    (h : dummySeed rng seed s = .ok s1) :
    ∃ r, dummyInit rng rf n dims seed s = .ok r ∧ r.1.dimensions = dims ∧ r.1.xdata = (rf n s1).1 ∧
      r.1.ydata = (dummyDraw rf n (1 < dims) (rf n s1).2).1 ∧
      r.1.zdata = (dummyDraw rf n (2 < dims) (dummyDraw rf n (1 < dims) (rf n s1).2).2).1 ∧
      r.1.pxdata = (roll (rf n s1).1 1).map (fun v => v ^ 2 * (me * c)) ∧
      r.1.pydata = (roll (rf n s1).1 2).map (fun v => v * (me * c)) ∧
      r.1.pzdata = (roll (rf n s1).1 3).map (fun v => v * (me * c)) ∧
      r.1.weights = List.replicate (rf n s1).1.length 1 ∧
      r.1.ids = (rng.shuffle (List.range (rf n s1).1.length) (dummyDraw rf n (2 < dims) (dummyDraw rf n (1 < dims) (rf n s1).2).2).2.1).1 := by
  refine ⟨_, by
    unfold dummyInit
    rw [h]
    simp only [bind, Except.bind, if_neg (show ¬((n : ℤ) < 0) by omega), Int.toNat_natCast, pure, Except.pure]
    rfl, rfl, rfl, rfl, rfl, rfl, rfl, rfl, rfl, rfl⟩

/-- The default seed is accepted. -/
theorem seed_zero (rng : Rng S) (s : S × T) : dummySeed rng (some 0) s = .ok (rng.seed 0, s.2) := by
  unfold dummySeed
  exact if_pos ⟨le_refl _, by norm_num⟩

/-- C100: the same arguments give the same particles, whatever random numbers were drawn before. Partial: the function uses nothing
but the generator of numpy and there is a seed; see `dummy_reproducible_violated`. -/
theorem dummy_reproducible_partial (rng : Rng S) (rf : RandFunc S T) (hr : UsesShared rf) (n dims k : ℤ) (s s' : S × T) :
    (dummyInit rng rf n dims (some k) s).map Prod.fst = (dummyInit rng rf n dims (some k) s').map Prod.fst := by
  unfold dummyInit dummySeed
  by_cases hk : 0 ≤ k ∧ k < 2 ^ 32
  swap
  · simp only [if_neg hk]
    try rfl
  by_cases hn : n < 0
  · simp only [if_pos hk, if_pos hn, bind, Except.bind]; rfl
  have key : ∀ (b : Bool) (m : ℕ) (a : S) (t t' : T), (dummyDraw rf m b (a, t)).1 = (dummyDraw rf m b (a, t')).1 ∧
      (dummyDraw rf m b (a, t)).2.1 = (dummyDraw rf m b (a, t')).2.1 := by
    intro b m a t t'
    unfold dummyDraw
    cases b
    · exact ⟨rfl, rfl⟩
    · exact ⟨congrArg some (hr m a t t').1, (hr m a t t').2⟩
  simp only [if_pos hk, if_neg hn, bind, Except.bind, pure, Except.pure, Except.map]
  have h1 := hr n.toNat (rng.seed k) s.2 s'.2
  have h2 := key (decide (1 < dims)) n.toNat (rf n.toNat (rng.seed k, s.2)).2.1 (rf n.toNat (rng.seed k, s.2)).2.2
    (rf n.toNat (rng.seed k, s'.2)).2.2
  rw [show ((rf n.toNat (rng.seed k, s.2)).2.1, (rf n.toNat (rng.seed k, s'.2)).2.2) = (rf n.toNat (rng.seed k, s'.2)).2 from
    Prod.ext h1.2 rfl] at h2
  generalize hy : dummyDraw rf n.toNat (decide (1 < dims)) (rf n.toNat (rng.seed k, s.2)).2 = y at *
  generalize hy' : dummyDraw rf n.toNat (decide (1 < dims)) (rf n.toNat (rng.seed k, s'.2)).2 = y' at *
  have h2' : y.1 = y'.1 ∧ y.2.1 = y'.2.1 := h2
  have h3 := key (decide (2 < dims)) n.toNat y.2.1 y.2.2 y'.2.2
  rw [show (y.2.1, y'.2.2) = y'.2 from Prod.ext h2'.2 rfl] at h3
  have h3' : (dummyDraw rf n.toNat (decide (2 < dims)) y.2).1 = (dummyDraw rf n.toNat (decide (2 < dims)) y'.2).1 ∧
    (dummyDraw rf n.toNat (decide (2 < dims)) y.2).2.1 = (dummyDraw rf n.toNat (decide (2 < dims)) y'.2).2.1 := h3
  rw [h1.1, h2'.1, h3'.1, h3'.2]

/-- C100: every attribute of the particles is there, once for each of the `n` particles. -/
theorem dummy_attributes (rng : Rng S) (rf : RandFunc S T) (hg : GivesAll rf) (ho : OnlyOrder rng) (n : ℕ) (dims : ℤ)
    (seed : Option ℤ) (hs : GoodSeed seed) (s : S × T) (species : String) :
    ∃ r, dummyInit rng rf n dims seed s = .ok r ∧
      (∀ a ∈ dummyAttribs dims, ∃ l, dummyGetSpecies r.1 species (.str a) = .ok l ∧ l.length = n) ∧
      (∀ a ∈ ["x", "y", "z", "px", "py", "pz", "weight", "id", "mass", "charge"], a ∉ dummyAttribs dims →
        dummyGetSpecies r.1 species (.str a) = .error .keyError) ∧
      dummyGetSpecies r.1 species (.str "weight") = .ok (List.replicate n 1) ∧
      ∃ ids : List ℕ, dummyGetSpecies r.1 species (.str "id") = .ok (ids.map fun i : ℕ => (i : ℝ)) ∧ ids.Perm (List.range n) := by
  obtain ⟨s1, h1⟩ : ∃ s1, dummySeed rng seed s = .ok s1 := by
    unfold dummySeed
    cases seed with
    | none => exact ⟨_, rfl⟩
    | some k => exact ⟨_, if_pos hs⟩
  obtain ⟨r, hr, hd, hx, hy, hz, hpx, hpy, hpz, hw, hi⟩ := dummyInit_eq rng rf n dims seed s s1 h1
  have hn : (rf n s1).1.length = n := hg n s1
  have hroll : ∀ k, (roll (rf n s1).1 k).length = n := fun k => by unfold roll; rw [List.length_rotate, hn]
  have hperm := ho (List.range (rf n s1).1.length) (dummyDraw rf n (2 < dims) (dummyDraw rf n (1 < dims) (rf n s1).2).2).2.1
  rw [← hi, hn] at hperm
  have gx : dummyGetSpecies r.1 species (.str "x") = .ok (rf n s1).1 := by rw [← hx]; rfl
  have gpx : dummyGetSpecies r.1 species (.str "px") = .ok r.1.pxdata := rfl
  have gpy : dummyGetSpecies r.1 species (.str "py") = .ok r.1.pydata := rfl
  have gpz : dummyGetSpecies r.1 species (.str "pz") = .ok r.1.pzdata := rfl
  have gw : dummyGetSpecies r.1 species (.str "weight") = .ok r.1.weights := rfl
  have gi : dummyGetSpecies r.1 species (.str "id") = .ok (r.1.ids.map fun i : ℕ => (i : ℝ)) := rfl
  have gm : dummyGetSpecies r.1 species (.str "mass") = .error .keyError := rfl
  have gc : dummyGetSpecies r.1 species (.str "charge") = .error .keyError := rfl
  have gy : dummyGetSpecies r.1 species (.str "y") = if 1 < dims then orAttributeError r.1.ydata else .error .keyError := by
    rw [← hd]
    by_cases h : r.1.dimensions > 1
    · rw [if_pos h]; simp [dummyGetSpecies, attribidentify, axesidentify, bind, Except.bind, h]
    · rw [if_neg h]
      simp only [dummyGetSpecies, attribidentify, axesidentify, bind, Except.bind, h]
      rfl
  have gz : dummyGetSpecies r.1 species (.str "z") = if 2 < dims then orAttributeError r.1.zdata else .error .keyError := by
    rw [← hd]
    by_cases h : r.1.dimensions > 2
    · rw [if_pos h]; simp [dummyGetSpecies, attribidentify, axesidentify, bind, Except.bind, h]
    · rw [if_neg h]
      simp only [dummyGetSpecies, attribidentify, axesidentify, bind, Except.bind, h]
      rfl
  have hbase : ∀ a ∈ ["x", "px", "py", "pz", "weight", "id"], a ∈ dummyAttribs dims := fun a ha =>
    List.mem_append_left _ (List.mem_append_left _ ha)
  refine ⟨r, hr, ?_, ?_, by rw [gw, hw, hn], r.1.ids, gi, hperm⟩
  · intro a ha
    unfold dummyAttribs at ha
    simp only [List.mem_append, List.mem_cons, List.not_mem_nil, or_false] at ha
    rcases ha with (h | h) | h
    · rcases h with rfl | rfl | rfl | rfl | rfl | rfl
      · exact ⟨_, gx, hn⟩
      · exact ⟨_, gpx, by rw [hpx, List.length_map, hroll]⟩
      · exact ⟨_, gpy, by rw [hpy, List.length_map, hroll]⟩
      · exact ⟨_, gpz, by rw [hpz, List.length_map, hroll]⟩
      · exact ⟨_, gw, by rw [hw, List.length_replicate, hn]⟩
      · exact ⟨_, gi, by rw [List.length_map, hperm.length_eq, List.length_range]⟩
    · by_cases hdims : 2 ≤ dims
      · rw [if_pos hdims, List.mem_singleton] at h
        subst h
        have hlt : 1 < dims := by omega
        refine ⟨_, by rw [gy, if_pos hlt, hy]; simp only [dummyDraw, hlt, decide_true, if_true]; rfl, hg n _⟩
      · simp [if_neg hdims] at h
    · by_cases hdims : 3 ≤ dims
      · rw [if_pos hdims, List.mem_singleton] at h
        subst h
        have hlt : 2 < dims := by omega
        refine ⟨_, by rw [gz, if_pos hlt, hz]; simp only [dummyDraw, hlt, decide_true, if_true]; rfl, hg n _⟩
      · simp [if_neg hdims] at h
  · intro a ha hna
    simp only [List.mem_cons, List.not_mem_nil, or_false] at ha
    rcases ha with rfl | rfl | rfl | rfl | rfl | rfl | rfl | rfl | rfl | rfl
    · exact absurd (hbase _ (by decide)) hna
    · rw [gy]
      by_cases hdims : 2 ≤ dims
      · exact absurd (by simp [dummyAttribs, hdims]) hna
      · rw [if_neg (by omega)]
    · rw [gz]
      by_cases hdims : 3 ≤ dims
      · exact absurd (by simp [dummyAttribs, hdims]) hna
      · rw [if_neg (by omega)]
    · exact absurd (hbase _ (by decide)) hna
    · exact absurd (hbase _ (by decide)) hna
    · exact absurd (hbase _ (by decide)) hna
    · exact absurd (hbase _ (by decide)) hna
    · exact absurd (hbase _ (by decide)) hna
    · exact gm
    · exact gc

/-- A generator for the examples: the state counts the numbers drawn; the list is turned around. -/
def countRng : Rng ℕ := ⟨fun k => 1000 * k.toNat, fun l s => (l.reverse, s + l.length)⟩

/-- A function for the examples: it gives the numbers of the draws. -/
def countDraw : RandFunc ℕ ℕ := fun n s => ((List.range n).map fun i => ((s.1 + i : ℕ) : ℝ), (s.1 + n, s.2))

theorem countDraw_shared : UsesShared countDraw := fun _ _ _ _ => ⟨rfl, rfl⟩

theorem countDraw_all : GivesAll countDraw := fun n s => by simp [countDraw]

theorem countRng_order : OnlyOrder countRng := fun l _ => l.reverse_perm

example := dummy_reproducible_partial countRng countDraw countDraw_shared 5 2 0 (7, 7) (8, 8)
example := dummy_attributes countRng countDraw countDraw_all countRng_order 5 2 (some 3) ⟨by norm_num, by norm_num⟩ (7, 7) "electron"

/-- `np.roll` moves the entry at `i` by `k` places, from the end to the begin. -/
theorem roll_get (l : List ℝ) (k i : ℕ) (hi : i < l.length) : (roll l k)[(i + k) % l.length]? = l[i]? := by
  have hm : (i + k) % l.length < l.length := Nat.mod_lt _ (by omega)
  unfold roll
  rw [List.getElem?_rotate hm]
  congr 1
  have hk : k % l.length ≤ l.length := (Nat.mod_lt _ (by omega)).le
  have h1 : (i + k) % l.length = (i + k % l.length) % l.length := by rw [Nat.add_mod_mod]
  rw [h1, Nat.mod_add_mod, show i + k % l.length + (l.length - k % l.length) = i + l.length by omega, Nat.add_mod_right,
    Nat.mod_eq_of_lt hi]

/-- C100: the momenta are given by the positions of the particles one, two and three places before. -/
theorem dummy_momenta (rng : Rng S) (rf : RandFunc S T) (hg : GivesAll rf) (n : ℕ) (dims : ℤ)
    (seed : Option ℤ) (s : S × T) (species : String) (r : DummyData × (S × T)) (h : dummyInit rng rf n dims seed s = .ok r) :
    ∃ x px py pz : List ℝ, dummyGetSpecies r.1 species (.str "x") = .ok x ∧ dummyGetSpecies r.1 species (.str "px") = .ok px ∧
      dummyGetSpecies r.1 species (.str "py") = .ok py ∧ dummyGetSpecies r.1 species (.str "pz") = .ok pz ∧ x.length = n ∧
      ∀ (i : ℕ) (v : ℝ), x[i]? = some v →
        px[(i + 1) % n]? = some (v ^ 2 * (me * c)) ∧ py[(i + 2) % n]? = some (v * (me * c)) ∧
        pz[(i + 3) % n]? = some (v * (me * c)) := by
  obtain ⟨s1, h1⟩ : ∃ s1, dummySeed rng seed s = .ok s1 := by
    cases hs : dummySeed rng seed s with
    | ok s1 => exact ⟨_, rfl⟩
    | error e => simp [dummyInit, hs, bind, Except.bind] at h
  obtain ⟨r', hr, hd, hx, hy, hz, hpx, hpy, hpz, hw, hi⟩ := dummyInit_eq rng rf n dims seed s s1 h1
  rw [h] at hr
  cases hr
  have hn : (rf n s1).1.length = n := hg n s1
  refine ⟨r.1.xdata, r.1.pxdata, r.1.pydata, r.1.pzdata, rfl, rfl, rfl, rfl, by rw [hx, hn], fun i v hv => ?_⟩
  rw [hx] at hv
  have hi : i < (rf n s1).1.length := (List.getElem?_eq_some_iff.1 hv).1
  have g : ∀ k, (roll (rf n s1).1 k)[(i + k) % n]? = some v := fun k => by
    have := roll_get (rf n s1).1 k i hi
    rw [hn] at this
    rw [this, hv]
  rw [hpx, hpy, hpz, List.getElem?_map, List.getElem?_map, List.getElem?_map, g 1, g 2, g 3]
  exact ⟨rfl, rfl, rfl⟩

example (r : DummyData × (ℕ × ℕ)) (h : dummyInit countRng countDraw 5 2 (some 3) (7, 7) = .ok r) :=
  dummy_momenta countRng countDraw countDraw_all 5 2 (some 3) (7, 7) "electron" r h

/-- C100: the dumps of a dummy simulation do not depend on the order in which they are opened. -/
theorem dummy_sim_order (rng : Rng S) (rf : RandFunc S T) (hr : UsesShared rf) (len : ℕ) (dims i : ℤ) (s s' : S × T) :
    (dummySimDump rng rf len dims i s).map Prod.fst = (dummySimDump rng rf len dims i s').map Prod.fst := by
  unfold dummySimDump
  by_cases h : i < len
  · rw [if_pos h, if_pos h]; exact dummy_reproducible_partial rng rf hr i dims 0 s s'
  · rw [if_neg h, if_neg h]

/-- C100: the dump with number `i < len` of a dummy simulation exists and has `i` particles. -/
theorem dummy_sim_particles (rng : Rng S) (rf : RandFunc S T) (hg : GivesAll rf) (len i : ℕ) (hi : i < len) (dims : ℤ) (s : S × T)
    (species : String) :
    ∃ r x, dummySimDump rng rf len dims i s = .ok r ∧ dummyGetSpecies r.1 species (.str "x") = .ok x ∧ x.length = i := by
  obtain ⟨r, hr, -, hx, -⟩ := dummyInit_eq rng rf i dims (some 0) s (rng.seed 0, s.2) (seed_zero _ _)
  refine ⟨r, r.1.xdata, ?_, rfl, by rw [hx]; exact hg _ _⟩
  unfold dummySimDump
  rw [if_pos (by exact_mod_cast hi), hr]

example := dummy_sim_order countRng countDraw countDraw_shared 4 2 3 (7, 7) (8, 8)
example := dummy_sim_particles countRng countDraw countDraw_all 4 3 (by decide) 2 (7, 7) "electron"

/-- C100 fails for readers without seed, which compare as equal with different particles, and for functions with a generator of their
own, even with a seed. -/
theorem dummy_reproducible_violated :
    (∃ (s s' : ℕ × ℕ) (r r' : DummyData × (ℕ × ℕ)),
      dummyInit countRng countDraw 1 2 none s = .ok r ∧ dummyInit countRng countDraw 1 2 none s' = .ok r' ∧
      r.1.xdata ≠ r'.1.xdata ∧
      Dump.eq (fun _ => none) ⟨.int 1, .dummy 0 none 2⟩ ⟨.int 1, .dummy 0 none 2⟩ = .ok true) ∧
    ∃ (own : RandFunc ℕ ℕ) (s s' : ℕ × ℕ) (r r' : DummyData × (ℕ × ℕ)), GivesAll own ∧
      dummyInit countRng own 1 2 (some 0) s = .ok r ∧ dummyInit countRng own 1 2 (some 0) s' = .ok r' ∧ r.1.xdata ≠ r'.1.xdata := by
  constructor
  · obtain ⟨r, hr, -, hx, -⟩ := dummyInit_eq countRng countDraw 1 2 none (0, 0) (0, 0) rfl
    obtain ⟨r', hr', -, hx', -⟩ := dummyInit_eq countRng countDraw 1 2 none (1, 0) (1, 0) rfl
    refine ⟨(0, 0), (1, 0), r, r', hr, hr', ?_, rfl⟩
    rw [hx, hx']
    simp [countDraw]
  · let own : RandFunc ℕ ℕ := fun n s => (List.replicate n (s.2 : ℝ), (s.1, s.2 + 1))
    obtain ⟨r, hr, -, hx, -⟩ := dummyInit_eq countRng own 1 2 (some 0) (0, 0) (0, 0) (seed_zero _ _)
    obtain ⟨r', hr', -, hx', -⟩ := dummyInit_eq countRng own 1 2 (some 0) (0, 1) (0, 1) (seed_zero _ _)
    refine ⟨own, (0, 0), (0, 1), r, r', fun n s => by simp [own], hr, hr', ?_⟩
    rw [hx, hx']
    simp [own]

/-- C100: opening a dump of a simulation throws away the state of the random numbers of the program: afterwards it is the same,
whatever it was before. -/
theorem dummy_state_violated (rng : Rng S) (rf : RandFunc S Unit) (len i : ℕ) (hi : i < len) (dims : ℤ) :
    ∃ s1 : S, ∀ s : S, ∃ d : DummyData, dummySimDump rng rf len dims i (s, ()) = .ok (d, (s1, ())) := by
  obtain ⟨r, hr, -⟩ := dummyInit_eq rng rf i dims (some 0) (rng.seed 0, ()) (rng.seed 0, ()) (seed_zero _ _)
  refine ⟨r.2.1, fun s => ⟨r.1, ?_⟩⟩
  unfold dummySimDump
  rw [if_pos (by exact_mod_cast hi)]
  exact hr

example := dummy_state_violated countRng (fun n s => (List.replicate n 0, s)) 4 3 (by decide) 2

/-- C100: the fields of a dump are as large as the grid, and have the values of the three formulas at the grid points. -/
theorem dummy_fields (dumpid : ℤ) (dims : ℕ) (hd : 1 ≤ dims ∧ dims ≤ 3) (comp : Fin 3) :
    ∃ (a : Arr ℝ) (grids : List (List ℝ)), dummyField dumpid dims (.str (["x", "y", "z"].get comp)) = .ok a ∧
      grids.length = dims ∧ a.shape = grids.map List.length ∧
      (∀ d : ℕ, d < dims → ∃ g, grids[d]? = some g ∧ dummyGrid (K := ℝ) dims (.str (["x", "y", "z"].getD d "")) = .ok g) ∧
      ∀ idx, InBounds a.shape idx → ∃ p : List ℝ, p.length = dims ∧
        (∀ d : ℕ, d < dims → ∃ g, grids[d]? = some g ∧ p[d]? = g[idx.getD d 0]?) ∧
        a.at' idx = dummyValue dumpid (p.getD 0 0) (p.getD 1 0) (p.getD 2 0) comp := by
  have hget : ∀ (g : List ℝ) (k : ℕ), k < g.length → some (g.getD k 0) = g[k]? := fun g k hk => by
    rw [List.getD_eq_getElem?_getD, List.getElem?_eq_getElem hk]; rfl
  have hidx : ∀ (shape idx : List ℕ) (d n : ℕ), InBounds shape idx → shape[d]? = some n → idx.getD d 0 < n := by
    intro shape idx d n hb hn
    have hl : d < idx.length := by rw [hb.1]; exact (List.getElem?_eq_some_iff.1 hn).1
    rw [List.getD_eq_getElem?_getD, List.getElem?_eq_getElem hl]
    exact hb.2 d _ n (List.getElem?_eq_getElem hl) hn
  obtain ⟨f, axid, ha, hf, hfe⟩ : ∃ f axid, axesidentify (.str (["x", "y", "z"].get comp)) = .ok axid ∧ dummyFkt axid = .ok f ∧
      (fun n x y z => dummyValue n x y z comp) = f := by
    fin_cases comp
    · refine ⟨_, 0, rfl, rfl, ?_⟩
      funext n x y z
      simp only [dummyValue, dummyEx]
      congr 2
      · ring_nf
      · norm_num; ring
    · refine ⟨_, 1, rfl, rfl, ?_⟩
      funext n x y z
      simp only [dummyValue, dummyEy]
      ring_nf
    · refine ⟨_, 2, rfl, rfl, ?_⟩
      funext n x y z
      simp only [dummyValue, dummyEz]
      ring
  obtain ⟨hd1, hd3⟩ := hd
  have hfe' : ∀ n x y z, dummyValue n x y z comp = f n x y z := fun n x y z => congrFun (congrFun (congrFun (congrFun hfe n) x) y) z
  simp only [hfe']
  interval_cases dims
  · obtain ⟨gx, hgx⟩ : ∃ gx, dummyGrid (K := ℝ) 1 (.str "x") = .ok gx := ⟨_, rfl⟩
    refine ⟨⟨[gx.length], fun i => f dumpid (gx.getD (i.getD 0 0) 0) 0 0⟩, [gx], ?_, rfl, rfl, ?_, ?_⟩
    · simp only [dummyField, ha, hf, hgx, bind, Except.bind, if_true, dummyTimestep]; rfl
    · intro d hd
      interval_cases d
      exact ⟨gx, rfl, hgx⟩
    · intro idx hb
      refine ⟨[gx.getD (idx.getD 0 0) 0], rfl, ?_, rfl⟩
      intro d hd
      interval_cases d
      exact ⟨gx, rfl, hget gx _ (hidx _ _ 0 _ hb rfl)⟩
  · obtain ⟨gx, hgx⟩ : ∃ gx, dummyGrid (K := ℝ) 2 (.str "x") = .ok gx := ⟨_, rfl⟩
    obtain ⟨gy, hgy⟩ : ∃ gy, dummyGrid (K := ℝ) 2 (.str "y") = .ok gy := ⟨_, rfl⟩
    refine ⟨⟨[gx.length, gy.length], fun i => f dumpid (gx.getD (i.getD 0 0) 0) (gy.getD (i.getD 1 0) 0) 0⟩, [gx, gy], ?_, rfl, rfl,
      ?_, ?_⟩
    · simp only [dummyField, ha, hf, hgx, hgy, bind, Except.bind, if_true, dummyTimestep]; rfl
    · intro d hd
      interval_cases d
      · exact ⟨gx, rfl, hgx⟩
      · exact ⟨gy, rfl, hgy⟩
    · intro idx hb
      refine ⟨[gx.getD (idx.getD 0 0) 0, gy.getD (idx.getD 1 0) 0], rfl, ?_, rfl⟩
      intro d hd
      interval_cases d
      · exact ⟨gx, rfl, hget gx _ (hidx _ _ 0 _ hb rfl)⟩
      · exact ⟨gy, rfl, hget gy _ (hidx _ _ 1 _ hb rfl)⟩
  · obtain ⟨gx, hgx⟩ : ∃ gx, dummyGrid (K := ℝ) 3 (.str "x") = .ok gx := ⟨_, rfl⟩
    obtain ⟨gy, hgy⟩ : ∃ gy, dummyGrid (K := ℝ) 3 (.str "y") = .ok gy := ⟨_, rfl⟩
    obtain ⟨gz, hgz⟩ : ∃ gz, dummyGrid (K := ℝ) 3 (.str "z") = .ok gz := ⟨_, rfl⟩
    refine ⟨⟨[gx.length, gy.length, gz.length],
      fun i => f dumpid (gx.getD (i.getD 0 0) 0) (gy.getD (i.getD 1 0) 0) (gz.getD (i.getD 2 0) 0)⟩, [gx, gy, gz], ?_, rfl, rfl, ?_, ?_⟩
    · simp only [dummyField, ha, hf, hgx, hgy, hgz, bind, Except.bind, if_true, dummyTimestep]; rfl
    · intro d hd
      interval_cases d
      · exact ⟨gx, rfl, hgx⟩
      · exact ⟨gy, rfl, hgy⟩
      · exact ⟨gz, rfl, hgz⟩
    · intro idx hb
      refine ⟨[gx.getD (idx.getD 0 0) 0, gy.getD (idx.getD 1 0) 0, gz.getD (idx.getD 2 0) 0], rfl, ?_, rfl⟩
      intro d hd
      interval_cases d
      · exact ⟨gx, rfl, hget gx _ (hidx _ _ 0 _ hb rfl)⟩
      · exact ⟨gy, rfl, hget gy _ (hidx _ _ 1 _ hb rfl)⟩
      · exact ⟨gz, rfl, hget gz _ (hidx _ _ 2 _ hb rfl)⟩

example := dummy_fields 7 3 (by decide) 1

/-- C100: the fields have a finite value everywhere: the only formula with a division is bounded by the square root of 10^9, and the sum
under its root is positive. At the origin the value is zero. -/
theorem dummy_fields_finite (n x y z : ℝ) :
    0 < x * x + y * y + z * z + 1 / 1000000000 ∧ dummyEx n x y z ^ 2 ≤ 1000000000 ∧ dummyEx n 0 0 0 = 0 ∧
      (∀ m : ℤ, n = m → x * x + y * y + z * z = 1 → dummyEx n x y z = 0) := by
  have hp : 0 < x * x + y * y + z * z + 1 / 1000000000 := by nlinarith [mul_self_nonneg x, mul_self_nonneg y, mul_self_nonneg z]
  refine ⟨hp, ?_, by simp [dummyEx], ?_⟩
  · have he : x ^ 2 + y ^ 2 + z ^ 2 + 1e-9 = x * x + y * y + z * z + 1 / 1000000000 := by norm_num; ring
    unfold dummyEx
    rw [he, div_pow, Real.sq_sqrt hp.le, div_le_iff₀ hp]
    nlinarith [Real.sin_sq_le_one (Real.pi * n * Real.sqrt (x ^ 2 + y ^ 2 + z ^ 2)), mul_self_nonneg x, mul_self_nonneg y, mul_self_nonneg z]
  · intro m hm h1
    have he : x ^ 2 + y ^ 2 + z ^ 2 = 1 := by rw [← h1]; ring
    simp only [dummyEx, he, Real.sqrt_one, mul_one, hm]
    rw [mul_comm, Real.sin_int_mul_pi, zero_div]

/-- C100: ten billion steps are one second; later dumps have later times. -/
theorem dummy_time (n m : ℤ) : dummyTime n * 10000000000 = n ∧ (n < m ↔ dummyTime n < dummyTime m) := by
  have h : ∀ k : ℤ, dummyTime k = k / 10000000000 := fun k => by simp only [dummyTime, dummyTimestep]; norm_num; ring
  refine ⟨by rw [h]; ring, ?_⟩
  rw [h, h, div_lt_div_iff_of_pos_right (by norm_num)]
  exact_mod_cast Iff.rfl

example := dummy_time 3 4
example := (dummy_fields_finite 3 1 0 0).2.2.2 3 (by norm_num) (by norm_num)

end Postpic.Props
