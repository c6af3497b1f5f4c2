import Verif.Spec.FieldProps
import Verif.Props.FieldResolution
import Verif.Lemmas.Broadcast
import Verif.Lemmas.Operators
import Verif.Lemmas.Simulation
import Verif.Lemmas.Autocut
import Verif.Props.FieldBroadcast

/-!
# C94: extents of fields, C95: complex fields, C96: evaluate
-/

set_option autoImplicit false
set_option linter.unusedSectionVars false

namespace Postpic.Props

open Postpic Postpic.Axes Postpic.Fields Postpic.Spec Postpic.Readers

section
variable {K V : Type} [_root_.Field K] [LinearOrder K] [IsStrictOrderedRing K]

theorem axesidentify_nat {i : ℕ} (hi : i < 3) : axesidentify (.int i) = .ok i := by
  match i, hi with
  | 0, _ => rfl
  | 1, _ => rfl
  | 2, _ => rfl

theorem setAxisObj_ok (f : Field K V) {i n : ℕ} (hi : i < 3) (ha : i < f.axes.length) (hs : f.shape[i]? = some n)
    (ax : Axis K) (hl : ax.len = n) : f.setAxisObj (.int i) ax = ({ f with axes := f.axes.set i ax }, none) := by
  unfold Field.setAxisObj
  rw [axesidentify_nat hi]
  have : i % 90 = i := by omega
  simp only [this, hs]
  rw [if_neg (fun h => h hl), if_pos ha]

theorem pair_at {α : Type} (l : List α) (i : ℕ) (h : 2 * i + 2 ≤ l.length) :
    ∃ a b, l[2 * i]? = some a ∧ l[2 * i + 1]? = some b ∧ (l.drop (2 * i)).take 2 = [a, b] := by
  refine ⟨l[2 * i], l[2 * i + 1], List.getElem?_eq_getElem (by omega), List.getElem?_eq_getElem (by omega), ?_⟩
  rw [List.drop_eq_getElem_cons (by omega), List.take_succ_cons, List.drop_eq_getElem_cons (by omega), List.take_succ_cons,
    List.take_zero]

theorem evenAxisOf_len (name unit : String) (e0 h : K) (n : ℕ) : (evenAxisOf name unit e0 h n).len = n := ap_length _ _ _

theorem setExtentFrom_ok {spl : Splines K} (hspl : ExactOnEven spl) (ext : List K) (todo i : ℕ) (f : Field K V)
    (ht : i + todo = f.axes.length) (h3 : f.axes.length ≤ 3) (he : ext.length = 2 * f.axes.length)
    (hlen : f.axes.map Axis.len = f.shape) (hpos : 0 ∉ f.shape)
    (hlin : ∀ (d : ℕ) (ax : Axis K), i ≤ d → f.axes[d]? = some ax → ax.isLinear = true) :
    ∃ g, f.setExtentFrom spl ext todo i = (g, none) ∧ g.matrix = f.matrix ∧ f.SameRest g ∧ g.axes.length = f.axes.length ∧
      (∀ d < i, g.axes[d]? = f.axes[d]?) ∧
      ∀ (d : ℕ) (ax : Axis K), i ≤ d → f.axes[d]? = some ax → ∃ a b, ext[2 * d]? = some a ∧ ext[2 * d + 1]? = some b ∧
        g.axes[d]? = some (evenAxisOf ax.name ax.unit a ((b - a) / ax.len) ax.len) := by
  induction todo generalizing i f with
  | zero =>
    refine ⟨f, rfl, rfl, ⟨rfl, rfl, rfl, rfl⟩, rfl, fun _ _ => rfl, ?_⟩
    intro d ax hd hax
    rw [List.getElem?_eq_none (by omega)] at hax
    cases hax
  | succ todo ih =>
    have hi : i < f.axes.length := by omega
    obtain ⟨ax, hax⟩ : ∃ ax, f.axes[i]? = some ax := ⟨_, List.getElem?_eq_getElem hi⟩
    have hsh : f.shape[i]? = some ax.len := by
      rw [← hlen, List.getElem?_map, hax]
      rfl
    have hn : 0 < ax.len := by
      rcases Nat.eq_zero_or_pos ax.len with h | h
      · rw [h] at hsh
        exact absurd (List.mem_of_getElem? hsh) hpos
      · exact h
    obtain ⟨a, b, ha, hb, hab⟩ := pair_at ext i (by omega)
    have hnk : (ax.len : K) ≠ 0 := by exact_mod_cast hn.ne'
    have hmk := mkAxis_even hspl ax.name ax.unit (e0 := a) (e1 := b) (h := (b - a) / ax.len) hn (by
      rw [mul_div_cancel₀ _ hnk, add_sub_cancel])
    set newax := evenAxisOf ax.name ax.unit a ((b - a) / ax.len) ax.len with hnew
    have hset := setAxisObj_ok f (by omega) hi hsh newax (evenAxisOf_len _ _ _ _ _)
    set f' : Field K V := { f with axes := f.axes.set i newax } with hf'
    have hshape' : f'.shape = f.shape := rfl
    have hlen' : f'.axes.map Axis.len = f'.shape := by
      rw [hshape', ← hlen]
      apply List.ext_getElem?
      intro d
      rw [List.getElem?_map, List.getElem?_map]
      by_cases h : i = d
      · subst h
        rw [List.getElem?_set_self hi, hax, Option.map_some, Option.map_some, evenAxisOf_len]
      · rw [List.getElem?_set_ne h]
    obtain ⟨g, g1, g2, g3, g4, g5, g6⟩ := ih (i + 1) f' (by simp [hf']; omega) (by simp [hf']; omega)
      (by simp [hf']; omega) hlen' hpos (by
        intro d ax' hd hx
        refine hlin d ax' (by omega) ?_
        rw [← hx]
        simp only [hf', List.getElem?_set]
        rw [if_neg (by omega)])
    refine ⟨g, ?_, g2, g3, by rw [g4]; simp [hf'], ?_, ?_⟩
    · unfold Field.setExtentFrom
      simp only [hax, hsh, hlin i ax le_rfl hax, Bool.not_true, Bool.false_eq_true, if_false, hab, hmk, hset]
      exact g1
    · intro d hd
      rw [g5 d (by omega)]
      simp only [hf', List.getElem?_set]
      rw [if_neg (by omega)]
    · intro d ax' hd hx
      rcases Nat.lt_or_ge i d with h | h
      · refine g6 d ax' (by omega) ?_
        rw [← hx]
        simp only [hf', List.getElem?_set]
        rw [if_neg (by omega)]
      · have : d = i := by omega
        subst this
        rw [hax] at hx
        cases hx
        refine ⟨a, b, ha, hb, ?_⟩
        rw [g5 d (by omega)]
        exact List.getElem?_set_self hi

/-- The number of values which an extent needs. -/
theorem dims_of_sound {f : Field K V} (hf : f.Sound) : f.dims = f.axes.length := by
  unfold Field.dims
  rw [if_neg hf.nonempty, ← hf.ok.lengths, List.length_map]

/-- C94: with one pair of numbers per axis the field gets this extent, if all axes are evenly spaced. Partial: up to three
dimensions (a limit of all fields), and uneven axes are refused. -/
theorem extent_set_partial (spl : Splines K) (hspl : ExactOnEven spl) (f : Field K V) (hf : f.Sound)
    (h3 : f.axes.length ≤ 3) (hlin : ∀ ax ∈ f.axes, ax.isLinear = true) (ext : List K)
    (he : ext.length = 2 * f.axes.length) :
    ∃ g, f.setExtent spl ext = (g, none) ∧ HasExtent f g ext ∧ g.extent = ext := by
  obtain ⟨g, g1, g2, g3, g4, -, g6⟩ := setExtentFrom_ok hspl ext f.axes.length 0 f (by omega) h3 he hf.ok.lengths hf.nonempty
    (fun d ax _ hax => hlin ax (List.mem_of_getElem? hax))
  have hpos : ∀ ax ∈ f.axes, ax.len ≠ 0 := by
    intro ax hax h0
    apply hf.nonempty
    rw [← hf.ok.lengths]
    exact List.mem_map.2 ⟨ax, hax, h0⟩
  have hext : HasExtent f g ext := by
    refine ⟨g2, g3, g4, ?_⟩
    intro d ax hax
    obtain ⟨a, b, ha, hb, hg⟩ := g6 d ax (Nat.zero_le d) hax
    refine ⟨_, a, b, hg, ha, hb, rfl, rfl, evenAxisOf_len _ _ _ _ _, ?_, evenAxisOf_even _ _ _ _ _⟩
    have hnk : (ax.len : K) ≠ 0 := by exact_mod_cast hpos ax (List.mem_of_getElem? hax)
    show (a, a + (ax.len : K) * ((b - a) / ax.len)) = (a, b)
    rw [mul_div_cancel₀ _ hnk, add_sub_cancel]
  refine ⟨g, ?_, hext, ?_⟩
  · unfold Field.setExtent
    rw [if_neg, g1]
    rw [dims_of_sound hf, he]
    push_cast
    omega
  · have key : ∀ (l : List (Axis K)) (e : List K), e.length = 2 * l.length → (∀ (d : ℕ) (ax : Axis K), l[d]? = some ax →
        e[2 * d]? = some ax.extent.1 ∧ e[2 * d + 1]? = some ax.extent.2) →
        (l.flatMap fun ax => [ax.extent.1, ax.extent.2]) = e := by
      intro l
      induction l with
      | nil =>
        intro e h _
        rw [List.flatMap_nil]
        exact (List.length_eq_zero_iff.1 (by simpa using h)).symm
      | cons x l ih =>
        intro e h hd
        match e, h with
        | a :: b :: e, h =>
          have h0 := hd 0 x rfl
          simp only [Nat.mul_zero, List.getElem?_cons_zero, Option.some.injEq, Nat.zero_add, List.getElem?_cons_succ] at h0
          rw [List.flatMap_cons, ih e (by simp only [List.length_cons] at h; omega) (by
            intro d ax hax
            have := hd (d + 1) ax (by rw [List.getElem?_cons_succ]; exact hax)
            rwa [show 2 * (d + 1) = 2 * d + 1 + 1 by ring, show 2 * d + 1 + 1 + 1 = (2 * d + 1) + 1 + 1 by ring,
              List.getElem?_cons_succ, List.getElem?_cons_succ, List.getElem?_cons_succ, List.getElem?_cons_succ] at this)]
          rw [h0.1, h0.2]
          rfl
        | [a], h => simp only [List.length_cons, List.length_nil] at h; omega
        | [], h => simp only [List.length_cons, List.length_nil] at h; omega
    apply key _ _ (by rw [g4]; exact he)
    intro d ax' hax'
    have hd : d < f.axes.length := by
      rw [← g4]
      exact (List.getElem?_eq_some_iff.1 hax').1
    obtain ⟨ax'', a, b, h1, h2, h3, -, -, -, h4, -⟩ := hext.axis d _ (List.getElem?_eq_getElem hd)
    rw [hax'] at h1
    cases h1
    rw [h2, h3, h4]
    exact ⟨rfl, rfl⟩

/-- C94: another number of values is a TypeError and the field stays as it is. -/
theorem extent_count (spl : Splines K) (f : Field K V) (hf : f.Sound) (ext : List K) (he : ext.length ≠ 2 * f.axes.length) :
    f.setExtent spl ext = (f, some .typeError) := by
  unfold Field.setExtent
  rw [if_pos]
  rw [dims_of_sound hf]
  omega

/-- C94: assigning the extent which a field has changes nothing. Partial: for evenly spaced grid points in the middle of the
cells; see `extent_same_violated`. -/
theorem extent_same_partial (spl : Splines K) (hspl : ExactOnEven spl) (f : Field K V) (hf : f.Sound)
    (h3 : f.axes.length ≤ 3) (heven : ∀ ax ∈ f.axes, ∃ e0 h, EvenAxis ax e0 h) :
    f.setExtent spl f.extent = (f, none) := by
  have hl : ∀ l : List (Axis K), (l.flatMap fun ax => [ax.extent.1, ax.extent.2]).length = 2 * l.length := by
    intro l
    induction l with
    | nil => rfl
    | cons x l ih =>
      rw [List.flatMap_cons, List.length_append, ih, List.length_cons]
      simp only [List.length_cons, List.length_nil]
      omega
  obtain ⟨g, g1, g2, g3⟩ := extent_set_partial spl hspl f hf h3
    (fun ax hax => by obtain ⟨e0, h, he⟩ := heven ax hax; exact even_linear he) f.extent (hl _)
  rw [g1]
  have key : ∀ (l : List (Axis K)) (d : ℕ) (ax : Axis K), l[d]? = some ax →
      (l.flatMap fun ax => [ax.extent.1, ax.extent.2])[2 * d]? = some ax.extent.1 ∧
      (l.flatMap fun ax => [ax.extent.1, ax.extent.2])[2 * d + 1]? = some ax.extent.2 := by
    intro l
    induction l with
    | nil => intro d ax h; simp at h
    | cons x l ih =>
      intro d ax h
      rw [List.flatMap_cons]
      cases d with
      | zero => cases h; exact ⟨rfl, rfl⟩
      | succ d =>
        obtain ⟨h1, h2⟩ := ih d ax (by rw [List.getElem?_cons_succ] at h; exact h)
        rw [show 2 * (d + 1) = 2 * d + 1 + 1 by ring]
        exact ⟨h1, h2⟩
  have hax : g.axes = f.axes := by
    apply List.ext_getElem?
    intro d
    cases hd : f.axes[d]? with
    | none =>
      rw [List.getElem?_eq_none]
      rw [g2.naxes]
      exact List.getElem?_eq_none_iff.1 hd
    | some ax =>
      obtain ⟨ax', a, b, h1, h2, h3', hn, hu, hlen, hx, hev⟩ := g2.axis d ax hd
      obtain ⟨e0, h, he⟩ := heven ax (List.mem_of_getElem? hd)
      obtain ⟨k1, k2⟩ := key f.axes d ax hd
      have ha : a = ax.extent.1 := by
        have := h2.symm.trans k1
        exact Option.some.inj this
      have hb : b = ax.extent.2 := by
        have := h3'.symm.trans k2
        exact Option.some.inj this
      rw [h1]
      have hpos : (ax.len : K) ≠ 0 := by
        intro h0
        apply hf.nonempty
        rw [← hf.ok.lengths]
        exact List.mem_map.2 ⟨ax, List.mem_of_getElem? hd, by exact_mod_cast h0⟩
      rw [even_iff] at he hev
      have hh : (b - a) / ax.len = h := by
        rw [ha, hb, he.2.2]
        simp only [add_sub_cancel_left]
        exact mul_div_cancel_left₀ _ hpos
      have ha0 : a = e0 := by rw [ha, he.2.2]
      rw [hh, ha0, hlen] at hev
      have q1 : ax'.gridNode = ax.gridNode := by rw [hev.1, he.1]
      have q2 : ax'.grid = ax.grid := by rw [hev.2.1, he.2.1]
      have q3 : ax'.extent = ax.extent := by rw [hev.2.2, he.2.2]
      congr 1
      obtain ⟨n', u', gn', gr', ex'⟩ := ax'
      obtain ⟨n, u, gn, gr, ex⟩ := ax
      simp only at hn hu q1 q2 q3
      rw [hn, hu, q1, q2, q3]
  obtain ⟨r1, r2, r3, r4⟩ := g2.rest
  have hm := g2.data
  obtain ⟨gn, gu, gm, ga, gs, gt⟩ := g
  obtain ⟨fn, fu, fm, fa, fs, ft⟩ := f
  simp only at r1 r2 r3 r4 hax hm
  rw [r1, r2, r3, r4, hax, hm]

/-- C94: the spacing of a field with evenly spaced axes is the size of the cells. -/
theorem field_spacing (f : Field K V) (hf : f.Sound) (e0 h : ℕ → K)
    (heven : ∀ (d : ℕ) (ax : Axis K), f.axes[d]? = some ax → EvenAxis ax (e0 d) (h d)) :
    f.spacings = .ok ((List.range f.axes.length).map fun d => |h d|) := by
  unfold Field.spacings
  apply mapM_of_get (by simp)
  intro d ax r hax hr
  have hd := (List.getElem?_eq_some_iff.1 hax).1
  rw [List.getElem?_map, List.getElem?_range hd] at hr
  cases hr
  have he := heven d ax hax
  have hlin := even_linear he
  have hn : 0 < ax.len := by
    rcases Nat.eq_zero_or_pos ax.len with h0 | h0
    · exfalso
      apply hf.nonempty
      rw [← hf.ok.lengths]
      exact List.mem_map.2 ⟨ax, List.mem_of_getElem? hax, h0⟩
    · exact h0
  rw [even_iff] at he
  unfold Axis.spacing
  rw [hlin]
  obtain ⟨m, hm⟩ : ∃ m, ax.len = m + 1 := ⟨ax.len - 1, by omega⟩
  rw [he.1, hm]
  have : ap (e0 d) (h d) (m + 1 + 1) = e0 d :: (e0 d + h d) :: ((ap (e0 d) (h d) (m + 1 + 1)).drop 2) := by
    have hl := ap_length (e0 d) (h d) (m + 1 + 1)
    have g0 := ap_get (e0 d) (h d) (m + 1 + 1) 0 (by omega)
    have g1 := ap_get (e0 d) (h d) (m + 1 + 1) 1 (by omega)
    match hx : ap (e0 d) (h d) (m + 1 + 1), hl with
    | x :: y :: l, _ =>
      rw [hx] at g0 g1
      simp only [List.getElem?_cons_zero, List.getElem?_cons_succ, Option.some.injEq, Nat.cast_zero, Nat.cast_one, zero_mul,
        add_zero, one_mul] at g0 g1
      rw [g0, g1]
      rfl
  rw [this]
  simp only [Bool.not_true, Bool.false_eq_true, if_false, add_sub_cancel_left]

/-- The loop stops with a TypeError if there is an uneven axis. -/
theorem setExtentFrom_uneven {spl : Splines K} (hspl : ExactOnEven spl) (ext : List K) (todo i : ℕ) (f : Field K V)
    (ht : i + todo = f.axes.length) (h3 : f.axes.length ≤ 3) (he : ext.length = 2 * f.axes.length)
    (hlen : f.axes.map Axis.len = f.shape) (hpos : 0 ∉ f.shape)
    (hun : ∃ (d : ℕ) (ax : Axis K), i ≤ d ∧ f.axes[d]? = some ax ∧ ax.isLinear = false) :
    ∃ g, f.setExtentFrom spl ext todo i = (g, some .typeError) ∧ g.matrix = f.matrix ∧ f.SameRest g := by
  induction todo generalizing i f with
  | zero =>
    obtain ⟨d, ax, hd, hax, -⟩ := hun
    rw [List.getElem?_eq_none (by omega)] at hax
    cases hax
  | succ todo ih =>
    have hi : i < f.axes.length := by omega
    obtain ⟨ax, hax⟩ : ∃ ax, f.axes[i]? = some ax := ⟨_, List.getElem?_eq_getElem hi⟩
    have hsh : f.shape[i]? = some ax.len := by
      rw [← hlen, List.getElem?_map, hax]
      rfl
    have hn : 0 < ax.len := by
      rcases Nat.eq_zero_or_pos ax.len with h | h
      · rw [h] at hsh
        exact absurd (List.mem_of_getElem? hsh) hpos
      · exact h
    cases hl : ax.isLinear with
    | false =>
      refine ⟨f, ?_, rfl, ⟨rfl, rfl, rfl, rfl⟩⟩
      unfold Field.setExtentFrom
      simp only [hax, hsh, hl, Bool.not_false, if_true]
    | true =>
      obtain ⟨a, b, ha, hb, hab⟩ := pair_at ext i (by omega)
      have hnk : (ax.len : K) ≠ 0 := by exact_mod_cast hn.ne'
      have hmk := mkAxis_even hspl ax.name ax.unit (e0 := a) (e1 := b) (h := (b - a) / ax.len) hn (by
        rw [mul_div_cancel₀ _ hnk, add_sub_cancel])
      set newax := evenAxisOf ax.name ax.unit a ((b - a) / ax.len) ax.len with hnew
      have hset := setAxisObj_ok f (by omega) hi hsh newax (evenAxisOf_len _ _ _ _ _)
      set f' : Field K V := { f with axes := f.axes.set i newax } with hf'
      have hshape' : f'.shape = f.shape := rfl
      have hlen' : f'.axes.map Axis.len = f'.shape := by
        rw [hshape', ← hlen]
        apply List.ext_getElem?
        intro d
        rw [List.getElem?_map, List.getElem?_map]
        by_cases h : i = d
        · subst h
          rw [List.getElem?_set_self hi, hax, Option.map_some, Option.map_some, evenAxisOf_len]
        · rw [List.getElem?_set_ne h]
      obtain ⟨g, g1, g2, g3⟩ := ih (i + 1) f' (by simp [hf']; omega) (by simp [hf']; omega)
        (by simp [hf']; omega) hlen' hpos (by
          obtain ⟨d, ax', hd, hax', hl'⟩ := hun
          have hne : i ≠ d := by
            rintro rfl
            rw [hax] at hax'
            cases hax'
            rw [hl] at hl'
            cases hl'
          refine ⟨d, ax', by omega, ?_, hl'⟩
          show (f.axes.set i newax)[d]? = _
          rw [List.getElem?_set_ne hne, hax'])
      refine ⟨g, ?_, g2, g3⟩
      unfold Field.setExtentFrom
      simp only [hax, hsh, hl, Bool.not_true, Bool.false_eq_true, if_false, hab, hmk, hset]
      exact g1

/-- C94: if an axis is not evenly spaced, this is a TypeError and the data stay as they are; the axes may not, see
`extent_atomic_violated`. -/
theorem extent_uneven_partial (spl : Splines K) (hspl : ExactOnEven spl) (f : Field K V) (hf : f.Sound)
    (h3 : f.axes.length ≤ 3) (ax : Axis K) (hax : ax ∈ f.axes) (hun : ax.isLinear = false) (ext : List K) :
    ∃ g, f.setExtent spl ext = (g, some .typeError) ∧ g.matrix = f.matrix ∧ f.SameRest g := by
  by_cases he : ext.length = 2 * f.axes.length
  · obtain ⟨d, hd, rfl⟩ := List.getElem_of_mem hax
    obtain ⟨g, g1, g2, g3⟩ := setExtentFrom_uneven hspl ext f.axes.length 0 f (by omega) h3 he hf.ok.lengths hf.nonempty
      ⟨d, _, Nat.zero_le d, List.getElem?_eq_getElem hd, hun⟩
    refine ⟨g, ?_, g2, g3⟩
    unfold Field.setExtent
    rw [if_neg, g1]
    rw [dims_of_sound hf, he]
    push_cast
    omega
  · exact ⟨f, extent_count spl f hf ext he, rfl, rfl, rfl, rfl, rfl⟩

end

example := extent_set_partial midSplines midSplines_exact field43 field43_sound (by decide)
  (by decide +kernel) [1, 9, 10, 4] rfl

example : ((field43.setExtent midSplines [1, 9, 10, 4]).2, (field43.setExtent midSplines [1, 9, 10, 4]).1.axes.map (·.grid)) =
    (none, [[2, 4, 6, 8], [9, 7, 5]]) := by
  decide +kernel

example := extent_count midSplines field43 field43_sound [1, 9, 10] (by decide)

/-- A field with 2 times 3 points; the second axis has cells of different sizes. -/
def fieldEvenUneven : Field ℚ ℚ :=
  ⟨"f", "", ⟨[2, 3], fun idx => (idx.getD 0 0 : ℚ)⟩,
    [⟨"x", "m", [0, 1, 2], [1 / 2, 3 / 2], (0, 2)⟩, ⟨"y", "m", [0, 1, 2, 8], [1 / 2, 3 / 2, 5], (0, 8)⟩],
    [some false, some false], [none, none]⟩

theorem fieldEvenUneven_sound : fieldEvenUneven.Sound := by
  refine ⟨⟨by decide +kernel, by decide, by decide⟩, ?_, by decide⟩
  intro ax hax
  simp only [fieldEvenUneven, List.mem_cons, List.not_mem_nil, or_false] at hax
  rcases hax with rfl | rfl
  · exact ⟨(wf_iff _ _).2 (Or.inl (by norm_num [Interleave])), rfl, rfl⟩
  · exact ⟨(wf_iff _ _).2 (Or.inl (by norm_num [Interleave])), rfl, rfl⟩

example := extent_uneven_partial midSplines midSplines_exact fieldEvenUneven fieldEvenUneven_sound (by decide)
  ⟨"y", "m", [0, 1, 2, 8], [1 / 2, 3 / 2, 5], (0, 8)⟩ (by decide +kernel) (by decide +kernel) [5, 7, 0, 1]

/-- C94 (refused assignments change nothing) fails: the axes before the uneven one have their new extents already. -/
theorem extent_atomic_violated :
    (fieldEvenUneven.setExtent midSplines [5, 7, 0, 1]).2 = some .typeError ∧
    fieldEvenUneven.extent = [0, 2, 0, 8] ∧ (fieldEvenUneven.setExtent midSplines [5, 7, 0, 1]).1.extent = [5, 7, 0, 8] := by
  decide +kernel

/-- A field whose points are not in the middle of their cells. -/
def fieldOffCentre : Field ℚ ℚ :=
  ⟨"f", "", ⟨[3], fun idx => (idx.getD 0 0 : ℚ)⟩, [⟨"x", "m", [0, 1, 2, 3], [1 / 4, 5 / 4, 9 / 4], (0, 3)⟩], [some false],
    [none]⟩

theorem fieldOffCentre_sound : fieldOffCentre.Sound := by
  refine ⟨⟨by decide +kernel, by decide, by decide⟩, ?_, by decide⟩
  intro ax hax
  simp only [fieldOffCentre, List.mem_singleton] at hax
  subst hax
  exact ⟨(wf_iff _ _).2 (Or.inl (by norm_num [Interleave])), rfl, rfl⟩

/-- C94 (assigning the same extent) fails for grid points which are not in the middle of the cells: they are moved there. -/
theorem extent_same_violated :
    (fieldOffCentre.setExtent midSplines fieldOffCentre.extent).2 = none ∧
    fieldOffCentre.axes.map (·.grid) = [[1 / 4, 5 / 4, 9 / 4]] ∧
    (fieldOffCentre.setExtent midSplines fieldOffCentre.extent).1.axes.map (·.grid) = [[1 / 2, 3 / 2, 5 / 2]] := by
  decide +kernel

/-- C57: called without an argument `squeeze` removes the dimensions of length one and nothing else. Partial: as `squeeze_partial`. -/
theorem squeeze_call_partial {K V : Type} [_root_.Field K] [LinearOrder K] [IsStrictOrderedRing K] (spl : Splines K) (f : Field K V) (hf : f.Sound)
    (h3 : f.shape.length ≤ 3) : ∃ r, f.squeezeAt spl none = .ok r ∧ r.Sound ∧ r.shape = f.shape.filter (fun n => decide (n ≠ 1)) ∧
      (∀ idx, InBounds r.shape idx → r.matrix.at' idx = f.matrix.at' (unsqueeze f.shape idx)) := by
  obtain ⟨r, r1, r2, _, _, r5, _, r7⟩ := squeeze_sound spl hf h3
  exact ⟨r, r1, r2, r5, r7⟩

/-- C57 fails if the axes to be removed are given: the method uses a name which does not exist. -/
theorem squeeze_axis_violated {K V : Type} [_root_.Field K] [LinearOrder K] (spl : Splines K) (f : Field K V) (axis : List ℤ) :
    f.squeezeAt spl (some axis) = .error .nameError := rfl

example : (field13.shape, (field13.squeezeAt midSplines (some [0])).map (·.shape)) = ([1, 3], (.error .nameError : Res (List ℕ))) := by
  decide +kernel

/-! ## C95: complex fields -/

section
variable {K : Type} [_root_.Field K] [LinearOrder K]

theorem replaceData_each {V W : Type} (g : V → W) (f : Field K V) :
    f.replaceData (Arr.each g f.matrix) = .ok ⟨f.name, f.unit, Arr.each g f.matrix, f.axes, f.ats, f.tao⟩ := by
  unfold Field.replaceData
  rw [if_neg]
  exact fun h => h rfl

/-- C95: the real and the imaginary part have the metadata of the field, and together they are the field. -/
theorem complex_parts (f : Field K ℂ) : ∃ re im, f.real = .ok re ∧ f.imag = .ok im ∧ SameMeta f re ∧ SameMeta f im ∧
    ∀ idx, f.matrix.at' idx = re.matrix.at' idx + im.matrix.at' idx * Complex.I := by
  refine ⟨_, _, replaceData_each _ f, replaceData_each _ f, ⟨rfl, rfl, rfl, rfl, rfl, rfl⟩, ⟨rfl, rfl, rfl, rfl, rfl, rfl⟩, ?_⟩
  intro idx
  exact (Complex.re_add_im _).symm

/-- C95: the angle has the metadata of the field, is in the interval from -π to π, and together with the modulus it is
the field. -/
theorem complex_angle (f : Field K ℂ) : ∃ r, f.angle = .ok r ∧ SameMeta f r ∧
    ∀ idx, r.matrix.at' idx ∈ Set.Ioc (-Real.pi) Real.pi ∧
      f.matrix.at' idx = ‖f.matrix.at' idx‖ * Complex.exp (r.matrix.at' idx * Complex.I) := by
  refine ⟨_, replaceData_each _ f, ⟨rfl, rfl, rfl, rfl, rfl, rfl⟩, ?_⟩
  intro idx
  exact ⟨Complex.arg_mem_Ioc _, (Complex.norm_mul_exp_arg_mul_I _).symm⟩

/-- C95: the phase which is not unwrapped is the angle, in radians. -/
theorem complex_phase (unwrap : Option (Arr ℝ → Arr ℝ)) (f : Field K ℂ) : ∃ r a, f.phase unwrap false = .ok r ∧ f.angle = .ok a ∧
    r.matrix = a.matrix ∧ r.axes = f.axes ∧ r.ats = f.ats ∧ r.tao = f.tao ∧ r.name = "$\\varphi$(" ++ f.name ++ ")" ∧
    r.unit = "rad" := by
  refine ⟨⟨"$\\varphi$(" ++ f.name ++ ")", "rad", Arr.each Complex.arg f.matrix, f.axes, f.ats, f.tao⟩, _, ?_,
    replaceData_each _ f, rfl, rfl, rfl, rfl, rfl, rfl⟩
  unfold Field.phase
  simp only [Bool.false_eq_true, if_false, bind, Except.bind, replaceData_each]
  rfl

/-- C95: if the function for the unwrapping adds multiples of 2 π, the unwrapped phase describes the same field. Partial: needs
skimage, see `complex_phase_violated`. -/
theorem complex_unwrap_partial (unwrap : Arr ℝ → Arr ℝ) (hs : ∀ a, (unwrap a).shape = a.shape)
    (hu : ∀ a idx, ∃ k : ℤ, (unwrap a).at' idx = a.at' idx + k * (2 * Real.pi)) (f : Field K ℂ) :
    ∃ r, f.phase (some unwrap) true = .ok r ∧ r.shape = f.shape ∧ r.axes = f.axes ∧ r.unit = "rad" ∧
      ∀ idx, f.matrix.at' idx = ‖f.matrix.at' idx‖ * Complex.exp (r.matrix.at' idx * Complex.I) := by
  have h : f.replaceData (unwrap (Arr.each Complex.arg f.matrix)) =
      .ok ⟨f.name, f.unit, unwrap (Arr.each Complex.arg f.matrix), f.axes, f.ats, f.tao⟩ := by
    unfold Field.replaceData
    rw [if_neg]
    intro h
    exact h (hs _)
  refine ⟨{ (⟨f.name, f.unit, unwrap (Arr.each Complex.arg f.matrix), f.axes, f.ats, f.tao⟩ : Field K ℝ) with
    name := "$\\varphi$(" ++ f.name ++ ")", unit := "rad" }, ?_, hs _, rfl, rfl, ?_⟩
  · unfold Field.phase
    simp only [if_true, bind, Except.bind, h]
    rfl
  · intro idx
    obtain ⟨k, hk⟩ := hu (Arr.each Complex.arg f.matrix) idx
    show _ = _ * Complex.exp (((unwrap (Arr.each Complex.arg f.matrix)).at' idx : ℝ) * Complex.I)
    rw [hk]
    have : ((((Arr.each Complex.arg f.matrix).at' idx + k * (2 * Real.pi) : ℝ) : ℂ) * Complex.I) =
        (f.matrix.at' idx).arg * Complex.I + k * (2 * Real.pi * Complex.I) := by
      show (((f.matrix.at' idx).arg + k * (2 * Real.pi) : ℝ) : ℂ) * Complex.I = _
      push_cast
      ring
    rw [this, Complex.exp_periodic.int_mul k]
    exact (Complex.norm_mul_exp_arg_mul_I _).symm

/-- Without skimage the phase with its default argument is a TypeError for every field. -/
theorem complex_phase_violated (f : Field K ℂ) : f.phase none true = .error .typeError := rfl

/-- C95: the conjugate has the metadata of the field, the same real part and the opposite imaginary part. -/
theorem complex_conj (f : Field K ℂ) (hf : AxesDescribe f.shape (f.axes.map Axis.len) f.ats.length f.tao.length)
    (h3 : f.shape.length ≤ 3) : ∃ r, f.conj = .ok r ∧ SameMeta f r ∧
    ∀ idx, (r.matrix.at' idx).re = (f.matrix.at' idx).re ∧ (r.matrix.at' idx).im = -(f.matrix.at' idx).im := by
  refine ⟨⟨f.name, f.unit, ⟨f.shape, fun idx => starRingEnd ℂ (f.matrix.at' idx)⟩, f.axes, f.ats, f.tao⟩, ?_,
    ⟨rfl, rfl, rfl, rfl, rfl, rfl⟩, ?_⟩
  · unfold Field.conj ufuncCall1
    rw [mkResult_some]
    exact mkField_of_eq hf.lengths h3
  · intro idx
    exact ⟨Complex.conj_re _, Complex.conj_im _⟩

end

/-- A field with two complex values. -/
noncomputable def fieldI : Field ℚ ℂ :=
  ⟨"E", "V/m", ⟨[2], fun idx => if idx = [0] then 1 else -Complex.I⟩, [uniformAxis 0 2 2], [some false], [none]⟩

example := complex_conj fieldI ⟨by decide +kernel, rfl, rfl⟩ (by decide)

example : ∃ r, fieldI.angle = .ok r ∧ r.matrix.at' [0] = 0 ∧ r.matrix.at' [1] = -(Real.pi / 2) := by
  refine ⟨_, replaceData_each _ fieldI, ?_, ?_⟩
  · show Complex.arg (if [0] = [0] then 1 else -Complex.I) = 0
    rw [if_pos rfl, Complex.arg_one]
  · show Complex.arg (if [1] = [0] then 1 else -Complex.I) = _
    rw [if_neg (by decide), Complex.arg_neg_I]

example := complex_unwrap_partial (fun a => ⟨a.shape, fun idx => a.at' idx + (-1 : ℤ) * (2 * Real.pi)⟩) (fun _ => rfl)
  (fun _ _ => ⟨-1, rfl⟩) fieldI

/-! ## C96: evaluate -/

section
variable {K V : Type} [_root_.Field K] [LinearOrder K]

theorem visible_lookup (fr : Frame V) (name : String) :
    NeExpr.eval fr.fLocals fr.globals (.var name) = (match Visible fr name with
      | some a => .ok a
      | none => .error .keyError) := by
  unfold Visible Frame.fLocals NeExpr.eval
  cases hk : fr.kind with
  | top =>
    simp only [if_true]
    cases h : fr.globals.lookup name <;> rfl
  | function =>
    rw [if_neg (by simp)]
    cases h : fr.locals.lookup name with
    | some a => rfl
    | none => cases h' : fr.globals.lookup name <;> rfl
  | dictionary =>
    rw [if_neg (by simp)]
    cases h : fr.locals.lookup name with
    | some a => rfl
    | none => cases h' : fr.globals.lookup name <;> rfl

theorem broadcast_self (s : List ℕ) : Broadcast s s s :=
  ⟨by simp, fun _ => Or.inl ⟨rfl, Or.inl rfl⟩⟩

theorem bindex_nil (idx : List ℕ) : bindex [] idx = [] := by
  unfold bindex
  rfl

/-- Evaluation of an expression of arrays of one shape and numbers. -/
theorem eval_value (fr : Frame V) (shape : List ℕ) (e : NeExpr V)
    (hv : ∀ name ∈ namesIn e, ∃ a, Visible fr name = some a ∧ (a.shape = shape ∨ a.shape = [])) :
    ∃ a, e.eval fr.fLocals fr.globals = .ok a ∧ (a.shape = shape ∨ a.shape = []) ∧
      ((∃ name ∈ namesIn e, ∃ b, Visible fr name = some b ∧ b.shape = shape) → a.shape = shape) ∧
      ∀ idx, InBounds shape idx → valueOf (fun name => (Visible fr name).bind (valueAt shape idx)) e = valueAt shape idx a := by
  induction e with
  | num c =>
    refine ⟨⟨[], fun _ => c⟩, rfl, Or.inr rfl, ?_, ?_⟩
    · rintro ⟨name, h, -⟩
      cases h
    · intro idx _
      unfold valueAt valueOf
      split
      · rfl
      · rfl
  | var name =>
    obtain ⟨a, ha, hs⟩ := hv name (List.mem_singleton.2 rfl)
    refine ⟨a, by rw [visible_lookup, ha], hs, ?_, ?_⟩
    · rintro ⟨n, hn, b, hb, hbs⟩
      cases List.mem_singleton.1 hn
      rw [ha] at hb
      cases hb
      exact hbs
    · intro idx _
      show (Visible fr name).bind _ = _
      rw [ha]
      rfl
  | un g e ih =>
    obtain ⟨a, h1, h2, h3, h4⟩ := ih hv
    refine ⟨Arr.each g a, ?_, h2, h3, ?_⟩
    · unfold NeExpr.eval
      rw [h1]
      rfl
    · intro idx hidx
      show (valueOf _ e).map g = _
      rw [h4 idx hidx]
      unfold valueAt Arr.each
      simp only
      split
      · rfl
      · split <;> rfl
  | bin g e₁ e₂ ih₁ ih₂ =>
    obtain ⟨a, a1, a2, a3, a4⟩ := ih₁ fun n hn => hv n (List.mem_append_left _ hn)
    obtain ⟨b, b1, b2, b3, b4⟩ := ih₂ fun n hn => hv n (List.mem_append_right _ hn)
    obtain ⟨s, hs, hs2, hs3⟩ : ∃ s, Broadcast a.shape b.shape s ∧ (s = shape ∨ s = []) ∧
        (a.shape = shape ∨ b.shape = shape → s = shape) := by
      rcases a2 with h | h <;> rcases b2 with h' | h'
      · exact ⟨shape, by rw [h, h']; exact broadcast_self _, Or.inl rfl, fun _ => rfl⟩
      · exact ⟨shape, by rw [h, h']; exact broadcast_nil_right _, Or.inl rfl, fun _ => rfl⟩
      · exact ⟨shape, by rw [h, h']; exact broadcast_comm (broadcast_nil_right _), Or.inl rfl, fun _ => rfl⟩
      · refine ⟨[], by rw [h, h']; exact broadcast_self _, Or.inr rfl, ?_⟩
        rw [h, h']
        rintro (h | h) <;> exact h
    refine ⟨⟨s, fun idx => g (a.at' (bindex a.shape idx)) (b.at' (bindex b.shape idx))⟩, ?_, hs2, ?_, ?_⟩
    · unfold NeExpr.eval
      rw [a1, b1]
      exact binary_of hs
    · rintro ⟨n, hn, c, hc, hcs⟩
      rcases List.mem_append.1 hn with h | h
      · exact hs3 (Or.inl (a3 ⟨n, h, c, hc, hcs⟩))
      · exact hs3 (Or.inr (b3 ⟨n, h, c, hc, hcs⟩))
    · intro idx hidx
      have hval : ∀ c : Arr V, (c.shape = shape ∨ c.shape = []) → valueAt shape idx c = some (c.at' (bindex c.shape idx)) := by
        intro c hc
        unfold valueAt
        by_cases h : c.shape = shape
        · rw [if_pos h, h, bindex_self hidx]
        · rw [if_neg h]
          have h' := hc.resolve_left h
          rw [if_pos h', h', bindex_nil]
      have hv' : valueOf (fun name => (Visible fr name).bind (valueAt shape idx)) (.bin g e₁ e₂) =
          some (g (a.at' (bindex a.shape idx)) (b.at' (bindex b.shape idx))) := by
        show (match valueOf _ e₁, valueOf _ e₂ with
          | some x, some y => some (g x y)
          | _, _ => none) = _
        rw [a4 idx hidx, b4 idx hidx, hval a a2, hval b b2]
      rw [hv']
      unfold valueAt
      simp only
      by_cases h : s = shape
      · rw [if_pos h]
      · rw [if_neg h]
        have h0 := hs2.resolve_left h
        rw [if_pos h0]
        have ha0 : a.shape = [] := a2.resolve_left fun ha => h (hs3 (Or.inl ha))
        have hb0 : b.shape = [] := b2.resolve_left fun hb => h (hs3 (Or.inr hb))
        rw [ha0, hb0, bindex_nil, bindex_nil]

/-- C96: an expression of arrays on the grid of the field and of numbers is evaluated at every grid point, with the variables
which the caller sees; the metadata are those of the field. -/
theorem evaluate_entries (f : Field K V) (fr : Frame V) (e : NeExpr V)
    (hv : ∀ name ∈ namesIn e, ∃ a, Visible fr name = some a ∧ (a.shape = f.shape ∨ a.shape = []))
    (hone : ∃ name ∈ namesIn e, ∃ a, Visible fr name = some a ∧ a.shape = f.shape) :
    ∃ r, (f.evaluate e none none fr).1 = .ok r ∧ SameMeta f r ∧ ∀ idx, InBounds f.shape idx →
      valueOf (fun name => (Visible fr name).bind (valueAt f.shape idx)) e = some (r.matrix.at' idx) := by
  obtain ⟨a, h1, -, h3, h4⟩ := eval_value fr f.shape e hv
  have hs := h3 hone
  refine ⟨⟨f.name, f.unit, a, f.axes, f.ats, f.tao⟩, ?_, ⟨rfl, rfl, rfl, rfl, rfl, hs⟩, ?_⟩
  · unfold Field.evaluate
    simp only [Option.getD_none, bind, Except.bind, h1]
    unfold Field.replaceData
    rw [if_neg (fun h => h hs)]
  · intro idx hidx
    rw [h4 idx hidx]
    unfold valueAt
    rw [if_pos hs]

/-- C96: a result on another grid is a ValueError: an expression of numbers only, for example. -/
theorem evaluate_numbers (f : Field K V) (hf : f.shape ≠ []) (fr : Frame V) (e : NeExpr V)
    (hv : ∀ name ∈ namesIn e, ∃ a, Visible fr name = some a ∧ a.shape = []) :
    (f.evaluate e none none fr).1 = .error .valueError := by
  obtain ⟨a, h1, h2, -, -⟩ := eval_value fr [] e fun n hn => by
    obtain ⟨a, h, h'⟩ := hv n hn
    exact ⟨a, h, Or.inl h'⟩
  have hs : a.shape = [] := by simpa using h2
  unfold Field.evaluate
  simp only [Option.getD_none, bind, Except.bind, h1]
  unfold Field.replaceData
  rw [if_pos]
  rw [hs]
  exact hf.symm

/-- C96: a name which the caller does not see is a KeyError. -/
theorem evaluate_unknown (f : Field K V) (fr : Frame V) (name : String) (h : Visible fr name = none) :
    (f.evaluate (.var name) none none fr).1 = .error .keyError := by
  unfold Field.evaluate
  simp only [Option.getD_none]
  rw [visible_lookup, h]
  rfl

/-- C96: the variables of the caller stay as they are, also after an error. Partial: if the method is called in a function or at the top
of a module, or with the variables in a dictionary; see `evaluate_class_violated`. -/
theorem evaluate_caller_partial (f : Field K V) (fr : Frame V) (e : NeExpr V) (ld gd : Option (List (String × Arr V)))
    (h : fr.kind ≠ .dictionary ∨ ld.isSome) : (f.evaluate e ld gd fr).2 = fr := by
  unfold Field.evaluate
  simp only
  rw [if_neg]
  simp only [Bool.and_eq_true, decide_eq_true_eq, not_and]
  intro h1 h2
  rcases h with h | h
  · exact h h2
  · cases ld
    · cases h
    · simp at h1

/-- C96: variables given as a dictionary are used in place of those of the caller. -/
theorem evaluate_given (f : Field K V) (fr : Frame V) (e : NeExpr V) (ld gd : List (String × Arr V)) :
    (f.evaluate e (some ld) (some gd) fr).1 = (f.evaluate e none none ⟨.function, ld, gd⟩).1 := rfl

/-- C96 (variables of the caller) fails in the body of a class, and in code run by `exec` with a dictionary of its own: all variables
of the caller are deleted, also if the evaluation fails. -/
theorem evaluate_class_violated (f : Field K V) (fr : Frame V) (e : NeExpr V) (gd : Option (List (String × Arr V)))
    (h : fr.kind = .dictionary) : (f.evaluate e none gd fr).2.locals = [] := by
  unfold Field.evaluate
  simp [h]

end

/-- A caller with an array, and a number which hides a global one. -/
def frameAB : Frame ℚ :=
  ⟨.function, [("a", ⟨[4, 3], fun idx => (idx.getD 0 0 : ℚ)⟩), ("b", ⟨[], fun _ => 2⟩)], [("b", ⟨[], fun _ => 7⟩)]⟩

example := evaluate_entries field43 frameAB (.bin (· * ·) (.un (· + 1) (.var "a")) (.var "b"))
  (by
    intro n hn
    rcases List.mem_cons.1 hn with rfl | hn
    · exact ⟨_, rfl, Or.inl rfl⟩
    · cases List.mem_singleton.1 hn
      exact ⟨_, rfl, Or.inr rfl⟩)
  ⟨"a", List.mem_cons_self, _, rfl, rfl⟩

example : ((field43.evaluate (.bin (· * ·) (.un (· + 1) (.var "a")) (.var "b")) none none frameAB).1.map values) =
    .ok [2, 2, 2, 4, 4, 4, 6, 6, 6, 8, 8, 8] := by
  decide +kernel

example := evaluate_numbers field43 (by decide) frameAB (.bin (· * ·) (.num 3) (.var "b")) (by
  intro n hn
  cases List.mem_singleton.1 hn
  exact ⟨_, rfl, rfl⟩)

end Postpic.Props
