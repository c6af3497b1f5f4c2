import Verif.Lemmas.Plotter
import Verif.Props.Autocut
import Verif.Props.Fft
import Verif.Props.FieldResolution

/-!
# Figures
-/

set_option autoImplicit false

namespace Postpic.Props

open Postpic Postpic.Axes Postpic.Fields Postpic.Spec Postpic.Plot

/-! ## C78: the files of the figures -/

/-- The names which were used up to now begin in the same way and have smaller numbers. -/
def Numbered (p : Plotter) (reader : List Char) : Prop :=
  ∀ x ∈ p.used, ∃ k < p.used.length, ∃ rest, x = p.start reader ++ (decimal k ++ '_' :: rest)

theorem saveAll_numbered (reader : List Char) (fuel : ℕ) (calls : List SaveCall) (hc : ∀ c ∈ calls, c.reader = reader) (p : Plotter)
    (hp : Numbered p reader) :
    ∃ files q, p.saveAll fuel calls = some (.ok (files, q)) ∧ files.length = calls.length ∧ files.Nodup ∧
      ∀ x ∈ files, ∃ k, p.used.length ≤ k ∧ ∃ rest, x = p.start reader ++ (decimal k ++ '_' :: rest) := by
  induction calls generalizing p with
  | nil => exact ⟨[], p, rfl, rfl, List.nodup_nil, fun x hx => by simp at hx⟩
  | cons c cs ih =>
    have hr : c.reader = reader := hc c (by simp)
    have hb := baseName_eq p c
    rw [hr] at hb
    have hfree : p.baseName c ∉ p.used := by
      intro h
      obtain ⟨k, hk, rest, h1⟩ := hp _ h
      rw [hb] at h1
      have := decimal_split (List.append_cancel_left h1)
      omega
    set q : Plotter := { p with used := p.used ++ [p.baseName c] } with hq
    have hs : p.savename fuel c = some (.ok (p.baseName c ++ '.' :: (if c.ext = [] then p.ext else c.ext), q)) := by
      unfold Plotter.savename
      rw [freeName_free hfree]
      rfl
    have hql : q.used.length = p.used.length + 1 := by simp [hq]
    obtain ⟨files, q', h1, h2, h3, h4⟩ := ih (fun c hc' => hc c (by simp [hc'])) q (by
      intro x hx
      rw [hql]
      simp only [hq, List.mem_append, List.mem_cons, List.not_mem_nil, or_false] at hx
      rcases hx with hx | rfl
      · obtain ⟨k, hk, rest, h⟩ := hp x hx
        exact ⟨k, by omega, rest, h⟩
      · exact ⟨p.used.length, by omega, _, hb⟩)
    refine ⟨(p.baseName c ++ '.' :: (if c.ext = [] then p.ext else c.ext)) :: files, q', ?_, by simp [h2], ?_, ?_⟩
    · simp only [Plotter.saveAll, hs, h1]
    · rw [List.nodup_cons]
      refine ⟨?_, h3⟩
      intro hx
      obtain ⟨k, hk, rest, h⟩ := h4 _ hx
      rw [hb] at h
      have h' : p.start reader ++ (decimal p.used.length ++ '_' :: (cleanName c.key ++ '.' :: (if c.ext = [] then p.ext else c.ext))) =
          p.start reader ++ (decimal k ++ '_' :: rest) := by
        rw [← show q.start reader = p.start reader from rfl, ← h]
        simp [Plotter.start, hq]
      have := decimal_split (List.append_cancel_left h')
      omega
    · intro x hx
      rcases List.mem_cons.1 hx with rfl | hx
      · refine ⟨p.used.length, le_refl _, cleanName c.key ++ '.' :: (if c.ext = [] then p.ext else c.ext), ?_⟩
        rw [hb]
        simp
      · obtain ⟨k, hk, rest, h⟩ := h4 x hx
        exact ⟨k, by omega, rest, h⟩

/-- C78: a new plotter whose reader keeps its name never uses the name of a file twice, whatever keys and extensions are asked for: no figure
replaces another one. -/
theorem figures_distinct (ext outdir project reader : List Char) (calls : List SaveCall) (hc : ∀ c ∈ calls, c.reader = reader) (fuel : ℕ) :
    ∃ files q, Plotter.saveAll fuel ⟨ext, outdir, project, []⟩ calls = some (.ok (files, q)) ∧ files.length = calls.length ∧ files.Nodup := by
  obtain ⟨files, q, h1, h2, h3, _⟩ := saveAll_numbered reader fuel calls hc ⟨ext, outdir, project, []⟩ (by intro x hx; simp at hx)
  exact ⟨files, q, h1, h2, h3⟩

/-- The same key three times. -/
example := figures_distinct "png".toList "out/".toList [] "dump".toList
  [⟨"dump".toList, "Ex".toList, []⟩, ⟨"dump".toList, "Ex".toList, "pdf".toList⟩, ⟨"dump".toList, "Ex".toList, []⟩] (by decide) 0

example : (Plotter.saveAll 0 ⟨"png".toList, "out/".toList, [], []⟩
    [⟨"dump".toList, "E x/y".toList, []⟩, ⟨"dump".toList, "E x/y".toList, "pdf".toList⟩]).map (·.map Prod.fst) =
    some (.ok ["out/_dump_0_Ex_y.png".toList, "out/_dump_1_Ex_y.pdf".toList]) := by decide +kernel

/-- C78: also if the name of the reader changes in between (e.g. the plotter is used for many dumps) the names of the files are different,
and the search for a free name ends. Partial: all files have the extension of the plotter (see `figures_extension_violated`), and no name
contains a percent sign (see `figures_percent_violated`). -/
theorem figures_distinct_partial (ext : List Char) (calls : List SaveCall) (p : Plotter) (hext : p.ext = ext)
    (hp : '%' ∉ p.outdir ∧ '%' ∉ p.project) (hc : ∀ c ∈ calls, c.ext = [] ∧ '%' ∉ c.reader ∧ '%' ∉ c.key) (fuel : ℕ)
    (hf : p.used.length + calls.length ≤ fuel) :
    ∃ files q, p.saveAll fuel calls = some (.ok (files, q)) ∧ files.length = calls.length ∧ files.Nodup ∧
      ∀ x ∈ files, ∃ name, x = name ++ '.' :: ext ∧ name ∉ p.used := by
  induction calls generalizing p with
  | nil => exact ⟨[], p, rfl, rfl, List.nodup_nil, fun x hx => by simp at hx⟩
  | cons c cs ih =>
    obtain ⟨hc1, hc2, hc3⟩ := hc c (by simp)
    have hbase : '%' ∉ p.baseName c := by
      rw [baseName_eq]
      simp only [Plotter.start, List.mem_append, List.mem_cons, List.not_mem_nil, or_false, not_or]
      refine ⟨⟨hp.1, cleanName_percent hp.2, by decide, cleanName_percent hc2, by decide⟩, ?_, by decide, cleanName_percent hc3⟩
      intro h
      exact absurd (decimal_digit h) (by decide)
    simp only [List.length_cons] at hf
    obtain ⟨name, n1, n2⟩ := freeName_ok p.used _ hbase fuel (by omega)
    set q : Plotter := { p with used := p.used ++ [name] } with hq
    have hs : p.savename fuel c = some (.ok (name ++ '.' :: ext, q)) := by
      unfold Plotter.savename
      rw [n1, hc1, ← hext]
      rfl
    obtain ⟨files, q', h1, h2, h3, h4⟩ := ih q hext hp (fun c hc' => hc c (by simp [hc'])) (by simp [hq]; omega)
    refine ⟨(name ++ '.' :: ext) :: files, q', ?_, by simp [h2], ?_, ?_⟩
    · simp only [Plotter.saveAll, hs, h1]
    · rw [List.nodup_cons]
      refine ⟨?_, h3⟩
      intro hx
      obtain ⟨name', h5, h6⟩ := h4 _ hx
      have : name = name' := List.append_cancel_right h5
      apply h6
      simp [hq, this]
    · intro x hx
      rcases List.mem_cons.1 hx with rfl | hx
      · exact ⟨name, rfl, n2⟩
      · obtain ⟨name', h5, h6⟩ := h4 x hx
        refine ⟨name', h5, fun h => h6 ?_⟩
        simp [hq, h]

/-- The name of the reader changes such that the second name would be the first one: it gets a number. -/
example : (Plotter.saveAll 2 ⟨"png".toList, [], [], []⟩
    [⟨"a_1".toList, "Ex".toList, []⟩, ⟨"a".toList, "0_Ex".toList, []⟩]).map (·.map Prod.fst) =
    some (.ok ["_a_1_0_Ex.png".toList, "_a_1_0_Ex_1.png".toList]) := by decide +kernel

example := figures_distinct_partial "png".toList [⟨"a_1".toList, "Ex".toList, []⟩, ⟨"a".toList, "0_Ex".toList, []⟩]
  ⟨"png".toList, [], [], []⟩ rfl (by decide) (by decide) 2 (by decide)

/-- C78 violated: with a percent sign in the key the same situation raises an error and the figure is not saved. -/
theorem figures_percent_violated : Plotter.saveAll 9 ⟨"png".toList, [], [], []⟩
    [⟨"a_1".toList, "50%".toList, []⟩, ⟨"a".toList, "0_50%".toList, []⟩] = some (.error .valueError) := by decide +kernel

/-- C78 violated: only the names without the extension are compared. Different names with different extensions can be the same file, which is
written twice. -/
theorem figures_extension_violated : (Plotter.saveAll 9 ⟨"png".toList, [], [], []⟩
    [⟨"a_1".toList, "Ex".toList, "a.b".toList⟩, ⟨"a".toList, "0_Ex.a".toList, "b".toList⟩]).map (·.map Prod.fst) =
    some (.ok ["_a_1_0_Ex.a.b".toList, "_a_1_0_Ex.a.b".toList]) := by decide +kernel

/-- C78: a figure lies in the directory `outdir` if this ends with `/`: the rest of the name contains no further `/` and no space, whatever the
key, the project and the name of the reader are. Partial: without the `/` at the end see `figures_outdir_violated`. -/
theorem figures_outdir_partial (p q : Plotter) (dir : List Char) (hd : p.outdir = dir ++ ['/']) (c : SaveCall) (fuel : ℕ) (file : List Char)
    (he : ∀ x ∈ (if c.ext = [] then p.ext else c.ext), x ≠ '/' ∧ x ≠ ' ') (h : p.savename fuel c = some (.ok (file, q))) :
    ∃ base, file = dir ++ '/' :: base ∧ '/' ∉ base ∧ ' ' ∉ base := by
  have hclean : ∀ l : List Char, '/' ∉ cleanName l ∧ ' ' ∉ cleanName l := by
    intro l
    constructor
    · intro h
      simp only [cleanName, List.mem_filter, List.mem_map] at h
      obtain ⟨⟨x, _, h2⟩, _⟩ := h
      split_ifs at h2 with h3
      · exact absurd h2 (by decide)
      · exact h3 h2
    · intro h
      simp [cleanName] at h
  have hdec : ∀ n, '/' ∉ decimal n ∧ ' ' ∉ decimal n := fun n =>
    ⟨fun h => absurd (decimal_digit h) (by decide), fun h => absurd (decimal_digit h) (by decide)⟩
  obtain ⟨base0, hb0, hb1, hb2⟩ : ∃ b, p.baseName c = dir ++ '/' :: b ∧ '/' ∉ b ∧ ' ' ∉ b := by
    refine ⟨cleanName (p.project ++ '_' :: c.reader ++ '_' :: decimal p.used.length ++ '_' :: c.key), ?_, hclean _⟩
    simp [Plotter.baseName, hd]
  have hname : ∀ fuel i name r, (∃ b, name = dir ++ '/' :: b ∧ '/' ∉ b ∧ ' ' ∉ b) →
      freeName p.used (p.baseName c) fuel i name = some (.ok r) → ∃ b, r = dir ++ '/' :: b ∧ '/' ∉ b ∧ ' ' ∉ b := by
    intro fuel
    induction fuel with
    | zero =>
      intro i name r hn hr
      unfold freeName at hr
      split_ifs at hr with h1
      simp only [Option.some.injEq, Except.ok.injEq] at hr
      exact hr ▸ hn
    | succ fuel ih =>
      intro i name r hn hr
      unfold freeName at hr
      split_ifs at hr with h1
      · unfold numberedName at hr
        split_ifs at hr with h2
        · cases hr
        · refine ih _ _ r ?_ hr
          refine ⟨base0 ++ '_' :: decimal (i + 1), ?_, ?_, ?_⟩
          · rw [hb0]; simp
          · simp only [List.mem_append, List.mem_cons, not_or]
            exact ⟨hb1, by decide, (hdec _).1⟩
          · simp only [List.mem_append, List.mem_cons, not_or]
            exact ⟨hb2, by decide, (hdec _).2⟩
      · simp only [Option.some.injEq, Except.ok.injEq] at hr
        exact hr ▸ hn
  unfold Plotter.savename at h
  cases hfree : freeName p.used (p.baseName c) fuel 0 (p.baseName c) with
  | none => rw [hfree] at h; cases h
  | some r =>
    cases r with
    | error e => rw [hfree] at h; cases h
    | ok name =>
      obtain ⟨b, h1, h2, h3⟩ := hname fuel 0 _ name ⟨base0, hb0, hb1, hb2⟩ hfree
      rw [hfree] at h
      simp only [Option.map_some, bind, Except.bind, pure, Except.pure, Option.some.injEq, Except.ok.injEq, Prod.mk.injEq] at h
      refine ⟨b ++ '.' :: (if c.ext = [] then p.ext else c.ext), ?_, ?_, ?_⟩
      · rw [← h.1, h1]; simp
      · simp only [List.mem_append, List.mem_cons, not_or]
        exact ⟨h2, by decide, fun h => (he _ h).1 rfl⟩
      · simp only [List.mem_append, List.mem_cons, not_or]
        exact ⟨h3, by decide, fun h => (he _ h).2 rfl⟩

example := figures_outdir_partial ⟨"png".toList, "out/".toList, [], []⟩
  ⟨"png".toList, "out/".toList, [], ["out/_run_0001.sdf_0_Ex".toList]⟩ "out".toList rfl ⟨"run/0001.sdf".toList, "E x".toList, []⟩ 0
  "out/_run_0001.sdf_0_Ex.png".toList (by decide) (by decide +kernel)

/-- C78 violated: `outdir='out'` does not mean the directory `out`, the name of the file begins with these letters. -/
theorem figures_outdir_violated : (Plotter.savename ⟨"png".toList, "out".toList, [], []⟩ 0 ⟨"dump".toList, "Ex".toList, []⟩).map
    (·.map Prod.fst) = some (.ok "out_dump_0_Ex.png".toList) := by decide +kernel

/-- C78: after a figure was saved, `lastsavename()` is the name of its file without the dot and the extension, and no name is used up.
Missing: the extension, see `lastsavename_violated`. -/
theorem lastsavename_partial (p q : Plotter) (c : SaveCall) (fuel fuel' : ℕ) (file reader : List Char)
    (h : p.savename fuel c = some (.ok (file, q))) :
    ∃ name, q.lastsavename fuel' reader = some (.ok (name, q)) ∧ file = name ++ '.' :: (if c.ext = [] then p.ext else c.ext) := by
  unfold Plotter.savename at h
  cases hfree : freeName p.used (p.baseName c) fuel 0 (p.baseName c) with
  | none => rw [hfree] at h; cases h
  | some r =>
    cases r with
    | error e => rw [hfree] at h; cases h
    | ok name =>
      rw [hfree] at h
      simp only [Option.map_some, bind, Except.bind, pure, Except.pure, Option.some.injEq, Except.ok.injEq, Prod.mk.injEq] at h
      obtain ⟨h1, h2⟩ := h
      refine ⟨name, ?_, h1.symm⟩
      subst h2
      simp [Plotter.lastsavename]

/-- The second of two figures. -/
example := lastsavename_partial ⟨"png".toList, [], [], ["_dump_0_Ey".toList]⟩
  ⟨"png".toList, [], [], ["_dump_0_Ey".toList, "_dump_1_Ex".toList]⟩ ⟨"dump".toList, "Ex".toList, []⟩ 0 7 "_dump_1_Ex.png".toList []
  (by decide +kernel)

/-- C78 violated: `lastsavename()` is not the name of the last file but lacks the extension. -/
theorem lastsavename_violated : ∃ file p, Plotter.savename ⟨"png".toList, [], [], []⟩ 0 ⟨"dump".toList, "Ex".toList, []⟩ = some (.ok (file, p)) ∧
    (p.lastsavename 0 "dump".toList).map (·.map Prod.fst) = some (.ok "_dump_0_Ex".toList) ∧ file = "_dump_0_Ex.png".toList :=
  ⟨_, _, rfl, by decide +kernel, by decide +kernel⟩

/-! ## C79: what figures show -/

noncomputable section

theorem log10_eq {v : ℝ} (hv : 0 ≤ v) : log10 v = colourValue true v := by
  unfold log10 colourValue
  by_cases h : v = 0
  · simp [h]
  · rw [if_pos (lt_of_le_of_ne hv (Ne.symm h)), if_pos rfl, if_neg h]
    rfl

theorem mem_entries2 {g : Field ℝ ℝ} {m n : ℕ} {v : ℝ} : v ∈ entries2 g m n ↔ ∃ i < m, ∃ j < n, v = g.matrix.at' [i, j] := by
  simp only [entries2, List.mem_flatMap, List.mem_map, List.mem_range]
  constructor
  · rintro ⟨i, hi, j, hj, rfl⟩
    exact ⟨i, hi, j, hj, rfl⟩
  · rintro ⟨i, hi, j, hj, rfl⟩
    exact ⟨i, hi, j, hj, rfl⟩

theorem useLog_iff (b : Bool) (l : List ℝ) : useLog b l = true ↔ b = true ∧ (∀ v ∈ l, 0 ≤ v) ∧ ∃ v ∈ l, 0 < v := by
  simp [useLog, and_assoc]

theorem foldl_min_bound (l : List ℝ) (a : ℝ) : (l.foldl min a ≤ a ∧ ∀ v ∈ l, l.foldl min a ≤ v) ∧ (l.foldl min a = a ∨ l.foldl min a ∈ l) := by
  induction l generalizing a with
  | nil => simp
  | cons b l ih =>
    obtain ⟨⟨h1, h2⟩, h3⟩ := ih (min a b)
    simp only [List.foldl_cons]
    refine ⟨⟨h1.trans (min_le_left _ _), ?_⟩, ?_⟩
    · intro v hv
      rcases List.mem_cons.1 hv with rfl | hv
      · exact h1.trans (min_le_right _ _)
      · exact h2 v hv
    · rcases h3 with h3 | h3
      · rcases min_choice a b with h | h
        · left; rw [h3, h]
        · right; rw [h3, h]; simp
      · right; simp [h3]

theorem foldl_max_bound (l : List ℝ) (a : ℝ) : (a ≤ l.foldl max a ∧ ∀ v ∈ l, v ≤ l.foldl max a) ∧ (l.foldl max a = a ∨ l.foldl max a ∈ l) := by
  induction l generalizing a with
  | nil => simp
  | cons b l ih =>
    obtain ⟨⟨h1, h2⟩, h3⟩ := ih (max a b)
    simp only [List.foldl_cons]
    refine ⟨⟨(le_max_left _ _).trans h1, ?_⟩, ?_⟩
    · intro v hv
      rcases List.mem_cons.1 hv with rfl | hv
      · exact (le_max_right _ _).trans h1
      · exact h2 v hv
    · rcases h3 with h3 | h3
      · rcases max_choice a b with h | h
        · left; rw [h3, h]
        · right; rw [h3, h]; simp
      · right; simp [h3]

theorem symmetric_spec (l : List ℝ) (hl : l ≠ []) : ∃ M, symmetricLimits l = (-M, M) ∧ (∀ v ∈ l, |v| ≤ M) ∧ ∃ v ∈ l, |v| = M := by
  obtain ⟨a, l, rfl⟩ := List.exists_cons_of_ne_nil hl
  obtain ⟨⟨_, a2⟩, a3⟩ := foldl_min_bound (a :: l) a
  obtain ⟨⟨_, b2⟩, b3⟩ := foldl_max_bound (a :: l) a
  refine ⟨_, rfl, ?_, ?_⟩
  · intro v hv
    exact abs_le_max_abs_abs (a2 v hv) (b2 v hv)
  · have a4 : (a :: l).foldl min a ∈ a :: l := by rcases a3 with h | h <;> simp [h] at *; simp [h]
    have b4 : (a :: l).foldl max a ∈ a :: l := by rcases b3 with h | h <;> simp [h] at *; simp [h]
    rcases max_choice |(a :: l).foldl min a| |(a :: l).foldl max a| with h | h
    · exact ⟨_, a4, h.symm⟩
    · exact ⟨_, b4, h.symm⟩

theorem inb1 {m i : ℕ} (hi : i < m) : InBounds [m] [i] := by
  refine ⟨rfl, ?_⟩
  intro d k n h1 h2
  rcases d with _ | d
  · simp at h1 h2
    omega
  · simp at h1

theorem inb2 {m n i j : ℕ} (hi : i < m) (hj : j < n) : InBounds [m, n] [i, j] := by
  refine ⟨rfl, ?_⟩
  intro d k n h1 h2
  rcases d with _ | _ | d
  · simp at h1 h2
    omega
  · simp at h1 h2
    omega
  · simp at h1

theorem labelOf_eq (name unit : String) : labelOf name unit = nameWithUnit name unit := by
  unfold labelOf nameWithUnit
  by_cases h : unit = ""
  · simp [h]
  · have : unit.isEmpty = false := by simpa using h
    simp [h, this]

/-- C79: a picture shows the data: each cell of the field, which reaches from one node to the next one on both axes, has the colour of the value
of this cell. The scale is logarithmic if this is asked for, all data are non-negative and some are positive; on a linear scale zero is in the
middle of the limits of the colours and these are reached. Partial: either the cells are exactly evenly spaced, or the field does not count as
evenly spaced; see `picture_two_cells_violated` and `picture_uneven_violated`. -/
theorem picture_shows_partial (spl : Splines ℝ) (f : Field ℝ ℝ) (hf : f.Sound) (h3 : f.shape.length ≤ 3) (a b : Axis ℝ)
    (hab : f.axes.filter (fun ax => decide (ax.len ≠ 1)) = [a, b])
    (heven : ((∃ e0 h, EvenAxis a e0 h) ∧ ∃ e0 h, EvenAxis b e0 h) ∨ a.isLinear = false ∨ b.isLinear = false)
    (log10plot : Bool) (clim : Option (ℝ × ℝ)) :
    ∃ fig, addField2d spl f log10plot clim = .ok fig ∧
      PictureOf fig (fun i j => f.matrix.at' (unsqueeze f.shape [i, j])) a.len b.len a.gridNode b.gridNode (nameWithUnit a.name a.unit)
        (nameWithUnit b.name b.unit) (nameWithUnit f.name f.unit) log10plot clim := by
  obtain ⟨g, g1, gs, gn, gu, gsh, gax, gv⟩ := squeeze_partial spl f hf h3
  have hlen : ∀ ax ∈ f.axes, ax.gridNode.length = ax.len + 1 := fun ax hax => (hf.valid ax hax).wf.1
  have hshape : f.shape.filter (fun n => decide (n ≠ 1)) = [a.len, b.len] := by
    rw [← hf.ok.1, List.filter_map]
    change List.map Axis.len (f.axes.filter fun ax => decide (ax.len ≠ 1)) = _
    rw [hab]
    rfl
  rw [hshape] at gsh
  rw [hab] at gax
  obtain ⟨ga, gb, hgab⟩ : ∃ ga gb, g.axes = [ga, gb] := by
    have hl := congrArg List.length gax
    simp only [List.length_map, List.length_cons, List.length_nil] at hl
    match g.axes, hl with
    | [x, y], _ => exact ⟨x, y, rfl⟩
  rw [hgab] at gax
  simp only [List.map_cons, List.map_nil, List.cons.injEq, Prod.mk.injEq, and_true] at gax
  obtain ⟨⟨an, au, ag, ano⟩, bn, bu, bg, bno⟩ := gax
  have hmem : ∀ ax ∈ [a, b], ax ∈ f.axes := by
    intro ax hax
    rw [← hab] at hax
    exact (List.mem_filter.1 hax).1
  have hpos : 0 < a.len ∧ 0 < b.len := by
    have h0 := gs.nonempty
    rw [gsh] at h0
    simp only [List.mem_cons, List.not_mem_nil, or_false, not_or] at h0
    omega
  have hla : ga.isLinear = a.isLinear := by unfold Axis.isLinear Axis.len; rw [ag, ano]
  have hlb : gb.isLinear = b.isLinear := by unfold Axis.isLinear Axis.len; rw [bg, bno]
  have hval : ∀ i < a.len, ∀ j < b.len, g.matrix.at' [i, j] = f.matrix.at' (unsqueeze f.shape [i, j]) := by
    intro i hi j hj
    apply gv
    rw [gsh]
    exact inb2 hi hj
  have hent : ∀ v, v ∈ entries2 g a.len b.len ↔ ∃ i < a.len, ∃ j < b.len, v = f.matrix.at' (unsqueeze f.shape [i, j]) := by
    intro v
    rw [mem_entries2]
    constructor
    · rintro ⟨i, hi, j, hj, rfl⟩
      exact ⟨i, hi, j, hj, hval i hi j hj⟩
    · rintro ⟨i, hi, j, hj, rfl⟩
      exact ⟨i, hi, j, hj, (hval i hi j hj).symm⟩
  set l := entries2 g a.len b.len with hl
  set lg := useLog log10plot l with hlg
  set values : ℕ → ℕ → Option ℝ := fun row col =>
    if lg then log10 (g.matrix.at' [col, row]) else some (g.matrix.at' [col, row]) with hvalues
  have hvals : ∀ i < a.len, ∀ j < b.len, values j i = colourValue lg (f.matrix.at' (unsqueeze f.shape [i, j])) := by
    intro i hi j hj
    rw [hvalues]
    simp only [hval i hi j hj]
    cases h : lg with
    | false => rfl
    | true =>
      simp only [if_true]
      apply log10_eq
      have h5 := ((useLog_iff log10plot l).1 h).2.1
      exact h5 _ ((hent _).2 ⟨i, hi, j, hj, rfl⟩)
  have hfig : addField2d spl f log10plot clim = .ok (.picture
      (if ga.isLinear && gb.isLinear then .image b.len a.len values ga.extent.1 ga.extent.2 gb.extent.1 gb.extent.2
        else .mesh ga.gridNode gb.gridNode values) lg
      (match clim with
        | some c => some c
        | none => if lg then none else some (symmetricLimits l)) (labelOf a.name a.unit) (labelOf b.name b.unit)
      (labelOf f.name f.unit)) := by
    unfold addField2d
    rw [g1]
    simp only [bind, Except.bind, gsh, hgab]
    rw [an, au, bn, bu, gn, gu]
    rfl
  simp only [labelOf_eq] at hfig
  refine ⟨_, hfig, _, lg, _, rfl, ?_, ?_, ?_, ?_, ?_⟩
  · rw [hlg, useLog_iff]
    refine and_congr_right fun _ => and_congr ?_ ?_
    · constructor
      · intro h i hi j hj
        exact h _ ((hent _).2 ⟨i, hi, j, hj, rfl⟩)
      · intro h v hv
        obtain ⟨i, hi, j, hj, rfl⟩ := (hent v).1 hv
        exact h i hi j hj
    · constructor
      · rintro ⟨v, hv, h⟩
        obtain ⟨i, hi, j, hj, rfl⟩ := (hent v).1 hv
        exact ⟨i, hi, j, hj, h⟩
      · rintro ⟨i, hi, j, hj, h⟩
        exact ⟨_, (hent _).2 ⟨i, hi, j, hj, rfl⟩, h⟩
  · intro i j x0 x1 y0 y1 hx0 hx1 hy0 hy1
    have hi : i < a.len := by
      have := (List.getElem?_eq_some_iff.1 hx1).1
      rw [hlen a (hmem a (by simp))] at this
      omega
    have hj : j < b.len := by
      have := (List.getElem?_eq_some_iff.1 hy1).1
      rw [hlen b (hmem b (by simp))] at this
      omega
    by_cases hlin : a.isLinear = true ∧ b.isLinear = true
    · rw [if_pos (by rw [hla, hlb, hlin.1, hlin.2]; rfl)]
      have hE : (∃ e0 h, EvenAxis a e0 h) ∧ ∃ e0 h, EvenAxis b e0 h := by
        rcases heven with h | h | h
        · exact h
        · rw [hlin.1] at h; cases h
        · rw [hlin.2] at h; cases h
      have ext : ∀ (ax gx : Axis ℝ) (e0 h : ℝ), EvenAxis ax e0 h → gx ∈ g.axes → gx.gridNode = ax.gridNode →
          gx.extent = (e0, e0 + (ax.len : ℝ) * h) := by
        intro ax gx e0 h he hgx hno
        have hv := gs.valid gx hgx
        have h1 := hv.first
        have h2 := hv.last
        rw [hno, (even_iff.1 he).1] at h1 h2
        rw [ap_head] at h1
        rw [ap_last] at h2
        exact Prod.ext (Option.some.inj h1).symm (Option.some.inj h2).symm
      obtain ⟨⟨ea, ha, hea⟩, eb, hb, heb⟩ := hE
      have e1 := ext a ga ea ha hea (by rw [hgab]; simp) ano
      have e2 := ext b gb eb hb heb (by rw [hgab]; simp) bno
      have node : ∀ (ax : Axis ℝ) (e0 h : ℝ), EvenAxis ax e0 h → ∀ (k : ℕ) x, ax.gridNode[k]? = some x → x = e0 + k * h := by
        intro ax e0 h he k x hx
        rw [he.nodes, List.getElem?_map] at hx
        obtain ⟨hk, _⟩ := List.getElem?_eq_some_iff.1 (show ((List.range (ax.grid.length + 1)).map
          fun (i : ℕ) => e0 + (i : ℝ) * h)[k]? = some x by rw [List.getElem?_map]; exact hx)
        simp only [List.length_map, List.length_range] at hk
        rw [List.getElem?_range hk] at hx
        simpa using hx.symm
      have hane : (a.len : ℝ) ≠ 0 := by exact_mod_cast hpos.1.ne'
      have hbne : (b.len : ℝ) ≠ 0 := by exact_mod_cast hpos.2.ne'
      refine ⟨j, hj, i, hi, hvals i hi j hj, ?_, ?_, ?_, ?_⟩
      · rw [node a ea ha hea i x0 hx0, e1]
        simp only
        field_simp
        ring
      · rw [node a ea ha hea (i + 1) x1 hx1, e1]
        push_cast
        field_simp
        ring
      · rw [node b eb hb heb j y0 hy0, e2]
        simp only
        field_simp
        ring
      · rw [node b eb hb heb (j + 1) y1 hy1, e2]
        push_cast
        field_simp
        ring
    · rw [if_neg (by rw [hla, hlb]; simpa using hlin), ano, bno]
      exact ⟨j, i, hvals i hi j hj, hx0, hx1, hy0, hy1⟩
  · rintro c rfl
    rfl
  · rintro rfl h
    simp only [h, if_true]
  · rintro rfl h
    have hne : l ≠ [] := by
      intro h0
      have : g.matrix.at' [0, 0] ∈ l := mem_entries2.2 ⟨0, hpos.1, 0, hpos.2, rfl⟩
      rw [h0] at this
      simp at this
    obtain ⟨M, m1, m2, v, m3, m4⟩ := symmetric_spec l hne
    refine ⟨M, by simp [h, m1], ?_, ?_⟩
    · intro i hi j hj
      exact m2 _ ((hent _).2 ⟨i, hi, j, hj, rfl⟩)
    · obtain ⟨i, hi, j, hj, rfl⟩ := (hent v).1 m3
      exact ⟨i, hi, j, hj, m4⟩

/-! ### Lines, limits of the number of points, lineouts, infos -/

/-- C79: a line connects the points given by the positions and the values, on a logarithmic scale if all values are non-negative and some are
positive. -/
theorem line_shows (spl : Splines ℝ) (f : Field ℝ ℝ) (hf : f.Sound) (h3 : f.shape.length ≤ 3) (a : Axis ℝ)
    (ha : f.axes.filter (fun ax => decide (ax.len ≠ 1)) = [a]) (log10plot : Bool) :
    ∃ fig, addField1d spl f log10plot = .ok fig ∧ LineOf fig (fun i => f.matrix.at' (unsqueeze f.shape [i])) a.len a.grid
      (nameWithUnit a.name a.unit) (nameWithUnit f.name f.unit) log10plot := by
  obtain ⟨g, g1, gs, gn, gu, gsh, gax, gv⟩ := squeeze_partial spl f hf h3
  have hshape : f.shape.filter (fun n => decide (n ≠ 1)) = [a.len] := by
    rw [← hf.ok.1, List.filter_map]
    change List.map Axis.len (f.axes.filter fun ax => decide (ax.len ≠ 1)) = _
    rw [ha]
    rfl
  rw [hshape] at gsh
  rw [ha] at gax
  obtain ⟨ga, hga⟩ : ∃ ga, g.axes = [ga] := by
    have hl := congrArg List.length gax
    simp only [List.length_map, List.length_cons, List.length_nil] at hl
    match g.axes, hl with
    | [x], _ => exact ⟨x, rfl⟩
  rw [hga] at gax
  simp only [List.map_cons, List.map_nil, List.cons.injEq, Prod.mk.injEq, and_true] at gax
  obtain ⟨an, au, ag, ano⟩ := gax
  have hval : ((List.range a.len).map fun i => g.matrix.at' [i]) =
      (List.range a.len).map fun i => f.matrix.at' (unsqueeze f.shape [i]) := by
    apply List.map_congr_left
    intro i hi
    apply gv
    rw [gsh]
    exact inb1 (List.mem_range.1 hi)
  refine ⟨.line (a.grid.zip ((List.range a.len).map fun i => f.matrix.at' (unsqueeze f.shape [i])))
    (useLog log10plot ((List.range a.len).map fun i => f.matrix.at' (unsqueeze f.shape [i]))) (labelOf a.name a.unit)
    (labelOf f.name f.unit), ?_, useLog log10plot ((List.range a.len).map fun i => f.matrix.at' (unsqueeze f.shape [i])),
    by simp only [labelOf_eq], ?_⟩
  · unfold addField1d
    rw [g1]
    simp only [bind, Except.bind, gsh, hga, hval]
    rw [an, au, gn, gu, ag]
    rfl
  · rw [useLog_iff]
    simp

example := line_shows lineSplines
  (⟨"n", "", ⟨[4, 1], fun idx => (idx.getD 0 0 : ℝ)⟩, [evenAxisOf "x" "m" 0 1 4, evenAxisOf "y" "m" 0 1 1], [some false, some false],
    [none, none]⟩ : Field ℝ ℝ) (by
    refine ⟨⟨?_, rfl, rfl⟩, ?_, by simp [Field.shape]⟩
    · simp [Axis.len, evenAxisOf, ap_length, Field.shape]
    · intro ax hax
      simp only [List.mem_cons, List.not_mem_nil, or_false] at hax
      rcases hax with rfl | rfl
      · exact evenAxisOf_valid _ _ _ _ (by norm_num) _
      · exact evenAxisOf_valid _ _ _ _ (by norm_num) _) (by simp [Field.shape]) (evenAxisOf "x" "m" 0 1 4)
  (by simp [Axis.len, evenAxisOf, ap_length]) true

/-- What `plotField` does with the field after `squeeze`. -/
theorem plotField_squeezed (spl : Splines ℝ) (f g : Field ℝ ℝ) (hg : f.squeeze spl = .ok g) (hs : g.Sound) (h3 : g.shape.length ≤ 3)
    (autoreduce : Bool) (maxlen : ℤ) (hm : 1 ≤ maxlen) (fuel : ℕ) (hfuel : ∀ n ∈ g.shape, n < fuel) (log10plot : Bool)
    (clim : Option (ℝ × ℝ)) :
    plotField spl f autoreduce maxlen fuel log10plot clim = some (
      if g.shape.length = 0 then .ok (.skipped g.name)
      else if g.shape.length = 1 then addField1d spl g log10plot
      else if g.shape.length = 2 ∨ g.shape.length = 3 ∧ (g.shape.getD 2 0 = 3 ∨ g.shape.getD 2 0 = 4) then addField2d spl g log10plot clim
      else .error .runtimeError) := by
  have hd : g.dims = g.shape.length := dims_sound hs
  have hc : (g.dims ≤ 0) = (g.shape.length = 0) := by rw [hd]; simp
  have hc1 : (g.dims = 1) = (g.shape.length = 1) := by rw [hd]; norm_cast
  have hc2 : (g.dims = 2) = (g.shape.length = 2) := by rw [hd]; norm_cast
  have hc3 : (g.dims = 3) = (g.shape.length = 3) := by rw [hd]; norm_cast
  obtain ⟨r, hr, _⟩ := autoreduce_ends spl g hs h3 maxlen hm fuel hfuel
  unfold plotField
  cases autoreduce with
  | true => simp only [hg, if_true, hr, hc, hc1, hc2, hc3]
  | false => simp only [hg, Bool.false_eq_true, if_false, hc, hc1, hc2, hc3]

/-- C79: `plotField` looks at the dimensions with more than one point. Without one there is only a text, one gives a line, two give a picture, three
give colours if the last one has 3 or 4 points, and are refused otherwise. Lines and pictures show the data of the field. Partial: the axes of pictures are as in
`picture_shows_partial`. -/
theorem plot_field_partial (spl : Splines ℝ) (f : Field ℝ ℝ) (hf : f.Sound) (h3 : f.shape.length ≤ 3) (autoreduce : Bool) (maxlen : ℤ)
    (hm : 1 ≤ maxlen) (fuel : ℕ) (hfuel : ∀ n ∈ f.shape, n < fuel) (log10plot : Bool) (clim : Option (ℝ × ℝ)) (long : List (Axis ℝ))
    (hlong : f.axes.filter (fun ax => decide (ax.len ≠ 1)) = long) :
    (long = [] → plotField spl f autoreduce maxlen fuel log10plot clim = some (.ok (.skipped f.name))) ∧
    (∀ a, long = [a] → ∃ fig, plotField spl f autoreduce maxlen fuel log10plot clim = some (.ok fig) ∧
      LineOf fig (fun i => f.matrix.at' (unsqueeze f.shape [i])) a.len a.grid (nameWithUnit a.name a.unit) (nameWithUnit f.name f.unit)
        log10plot) ∧
    (∀ a b, long = [a, b] →
      (((∃ e0 h, EvenAxis a e0 h) ∧ ∃ e0 h, EvenAxis b e0 h) ∨ a.isLinear = false ∨ b.isLinear = false) →
      ∃ fig, plotField spl f autoreduce maxlen fuel log10plot clim = some (.ok fig) ∧
        PictureOf fig (fun i j => f.matrix.at' (unsqueeze f.shape [i, j])) a.len b.len a.gridNode b.gridNode (nameWithUnit a.name a.unit)
          (nameWithUnit b.name b.unit) (nameWithUnit f.name f.unit) log10plot clim) ∧
    (∀ a b c, long = [a, b, c] →
      (c.len = 3 ∨ c.len = 4 → plotField spl f autoreduce maxlen fuel log10plot clim = some (.ok .colours)) ∧
      (c.len ≠ 3 → c.len ≠ 4 → plotField spl f autoreduce maxlen fuel log10plot clim = some (.error .runtimeError))) := by
  obtain ⟨g, g1, gs, gn, gu, gsh, gax, gv⟩ := squeeze_partial spl f hf h3
  have hshape : g.shape = long.map Axis.len := by
    rw [gsh, ← hf.ok.1, List.filter_map, ← hlong]
    rfl
  have g3 : g.shape.length ≤ 3 := by
    rw [gsh]
    exact (List.length_filter_le _ _).trans h3
  have gfuel : ∀ n ∈ g.shape, n < fuel := by
    intro n hn
    rw [gsh] at hn
    exact hfuel n (List.mem_filter.1 hn).1
  have hne1 : ∀ n ∈ g.shape, n ≠ 1 := by
    intro n hn
    rw [gsh] at hn
    simpa using (List.mem_filter.1 hn).2
  have hgfil : g.axes.filter (fun ax => decide (ax.len ≠ 1)) = g.axes := by
    rw [List.filter_eq_self]
    intro ax hax
    have : ax.len ∈ g.shape := by rw [← gs.ok.lengths]; exact List.mem_map_of_mem hax
    simpa using hne1 _ this
  have hplot := plotField_squeezed spl f g g1 gs g3 autoreduce maxlen hm fuel gfuel log10plot clim
  rw [hlong] at gax
  have hlenax : g.axes.length = long.length := by simpa using congrArg List.length gax
  refine ⟨?_, ?_, ?_, ?_⟩
  · rintro rfl
    rw [hplot, if_pos (by rw [hshape]; rfl), gn]
  · rintro a rfl
    obtain ⟨ga, hga⟩ : ∃ ga, g.axes = [ga] := List.length_eq_one_iff.1 hlenax
    rw [hga] at gax hgfil
    simp only [List.map_cons, List.map_nil, List.cons.injEq, Prod.mk.injEq, and_true] at gax
    obtain ⟨an, au, ag, ano⟩ := gax
    have hal : ga.len = a.len := by unfold Axis.len; rw [ag]
    rw [List.map_cons, List.map_nil] at hshape
    have ha1 : a.len ≠ 1 := hne1 _ (by rw [hshape]; simp)
    obtain ⟨fig, h1, lg, h2, h4⟩ := line_shows spl g gs g3 ga (by rw [hga]; exact hgfil) log10plot
    have hv : ∀ i < a.len, g.matrix.at' (unsqueeze g.shape [i]) = f.matrix.at' (unsqueeze f.shape [i]) := by
      intro i hi
      rw [show unsqueeze g.shape [i] = [i] by rw [hshape]; simp [unsqueeze, ha1]]
      exact gv _ (by rw [hshape]; exact inb1 hi)
    refine ⟨fig, ?_, lg, ?_, ?_⟩
    · rw [hplot, if_neg (by rw [hshape]; simp), if_pos (by rw [hshape]; simp), h1]
    · rw [h2, hal, ag, an, au, gn, gu]
      congr 2
      apply List.map_congr_left
      intro i hi
      exact hv i (List.mem_range.1 hi)
    · rw [h4, hal]
      refine and_congr_right fun _ => and_congr ?_ ?_
      · exact forall₂_congr fun i hi => by beta_reduce; rw [hv i hi]
      · exact exists_congr fun i => and_congr_right fun hi => by beta_reduce; rw [hv i hi]
  · rintro a b rfl heven
    obtain ⟨ga, gb, hgab⟩ : ∃ ga gb, g.axes = [ga, gb] := List.length_eq_two.1 hlenax
    rw [hgab] at gax hgfil
    simp only [List.map_cons, List.map_nil, List.cons.injEq, Prod.mk.injEq, and_true] at gax
    obtain ⟨⟨an, au, ag, ano⟩, bn, bu, bg, bno⟩ := gax
    have hal : ga.len = a.len := by unfold Axis.len; rw [ag]
    have hbl : gb.len = b.len := by unfold Axis.len; rw [bg]
    have hla : ga.isLinear = a.isLinear := by unfold Axis.isLinear Axis.len; rw [ag, ano]
    have hlb : gb.isLinear = b.isLinear := by unfold Axis.isLinear Axis.len; rw [bg, bno]
    rw [List.map_cons, List.map_cons, List.map_nil] at hshape
    have ha1 : a.len ≠ 1 := hne1 _ (by rw [hshape]; simp)
    have hb1 : b.len ≠ 1 := hne1 _ (by rw [hshape]; simp)
    have hext : ∀ (ax gx : Axis ℝ), gx ∈ g.axes → gx.gridNode = ax.gridNode → gx.grid = ax.grid → ∀ e0 h, EvenAxis ax e0 h →
        EvenAxis gx e0 h := by
      intro ax gx hgx hno hgr e0 h he
      have hv := gs.valid gx hgx
      have h1 := hv.first
      have h2 := hv.last
      have hl : gx.len = ax.len := by unfold Axis.len; rw [hgr]
      rw [hno, (even_iff.1 he).1] at h1 h2
      rw [ap_head] at h1
      rw [ap_last] at h2
      have hee : gx.extent = ax.extent := by
        rw [he.extent]
        exact Prod.ext (Option.some.inj h1).symm (Option.some.inj h2).symm
      refine ⟨?_, ?_, ?_⟩
      · rw [hno, hgr]
        exact he.nodes
      · rw [hgr]
        exact he.grid
      · rw [hee, hgr]
        exact he.extent
    have heven' : ((∃ e0 h, EvenAxis ga e0 h) ∧ ∃ e0 h, EvenAxis gb e0 h) ∨ ga.isLinear = false ∨ gb.isLinear = false := by
      rw [hla, hlb]
      rcases heven with ⟨⟨e0, h, he⟩, e1, h', he'⟩ | h
      · exact .inl ⟨⟨e0, h, hext a ga (by rw [hgab]; simp) ano ag e0 h he⟩, e1, h', hext b gb (by rw [hgab]; simp) bno bg e1 h' he'⟩
      · exact .inr h
    obtain ⟨fig, h1, d, lg, lim, h2, h4, h5, h6, h7, h8⟩ := picture_shows_partial spl g gs g3 ga gb (by rw [hgab]; exact hgfil) heven' log10plot clim
    have hv : ∀ i < a.len, ∀ j < b.len, g.matrix.at' (unsqueeze g.shape [i, j]) = f.matrix.at' (unsqueeze f.shape [i, j]) := by
      intro i hi j hj
      rw [show unsqueeze g.shape [i, j] = [i, j] by rw [hshape]; simp [unsqueeze, ha1, hb1]]
      exact gv _ (by rw [hshape]; exact inb2 hi hj)
    rw [hal, hbl] at h4 h8
    rw [ano, bno] at h5
    have hlen : ∀ ax ∈ f.axes, ax.gridNode.length = ax.len + 1 := fun ax hax => (hf.valid ax hax).wf.1
    have hmem : ∀ ax ∈ [a, b], ax ∈ f.axes := by
      intro ax hax
      rw [← hlong] at hax
      exact (List.mem_filter.1 hax).1
    refine ⟨fig, ?_, d, lg, lim, ?_, ?_, ?_, h6, h7, ?_⟩
    · rw [hplot, if_neg (by rw [hshape]; simp), if_neg (by rw [hshape]; simp), if_pos (by rw [hshape]; simp), h1]
    · rw [h2, an, au, bn, bu, gn, gu]
    · rw [h4]
      refine and_congr_right fun _ => and_congr ?_ ?_
      · exact forall₂_congr fun i hi => forall₂_congr fun j hj => by beta_reduce; rw [hv i hi j hj]
      · exact exists_congr fun i => and_congr_right fun hi => exists_congr fun j => and_congr_right fun hj => by beta_reduce; rw [hv i hi j hj]
    · intro i j x0 x1 y0 y1 e1 e2 e3 e4
      have hi : i < a.len := by
        have := (List.getElem?_eq_some_iff.1 e2).1
        rw [hlen a (hmem a (by simp))] at this
        omega
      have hj : j < b.len := by
        have := (List.getElem?_eq_some_iff.1 e4).1
        rw [hlen b (hmem b (by simp))] at this
        omega
      have := h5 i j x0 x1 y0 y1 e1 e2 e3 e4
      beta_reduce at this ⊢
      rwa [hv i hi j hj] at this
    · intro hc hl
      obtain ⟨M, m1, m2, i, hi, j, hj, m3⟩ := h8 hc hl
      refine ⟨M, m1, ?_, i, hi, j, hj, ?_⟩
      · intro i hi j hj
        beta_reduce
        rw [← hv i hi j hj]
        exact m2 i hi j hj
      · beta_reduce
        rw [← hv i hi j hj]
        exact m3
  · rintro a b c rfl
    rw [List.map_cons, List.map_cons, List.map_cons, List.map_nil] at hshape
    have hk : g.shape.getD 2 0 = c.len := by rw [hshape]; rfl
    have hc1 : c.len ≠ 1 := hne1 _ (by rw [hshape]; simp)
    constructor
    · intro hc
      rw [hplot, if_neg (by rw [hshape]; simp), if_neg (by rw [hshape]; simp),
        if_pos (by rw [hk]; exact .inr ⟨by rw [hshape]; rfl, hc⟩)]
      obtain ⟨g', p1, _, _, _, p5, _⟩ := squeeze_partial spl g gs g3
      have p6 : g'.shape = [a.len, b.len, c.len] := by
        rw [p5, ← hshape, List.filter_eq_self]
        intro n hn
        simpa using hne1 n hn
      unfold addField2d
      rw [p1]
      simp only [bind, Except.bind, p6, if_pos hc]
      rfl
    · intro hn3 hn4
      rw [hplot, if_neg (by rw [hshape]; simp), if_neg (by rw [hshape]; simp),
        if_neg (by rw [hk, hshape]; simp [hn3, hn4])]

/-- C79 violated: `plotField(autoreduce=True, maxlen=...)` says that the data are reduced to `maxlen` points per dimension before they are drawn.
The reduced field is thrown away: the figure is the same as with `autoreduce=False`, for all fields and all `maxlen`. -/
theorem plot_maxlen_violated (spl : Splines ℝ) (f : Field ℝ ℝ) (hf : f.Sound) (h3 : f.shape.length ≤ 3) (maxlen : ℤ) (hm : 1 ≤ maxlen)
    (fuel : ℕ) (hfuel : ∀ n ∈ f.shape, n < fuel) (log10plot : Bool) (clim : Option (ℝ × ℝ)) :
    plotField spl f true maxlen fuel log10plot clim = plotField spl f false maxlen fuel log10plot clim := by
  obtain ⟨g, g1, gs, _, _, gsh, _⟩ := squeeze_partial spl f hf h3
  obtain ⟨r, hr, _⟩ := autoreduce_ends spl g gs (by
    rw [gsh]
    exact (List.length_filter_le _ _).trans h3) maxlen hm fuel (by
    intro n hn
    rw [gsh] at hn
    exact hfuel n (List.mem_filter.1 hn).1)
  unfold plotField
  simp only [g1, if_true, hr, Bool.false_eq_true, if_false]

/-- A field with evenly spaced cells, two dimensions and `5 × 4` points. -/
def picture54 : Field ℝ ℝ :=
  ⟨"Ex", "V/m", ⟨[5, 4], fun idx => (idx.getD 0 0 : ℝ) - (idx.getD 1 0 : ℝ)⟩,
    [evenAxisOf "x" "m" 1 2 5, evenAxisOf "y" "m" (-1) (1 / 2) 4], [some false, some false], [none, none]⟩

theorem picture54_sound : picture54.Sound := by
  refine ⟨⟨?_, rfl, rfl⟩, ?_, by simp [picture54, Field.shape]⟩
  · simp [picture54, Axis.len, evenAxisOf, ap_length, Field.shape]
  · intro ax hax
    simp only [picture54, List.mem_cons, List.not_mem_nil, or_false] at hax
    rcases hax with rfl | rfl
    · exact evenAxisOf_valid _ _ _ _ (by norm_num) _
    · exact evenAxisOf_valid _ _ _ _ (by norm_num) _

theorem picture54_axes : picture54.axes.filter (fun ax => decide (ax.len ≠ 1)) =
    [evenAxisOf "x" "m" 1 2 5, evenAxisOf "y" "m" (-1) (1 / 2) 4] := by
  simp [picture54, Axis.len, evenAxisOf, ap_length]

example := picture_shows_partial lineSplines picture54 picture54_sound (by simp [picture54, Field.shape]) _ _ picture54_axes
  (Or.inl ⟨⟨_, _, evenAxisOf_even _ _ _ _ _⟩, _, _, evenAxisOf_even _ _ _ _ _⟩) true none

example := (plot_field_partial lineSplines picture54 picture54_sound (by simp [picture54, Field.shape]) true 2 (by decide) 6
  (by simp [picture54, Field.shape]) true none _ picture54_axes).2.2.1 _ _ rfl
  (Or.inl ⟨⟨_, _, evenAxisOf_even _ _ _ _ _⟩, _, _, evenAxisOf_even _ _ _ _ _⟩)

example := plot_maxlen_violated lineSplines picture54 picture54_sound (by simp [picture54, Field.shape]) 2 (by decide) 6
  (by simp [picture54, Field.shape]) true none

/-- A field with two uneven cells along `x`: from 0 to 1 and from 1 to 5. -/
def twoCells : Field ℝ ℝ :=
  ⟨"n", "", ⟨[2, 3], fun idx => (idx.getD 0 0 : ℝ)⟩,
    [⟨"x", "m", [0, 1, 5], [1 / 2, 3], (0, 5)⟩, evenAxisOf "y" "m" 0 1 3], [some false, some false], [none, none]⟩

theorem twoCells_squeeze (spl : Splines ℝ) : ∃ g, twoCells.squeeze spl = .ok g ∧ g.Sound ∧ g.shape = [2, 3] ∧
    (∀ i < 2, ∀ j < 3, g.matrix.at' [i, j] = twoCells.matrix.at' [i, j]) ∧ ∃ ga gb, g.axes = [ga, gb] ∧ ga.gridNode = [0, 1, 5] ∧ ga.len = 2 ∧
      gb.gridNode = ap 0 1 4 ∧ gb.len = 3 ∧ gb.isLinear = true := by
  have hs : twoCells.Sound := by
    refine ⟨⟨?_, rfl, rfl⟩, ?_, by simp [twoCells, Field.shape]⟩
    · simp [twoCells, Axis.len, evenAxisOf, ap_length, Field.shape]
    · intro ax hax
      simp only [twoCells, List.mem_cons, List.not_mem_nil, or_false] at hax
      rcases hax with rfl | rfl
      · refine ⟨⟨rfl, Or.inl ?_⟩, rfl, rfl⟩
        intro i a g b h1 h2 h3
        rcases i with _ | _ | i
        · simp at h1 h2 h3
          subst h1 h2 h3
          norm_num
        · simp at h1 h2 h3
          subst h1 h2 h3
          norm_num
        · simp at h2
      · exact evenAxisOf_valid _ _ _ _ (by norm_num) _
  obtain ⟨g, g1, gs, gn, gu, gsh, gax, gv⟩ := squeeze_partial spl twoCells hs (by simp [twoCells, Field.shape])
  have hsh : g.shape = [2, 3] := by rw [gsh]; rfl
  refine ⟨g, g1, gs, hsh, ?_, ?_⟩
  · intro i hi j hj
    rw [gv [i, j] (by rw [hsh]; exact inb2 hi hj)]
    rfl
  · have hfl : twoCells.axes.filter (fun ax => decide (ax.len ≠ 1)) = twoCells.axes := by
      simp [twoCells, Axis.len, evenAxisOf, ap_length]
    rw [hfl] at gax
    obtain ⟨ga, gb, hgab⟩ : ∃ ga gb, g.axes = [ga, gb] := by
      have hl := congrArg List.length gax
      simp only [List.length_map, twoCells, List.length_cons, List.length_nil] at hl
      match g.axes, hl with
      | [x, y], _ => exact ⟨x, y, rfl⟩
    rw [hgab] at gax
    simp only [twoCells, List.map_cons, List.map_nil, List.cons.injEq, Prod.mk.injEq, and_true] at gax
    obtain ⟨⟨_, _, ag, ano⟩, _, _, bg, bno⟩ := gax
    refine ⟨ga, gb, hgab, ano, by rw [Axis.len, ag]; rfl, bno, by rw [Axis.len, bg]; simp [evenAxisOf, ap_length], ?_⟩
    have := even_linear (evenAxisOf_even "y" "m" (0 : ℝ) 1 3)
    unfold Axis.isLinear Axis.len at this ⊢
    rw [bg, bno]
    exact this

/-- C79 violated: an axis with only two cells counts as evenly spaced whatever these are. With cells from 0 to 1 and from 1 to 5 the picture
shows the value of the first cell up to the position 5/2. -/
theorem picture_two_cells_violated (spl : Splines ℝ) : ∃ d lg lim x y t, addField2d spl twoCells false none = .ok (.picture d lg lim x y t) ∧
    twoCells.matrix.at' [0, 0] = 0 ∧ Shows d 0 (5 / 2) 0 1 (some 0) ∧ ∀ v, ¬ Shows d 0 1 0 1 v := by
  obtain ⟨g, g1, gs, gsh, gv, ga, gb, hgab, ano, al, bno, bl, blin⟩ := twoCells_squeeze spl
  have va := gs.valid ga (by rw [hgab]; simp)
  have vb := gs.valid gb (by rw [hgab]; simp)
  have ea : ga.extent = (0, 5) := by
    have h1 := va.first
    have h2 := va.last
    rw [ano] at h1 h2
    exact Prod.ext (Option.some.inj h1).symm (Option.some.inj h2).symm
  have eb : gb.extent = (0, 3) := by
    have h1 := vb.first
    have h2 := vb.last
    rw [bno] at h1 h2
    rw [ap_head] at h1
    rw [ap_last] at h2
    exact Prod.ext (Option.some.inj h1).symm ((Option.some.inj h2).symm.trans (by norm_num))
  have alin : ga.isLinear = true := by unfold Axis.isLinear; rw [if_pos (by omega)]
  refine ⟨.image 3 2 (fun row col => some (g.matrix.at' [col, row])) 0 5 0 3, false, some (symmetricLimits (entries2 g 2 3)),
    labelOf ga.name ga.unit, labelOf gb.name gb.unit, labelOf g.name g.unit, ?_, ?_, ?_, ?_⟩
  · unfold addField2d
    rw [g1]
    simp only [bind, Except.bind, gsh, hgab, alin, blin, ea, eb]
    rfl
  · simp [twoCells]
  · refine ⟨0, by decide, 0, by decide, ?_, by norm_num, by norm_num, by norm_num, by norm_num⟩
    change some (g.matrix.at' [0, 0]) = _
    rw [gv 0 (by decide) 0 (by decide)]
    simp [twoCells]
  · rintro v ⟨row, _, col, hc, _, h1, h2, _⟩
    have : col = 0 ∨ col = 1 := by omega
    rcases this with rfl | rfl
    · norm_num at h2
    · norm_num at h1

/-- A field with the cell boundaries 0, 1 nm, 4 nm and 9 nm along `x`. -/
def nanoCells : Field ℝ ℝ :=
  ⟨"n", "", ⟨[3, 3], fun idx => (idx.getD 0 0 : ℝ)⟩,
    [⟨"x", "m", [0, 1 / 1000000000, 4 / 1000000000, 9 / 1000000000], [1 / 2000000000, 5 / 2000000000, 13 / 2000000000], (0, 9 / 1000000000)⟩,
      evenAxisOf "y" "m" 0 1 3], [some false, some false], [none, none]⟩

theorem nanoCells_sound : nanoCells.Sound := by
  refine ⟨⟨?_, rfl, rfl⟩, ?_, by simp [nanoCells, Field.shape]⟩
  · simp [nanoCells, Axis.len, evenAxisOf, ap_length, Field.shape]
  · intro ax hax
    simp only [nanoCells, List.mem_cons, List.not_mem_nil, or_false] at hax
    rcases hax with rfl | rfl
    · refine ⟨⟨rfl, Or.inl ?_⟩, rfl, rfl⟩
      intro i a g b h1 h2 h3
      rcases i with _ | _ | _ | i
      · simp at h1 h2 h3
        subst h1 h2 h3
        norm_num
      · simp at h1 h2 h3
        subst h1 h2 h3
        norm_num
      · simp at h1 h2 h3
        subst h1 h2 h3
        norm_num
      · simp at h2
    · exact evenAxisOf_valid _ _ _ _ (by norm_num) _

/-- C79 violated: the tolerance of the test for even spacing is absolute, 10 nanometers if the axis is in meters. The cell from 0 to 1 nm is drawn
from 0 to 3 nm. -/
theorem picture_uneven_violated (spl : Splines ℝ) : ∃ d lg lim x y t, addField2d spl nanoCells false none = .ok (.picture d lg lim x y t) ∧
    nanoCells.matrix.at' [0, 0] = 0 ∧ Shows d 0 (3 / 1000000000) 0 1 (some 0) ∧ ∀ v, ¬ Shows d 0 (1 / 1000000000) 0 1 v := by
  obtain ⟨g, g1, gs, gn, gu, gsh, gax, gv⟩ := squeeze_partial spl nanoCells nanoCells_sound (by simp [nanoCells, Field.shape])
  have hsh : g.shape = [3, 3] := by rw [gsh]; rfl
  have hv : g.matrix.at' [0, 0] = 0 := by
    rw [gv [0, 0] (by rw [hsh]; exact inb2 (by decide) (by decide))]
    change ((([0, 0] : List ℕ).getD 0 0 : ℕ) : ℝ) = 0
    simp
  have hfl : nanoCells.axes.filter (fun ax => decide (ax.len ≠ 1)) = nanoCells.axes := by
    simp [nanoCells, Axis.len, evenAxisOf, ap_length]
  rw [hfl] at gax
  obtain ⟨ga, gb, hgab⟩ : ∃ ga gb, g.axes = [ga, gb] := by
    have hl := congrArg List.length gax
    simp only [List.length_map, nanoCells, List.length_cons, List.length_nil] at hl
    match g.axes, hl with
    | [x, y], _ => exact ⟨x, y, rfl⟩
  rw [hgab] at gax
  simp only [nanoCells, List.map_cons, List.map_nil, List.cons.injEq, Prod.mk.injEq, and_true] at gax
  obtain ⟨⟨_, _, ag, ano⟩, _, _, bg, bno⟩ := gax
  have va := gs.valid ga (by rw [hgab]; simp)
  have vb := gs.valid gb (by rw [hgab]; simp)
  have ea : ga.extent = (0, 9 / 1000000000) := by
    have h1 := va.first
    have h2 := va.last
    rw [ano] at h1 h2
    exact Prod.ext (Option.some.inj h1).symm (Option.some.inj h2).symm
  have eb : gb.extent = (0, 3) := by
    have h1 := vb.first
    have h2 := vb.last
    rw [bno] at h1 h2
    change (ap 0 1 4).head? = _ at h1
    change (ap 0 1 4).getLast? = _ at h2
    rw [ap_head] at h1
    rw [ap_last] at h2
    exact Prod.ext (Option.some.inj h1).symm ((Option.some.inj h2).symm.trans (by norm_num))
  have alin : ga.isLinear = true := by
    unfold Axis.isLinear Axis.len
    rw [ag, ano]
    simp only [List.length_cons, List.length_nil]
    rw [if_neg (by norm_num)]
    simp [isLinearList, linspace, isclose, List.range_succ]
    norm_num [abs_le]
  have blin : gb.isLinear = true := by
    have := even_linear (evenAxisOf_even "y" "m" (0 : ℝ) 1 3)
    unfold Axis.isLinear Axis.len at this ⊢
    rw [bg, bno]
    exact this
  refine ⟨.image 3 3 (fun row col => some (g.matrix.at' [col, row])) 0 (9 / 1000000000) 0 3, false, some (symmetricLimits (entries2 g 3 3)),
    labelOf ga.name ga.unit, labelOf gb.name gb.unit, labelOf g.name g.unit, ?_, ?_, ?_, ?_⟩
  · unfold addField2d
    rw [g1]
    simp only [bind, Except.bind, hsh, hgab, alin, blin, ea, eb]
    rfl
  · simp [nanoCells]
  · refine ⟨0, by decide, 0, by decide, ?_, by norm_num, by norm_num, by norm_num, by norm_num⟩
    change some (g.matrix.at' [0, 0]) = _
    rw [hv]
  · rintro v ⟨row, _, col, hc, _, h1, h2, _⟩
    have : col = 0 ∨ col = 1 ∨ col = 2 := by omega
    rcases this with rfl | rfl | rfl
    · norm_num at h2
    · norm_num at h1
    · norm_num at h1

/-- C79 violated: the points of the line with the mean values of the columns (`lineoutx`) are spread from one end of the axis to the other one: the
mean of the first column is drawn at the left border and that of the last one at the right border, not in the middle of the cells. -/
theorem lineout_violated : ∃ l, xLineout picture54 false = .ok l ∧ l[0]? = some ((1 : ℝ), some (-3 / 2 : ℝ)) ∧ l[4]? = some ((11 : ℝ), some (5 / 2 : ℝ)) ∧
    (evenAxisOf "x" "m" (1 : ℝ) 2 5).grid[0]? = some 2 ∧ (evenAxisOf "x" "m" (1 : ℝ) 2 5).grid[4]? = some 10 := by
  refine ⟨_, rfl, ?_, ?_, ?_, ?_⟩
  · simp [linspace, evenAxisOf, picture54, List.range_succ]
    norm_num
  · simp [linspace, evenAxisOf, picture54, List.range_succ]
    norm_num
  · simp [evenAxisOf, ap, List.range_succ]
    norm_num
  · simp [evenAxisOf, ap, List.range_succ]
    norm_num

/-- C79: plotting several lines leaves the lists `infos` of the fields as they are if they are all equal. -/
theorem plot_infos_partial (fields r : List InfoField) (kw : List String) (i : List String) (h : ∀ f ∈ fields, f.infos = i)
    (hr : plotFields1d fields kw = .ok r) : r = fields := by
  unfold plotFields1d addFields1d at hr
  cases fields with
  | nil => cases hr
  | cons f0 fs =>
    have hall : ((f0 :: fs).all fun f => decide (f.infos = f0.infos)) = true := by
      rw [List.all_eq_true]
      intro f hf
      simp [h f hf, h f0 (by simp)]
    simp only [hall] at hr
    split_ifs at hr
    simp only [Except.ok.injEq] at hr
    rw [← hr]
    simp

example : plotFields1d [⟨1, ["a"]⟩, ⟨1, ["a"]⟩] ["log10plot", "name"] = .ok [⟨1, ["a"]⟩, ⟨1, ["a"]⟩] := by decide

/-- C79 violated: otherwise these lists of the fields of the caller are emptied, and the fields cannot be told apart any more. -/
theorem plot_infos_violated : plotFields1d [⟨1, ["gamma > 2"]⟩, ⟨1, []⟩, ⟨1, ["x > 0"]⟩] [] = .ok [⟨1, []⟩, ⟨1, []⟩, ⟨1, []⟩] := by decide

/-- C79 violated: the documented keyword `savecsv` of `plotFields1d` is passed on to a function which does not know it; no csv file is ever
written. -/
theorem plot_savecsv_violated (fields : List InfoField) (f : InfoField) (hf : f ∈ fields) (hd : f.dims = 1) (kw : List String)
    (hk : "savecsv" ∈ kw) : plotFields1d fields kw = .error .typeError := by
  unfold plotFields1d addFields1d
  cases fields with
  | nil => simp at hf
  | cons f0 fs =>
    simp only
    rw [if_pos]
    constructor
    · rw [List.any_eq_true]
      exact ⟨f, hf, by simp [hd]⟩
    · rw [List.all_eq_true]
      intro h
      have := h "savecsv" (List.mem_filter.2 ⟨hk, by decide⟩)
      revert this
      decide

example : plotFields1d [⟨1, []⟩, ⟨1, []⟩] ["name", "savecsv"] = .error .typeError :=
  plot_savecsv_violated _ ⟨1, []⟩ (by simp) rfl _ (by simp)

end

end Postpic.Props
