import Mathlib.Data.Rat.Floor
import Mathlib.Data.Rat.Encodable
import Verif.Model.TextImage
import Verif.Lemmas.FieldResolution
import Verif.Props.Axis

/-!
# csv files and images
-/

set_option autoImplicit false
set_option linter.unusedSectionVars false

namespace Postpic.Props

open Postpic Postpic.Axes Postpic.Fields Postpic.Io Postpic.Spec

/-! ### Texts -/

theorem splitOn_ne_nil (d : Char) (l : List Char) : splitOn d l ≠ [] := by
  cases l with
  | nil => simp [splitOn]
  | cons c l =>
    simp only [splitOn]
    split_ifs
    · simp
    · split <;> simp

theorem splitOn_append {d : Char} {p : List Char} (h : d ∉ p) (l : List Char) :
    splitOn d (p ++ l) = (match splitOn d l with
      | [] => [p]
      | q :: qs => (p ++ q) :: qs) := by
  induction p with
  | nil =>
    cases hs : splitOn d l with
    | nil => exact absurd hs (splitOn_ne_nil d l)
    | cons q qs => simpa using hs
  | cons c p ih =>
    have hc : c ≠ d := fun e => h (by simp [e])
    have ih := ih (fun hm => h (by simp [hm]))
    rw [List.cons_append, splitOn, if_neg hc, ih]
    cases hs : splitOn d l with
    | nil => exact absurd hs (splitOn_ne_nil d l)
    | cons q qs => rfl

theorem splitOn_single {d : Char} {p : List Char} (h : d ∉ p) : splitOn d p = [p] := by
  have := splitOn_append h []
  simpa [splitOn] using this

theorem splitOn_join {d : Char} {cells : List (List Char)} (hne : cells ≠ []) (h : ∀ p ∈ cells, d ∉ p) :
    splitOn d (joinWith d cells) = cells := by
  induction cells with
  | nil => exact absurd rfl hne
  | cons p ps ih =>
    cases ps with
    | nil => exact splitOn_single (h p (by simp))
    | cons q qs =>
      rw [joinWith, splitOn_append (h p (by simp)), splitOn, if_pos rfl, ih (by simp) fun x hx => h x (by simp [hx])]
      · simp
      · simp

theorem mem_join {d c : Char} {cells : List (List Char)} (h : c ∈ joinWith d cells) : c = d ∨ ∃ p ∈ cells, c ∈ p := by
  induction cells with
  | nil => simp [joinWith] at h
  | cons p ps ih =>
    cases ps with
    | nil => exact Or.inr ⟨p, by simp, h⟩
    | cons q qs =>
      rw [joinWith] at h
      · rcases List.mem_append.1 h with h | h
        · exact Or.inr ⟨p, by simp, h⟩
        · rcases List.mem_cons.1 h with h | h
          · exact Or.inl h
          · rcases ih h with h | ⟨r, hr, h⟩
            · exact Or.inl h
            · exact Or.inr ⟨r, by simp [hr], h⟩
      · simp

/-- A text without blanks at its ends is not changed by `strip`. -/
theorem strip_id {l : List Char} (h0 : ∀ c, l.head? = some c → c ≠ ' ' ∧ c ≠ '\r' ∧ c ≠ '\n')
    (h1 : ∀ c, l.getLast? = some c → c ≠ ' ' ∧ c ≠ '\r' ∧ c ≠ '\n') : stripBlank l = l := by
  have key : ∀ m : List Char, (∀ c, m.head? = some c → c ≠ ' ' ∧ c ≠ '\r' ∧ c ≠ '\n') →
      m.dropWhile (fun c : Char => c == ' ' || c == '\r' || c == '\n') = m := by
    intro m hm
    cases m with
    | nil => rfl
    | cons c m =>
      obtain ⟨a, b, e⟩ := hm c rfl
      rw [List.dropWhile_cons_of_neg]
      simp [a, b, e]
  unfold stripBlank
  simp only
  rw [key l h0, key l.reverse (by rw [List.head?_reverse]; exact h1), List.reverse_reverse]

theorem join_head {d : Char} {p : List Char} (hp : p ≠ []) (ps : List (List Char)) :
    (joinWith d (p :: ps)).head? = p.head? := by
  cases ps with
  | nil => rfl
  | cons q qs =>
    rw [joinWith]
    · cases p with
      | nil => exact absurd rfl hp
      | cons c p => rfl
    · simp

theorem join_ne_nil {d : Char} {p : List Char} (hp : p ≠ []) (ps : List (List Char)) : joinWith d (p :: ps) ≠ [] := by
  intro h
  have := join_head (d := d) hp ps
  rw [h] at this
  cases p with
  | nil => exact hp rfl
  | cons c p => cases this

theorem join_last {d : Char} {cells : List (List Char)} (h : ∀ p ∈ cells, p ≠ []) {c : Char}
    (hc : (joinWith d cells).getLast? = some c) : ∃ p ∈ cells, c ∈ p := by
  induction cells with
  | nil => simp [joinWith] at hc
  | cons p ps ih =>
    cases ps with
    | nil => exact ⟨p, by simp, List.mem_of_getLast? hc⟩
    | cons q qs =>
      rw [joinWith] at hc
      · rw [List.getLast?_append_of_ne_nil _ (by simp), List.getLast?_cons_of_ne_nil (join_ne_nil (h q (by simp)) qs)] at hc
        obtain ⟨r, hr, hm⟩ := ih (fun x hx => h x (by simp [hx])) hc
        exact ⟨r, by simp [hr], hm⟩
      · simp

/-- Numbers are printed as texts without blanks, commas and the sign of comments, and those with the property `P` are read as they were. -/
structure PrintsNumbers {K : Type} (P : K → Prop) (print : K → List Char) (read : List Char → Option K) : Prop where
  read : ∀ x, P x → read (print x) = some x
  nonempty : ∀ x, print x ≠ []
  plain : ∀ x, ∀ c ∈ print x, c ≠ ' ' ∧ c ≠ ',' ∧ c ≠ '#' ∧ c ≠ '\r' ∧ c ≠ '\n'

section
variable {K V : Type} [_root_.Field K] [LinearOrder K] [IsStrictOrderedRing K]
variable {P : K → Prop} {print : K → List Char} {read : List Char → Option K}

theorem header_cells (d : Char) (l : List Char) : lineCells d ('#' :: ' ' :: l) = [] := by
  simp [lineCells, splitOn, stripBlank]

theorem row_strip (hp : PrintsNumbers P print read) {r : List K} (hr : r ≠ []) :
    stripBlank ((splitOn '#' (joinWith ' ' (r.map print))).headD []) = joinWith ' ' (r.map print) ∧
    joinWith ' ' (r.map print) ≠ [] := by
  have hcell : ∀ p ∈ r.map print, p ≠ [] ∧ ∀ c ∈ p, c ≠ ' ' ∧ c ≠ ',' ∧ c ≠ '#' ∧ c ≠ '\r' ∧ c ≠ '\n' := by
    intro p hpm
    obtain ⟨x, _, rfl⟩ := List.mem_map.1 hpm
    exact ⟨hp.nonempty x, hp.plain x⟩
  obtain ⟨x, r', rfl⟩ : ∃ x r', r = x :: r' := by
    cases r with
    | nil => exact absurd rfl hr
    | cons x r' => exact ⟨x, r', rfl⟩
  have hne : joinWith ' ' ((x :: r').map print) ≠ [] := join_ne_nil (hp.nonempty x) _
  refine ⟨?_, hne⟩
  have hs : '#' ∉ joinWith ' ' ((x :: r').map print) := by
    intro h
    rcases mem_join h with h | ⟨p, hpm, h⟩
    · exact absurd h (by decide)
    · exact ((hcell p hpm).2 _ h).2.2.1 rfl
  rw [splitOn_single hs]
  refine strip_id ?_ ?_
  · intro c hc
    simp only [List.headD_cons, List.map_cons] at hc
    rw [join_head (hp.nonempty x)] at hc
    have := hp.plain x c (List.mem_of_head? hc)
    exact ⟨this.1, this.2.2.2.1, this.2.2.2.2⟩
  · intro c hc
    simp only [List.headD_cons] at hc
    obtain ⟨p, hpm, h⟩ := join_last (fun p hp => (hcell p hp).1) hc
    have := (hcell p hpm).2 c h
    exact ⟨this.1, this.2.2.2.1, this.2.2.2.2⟩

theorem row_cells (hp : PrintsNumbers P print read) {r : List K} (hr : r ≠ []) :
    lineCells ' ' (joinWith ' ' (r.map print)) = r.map print ∧ lineCells ',' (joinWith ' ' (r.map print)) = [joinWith ' ' (r.map print)] := by
  obtain ⟨h1, h2⟩ := row_strip hp hr
  unfold lineCells
  simp only [h1]
  have he : (joinWith ' ' (r.map print)).isEmpty = false := by
    cases hj : joinWith ' ' (r.map print) with
    | nil => exact absurd hj h2
    | cons c l => rfl
  rw [he]
  refine ⟨splitOn_join (by simpa using hr) ?_, splitOn_single ?_⟩
  · intro p hpm
    obtain ⟨x, _, rfl⟩ := List.mem_map.1 hpm
    exact fun h => (hp.plain x _ h).1 rfl
  · intro h
    rcases mem_join h with h | ⟨p, hpm, h⟩
    · exact absurd h (by decide)
    · obtain ⟨x, _, rfl⟩ := List.mem_map.1 hpm
      exact (hp.plain x _ h).2.1 rfl

theorem file_cells (header : List (List Char)) (rows : List (List K)) (d : Char) (f : List K → List (List Char))
    (hf : ∀ r ∈ rows, lineCells d (joinWith ' ' (r.map print)) = f r ∧ f r ≠ []) :
    ((((header.map fun l => '#' :: ' ' :: l) ++ rows.map fun r => joinWith ' ' (r.map print)).map (lineCells d)).filter
      fun r => !r.isEmpty) = rows.map f := by
  rw [List.map_append, List.filter_append]
  have h1 : ((header.map fun l => '#' :: ' ' :: l).map (lineCells d)).filter (fun r => !r.isEmpty) = [] := by
    rw [List.filter_eq_nil_iff]
    intro r hr
    simp only [List.map_map, List.mem_map, Function.comp_apply] at hr
    obtain ⟨l, _, rfl⟩ := hr
    rw [header_cells]
    simp
  rw [h1, List.nil_append, List.map_map]
  induction rows with
  | nil => rfl
  | cons r rows ih =>
    obtain ⟨e1, e2⟩ := hf r (by simp)
    simp only [List.map_cons, Function.comp_apply, e1]
    rw [List.filter_cons_of_pos, ih fun r hr => hf r (by simp [hr])]
    cases hfr : f r with
    | nil => exact absurd hfr e2
    | cons a b => rfl

/-! ### Axes of pixels -/

/-- The grid 0, 1, ..., n-1. -/
def pixels (K : Type) [_root_.Field K] (n : ℕ) : List K := (List.range n).map fun i : ℕ => (i : K)

theorem pixelAxis_ok {spl : Splines K} (hspl : ExactOnEven spl) (name unit : String) {n : ℕ} (hn : 0 < n) :
    ∃ ax, pixelAxis spl name unit n = .ok ax ∧ ax.name = name ∧ ax.unit = unit ∧ ax.len = n ∧ ax.grid = pixels K n ∧
      EvenAxis ax (-1 / 2) 1 := by
  have hg : linspace (0 : K) ((n : K) - 1) n = ap 0 1 n := by
    obtain ⟨m, rfl⟩ : ∃ m, n = m + 1 := ⟨n - 1, by omega⟩
    rw [linspace_ap]
    by_cases hm : m = 0
    · subst hm
      simp [ap]
    · have : (m : K) ≠ 0 := by exact_mod_cast hm
      congr 1
      push_cast
      field_simp
      ring
  have hpx : ap (0 : K) 1 n = pixels K n := by simp [ap, pixels]
  have hnodes : nodesOfGrid spl (ap (0 : K) 1 n) none = .ok (ap (0 - 1 / 2) 1 (n + 1)) := by
    by_cases h2 : 2 ≤ n
    · exact nodesOfGrid_ap hspl 0 1 h2
    · obtain rfl : n = 1 := by omega
      simp [ap, nodesOfGrid, innerNodes, mids, List.range_succ]
      norm_num
  obtain ⟨e, h1, h2, h3⟩ := mkAxis_grid name unit hnodes (wf_ap 0 one_pos n)
  refine ⟨_, by rw [pixelAxis, hg]; exact h1, rfl, rfl, by simp [Axis.len, ap_length], hpx, ?_⟩
  rw [even_iff]
  rw [ap_head] at h2
  rw [ap_last] at h3
  have g2 := Option.some.inj h2
  have g3 := Option.some.inj h3
  simp only [Axis.len, ap_length]
  refine ⟨by norm_num, by norm_num, ?_⟩
  rw [Prod.ext_iff]
  refine ⟨?_, ?_⟩
  · rw [← g2]; norm_num
  · rw [← g3]; ring

/-! ## C76 -/

theorem savetxtRows_two (a : Arr K) {n m : ℕ} (hs : a.shape = [n, m]) :
    savetxtRows a = .ok ((List.range n).map fun i => (List.range m).map fun j => a.at' [i, j]) := by
  unfold savetxtRows
  rw [hs]

theorem genfromtxt_of {d : Char} {lines : List (List Char)} {R : List (List (List Char))} {m : ℕ}
    (h : ((lines.map (lineCells d)).filter fun r => !r.isEmpty) = R) (hne : R ≠ []) (hm : ∀ r ∈ R, r.length = m) :
    genfromtxt read d lines = .ok ⟨squeezeShape [R.length, m], fun idx =>
      if R.length = 1 then (if m = 1 then read ((R.getD 0 []).getD 0 []) else read ((R.getD 0 []).getD (idx.headD 0) []))
      else if m = 1 then read ((R.getD (idx.headD 0) []).getD 0 [])
      else read ((R.getD (idx.headD 0) []).getD (idx.tail.headD 0) [])⟩ := by
  subst h
  unfold genfromtxt
  simp only
  generalize ((lines.map (lineCells d)).filter fun r => !r.isEmpty) = R at *
  match R, hne, hm with
  | r :: rs, _, hm =>
    obtain rfl := hm r (by simp)
    have hall : ((r :: rs).all fun q => q.length == r.length) = true := by
      rw [List.all_eq_true]
      intro q hq
      simp [hm q hq]
    simp only [hall, if_true]

theorem exported_rows (hp : PrintsNumbers P print read) (header : List (List Char)) {rows : List (List K)} {m : ℕ} (hm : 0 < m)
    (hlen : ∀ r ∈ rows, r.length = m) :
    ((((header.map fun l => '#' :: ' ' :: l) ++ rows.map fun r => joinWith ' ' (r.map print)).map (lineCells ' ')).filter
      fun r => !r.isEmpty) = rows.map (fun r => r.map print) ∧
    ((((header.map fun l => '#' :: ' ' :: l) ++ rows.map fun r => joinWith ' ' (r.map print)).map (lineCells ',')).filter
      fun r => !r.isEmpty) = rows.map (fun r => [joinWith ' ' (r.map print)]) := by
  have hne : ∀ r ∈ rows, r ≠ [] := by
    rintro r hr rfl
    have := hlen _ hr
    simp at this
    omega
  exact ⟨file_cells header rows ' ' _ fun r hr => ⟨(row_cells hp (hne r hr)).1, by simpa using hne r hr⟩,
    file_cells header rows ',' _ fun r hr => ⟨(row_cells hp (hne r hr)).2, by simp⟩⟩

/-- C76: a field with two dimensions which was exported to a csv file can be imported with `delimiter=' '`: the numbers are those of the
field. Partial: the axes are the numbers of rows and columns instead of the axes of the field, both dimensions have at least two points,
and the delimiter must be given (`csv_default_violated`). -/
theorem csv_roundtrip_partial {spl : Splines K} (hspl : ExactOnEven spl) (hp : PrintsNumbers P print read) (header : List (List Char))
    (a : Arr K) {n m : ℕ} (hs : a.shape = [n, m]) (hn : 2 ≤ n) (hm : 2 ≤ m) (hP : ∀ i j, i < n → j < m → P (a.at' [i, j])) (filename : String) :
    ∃ lines f ax ay, exportCsv print header a = .ok lines ∧ importCsv spl read filename ' ' lines = .ok f ∧ f.shape = [n, m] ∧
      (∀ i j, i < n → j < m → f.matrix.at' [i, j] = some (a.at' [i, j])) ∧ f.name = basename filename ∧
      f.axes = [ax, ay] ∧ ax.grid = pixels K n ∧ ay.grid = pixels K m ∧ ax.unit = "px" ∧ ay.unit = "px" := by
  obtain ⟨ax, x1, x2, x3, x4, x5, x6⟩ := pixelAxis_ok hspl "x" "px" (n := n) (by omega)
  obtain ⟨ay, y1, y2, y3, y4, y5, y6⟩ := pixelAxis_ok hspl "y" "px" (n := m) (by omega)
  have hrows := savetxtRows_two a hs
  generalize hR : ((List.range n).map fun i => (List.range m).map fun j => a.at' [i, j]) = rows at hrows
  have hlen : ∀ r ∈ rows, r.length = m := by
    subst hR
    intro r hr
    obtain ⟨i, _, rfl⟩ := List.mem_map.1 hr
    simp
  have hcells := (exported_rows hp header (m := m) (by omega) hlen).1
  have hl : (rows.map fun r => r.map print).length = n := by subst hR; simp
  have hgen := genfromtxt_of (read := read) (m := m) hcells (by intro h; rw [h] at hl; simp at hl; omega)
    (by intro r hr; obtain ⟨r', hr', rfl⟩ := List.mem_map.1 hr; rw [List.length_map, hlen r' hr'])
  have hsq : squeezeShape [n, m] = [n, m] := by
    unfold squeezeShape
    rw [List.filter_eq_self]
    intro k hk
    simp only [List.mem_cons, List.not_mem_nil, or_false] at hk
    rcases hk with rfl | rfl <;> simp <;> omega
  rw [hl, hsq] at hgen
  simp only [if_neg (show ¬ n = 1 by omega), if_neg (show ¬ m = 1 by omega)] at hgen
  obtain ⟨M, hM, hMs, hMv⟩ : ∃ M : Arr (Option K), genfromtxt read ' ' ((header.map fun l => '#' :: ' ' :: l) ++
      rows.map fun r => joinWith ' ' (r.map print)) = .ok M ∧ M.shape = [n, m] ∧
      ∀ i j, M.at' [i, j] = read (((rows.map fun r => r.map print).getD i []).getD j []) := ⟨_, hgen, rfl, fun _ _ => rfl⟩
  refine ⟨_, ⟨basename filename, "?", M, [ax, ay], [some false, some false], [none, none]⟩, ax, ay,
    by simp only [exportCsv, hrows]; rfl, ?_, hMs, ?_, rfl, rfl, x5, y5, x3, y3⟩
  · unfold importCsv
    rw [hM]
    have e0 : pyGet [n, m] 0 = .ok n := rfl
    have e1 : pyGet [n, m] 1 = .ok m := rfl
    simp only [List.mapM_cons, List.mapM_nil, bind, Except.bind, pure, Except.pure, e0, e1, x1, y1, hMs]
    simp [mkField, hMs, checkAxes, checkAxisObj, x4, y4, bind, Except.bind, pure, Except.pure]
  · intro i j hi hj
    subst hR
    simp only [hMv]
    simp [List.getD_eq_getElem?_getD, hi, hj, hp.read _ (hP i j hi hj)]

/-- The number of rows and of columns which `savetxt` writes. -/
theorem savetxtRows_ok (a : Arr K) (hd : a.shape.length = 1 ∨ a.shape.length = 2) (h0 : 0 ∉ a.shape) :
    ∃ rows m, savetxtRows a = .ok rows ∧ rows ≠ [] ∧ 0 < m ∧ ∀ r ∈ rows, r.length = m := by
  unfold savetxtRows
  match hs : a.shape, hd, h0 with
  | [n], _, h0 =>
    refine ⟨_, 1, rfl, ?_, one_pos, ?_⟩
    · simp at h0 ⊢
      omega
    · intro r hr
      obtain ⟨i, _, rfl⟩ := List.mem_map.1 hr
      rfl
  | [n, m], _, h0 =>
    refine ⟨_, m, rfl, ?_, ?_, ?_⟩
    · simp at h0 ⊢
      omega
    · simp at h0
      omega
    · intro r hr
      obtain ⟨i, _, rfl⟩ := List.mem_map.1 hr
      simp
  | [], hd, _ => simp at hd
  | _ :: _ :: _ :: _, hd, _ => simp at hd

/-- C76 violated: no exported csv file can be imported with the default delimiter, IndexError is raised (the file has blanks, but commas
are expected; each line is one cell and the second axis is missing). -/
theorem csv_default_violated {spl : Splines K} (hspl : ExactOnEven spl) (hp : PrintsNumbers P print read) (header : List (List Char))
    (a : Arr K) (hd : a.shape.length = 1 ∨ a.shape.length = 2) (h0 : 0 ∉ a.shape) (filename : String) :
    ∃ lines, exportCsv print header a = .ok lines ∧ importCsv spl read filename (lines := lines) = .error .indexError := by
  obtain ⟨rows, m, h1, h2, h3, h4⟩ := savetxtRows_ok a hd h0
  refine ⟨_, by simp only [exportCsv, h1]; rfl, ?_⟩
  have hcells := (exported_rows hp header h3 h4).2
  have hgen := genfromtxt_of (read := read) (m := 1) hcells (by simpa using h2)
    (by intro r hr; obtain ⟨r', hr', rfl⟩ := List.mem_map.1 hr; rfl)
  obtain ⟨M, hM, hMs⟩ : ∃ M : Arr (Option K), genfromtxt read ',' ((header.map fun l => '#' :: ' ' :: l) ++
      rows.map fun r => joinWith ' ' (r.map print)) = .ok M ∧ M.shape = squeezeShape [rows.length, 1] :=
    ⟨_, hgen, by simp⟩
  unfold importCsv
  rw [hM]
  have hl : 0 < rows.length := List.length_pos_iff.2 h2
  by_cases hr : rows.length = 1
  · have : M.shape = [] := by rw [hMs, hr]; rfl
    simp [this, pyGet, pyIdx, bind, Except.bind]
  · have : M.shape = [rows.length] := by rw [hMs]; simp [squeezeShape, hr]
    obtain ⟨ax, x1, _⟩ := pixelAxis_ok hspl "x" "px" hl
    have e0 : pyGet [rows.length] 0 = .ok rows.length := rfl
    have e1 : pyGet [rows.length] 1 = .error .indexError := rfl
    simp only [List.mapM_cons, List.mapM_nil, bind, Except.bind, pure, Except.pure, this, e0, e1, x1]

/-- C76 violated: fields with three dimensions (or none) cannot be exported to a csv file. -/
theorem csv_dimensions_violated (header : List (List Char)) (a : Arr K) (hd : a.shape.length ≠ 1) (hd2 : a.shape.length ≠ 2) :
    exportCsv print header a = .error .valueError := by
  unfold exportCsv savetxtRows
  match hs : a.shape, hd, hd2 with
  | [n], hd, _ => simp at hd
  | [n, m], _, hd => simp at hd
  | [], _, _ => rfl
  | _ :: _ :: _ :: _, _, _ => rfl

/-! ## C77 -/

/-- C77: an image of `h` rows and `w` columns becomes a field with the axes x and y: the value at `(x, y)` is the pixel in column `x` from
the left and row `y` from below. -/
theorem image_grey {spl : Splines K} (hspl : ExactOnEven spl) (opening : Arr V → Arr V) (filename : String) (data : Arr V) {h w : ℕ}
    (hs : data.shape = [h, w]) (hh : 0 < h) (hw : 0 < w) :
    ∃ f ax ay, importImage spl opening filename false data = .ok f ∧ f.shape = [w, h] ∧ f.axes = [ax, ay] ∧ ax.name = "x" ∧
      ay.name = "y" ∧ ax.grid = pixels K w ∧ ay.grid = pixels K h ∧ f.name = basename filename ∧
      ∀ x y, x < w → y < h → f.matrix.at' [x, y] = data.at' [h - 1 - y, x] := by
  obtain ⟨ax, x1, x2, x3, x4, x5, x6⟩ := pixelAxis_ok hspl "x" "px" hw
  obtain ⟨ay, y1, y2, y3, y4, y5, y6⟩ := pixelAxis_ok hspl "y" "px" hh
  obtain ⟨M, hM, hMs, hMv⟩ : ∃ M : Arr V, turnImage data = .ok M ∧ M.shape = [w, h] ∧
      ∀ x y, M.at' [x, y] = data.at' [h - 1 - y, x] := by
    refine ⟨_, by unfold turnImage; rw [if_neg (by rw [hs]; simp)], ?_, ?_⟩
    · simp [Arr.flip, Arr.transpose, hs]
    · intro x y
      simp [Arr.flip, Arr.transpose, hs, List.range_succ]
  refine ⟨⟨basename filename, "counts", M, [ax, ay], [some false, some false], [none, none]⟩, ax, ay, ?_, hMs, rfl, x2, y2, x5, y5, rfl,
    fun x y _ _ => hMv x y⟩
  unfold importImage
  simp only [Bool.false_eq_true, if_false, bind, Except.bind, pure, Except.pure, hM]
  rw [hMs]
  simp only [List.zip_cons_cons, List.zip_nil_right, List.mapM_cons, List.mapM_nil, bind, Except.bind, pure, Except.pure, x1, y1]
  simp [mkField, hMs, checkAxes, checkAxisObj, x4, y4, bind, Except.bind, pure, Except.pure]

/-- C77: the same for images with several channels, which become the third dimension. -/
theorem image_channels {spl : Splines K} (hspl : ExactOnEven spl) (opening : Arr V → Arr V) (filename : String) (data : Arr V) {h w c : ℕ}
    (hs : data.shape = [h, w, c]) (hh : 0 < h) (hw : 0 < w) (hc : 0 < c) :
    ∃ f ax ay ac, importImage spl opening filename false data = .ok f ∧ f.shape = [w, h, c] ∧ f.axes = [ax, ay, ac] ∧ ax.name = "x" ∧
      ay.name = "y" ∧ ac.name = "channel" ∧ ax.grid = pixels K w ∧ ay.grid = pixels K h ∧ ac.grid = pixels K c ∧
      ∀ x y k, x < w → y < h → k < c → f.matrix.at' [x, y, k] = data.at' [h - 1 - y, x, k] := by
  obtain ⟨ax, x1, x2, x3, x4, x5, x6⟩ := pixelAxis_ok hspl "x" "px" hw
  obtain ⟨ay, y1, y2, y3, y4, y5, y6⟩ := pixelAxis_ok hspl "y" "px" hh
  obtain ⟨ac, z1, z2, z3, z4, z5, z6⟩ := pixelAxis_ok hspl "channel" "" hc
  obtain ⟨M, hM, hMs, hMv⟩ : ∃ M : Arr V, turnImage data = .ok M ∧ M.shape = [w, h, c] ∧
      ∀ x y k, M.at' [x, y, k] = data.at' [h - 1 - y, x, k] := by
    refine ⟨_, by unfold turnImage; rw [if_neg (by rw [hs]; simp)], ?_, ?_⟩
    · simp [Arr.flip, Arr.transpose, hs, List.range_succ]
    · intro x y k
      simp [Arr.flip, Arr.transpose, hs, List.range_succ]
  refine ⟨⟨basename filename, "counts", M, [ax, ay, ac], [some false, some false, some false], [none, none, none]⟩, ax, ay, ac, ?_, hMs,
    rfl, x2, y2, z2, x5, y5, z5, fun x y k _ _ _ => hMv x y k⟩
  unfold importImage
  simp only [Bool.false_eq_true, if_false, bind, Except.bind, pure, Except.pure, hM]
  rw [hMs]
  simp only [List.zip_cons_cons, List.zip_nil_right, List.mapM_cons, List.mapM_nil, bind, Except.bind, pure, Except.pure, x1, y1, z1]
  simp [mkField, hMs, checkAxes, checkAxisObj, x4, y4, z4, bind, Except.bind, pure, Except.pure]

/-- C77 violated: `hotpixelremove=True` has no effect for images without channels. -/
theorem hotpixel_grey_violated (spl : Splines K) (opening : Arr V → Arr V) (filename : String) (data : Arr V)
    (hs : data.shape.length = 2) :
    importImage spl opening filename true data = importImage spl opening filename false data := by
  unfold importImage removeHotPixels
  match hd : data.shape, hs with
  | [h, w], _ => rfl

theorem openChannels_shape (opening : Arr V → Arr V) (l : List ℕ) (a : Arr V) (hs : a.shape.length = 3) :
    ∃ b, openChannels opening l a = .ok b ∧ b.shape = a.shape := by
  induction l generalizing a with
  | nil => exact ⟨a, rfl, rfl⟩
  | cons i l ih =>
    obtain ⟨b, h1, h2⟩ := ih (setChannel a i (opening (channel a i))) hs
    have : greyOpening opening (channel a i) = .ok (opening (channel a i)) := by
      unfold greyOpening
      rw [if_pos (by simp [channel, hs])]
    exact ⟨b, by simp only [openChannels, this, bind, Except.bind]; exact h1, h2⟩

/-- C77 violated: `hotpixelremove=True` raises RuntimeError for every image with up to four channels. -/
theorem hotpixel_channels_violated (spl : Splines K) (opening : Arr V → Arr V) (filename : String) (data : Arr V) {h w c : ℕ}
    (hs : data.shape = [h, w, c]) (hc : c < 5) : importImage spl opening filename true data = .error .runtimeError := by
  obtain ⟨b, h1, h2⟩ := openChannels_shape opening (List.range c) data (by rw [hs]; rfl)
  have : removeHotPixels opening data = .error .runtimeError := by
    unfold removeHotPixels
    split
    next h' w' c' hs' =>
      rw [hs] at hs'
      simp only [List.cons.injEq, and_true] at hs'
      obtain ⟨_, _, rfl⟩ := hs'
      simp only [if_pos hc, h1, bind, Except.bind]
      unfold greyOpening
      rw [if_neg (by rw [h2, hs]; simp)]
    next hn => exact absurd hs (hn h w c)
  unfold importImage
  simp only [if_true, this, bind, Except.bind]

end

/-- C77: a greyscale png file with 16 bits, of which the first `s` are significant: the count values are restored, whatever the other
bits are. Partial: see `png_eight_bits_violated` and `png_colours_violated`. -/
theorem png_counts_partial (s : ℕ) (_hs : s ≤ 16) (counts fill : List ℕ → ℕ) (hf : ∀ idx, fill idx < 2 ^ (16 - s)) (data : Arr ℕ)
    (hd : ∀ idx, data.at' idx = counts idx * 2 ^ (16 - s) + fill idx) :
    ∃ r, readPng true (some [s]) data = .ok r ∧ r.shape = data.shape ∧ ∀ idx, r.at' idx = counts idx := by
  refine ⟨_, rfl, rfl, fun idx => ?_⟩
  simp only
  rw [hd, Nat.shiftRight_eq_div_pow, Nat.mul_comm, Nat.mul_add_div (by positivity), Nat.div_eq_of_lt (hf idx), add_zero]

/-- C77: a png file without the chunk sBIT is read as it is. -/
theorem png_plain (pypng : Bool) (data : Arr ℕ) : readPng pypng none data = .ok data := by
  cases pypng <;> rfl

/-- C77 violated: an image with 8 bits and the chunk sBIT (which says that all 8 bits are significant) becomes black. -/
theorem png_eight_bits_violated (data : Arr ℕ) (hd : ∀ idx, data.at' idx < 2 ^ 8) :
    ∃ r, readPng true (some [8]) data = .ok r ∧ ∀ idx, r.at' idx = 0 := by
  refine ⟨_, rfl, fun idx => ?_⟩
  simp only
  rw [Nat.shiftRight_eq_div_pow]
  exact Nat.div_eq_of_lt (hd idx)

/-- C77 violated: an image with colours and the chunk sBIT cannot be read. -/
theorem png_colours_violated (r g b : ℕ) (data : Arr ℕ) : readPng true (some [r, g, b]) data = .error .typeError := rfl

/-! ### Examples -/

/-- Rational numbers, printed as strokes. -/
def strokes (x : ℚ) : List Char := List.replicate (Encodable.encode x + 1) '|'

/-- Count strokes. -/
def countStrokes (l : List Char) : Option ℚ := Encodable.decode (l.length - 1)

theorem strokes_ok : PrintsNumbers (fun _ => True) strokes countStrokes where
  read x _ := by simp [strokes, countStrokes]
  nonempty x := by simp [strokes]
  plain x c hc := by
    obtain rfl := List.eq_of_mem_replicate hc
    decide

/-- Two rows and three columns. -/
def exTable : Arr ℚ := ⟨[2, 3], fun idx => (idx.headD 0 : ℚ) - idx.tail.headD 0⟩

/-- Splines for evenly spaced points: the points half way. -/
theorem midSplines_even : ExactOnEven midSplines := by
  have key : ∀ (a h : ℚ) (n : ℕ), 0 < n → mids ((List.range (n + 1)).map fun (i : ℕ) => a + (i : ℚ) * h) =
      (List.range n).map fun (i : ℕ) => a + ((i : ℚ) + 1 / 2) * h := by
    intro a h n hn
    have := mids_ap a h n
    simp only [ap] at this
    rw [this]
    apply List.map_congr_left
    intro i _
    ring
  exact ⟨key, key⟩

example := csv_roundtrip_partial midSplines_even strokes_ok ["Data extent".toList] exTable rfl (le_refl 2) (by decide) (fun _ _ _ _ => trivial)
  "/tmp/a.csv"

example := csv_default_violated midSplines_even strokes_ok ["Data extent".toList] exTable (Or.inr rfl) (by decide) "/tmp/a.csv"

example := image_grey midSplines_even id "/tmp/a.png" exTable rfl two_pos three_pos

example := image_channels midSplines_even id "/tmp/a.png" (⟨[4, 3, 2], fun idx => idx.sum⟩ : Arr ℕ) rfl four_pos three_pos two_pos

/-- 12 of 16 bits. -/
example := png_counts_partial 12 (by decide) (fun idx => 100 + idx.sum) (fun _ => 15) (fun _ => by decide)
  ⟨[2, 2], fun idx => (100 + idx.sum) * 16 + 15⟩ (fun _ => rfl)

end Postpic.Props
