import Mathlib.Algebra.Order.Ring.Rat
import Verif.Lemmas.Series
import Verif.Props.Simulation

/-!
# C81 to C84: series of files, iterations in a file, and the identity of dumps
-/

set_option autoImplicit false

namespace Postpic.Props

open Postpic Postpic.Readers Postpic.Spec

/-! ## C81: the order of a series of files -/

/-- C81: the order in which the file system lists the files does not matter. -/
theorem series_glob_order {β : Type} (l l' : List (List Char)) (h : l.Perm l') (openDump : List Char → Res β) :
    globSeries l openDump = globSeries l' openDump := by
  unfold globSeries
  rw [sortNames_congr h]

/-- C81: if the names contain numbers written with the same number of digits, every file is one dump of the series, and the dumps are in
the order of these numbers. Partial: see `series_order_violated` for numbers of different width. -/
theorem series_order_partial {β : Type} (pre post : List Char) (w : ℕ) (num : List Char → ℕ) (names : List (List Char))
    (hn : ∀ f ∈ names, Numbered pre post w (num f) f) (hd : names.Nodup) (openDump : List Char → Res β) :
    ∃ files : List (List Char), files.Perm names ∧ files.Pairwise (fun a b => num a < num b) ∧
      (globSeries names openDump).len = files.length ∧
      ∀ (i : ℕ) (f : List Char), files[i]? = some f → (globSeries names openDump).getInt i = openDump f := by
  refine ⟨sortNames names, sortNames_perm names, sorted_numbers hn hd, rfl, ?_⟩
  intro i f hf
  exact sim_index_partial _ openDump i i f ⟨(List.getElem?_eq_some_iff.1 hf).1, Or.inl rfl⟩ hf

/-- C81: then `times` lists the times of all dumps in increasing order, if the times increase with the numbers. Partial as above. -/
theorem series_times_partial {β K : Type} [LinearOrder K] (pre post : List Char) (w : ℕ) (num : List Char → ℕ)
    (names : List (List Char)) (hn : ∀ f ∈ names, Numbered pre post w (num f) f) (hd : names.Nodup) (rd : List Char → β)
    (time : β → Res K) (t : List Char → K) (ht : ∀ f ∈ names, time (rd f) = .ok (t f))
    (hmono : ∀ f ∈ names, ∀ g ∈ names, num f < num g → t f < t g) :
    ∃ ts : List K, (∀ ts', (globSeries names fun f => .ok (rd f)).TimesAre time ts' ↔ ts' = ts) ∧
      ts.Pairwise (· < ·) ∧ ts.Perm (names.map t) := by
  refine ⟨(sortNames names).map t, ?_, ?_, (sortNames_perm names).map t⟩
  · have hm : ((sortNames names).map rd).mapM time = .ok ((sortNames names).map t) := by
      rw [List.mapM_map]
      exact mapM_ok fun f hf => ht f (mem_sortNames.1 hf)
    intro ts'
    constructor
    · rintro ⟨l, hl, hts⟩
      rw [(sim_iterate _ rd l).1 hl, hm] at hts
      injection hts with hts
      exact hts.symm
    · rintro rfl
      exact ⟨_, (sim_iterate _ rd _).2 rfl, hm⟩
  · rw [List.pairwise_map]
    refine (sorted_numbers hn hd).imp_of_mem ?_
    intro a b ha hb hab
    exact hmono a (mem_sortNames.1 ha) b (mem_sortNames.1 hb) hab

/-- The number in a name such as `data10.h5`. -/
def nameNumber (f : List Char) : ℕ := Nat.ofDigitChars 10 (f.filter Char.isDigit) 0

example : ∀ f ∈ ["out00100".toList, "out00009".toList, "out00010".toList],
    Numbered "out".toList [] 5 (nameNumber f) f := by
  intro f hf
  simp only [List.mem_cons, List.not_mem_nil, or_false] at hf
  rcases hf with rfl | rfl | rfl
  · exact ⟨"00100".toList, by decide, by decide, by decide, by decide⟩
  · exact ⟨"00009".toList, by decide, by decide, by decide, by decide⟩
  · exact ⟨"00010".toList, by decide, by decide, by decide, by decide⟩

/-- C81 fails for numbers of different width: the files `d9` and `d10` are read in this wrong order, and `times` decreases. -/
theorem series_order_violated :
    (globSeries ["d9".toList, "d10".toList] fun f => .ok (nameNumber f)).TimesAre (fun n => .ok (n : ℚ)) [10, 9] := by
  refine ⟨[10, 9], ?_, rfl⟩
  refine (sim_iterate _ nameNumber _).2 ?_
  decide +kernel

/-! ## C82: the files listed in a .visit file -/

/-- C82: a .visit file which has the name of a file in each line, ending with a newline or not, is the series of these files in this
order. Names are relative to the directory of the .visit file. Partial: see `visit_lines_violated` for other lines. -/
theorem visit_lines_partial {β : Type} (path : List Char) (names : List (List Char)) (last : List Char) (h : ∀ a ∈ names, '\n' ∉ a)
    (hlast : '\n' ∉ last) (openDump : List Char → Res β) :
    let s := visitSeries path ((names.map (· ++ ['\n'])).flatten ++ last) openDump
    let files := if last = [] then names else names ++ [last]
    s.len = files.length ∧ ∀ (i : ℕ) (f : List Char), files[i]? = some f → s.getInt i = openDump (joinPath path f) := by
  intro s files
  have hs : visitFiles path ((names.map (· ++ ['\n'])).flatten ++ last) = files.map (joinPath path) := by
    unfold visitFiles
    rw [linesFrom_all names h, linesFrom_last last hlast, List.nil_append]
    congr 1
    show _ = if last = [] then names else names ++ [last]
    split_ifs with hl
    · simp
    · rfl
  constructor
  · show (visitFiles _ _).length = _
    rw [hs, List.length_map]
  · intro i f hf
    have hf' : (files.map (joinPath path))[i]? = some (joinPath path f) := by rw [List.getElem?_map, hf]; rfl
    show (fileSeries (visitFiles _ _) openDump).getInt i = _
    rw [hs]
    exact sim_index_partial _ openDump i i _ ⟨(List.getElem?_eq_some_iff.1 hf').1, Or.inl rfl⟩ hf'

/-- C82: a name without leading slash is looked for next to the .visit file, one with leading slash is absolute. -/
theorem visit_paths (path name : List Char) (hp : path ≠ []) (hs : path.getLast? ≠ some '/') :
    (name.head? ≠ some '/' → joinPath path name = path ++ '/' :: name) ∧ (name.head? = some '/' → joinPath path name = name) := by
  constructor
  · intro h
    unfold joinPath
    split
    · simp at h
    · rw [if_neg (by tauto)]
  · intro h
    cases name with
    | nil => simp at h
    | cons c cs =>
      simp only [List.head?_cons, Option.some.injEq] at h
      subst h
      rfl

example : visitFiles "/sim".toList "0000.sdf\n0001.sdf\n".toList = ["/sim/0000.sdf".toList, "/sim/0001.sdf".toList] := by
  decide +kernel

/-- C82 fails for empty lines, and for the lines `!NBLOCKS n` which may occur in .visit files: they count as dumps. -/
theorem visit_lines_violated {β : Type} (openDump : List Char → Res β) :
    (visitSeries "/sim".toList "0000.sdf\n\n".toList openDump).len = 2 ∧
      (visitSeries "/sim".toList "0000.sdf\n\n".toList openDump).getInt 1 = openDump "/sim/".toList ∧
      (visitSeries "/sim".toList "!NBLOCKS 1\n0000.sdf\n".toList openDump).getInt 0 = openDump "/sim/!NBLOCKS 1".toList := by
  refine ⟨?_, ?_, ?_⟩
  · show (visitFiles _ _).length = 2
    decide +kernel
  · exact sim_index_partial _ openDump 1 1 _ ⟨by decide +kernel, Or.inl rfl⟩ (by decide +kernel)
  · exact sim_index_partial _ openDump 0 0 _ ⟨by decide +kernel, Or.inl rfl⟩ (by decide +kernel)

/-! ## C83: the iterations in a file -/

/-- C83: opening a file with a number of an iteration shows the datasets of this iteration, and only these; if the file has no such
iteration, a `KeyError` is raised. -/
theorem openpmd_iteration {D : Type} (h : H5 D) (n : ℕ) :
    ((∃ e ∈ h, e.iteration = Nat.toDigits 10 n) → ∃ o : Opened D, openPMD h (some n) = .ok o ∧ o.iteration = n ∧
      ∀ k v, (k, v) ∈ o.data ↔ InIteration h (Nat.toDigits 10 n) k v) ∧
    ((¬ ∃ e ∈ h, e.iteration = Nat.toDigits 10 n) → openPMD h (some n) = .error .keyError) := by
  constructor
  · intro hm
    obtain ⟨l, hl, hmem⟩ := group_ok hm
    refine ⟨⟨n, l⟩, ?_, rfl, hmem⟩
    unfold openPMD
    show (do return (⟨(n : ℤ), ← h.group (formatInt 0 n)⟩ : Opened D)) = _
    rw [format_zero, hl]
    rfl
  · intro hm
    unfold openPMD
    show (do return (⟨(n : ℤ), ← h.group (formatInt 0 n)⟩ : Opened D)) = _
    rw [format_zero]
    have : h.group (Nat.toDigits 10 n) = .error .keyError := by
      unfold H5.group
      rw [if_neg (fun hc => hm (List.mem_map.1 hc))]
    rw [this]
    rfl

/-- C83: without a number the earliest iteration of the file is shown. Partial: for files whose numbers have equally many digits, see
`first_iteration_violated`, and whose groups are named without leading zeros, see `padded_iteration_violated`. -/
theorem first_iteration_partial {D : Type} (h : H5 D) (w : ℕ) (hw : 0 < w) (hne : h ≠ [])
    (hn : ∀ e ∈ h, ∃ n, Numbered [] [] w n e.iteration ∧ e.iteration = Nat.toDigits 10 n) :
    ∃ (o : Opened D) (n : ℕ), openPMD h none = .ok o ∧ o.iteration = n ∧ (∃ e ∈ h, e.iteration = Nat.toDigits 10 n) ∧
      (∀ e ∈ h, ∀ m, e.iteration = Nat.toDigits 10 m → n ≤ m) ∧ ∀ k v, (k, v) ∈ o.data ↔ InIteration h (Nat.toDigits 10 n) k v := by
  have hnum : ∀ f ∈ (h.map Entry.iteration).dedup, Numbered [] [] w (val f) f := by
    intro f hf
    obtain ⟨e, he, rfl⟩ := List.mem_map.1 (List.mem_dedup.1 hf)
    obtain ⟨n, h1, h2⟩ := hn e he
    rw [(numbered_digits h1).2.2]
    exact h1
  have hsorted := sorted_numbers hnum (List.nodup_dedup _)
  have hlen : 0 < h.iterations.length := by
    cases h with
    | nil => exact absurd rfl hne
    | cons e es =>
      refine List.length_pos_of_mem (a := e.iteration) ?_
      exact mem_iterations.2 ⟨e, by simp, rfl⟩
  have hfirst : h.iterations[0]? = some h.iterations[0] := List.getElem?_eq_getElem hlen
  obtain ⟨e, he, hee⟩ := mem_iterations.1 (List.getElem_mem hlen)
  obtain ⟨n, h1, h2⟩ := hn e he
  obtain ⟨o, ho1, ho2, ho3⟩ := (openpmd_iteration h n).1 ⟨e, he, h2⟩
  refine ⟨o, n, ?_, ho2, ⟨e, he, h2⟩, ?_, ho3⟩
  · have : h.first = .ok (n : ℤ) := by
      unfold H5.first
      have hg : pyGet h.iterations 0 = .ok h.iterations[0] := pyGet_place hfirst
      rw [hg, ← hee]
      show pyInt e.iteration = _
      exact pyInt_numbered hw h1
    rw [← ho1]
    unfold openPMD
    simp only [this]
  · intro e' he' m hm
    have hv : ∀ f ∈ h.iterations, val h.iterations[0] ≤ val f := by
      intro f hf
      obtain ⟨i, hi, rfl⟩ := List.mem_iff_getElem.1 hf
      rcases Nat.eq_zero_or_pos i with rfl | hpos
      · exact le_refl _
      · exact le_of_lt (List.pairwise_iff_getElem.1 hsorted 0 i hlen hi hpos)
    have := hv e'.iteration (mem_iterations.2 ⟨e', he', rfl⟩)
    rw [← hee, hm, h2] at this
    unfold val at this
    rwa [Nat.ofDigitChars_ten_toDigits, Nat.ofDigitChars_ten_toDigits] at this

/-- A file with the given iterations, each with one dataset. -/
def h5With (names : List String) : H5 ℕ := names.map fun n => ⟨n.toList, "E".toList, n.length⟩

example : ∀ e ∈ h5With ["300", "100", "200"], ∃ n, Numbered [] [] 3 n e.iteration ∧ e.iteration = Nat.toDigits 10 n := by
  intro e he
  simp only [h5With, List.map_cons, List.map_nil, List.mem_cons, List.not_mem_nil, or_false] at he
  rcases he with rfl | rfl | rfl
  · exact ⟨300, ⟨"300".toList, by decide, by decide, by decide, by decide⟩, by decide⟩
  · exact ⟨100, ⟨"100".toList, by decide, by decide, by decide, by decide⟩, by decide⟩
  · exact ⟨200, ⟨"200".toList, by decide, by decide, by decide, by decide⟩, by decide⟩

/-- C83 fails for numbers with different numbers of digits: of the iterations 90 and 100 the later one is shown. -/
theorem first_iteration_violated : (openPMD (h5With ["90", "100"]) none).map Opened.iteration = .ok 100 := by
  decide +kernel

/-- C83 fails for iterations named with leading zeros (which openPMD allows): they are found but cannot be opened. -/
theorem padded_iteration_violated : openPMD (h5With ["0100", "0200"]) none = .error .keyError ∧
    openPMD (h5With ["0100", "0200"]) (some 100) = .error .keyError := by
  constructor <;> decide +kernel

/-- C83: the series of a directory of Smilei files which has not been opened before. There is one dump for each iteration in any of the
files, in the order of the iterations, with the datasets of this iteration in all the files. Partial: for directories without an index
file, see `smilei_index_violated`, and not for single files, see `smilei_file_violated`. -/
theorem smilei_series_partial {D : Type} (d : SmileiDir D) (broken : H5 D → Bool) (hidx : d.index = none)
    (hb : ∀ f ∈ d.files, broken f = false) (hkeys : (d.files.flatten.map fun e => (e.iteration, e.key)).Nodup)
    (hw : ∀ f ∈ d.files, ∀ e ∈ f, ∃ n, Numbered [] [] 10 n e.iteration) :
    ∃ (d' : SmileiDir D) (h : H5 D) (s : Sim (Opened D)) (ns : List ℕ), d.getIndex broken = (d', .ok h) ∧ smileiDirSeries h = .ok s ∧
      s.len = ns.length ∧ ns.Pairwise (· < ·) ∧
      (∀ n, n ∈ ns ↔ ∃ f ∈ d.files, ∃ e ∈ f, Numbered [] [] 10 n e.iteration) ∧
      ∀ (i n : ℕ), ns[i]? = some n → ∃ o : Opened D, s.getInt i = .ok o ∧ o.iteration = n ∧
        ∀ k v, (k, v) ∈ o.data ↔ ∃ f ∈ d.files, ∃ name, Numbered [] [] 10 n name ∧ InIteration f name k v := by
  have hmap : (d.files.map fun f => if broken f then none else some f) = d.files.map some := by
    refine List.map_congr_left ?_
    intro f hf
    rw [if_neg (by simp [hb f hf])]
  have hgen := generateIndex_ok d.files [] (by simpa using hkeys)
  rw [List.nil_append] at hgen
  have hnum : ∀ f ∈ H5.iterations d.files.flatten, Numbered [] [] 10 (val f) f := by
    intro f hf
    obtain ⟨e, he, rfl⟩ := mem_iterations.1 hf
    obtain ⟨g, hg, heg⟩ := List.mem_flatten.1 he
    obtain ⟨n, h1⟩ := hw g hg e heg
    rw [(numbered_digits h1).2.2]
    exact h1
  have hsorted : (H5.iterations d.files.flatten).Pairwise fun a b => val a < val b := by
    refine sorted_numbers (pre := []) (post := []) (w := 10) ?_ (List.nodup_dedup _)
    intro f hf
    exact hnum f (mem_sortNames.2 hf)
  have hints : (H5.iterations d.files.flatten).mapM pyInt = .ok ((H5.iterations d.files.flatten).map fun f => (val f : ℤ)) :=
    mapM_ok fun f hf => pyInt_numbered (by decide) (hnum f hf)
  refine ⟨{ d with index := some d.files.flatten }, d.files.flatten,
    fileSeries ((H5.iterations d.files.flatten).map fun f => (val f : ℤ)) fun k => openSmilei d.files.flatten (.int k),
    (H5.iterations d.files.flatten).map val, ?_, ?_, ?_, ?_, ?_, ?_⟩
  · unfold SmileiDir.getIndex
    rw [hidx]
    simp only [hmap, hgen]
  · unfold smileiDirSeries
    rw [hints]
    rfl
  · simp [fileSeries]
  · rw [List.pairwise_map]
    exact hsorted
  · intro n
    rw [List.mem_map]
    constructor
    · rintro ⟨f, hf, rfl⟩
      obtain ⟨e, he, rfl⟩ := mem_iterations.1 hf
      obtain ⟨g, hg, heg⟩ := List.mem_flatten.1 he
      exact ⟨g, hg, e, heg, hnum _ hf⟩
    · rintro ⟨g, hg, e, heg, h1⟩
      exact ⟨e.iteration, mem_iterations.2 ⟨e, List.mem_flatten.2 ⟨g, hg, heg⟩, rfl⟩, (numbered_digits h1).2.2⟩
  · intro i n hi
    rw [List.getElem?_map] at hi
    obtain ⟨f, hf, rfl⟩ := Option.map_eq_some_iff.1 hi
    have hfm : f ∈ H5.iterations d.files.flatten := List.mem_of_getElem? hf
    have hfe := hnum f hfm
    obtain ⟨l, hl, hmem⟩ := group_ok (mem_iterations.1 hfm)
    refine ⟨⟨(val f : ℤ), l⟩, ?_, rfl, ?_⟩
    · have hk : ((H5.iterations d.files.flatten).map fun f => (val f : ℤ))[i]? = some (val f : ℤ) := by
        rw [List.getElem?_map, hf]
        rfl
      rw [sim_index_partial _ _ i i _ ⟨(List.getElem?_eq_some_iff.1 hk).1, Or.inl rfl⟩ hk]
      have hit : smileiIteration d.files.flatten (.int (val f : ℤ)) = .ok (val f : ℤ) := by
        unfold smileiIteration
        rw [hints]
        exact if_pos (List.mem_map.2 ⟨f, hfm, rfl⟩)
      unfold openSmilei
      rw [hit]
      show (do return (⟨(val f : ℤ), ← H5.group d.files.flatten (formatInt 10 (val f : ℤ))⟩ : Opened D)) = _
      rw [format_of_numbered (by decide) hfe, hl]
      rfl
    · intro k v
      rw [hmem]
      constructor
      · intro hin
        obtain ⟨g, hg, heg⟩ := List.mem_flatten.1 hin
        exact ⟨g, hg, f, hfe, heg⟩
      · rintro ⟨g, hg, name, hname, hin⟩
        rw [numbered_inj hfe hname]
        exact List.mem_flatten.2 ⟨g, hg, hin⟩

/-- Two files of a Smilei simulation with the same two iterations. -/
def smileiFiles : List (H5 ℕ) :=
  [[⟨"0000000000".toList, "Ex".toList, 1⟩, ⟨"0000000100".toList, "Ex".toList, 2⟩],
   [⟨"0000000000".toList, "x".toList, 3⟩, ⟨"0000000100".toList, "x".toList, 4⟩]]

example : (smileiFiles.flatten.map fun e => (e.iteration, e.key)).Nodup := by
  decide +kernel

example : (do let s ← smileiDirSeries (smileiFiles.flatten); s.getInt 1) =
    .ok ⟨100, [("Ex".toList, 2), ("x".toList, 4)]⟩ := by
  decide +kernel

/-- C83 fails for directories which have been opened before: the index file is not renewed, an iteration written meanwhile is missing. -/
theorem smilei_index_violated :
    let d : SmileiDir ℕ := ⟨[h5With ["0000000000"]], none⟩
    let d' := (d.getIndex fun _ => false).1
    let later : SmileiDir ℕ := { d' with files := [h5With ["0000000000", "0000000100"]] }
    (later.getIndex fun _ => false).2 = .ok (h5With ["0000000000"]) := by
  decide +kernel

/-- C83 fails after a crash: if one of the files cannot be read, the exception is raised once only. From then on the incomplete index file
is used without a message, even when the file can be read again. -/
theorem smilei_crash_violated :
    let d : SmileiDir ℕ := ⟨[h5With ["0000000000"], h5With ["0000000100"]], none⟩
    let r := d.getIndex fun f => decide (f = h5With ["0000000100"])
    r.2 = .error .ioError ∧ (r.1.getIndex fun _ => false).2 = .ok (h5With ["0000000000"]) := by
  decide +kernel

/-- C83 fails for a `SmileiSeries` of a single file: none of its dumps can be opened, as the names of the iterations are compared with
numbers. -/
theorem smilei_file_violated {D : Type} (h : H5 D) (hw : ∀ e ∈ h, ∃ n, Numbered [] [] 10 n e.iteration) (i : ℕ)
    (hi : i < (smileiFileSeries h).len) : (smileiFileSeries h).getInt i = .error .ioError := by
  have hi' : i < h.iterations.length := hi
  rw [show smileiFileSeries h = fileSeries h.iterations fun k => openSmilei h (.str k) from rfl,
    sim_index_partial _ _ i i _ ⟨hi', Or.inl rfl⟩ (List.getElem?_eq_getElem hi')]
  have hints : h.iterations.mapM pyInt = .ok (h.iterations.map fun f => (val f : ℤ)) := by
    refine mapM_ok fun f hf => ?_
    obtain ⟨e, he, rfl⟩ := mem_iterations.1 hf
    obtain ⟨n, h1⟩ := hw e he
    rw [(numbered_digits h1).2.2]
    exact pyInt_numbered (by decide) h1
  unfold openSmilei smileiIteration
  rw [hints]
  rfl

example : (smileiFileSeries (h5With ["0000000000", "0000000100"])).len = 2 := by decide +kernel

/-! ## C84: the identity of dumps -/

theorem baseEq_iff (fs : Paths) (a b : Dump) : baseEq fs a b = true ↔ locationOf fs a = locationOf fs b := by
  unfold baseEq locationOf
  cases ha : fs a.ident.toStr with
  | none =>
    cases hb : fs b.ident.toStr with
    | none => simp
    | some y =>
      simp only [decide_eq_true_eq, reduceCtorEq, iff_false]
      intro h
      rw [h, hb] at ha
      cases ha
  | some x =>
    cases hb : fs b.ident.toStr with
    | none =>
      simp only [decide_eq_true_eq, reduceCtorEq, iff_false]
      intro h
      rw [h, hb] at ha
      cases ha
    | some y => simp

/-- C84: `==` says whether two readers represent the same dump, where a file may be named by different paths. Partial: if readers of the
same location show the same iteration, and dummy dumps are not compared with others; see `dump_eq_violated`, `dump_eq_mixed_violated`. -/
theorem dump_eq_partial (fs : Paths) (a b : Dump) (h1 : OnePerLocation fs [a, b]) (h2 : NotMixed fs [a, b]) :
    ∃ r : Bool, Dump.eq fs a b = .ok r ∧ (r = true ↔ SameDump fs a b) := by
  have hm := h2 a (by simp) b (by simp)
  have ho := h1 a (by simp) b (by simp)
  cases ha : a.kind with
  | file c i =>
    refine ⟨baseEq fs a b, by simp only [Dump.eq, ha], ?_⟩
    rw [baseEq_iff]
    exact ⟨fun h => ⟨h, ho ⟨c, i, ha⟩ h⟩, fun h => h.1⟩
  | dummy r s d =>
    by_cases hl : baseEq fs a b = true
    · cases hb : b.kind with
      | file c i =>
        exfalso
        obtain ⟨c', i', h'⟩ := (hm ((baseEq_iff fs a b).1 hl)).2 ⟨c, i, hb⟩
        rw [ha] at h'
        cases h'
      | dummy r' s' d' =>
        refine ⟨decide (r = r') && decide (s = s') && decide (d = d'), by simp only [Dump.eq, ha, hb, if_pos hl], ?_⟩
        unfold SameDump
        rw [ha, hb, ← baseEq_iff]
        simp only [hl, true_and, Bool.and_eq_true, decide_eq_true_eq, Kind.dummy.injEq]
        tauto
    · refine ⟨false, by simp only [Dump.eq, ha, if_neg hl], ?_⟩
      unfold SameDump
      rw [← baseEq_iff]
      simp [hl]

/-- C84: for readers of files `==` is reflexive, symmetric and transitive, and never raises an exception. -/
theorem dump_eq_equivalence (fs : Paths) (files : List Dump) (hf : ∀ a ∈ files, ∃ c i, a.kind = .file c i) :
    (∀ a ∈ files, Dump.eq fs a a = .ok true) ∧ (∀ a ∈ files, ∀ b ∈ files, Dump.eq fs a b = Dump.eq fs b a) ∧
      ∀ a ∈ files, ∀ b ∈ files, ∀ c ∈ files, Dump.eq fs a b = .ok true → Dump.eq fs b c = .ok true → Dump.eq fs a c = .ok true := by
  have key : ∀ a ∈ files, ∀ b, Dump.eq fs a b = .ok (baseEq fs a b) := by
    intro a ha b
    obtain ⟨c, i, h⟩ := hf a ha
    simp only [Dump.eq, h]
  have kt : ∀ a ∈ files, ∀ b, Dump.eq fs a b = .ok true ↔ locationOf fs a = locationOf fs b := by
    intro a ha b
    rw [key a ha b, ← baseEq_iff]
    exact ⟨fun h => by injection h, fun h => by rw [h]⟩
  refine ⟨fun a ha => (kt a ha a).2 rfl, ?_, ?_⟩
  · intro a ha b hb
    rw [key a ha, key b hb]
    congr 1
    rw [Bool.eq_iff_iff, baseEq_iff, baseEq_iff]
    exact eq_comm
  · intro a ha b hb c hc h1 h2
    rw [kt a ha] at h1 ⊢
    rw [kt b hb] at h2
    rw [h1, h2]

/-- Two paths of the same file, and one of another file. -/
def twoPaths : Paths := fun s => if s = "./a.h5".toList ∨ s = "a.h5".toList then some 1 else if s = "b.h5".toList then some 2 else none

/-- A reader of a file. -/
def fileDump (path : String) (iteration : Option ℤ) : Dump := ⟨.str path.toList, .file "OpenPMDreader".toList iteration⟩

example : Dump.eq twoPaths (fileDump "./a.h5" none) (fileDump "a.h5" none) = .ok true ∧
    Dump.eq twoPaths (fileDump "b.h5" none) (fileDump "a.h5" none) = .ok false ∧
    OnePerLocation twoPaths [fileDump "./a.h5" none, fileDump "a.h5" none] ∧
    NotMixed twoPaths [fileDump "./a.h5" none, fileDump "a.h5" none] := by
  refine ⟨by decide +kernel, by decide +kernel, ?_, ?_⟩
  · intro a ha b hb _ _
    simp only [List.mem_cons, List.not_mem_nil, or_false] at ha hb
    rcases ha with rfl | rfl <;> rcases hb with rfl | rfl <;> rfl
  · intro a ha b hb _
    simp only [List.mem_cons, List.not_mem_nil, or_false] at ha hb
    rcases ha with rfl | rfl <;> rcases hb with rfl | rfl <;> exact ⟨fun _ => ⟨_, _, rfl⟩, fun _ => ⟨_, _, rfl⟩⟩

/-- C84 fails for different iterations of the same file (or of a Smilei directory): they are different dumps but compare equal. -/
theorem dump_eq_violated (fs : Paths) (path : String) :
    Dump.eq fs (fileDump path (some 0)) (fileDump path (some 100)) = .ok true ∧
      ¬ SameDump fs (fileDump path (some 0)) (fileDump path (some 100)) := by
  constructor
  · have : baseEq fs (fileDump path (some 0)) (fileDump path (some 100)) = true := (baseEq_iff _ _ _).2 rfl
    show Except.ok (baseEq fs (fileDump path (some 0)) (fileDump path (some 100))) = _
    rw [this]
  · rintro ⟨-, h⟩
    simp [fileDump] at h

/-- C84 fails for a dummy dump compared with a reader which has the same identifier: an exception in one direction, and equality in the
other. -/
theorem dump_eq_mixed_violated (fs : Paths) (i : ℤ) :
    let a : Dump := ⟨.int i, .dummy 0 (some 0) 2⟩
    let b : Dump := ⟨.int i, .file "Reader".toList none⟩
    Dump.eq fs a b = .error .attributeError ∧ Dump.eq fs b a = .ok true := by
  intro a b
  have h1 : baseEq fs a b = true := (baseEq_iff _ _ _).2 rfl
  have h2 : baseEq fs b a = true := (baseEq_iff _ _ _).2 rfl
  constructor
  · show (if baseEq fs a b then _ else _) = _
    rw [if_pos h1]
  · show Except.ok (baseEq fs b a) = _
    rw [h2]

/-- C84: the dump of a collection of species is one of their dumps if all of them represent the same dump, and otherwise `None`. Partial:
as for `==`, and see `collection_dump_violated`. -/
theorem collection_dump_partial (fs : Paths) (d : Dump) (ds : List Dump) (h1 : OnePerLocation fs (d :: ds)) (h2 : NotMixed fs (d :: ds)) :
    ∃ r, dumpreaderOf fs (d :: ds) = .ok r ∧ (r = some d ∨ r = none) ∧ (r = some d ↔ ∀ x ∈ ds, SameDump fs d x) := by
  have hall : ∀ x ∈ d :: ds, Dump.eq fs d x = .ok (decide (Dump.eq fs d x = .ok true)) ∧
      (decide (Dump.eq fs d x = .ok true) = true ↔ SameDump fs d x) := by
    intro x hx
    obtain ⟨r, hr, hrs⟩ := dump_eq_partial fs d x
      (fun a ha b hb => h1 a (by simp only [List.mem_cons, List.not_mem_nil, or_false] at ha; rcases ha with rfl | rfl; simp; exact hx)
        b (by simp only [List.mem_cons, List.not_mem_nil, or_false] at hb; rcases hb with rfl | rfl; simp; exact hx))
      (fun a ha b hb => h2 a (by simp only [List.mem_cons, List.not_mem_nil, or_false] at ha; rcases ha with rfl | rfl; simp; exact hx)
        b (by simp only [List.mem_cons, List.not_mem_nil, or_false] at hb; rcases hb with rfl | rfl; simp; exact hx))
    rw [← hrs, hr]
    cases r <;> simp
  have hmap : (d :: ds).mapM (fun x => Dump.eq fs d x) = .ok ((d :: ds).map fun x => decide (Dump.eq fs d x = .ok true)) :=
    mapM_ok fun x hx => (hall x hx).1
  have hself : SameDump fs d d := ⟨rfl, rfl⟩
  by_cases hs : ∀ x ∈ d :: ds, SameDump fs d x
  · refine ⟨some d, ?_, Or.inl rfl, ⟨fun _ x hx => hs x (by simp [hx]), fun _ => rfl⟩⟩
    simp only [dumpreaderOf, hmap]
    refine if_pos ?_
    simp only [List.all_map, List.all_eq_true]
    intro x hx
    exact (hall x hx).2.2 (hs x hx)
  · refine ⟨none, ?_, Or.inr rfl, ⟨fun h => absurd h (by simp), fun h => absurd ?_ hs⟩⟩
    · simp only [dumpreaderOf, hmap]
      refine if_neg ?_
      simp only [List.all_map, List.all_eq_true]
      intro h
      exact hs fun x hx => (hall x hx).2.1 (h x hx)
    · intro x hx
      rcases List.mem_cons.1 hx with rfl | hx
      · exact hself
      · exact h x hx

/-- C84: a collection without species has no dump. -/
theorem collection_dump_empty (fs : Paths) : dumpreaderOf fs [] = .ok none := rfl

/-- C84 fails for a collection of species from two iterations of a file: the first one passes for the dump of all of them. The number of
grid points of a collection is never returned. -/
theorem collection_dump_violated (fs : Paths) (path : String) {N : Type} (gridpoints : Dump → Res N) (n : N) (d : Dump) (ds : List Dump)
    (hg : gridpoints d = .ok n) :
    dumpreaderOf fs [fileDump path (some 0), fileDump path (some 100)] = .ok (some (fileDump path (some 0))) ∧
      simgridpointsOf gridpoints (d :: ds) = .ok none := by
  constructor
  · have h0 : Dump.eq fs (fileDump path (some 0)) (fileDump path (some 0)) = .ok true := by
      show Except.ok (baseEq fs _ _) = _
      rw [(baseEq_iff _ _ _).2 rfl]
    have h1 := (dump_eq_violated fs path).1
    unfold dumpreaderOf
    simp only [List.mapM_cons, List.mapM_nil, h0, h1]
    rfl
  · unfold simgridpointsOf
    simp only [hg]

/-! ## C84: names -/

/-- C84: a name which is given to a dump or simulation is shown, as text; without a name the identifier is shown. Partial: see
`name_zero_violated` for the number 0. -/
theorem name_partial (ident : Ident) (s : List Char) (i : ℤ) (hs : s ≠ []) (hi : i ≠ 0) :
    nameOf ident (setName (.str s)) = .str s ∧ nameOf ident (setName (.int i)) = .str (formatInt 0 i) ∧
      nameOf ident (setName .none) = .str ident.toStr ∧ nameOf ident (setName (.str [])) = .str ident.toStr := by
  have hne : formatInt 0 i ≠ [] := by
    unfold formatInt
    split_ifs
    · simp
    · simp only [List.leftpad, Nat.zero_sub, List.replicate_zero, List.nil_append]
      exact Nat.toDigits_ne_nil
  refine ⟨?_, ?_, rfl, rfl⟩
  · simp [nameOf, setName, NameVal.truthy, NameVal.toStr, hs]
  · simp [nameOf, setName, NameVal.truthy, NameVal.toStr, hi, hne]

/-- C84 fails for the number 0, which is not shown as name; and a number given to the constructor is not turned into text. -/
theorem name_zero_violated (ident : Ident) :
    nameOf ident (setName (.int 0)) = .str ident.toStr ∧ nameOf ident (.int 5) = .int 5 := ⟨rfl, rfl⟩

end Postpic.Props
