import Verif.Lemmas.Simulation

/-!
# Indexing simulations, choosing readers
-/

set_option autoImplicit false

namespace Postpic.Props

open Postpic Postpic.Readers Postpic.Spec

section
variable {α β : Type}

theorem place_index {n : ℕ} {i : ℤ} {k : ℕ} (h : Place n i k) :
    (if i < 0 then i + (n : ℤ) else i) = k ∧ ¬ ((k : ℤ) ≥ n) := by
  obtain ⟨h1, h2⟩ := h
  split_ifs <;> omega

theorem pyGet_place {l : List α} {k : ℕ} {a : α} (h : l[k]? = some a) : pyGet l (k : ℤ) = .ok a := by
  have hk : k < l.length := (List.getElem?_eq_some_iff.1 h).1
  unfold pyGet pyIdx
  rw [if_pos (by omega), if_pos (by omega)]
  simp only [Int.toNat_natCast, h]

/-- C38: for every integer naming one of the `n` dumps, counted from either end, this dump is
opened. Partial: see `sim_index_low_violated` for integers below `-n`. -/
theorem sim_index_partial (files : List α) (openDump : α → Res β) (i : ℤ) (k : ℕ) (a : α)
    (hp : Place files.length i k) (ha : files[k]? = some a) :
    (fileSeries files openDump).getInt i = openDump a := by
  unfold Sim.getInt
  have : (fileSeries files openDump).len = files.length := rfl
  obtain ⟨h1, h2⟩ := place_index hp
  simp only [this]
  rw [h1, if_neg h2]
  show (do openDump (← pyGet files (k : ℤ))) = _
  rw [pyGet_place ha]
  rfl

/-- C38: integers from `n` on raise an `IndexError`. -/
theorem sim_index_high (s : Sim β) (i : ℤ) (hi : (s.len : ℤ) ≤ i) :
    s.getInt i = .error .indexError := by
  unfold Sim.getInt
  rw [if_neg (show ¬ i < 0 by omega), if_pos hi]
  rfl

/-- C38: integers below `-2n` raise an `IndexError`. -/
theorem sim_index_low_partial (files : List α) (openDump : α → Res β) (i : ℤ)
    (hi : i < -2 * (files.length : ℤ)) :
    (fileSeries files openDump).getInt i = .error .indexError := by
  unfold Sim.getInt
  have : (fileSeries files openDump).len = files.length := rfl
  simp only [this]
  rw [if_pos (show i < 0 by omega), if_neg (by omega)]
  show (do openDump (← pyGet files (i + files.length))) = _
  have : pyGet files (i + files.length) = .error .indexError := by
    unfold pyGet pyIdx
    rw [if_neg (by omega), if_neg (by omega)]
  rw [this]
  rfl

/-- C38 fails for integers from `-2n` to `-n-1`: instead of an `IndexError` the dump with number
`i + 2n` is returned. For a dummy simulation, every integer below `-n` raises a `ValueError` instead. -/
theorem sim_index_low_violated (files : List α) (openDump : α → Res β) (i : ℤ) (a : α)
    (h1 : -2 * (files.length : ℤ) ≤ i) (h2 : i < -(files.length : ℤ))
    (ha : files[(i + 2 * files.length).toNat]? = some a) (n : ℕ) (j : ℤ) (hj : j < -(n : ℤ)) :
    (fileSeries files openDump).getInt i = openDump a ∧ (dummySim n).getInt j = .error .valueError := by
  constructor
  · unfold Sim.getInt
    have : (fileSeries files openDump).len = files.length := rfl
    simp only [this]
    rw [if_pos (show i < 0 by omega), if_neg (by omega)]
    show (do openDump (← pyGet files (i + files.length))) = _
    have : pyGet files (i + files.length) = .ok a := by
      unfold pyGet pyIdx
      rw [if_neg (by omega), if_pos (by omega)]
      have : (i + ↑files.length + ↑files.length).toNat = (i + 2 * files.length).toNat := by omega
      simp only [this, ha]
    rw [this]
    rfl
  · unfold Sim.getInt
    have : (dummySim n).len = n := rfl
    simp only [this]
    rw [if_pos (show j < 0 by omega), if_neg (by omega)]
    show (if j + n < (n : ℤ) then (if j + n < 0 then _ else _) else _) = _
    rw [if_pos (by omega), if_pos (by omega)]

example : (fileSeries ["a", "b", "c"] (fun x => (.ok x : Res String))).getInt (-4) = .ok "c" := by
  decide

/-- C38: a dummy simulation hands out the dumps `0, ..., n-1`. -/
theorem dummy_index_partial (n : ℕ) (i : ℤ) (k : ℕ) (hp : Place n i k) :
    (dummySim n).getInt i = .ok (k : ℤ) := by
  unfold Sim.getInt
  have : (dummySim n).len = n := rfl
  obtain ⟨h1, h2⟩ := place_index hp
  simp only [this]
  rw [h1, if_neg h2]
  show (if (k : ℤ) < n then (if (k : ℤ) < 0 then _ else _) else _) = _
  rw [if_pos (by omega), if_neg (by omega)]

/-- C38: slices with any limits and steps open exactly the dumps python selects for a list, in this
order, and never fail. -/
theorem sim_slice (files : List α) (rd : α → β) (start stop : Option ℤ) (step : ℤ)
    (hstep : step ≠ 0) :
    ∃ l : List β,
      (fileSeries files fun x => .ok (rd x)).getSlice start stop (some step) = .ok l ∧
      (∀ (m : ℕ) (d : β), l[m]? = some d ↔
        ∃ (k : ℕ) (a : α), (k : ℤ) = firstLimit files.length step start + m * step ∧
          (if 0 < step then (k : ℤ) < secondLimit files.length step stop
            else secondLimit files.length step stop < k) ∧
          files[k]? = some a ∧ d = rd a) := by
  set i := firstLimit files.length step start with hi
  set j := secondLimit files.length step stop with hj
  have inside : ∀ x ∈ pyRange i j step, 0 ≤ x ∧ x < files.length := fun x hx =>
    slicePlace_inside hstep ((mem_pyRange hstep x).1 hx)
  have nonempty : ∀ x ∈ pyRange i j step, ∃ a, files[x.toNat]? = some a := by
    intro x hx
    have := inside x hx
    exact ⟨_, List.getElem?_eq_getElem (by omega)⟩
  -- the result
  have hex : ∃ l : List α, l.length = (pyRange i j step).length ∧
      ∀ (m : ℕ) (x : ℤ), (pyRange i j step)[m]? = some x → l[m]? = files[x.toNat]? := by
    refine ⟨(pyRange i j step).attach.map fun x => (nonempty x.1 x.2).choose, by simp, ?_⟩
    intro m x hx
    obtain ⟨hm, hx⟩ := List.getElem?_eq_some_iff.1 hx
    subst hx
    rw [List.getElem?_eq_getElem (by simpa using hm)]
    simp only [List.getElem_map, List.getElem_attach]
    exact (nonempty _ (List.getElem_mem hm)).choose_spec.symm
  obtain ⟨l, hl, hget⟩ := hex
  have hnth : ∀ (m : ℕ) (a : α), l[m]? = some a ↔ ∃ x : ℤ, (pyRange i j step)[m]? = some x ∧
      files[x.toNat]? = some a := by
    intro m a
    constructor
    · intro ha
      have hm : m < (pyRange i j step).length := by
        rw [← hl]; exact (List.getElem?_eq_some_iff.1 ha).1
      have hx : (pyRange i j step)[m]? = some (pyRange i j step)[m] := List.getElem?_eq_getElem hm
      exact ⟨_, hx, by rw [← hget m _ hx]; exact ha⟩
    · rintro ⟨x, hx, ha⟩
      rw [hget m x hx]
      exact ha
  refine ⟨l.map rd, ?_, ?_⟩
  · unfold Sim.getSlice
    have : (fileSeries files fun x => (.ok (rd x) : Res β)).len = files.length := rfl
    rw [this, sliceIndices_eq _ _ _ _ hstep]
    show (pyRange i j step).mapM _ = _
    apply mapM_of_get (by simpa using hl)
    intro m x d hx hd
    rw [List.getElem?_map, Option.map_eq_some_iff] at hd
    obtain ⟨a, ha, rfl⟩ := hd
    obtain ⟨x', hx', ha⟩ := (hnth m a).1 ha
    rw [hx, Option.some.injEq] at hx'
    subst hx'
    have := inside x (List.mem_of_getElem? hx)
    exact sim_index_partial files _ x x.toNat a ⟨by omega, Or.inl (by omega)⟩ ha
  · intro m d
    rw [List.getElem?_map, Option.map_eq_some_iff]
    constructor
    · rintro ⟨a, ha, rfl⟩
      obtain ⟨x, hx, ha⟩ := (hnth m a).1 ha
      have h0 := inside x (List.mem_of_getElem? hx)
      obtain ⟨h1, h2⟩ := (pyRange_get m x).1 hx
      have h3 := (rangeLen_iff hstep m).1 h1
      rw [← h2] at h3
      have h4 : (x.toNat : ℤ) = x := by omega
      exact ⟨x.toNat, a, by rw [h4]; exact h2, by rw [h4]; exact h3, ha, rfl⟩
    · rintro ⟨k, a, h1, h2, h3, rfl⟩
      refine ⟨a, (hnth m a).2 ⟨k, (pyRange_get m _).2 ⟨(rangeLen_iff hstep m).2 ?_, h1⟩, by simpa using h3⟩,
        rfl⟩
      rw [← h1]
      exact h2

/-- C38: a missing step is 1, the step 0 is refused. -/
theorem sim_slice_step (s : Sim β) (start stop : Option ℤ) :
    s.getSlice start stop none = s.getSlice start stop (some 1) ∧
      s.getSlice start stop (some 0) = .error .valueError := by
  constructor <;> rfl

/-- C38: iterating visits every dump exactly once, in order, and then stops. -/
theorem sim_iterate (files : List α) (rd : α → β) (l : List β) :
    (fileSeries files fun x => .ok (rd x)).Visits 0 l ↔ l = files.map rd := by
  have key : ∀ (n k : ℕ), n = files.length - k → ∀ l : List β,
      (fileSeries files fun x => .ok (rd x)).Visits (k : ℤ) l ↔ l = (files.drop k).map rd := by
    intro n
    induction n with
    | zero =>
      intro k hk l
      have hend := sim_index_high (fileSeries files fun x => (.ok (rd x) : Res β)) k
        (by show (files.length : ℤ) ≤ k; omega)
      rw [List.drop_eq_nil_of_le (by omega)]
      constructor
      · intro hv
        cases hv with
        | stop _ h => rfl
        | next _ d l' h h' =>
          rw [hend] at h
          cases h
      · rintro rfl
        exact .stop _ hend
    | succ n ih =>
      intro k hk l
      have hlt : k < files.length := by omega
      have hget := sim_index_partial files (fun x => (.ok (rd x) : Res β)) k k files[k]
        ⟨hlt, Or.inl rfl⟩ (List.getElem?_eq_getElem hlt)
      rw [List.drop_eq_getElem_cons hlt, List.map_cons]
      have ih := ih (k + 1) (by omega)
      push_cast at ih
      constructor
      · intro hv
        cases hv with
        | stop _ h =>
          rw [hget] at h
          cases h
        | next _ d l' h h' =>
          rw [hget] at h
          injection h with h
          rw [← h, (ih l').1 h']
      · rintro rfl
        exact .next _ _ _ hget ((ih _).2 rfl)
  simpa using key files.length 0 (by simp) l

/-- C38: going backward visits every dump exactly once in reverse order. -/
theorem sim_reversed (files : List α) (rd : α → β) :
    (fileSeries files fun x => .ok (rd x)).reversed = .ok (files.map rd).reverse := by
  unfold Sim.reversed
  have : (fileSeries files fun x => (.ok (rd x) : Res β)).len = files.length := rfl
  rw [this]
  apply mapM_of_get (by simp)
  intro m x d hx hd
  rw [List.getElem?_map, Option.map_eq_some_iff] at hx
  obtain ⟨k, hk, rfl⟩ := hx
  have hm : m < files.length := by
    have := (List.getElem?_eq_some_iff.1 hk).1
    simpa using this
  rw [List.getElem?_reverse (by simpa using hm), List.length_range,
    List.getElem?_range (by omega), Option.some.injEq] at hk
  rw [List.getElem?_reverse (by simpa using hm), List.length_map, List.getElem?_map,
    Option.map_eq_some_iff] at hd
  obtain ⟨a, ha, rfl⟩ := hd
  rw [hk] at ha
  exact sim_index_partial files _ k k a ⟨by omega, Or.inl rfl⟩ ha

/-- C38: other arguments than integers and slices are refused. -/
theorem sim_other (s : Sim β) : s.getitem .other = .error .typeError := rfl

end

example : (fileSeries ["a", "b", "c"] (fun x => (.ok x : Res String))).getSlice (some (-1)) none
    (some (-2)) = .ok ["c", "a"] := by decide

example := sim_index_partial ["a", "b", "c"] (fun x => (.ok x : Res String)) (-1) 2 "c"
  ⟨by decide, Or.inr (by decide)⟩ rfl

example := sim_slice ["a", "b", "c"] (fun x => x) (some (-1)) none (-2) (by decide)

example := sim_index_low_violated ["a", "b", "c"] (fun x => (.ok x : Res String)) (-4) "c"
  (by decide) (by decide) rfl 3 (-5) (by decide)

example := sim_index_low_partial ["a", "b", "c"] (fun x => (.ok x : Res String)) (-7) (by decide)

example := dummy_index_partial 5 (-2) 3 ⟨by decide, Or.inr (by decide)⟩

/-! ## C50: choosing readers -/

theorem sameName_iff {s code : String} (h : code.toList.map Char.toLower = code.toList) :
    SameName s code ↔ lower s = code := by
  unfold SameName lower
  rw [← String.toList_inj, String.toList_map]
  generalize s.toList = a at *
  generalize code.toList = b at *
  induction a generalizing b with
  | nil => cases b <;> simp
  | cons x a ih =>
    cases b with
    | nil => simp
    | cons y b =>
      simp only [List.map_cons, List.cons.injEq] at h
      rw [List.forall₂_cons, List.map_cons, List.cons.injEq, ih b h.2, h.1]

theorem find?_congr' {α : Type} {p q : α → Bool} {l : List α} (h : ∀ a ∈ l, p a = q a) :
    l.find? p = l.find? q := by
  induction l with
  | nil => rfl
  | cons a l ih =>
    rw [List.find?_cons, List.find?_cons, h a (by simp), ih fun b hb => h b (by simp [hb])]

theorem codeOf_eq (s : String) : codeOf s = codeTable.find? fun e => decide (lower s = e.1) := by
  unfold codeOf
  apply find?_congr'
  intro e he
  have : e.1.toList.map Char.toLower = e.1.toList := by
    revert e
    decide
  simp [sameName_iff this]

/-- C50: a known name, in whatever spelling, chooses its readers; every other name is refused and
nothing changes. A known name whose module cannot be imported is refused in the same way. -/
theorem choose_code (avail : String → Bool) (r : Registry) (s : String) :
    match codeOf s with
    | some e => if avail e.2.1
        then chooseCode avail r s = (⟨some (.dump e.2.2.1), some (.sim e.2.2.2)⟩, none)
        else chooseCode avail r s = (r, some .importError)
    | none => ∃ err, chooseCode avail r s = (r, some err) := by
  rw [codeOf_eq]
  unfold chooseCode
  generalize lower s = t
  simp only [codeTable, List.find?_cons, List.find?_nil, List.mem_cons, List.not_mem_nil, or_false]
  by_cases h1 : t = "dummy"
  · subst h1
    by_cases ha : avail "dummy" <;> simp [useReaders, ha, setDumpCls, setSimCls]
  by_cases h2 : t = "epoch"
  · subst h2
    by_cases ha : avail "epochsdf" <;> simp [useReaders, ha, setDumpCls, setSimCls]
  by_cases h3 : t = "epoch1d"
  · subst h3
    by_cases ha : avail "epochsdf" <;> simp [useReaders, ha, setDumpCls, setSimCls]
  by_cases h4 : t = "epoch2d"
  · subst h4
    by_cases ha : avail "epochsdf" <;> simp [useReaders, ha, setDumpCls, setSimCls]
  by_cases h5 : t = "epoch3d"
  · subst h5
    by_cases ha : avail "epochsdf" <;> simp [useReaders, ha, setDumpCls, setSimCls]
  by_cases h6 : t = "openpmd"
  · subst h6
    by_cases ha : avail "openPMDh5" <;> simp [useReaders, ha, setDumpCls, setSimCls]
  by_cases h7 : t = "openpmdh5"
  · subst h7
    by_cases ha : avail "openPMDh5" <;> simp [useReaders, ha, setDumpCls, setSimCls]
  by_cases h8 : t = "picongpu"
  · subst h8
    by_cases ha : avail "openPMDh5" <;> simp [useReaders, ha, setDumpCls, setSimCls]
  by_cases h9 : t = "fbpic"
  · subst h9
    by_cases ha : avail "openPMDh5" <;> simp [useReaders, ha, setDumpCls, setSimCls]
  by_cases h10 : t = "smilei"
  · subst h10
    by_cases ha : avail "smileih5" <;> simp [useReaders, ha, setDumpCls, setSimCls]
  simp only [h1, h2, h3, h4, h5, h6, h7, h8, h9, h10, decide_false, or_false, if_false]
  split_ifs <;> exact ⟨_, rfl⟩

/-- C50: the readers do not depend on upper and lower case. -/
theorem choose_code_case (avail : String → Bool) (r : Registry) (s t : String) (h : SameName s t) :
    chooseCode avail r s = chooseCode avail r t := by
  have : lower s = lower t := by
    unfold lower
    rw [← String.toList_inj, String.toList_map, String.toList_map]
    unfold SameName at h
    generalize s.toList = a at *
    generalize t.toList = b at *
    induction h with
    | nil => rfl
    | cons h1 _ ih => rw [List.map_cons, List.map_cons, h1, ih]
  unfold chooseCode
  rw [this]

theorem run_dump (avail : String → Bool) (r : Registry) (c : Call) :
    (c.run avail r).dump = (dumpChoice avail c).orElse fun _ => r.dump := by
  cases c with
  | choose s =>
    have h := choose_code avail r s
    simp only [Call.run, dumpChoice]
    cases hc : codeOf s with
    | none =>
      rw [hc] at h
      obtain ⟨e, h⟩ := h
      rw [h]
      rfl
    | some e =>
      rw [hc] at h
      simp only at h ⊢
      split_ifs at h ⊢ with ha
      · rw [h]
        rfl
      · rw [h]
        rfl
  | setDump c => cases c <;> rfl
  | setSim c => cases c <;> rfl
  | readDump => rfl
  | readSim => rfl

theorem run_sim (avail : String → Bool) (r : Registry) (c : Call) :
    (c.run avail r).sim = (simChoice avail c).orElse fun _ => r.sim := by
  cases c with
  | choose s =>
    have h := choose_code avail r s
    simp only [Call.run, simChoice]
    cases hc : codeOf s with
    | none =>
      rw [hc] at h
      obtain ⟨e, h⟩ := h
      rw [h]
      rfl
    | some e =>
      rw [hc] at h
      simp only at h ⊢
      split_ifs at h ⊢ with ha
      · rw [h]
        rfl
      · rw [h]
        rfl
  | setDump c => cases c <;> rfl
  | setSim c => cases c <;> rfl
  | readDump => rfl
  | readSim => rfl

theorem last_choice {σ : Type} (step : σ → Call → σ) (get : σ → Option Cls)
    (choice : Call → Option Cls)
    (h : ∀ r c, get (step r c) = (choice c).orElse fun _ => get r) (calls : List Call) (r : σ) :
    get (calls.foldl step r) = (calls.filterMap choice).getLast?.orElse fun _ => get r := by
  induction calls generalizing r with
  | nil => rfl
  | cons c calls ih =>
    rw [List.foldl_cons, ih, h]
    cases hc : choice c with
    | none => rw [List.filterMap_cons_none hc]; rfl
    | some x =>
      rw [List.filterMap_cons_some hc, List.getLast?_cons]
      cases (List.filterMap choice calls).getLast? <;> rfl

/-- C50: after any history of calls, `readDump` and `readSim` use the readers of the last choice
that was accepted; if there was none they are refused. -/
theorem choose_code_history (avail : String → Bool) (calls : List Call) :
    let r := calls.foldl (Call.run avail) Registry.init
    readDump r = (match (calls.filterMap (dumpChoice avail)).getLast? with
      | some c => .ok c
      | none => .error .genericException) ∧
    readSim r = (match (calls.filterMap (simChoice avail)).getLast? with
      | some c => .ok c
      | none => .error .genericException) := by
  constructor
  · unfold readDump
    rw [last_choice (Call.run avail) Registry.dump (dumpChoice avail) (run_dump avail)]
    cases (List.filterMap (dumpChoice avail) calls).getLast? <;> rfl
  · unfold readSim
    rw [last_choice (Call.run avail) Registry.sim (simChoice avail) (run_sim avail)]
    cases (List.filterMap (simChoice avail) calls).getLast? <;> rfl

example : codeOf "piconGPU" = some ("picongpu", "openPMDh5", "OpenPMDreader", "FileSeries") := by
  decide +kernel

example : codeOf "VSIM" = none := by decide +kernel

example : readSim ([Call.choose "EPOCH", .choose "unknown", .readDump].foldl
    (Call.run fun _ => true) Registry.init) = .ok (.sim "Visitreader") := by decide +kernel

end Postpic.Props
