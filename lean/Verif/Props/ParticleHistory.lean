import Mathlib.Tactic.Ring
import Verif.Lemmas.Particles
import Verif.Model.ParticleHistory

/-!
# C10: ids of the caller, and particle histories
-/

set_option autoImplicit false

namespace Postpic.Props

open Postpic Postpic.Particles

variable {V : Type}

/-- Specification: the trajectory of the particle with a given id, dump after dump. -/
def trajectory (ds : List (PDump V)) (i : Int) : List V :=
  ds.flatMap fun d => (d.filter fun p => decide (p.1 = i)).map (·.2)

/-- The caller's list of ids is unchanged unless it is an integer array. Missing for the full
property: integer arrays, see `ids_sorted_violated`. -/
theorem ids_unchanged_partial (a : IdArg)
    (h : ∀ l, a = .intArray l → l.Pairwise (· ≤ ·)) : argAfterSelect a = a := by
  cases a with
  | other l => rfl
  | intArray l =>
    have := h l rfl
    simp only [argAfterSelect, sortIds, IdArg.intArray.injEq]
    exact List.mergeSort_eq_self _ (this.imp (by simp))

example : ∀ l, IdArg.other [3, 1] = .intArray l → l.Pairwise (· ≤ ·) := by simp

/-- In any case the caller's object still holds the same ids with the same multiplicities. -/
theorem ids_perm (a : IdArg) : (argAfterSelect a).ids.Perm a.ids := by
  cases a with
  | other l => exact List.Perm.refl _
  | intArray l => exact List.mergeSort_perm _ _

/-- **The code violates C10**: an integer array of ids is sorted in place. -/
theorem ids_sorted_violated :
    argAfterSelect (.intArray [3, 1]) = .intArray [1, 3] := by
  simp [argAfterSelect, sortIds, List.mergeSort, List.MergeSort.Internal.splitInTwo]

/-! ## Particle histories -/

theorem lookup_gen (l : List Int) (k0 : ℕ) (d0 : Int → Option ℕ) (x : Int) :
    ((l.zipIdx k0).foldl (fun d p => fun k => if k = p.1 then some p.2 else d k) d0) x
      = if x ∈ l then
          ((l.zipIdx k0).foldl (fun d p => fun k => if k = p.1 then some p.2 else d k)
            (fun _ => none)) x
        else d0 x := by
  induction l generalizing k0 d0 with
  | nil => simp
  | cons a l ih =>
    simp only [List.zipIdx_cons, List.foldl_cons]
    rw [ih (k0 + 1), ih (k0 + 1) (fun k => if k = a then some k0 else none)]
    by_cases h : x ∈ l
    · simp [h]
    · by_cases hx : x = a <;> simp [h, hx]

theorem lookup_nodup (l : List Int) (hl : l.Nodup) (k0 i : ℕ) (hi : i < l.length) :
    ((l.zipIdx k0).foldl (fun d p => fun k => if k = p.1 then some p.2 else d k)
      (fun _ => none)) l[i] = some (k0 + i) := by
  induction l generalizing k0 i with
  | nil => simp at hi
  | cons a l ih =>
    rw [List.nodup_cons] at hl
    simp only [List.zipIdx_cons, List.foldl_cons]
    rw [lookup_gen]
    cases i with
    | zero => simp [hl.1]
    | succ i =>
      simp only [List.length_cons, Nat.add_lt_add_iff_right] at hi
      simp only [List.getElem_cons_succ, List.getElem_mem, if_true]
      rw [ih hl.2 (k0 + 1) i hi]
      congr 1; omega

theorem lookupDict_get (l : List Int) (hl : l.Nodup) (i : ℕ) (hi : i < l.length) :
    lookupDict l l[i] = some i := by
  have := lookup_nodup l hl 0 i hi
  simpa [lookupDict] using this

theorem selectDump_ok (ids : List Int) (hne : ids ≠ []) (d : PDump V) :
    selectDump ids d = .ok (d.filter fun p => decide (p.1 ∈ ids)) := by
  unfold selectDump
  have : (d.mapM fun p => idTest (sortIds ids) p.1) = .ok (d.map fun p => decide (p.1 ∈ ids)) :=
    mapM_ok _ _ _ (fun p _ => idTest_spec ids hne p.1)
  simp only [this, bind, Except.bind, pure, Except.pure]
  rw [pick_map_self]

theorem appendAll_ok (ids0 : List Int) (h0 : ids0.Nodup) (d : PDump V) (f : Int → List V) 
    (hd : ∀ p ∈ d, p.1 ∈ ids0) :
    appendAll (lookupDict ids0) d (ids0.map f)
      = .ok (ids0.map fun i => f i ++ (d.filter fun p => decide (p.1 = i)).map (·.2)) := by
  induction d generalizing f with
  | nil => simp [appendAll]
  | cons p d ih =>
    obtain ⟨i, v⟩ := p
    obtain ⟨j, hj, rfl⟩ := List.mem_iff_getElem.1 (hd (i, v) (by simp))
    unfold appendAll
    simp only [lookupDict_get ids0 h0 j hj, List.length_map, hj, if_true]
    have : (ids0.map f).modify j (· ++ [v])
        = ids0.map fun i => f i ++ (if i = ids0[j] then [v] else []) := by
      apply List.ext_getElem
      · simp
      · intro n h1 h2
        simp only [List.length_modify, List.length_map] at h1
        rw [List.getElem_modify]
        simp only [List.getElem_map, h0.getElem_inj_iff]
        by_cases hjn : j = n
        · simp [hjn]
        · simp [hjn, Ne.symm hjn]
    rw [this, ih _ (fun p hp => hd p (by simp [hp]))]
    congr 1
    apply List.map_congr_left
    intro i _
    rw [List.append_assoc]
    congr 1
    by_cases hi : i = ids0[j]
    · subst hi; simp
    · have : ¬ ids0[j] = i := fun h => hi h.symm
      simp [hi, this]

theorem collectLoop_ok (ids0 : List Int) (h0 : ids0.Nodup) (hne : ids0 ≠ []) (ds : List (PDump V))
    (ids : List Int) (hp : ids.Perm ids0) (f : Int → List V) :
    (collectLoop (lookupDict ids0) ds ids (ids0.map f)).1
      = .ok (ids0.map fun i => f i ++ trajectory ds i) ∧
    (collectLoop (lookupDict ids0) ds ids (ids0.map f)).2.Perm ids0 := by
  induction ds generalizing ids f with
  | nil => exact ⟨by simp [collectLoop, trajectory], hp⟩
  | cons d ds ih =>
    have hne' : ids ≠ [] := by
      rintro rfl; exact hne (List.nil_perm.1 hp)
    unfold collectLoop
    rw [selectDump_ok ids hne']
    simp only
    rw [appendAll_ok ids0 h0 _ f (fun p hp' => hp.subset (by simpa using (List.mem_filter.1 hp').2))]
    simp only
    obtain ⟨i1, i2⟩ := ih (sortIds ids) ((List.mergeSort_perm _ _).trans hp)
      (fun i => f i ++ ((d.filter fun p => decide (p.1 ∈ ids)).filter
        fun p => decide (p.1 = i)).map (·.2))
    refine ⟨?_, i2⟩
    rw [i1]
    congr 1
    apply List.map_congr_left
    intro i hi
    rw [List.append_assoc]
    congr 1
    simp only [trajectory, List.flatMap_cons]
    congr 1
    rw [List.filter_filter]
    congr 1
    apply List.filter_congr
    intro p _
    by_cases hpi : p.1 = i
    · have : i ∈ ids := hp.symm.subset hi
      simp [hpi, this]
    · simp [hpi]

/-- A history object on which `collect` has been called any number of times (on any dumps) since
it was constructed with `ids0`. -/
inductive Collected (V : Type) (ids0 : List Int) : History → Prop
  | new : Collected V ids0 (History.new ids0)
  | collect (h : History) (ds : List (PDump V)) :
      Collected V ids0 h → Collected V ids0 (h.collect ds).2

theorem collect_spec (ids0 : List Int) (h0 : ids0.Nodup) (hne : ids0 ≠ []) (h : History)
    (hi : h.id2i = lookupDict ids0) (hp : h.ids.Perm ids0) (ds : List (PDump V)) :
    (h.collect ds).1 = .ok (ids0.map (trajectory ds)) ∧
      (h.collect ds).2.id2i = lookupDict ids0 ∧ (h.collect ds).2.ids.Perm ids0 := by
  have e : List.replicate h.ids.length ([] : List V) = ids0.map fun _ => [] := by
    rw [hp.length_eq]; simp
  obtain ⟨h1, h2⟩ := collectLoop_ok ids0 h0 hne ds h.ids hp (fun _ => [])
  unfold History.collect
  rw [hi, e]
  refine ⟨?_, rfl, h2⟩
  simpa using h1

/-- For every non empty list of different ids, all simulations and however often `collect` was
called before, the `i`-th entry of the result is the trajectory of the `i`-th id of the list the
history was constructed with. Missing for the full property: duplicate ids and the empty list
(`collect_duplicate_violated`), and that `self.ids` still is this list
(`history_ids_violated`). -/
theorem collect_trajectories_partial (ids0 : List Int) (h0 : ids0.Nodup) (hne : ids0 ≠ [])
    (h : History) (hh : Collected V ids0 h) (ds : List (PDump V)) :
    (h.collect ds).1 = .ok (ids0.map (trajectory ds)) := by
  have key : h.id2i = lookupDict ids0 ∧ h.ids.Perm ids0 := by
    induction hh with
    | new => exact ⟨rfl, List.Perm.refl _⟩
    | collect h ds' _ ih => exact (collect_spec ids0 h0 hne h ih.1 ih.2 ds').2
  exact (collect_spec ids0 h0 hne h key.1 key.2 ds).1

/-- Example: two dumps, the order of the request is not the order in the dump. -/
example : (((History.new [3, 1]).collect [[(1, 10), (2, 20), (3, 30)], [(3, 31), (1, 11)]]).2.collect
    [[(1, 10), (2, 20), (3, 30)], [(3, 31), (1, 11)]]).1 = .ok [[30, 31], [10, 11]] := by
  rw [collect_trajectories_partial [3, 1] (by simp) (by simp) _ (.collect _ _ .new)]
  rfl

/-- The ids found in the object after a `collect` on a non empty simulation are sorted. -/
theorem collect_sorts_ids (h : History) (d : PDump V) (ds : List (PDump V)) :
    (h.collect (d :: ds)).2.ids.Pairwise (· ≤ ·) := by
  have : ∀ (ds : List (PDump V)) (id2i : Int → Option ℕ) (ids : List Int) acc,
      ids.Pairwise (· ≤ ·) → (collectLoop id2i ds ids acc).2.Pairwise (· ≤ ·) := by
    intro ds id2i
    induction ds with
    | nil => intro ids acc h; exact h
    | cons d ds ih =>
      intro ids acc h
      unfold collectLoop
      split
      · exact sortIds_pairwise ids
      · split
        · exact sortIds_pairwise ids
        · exact ih _ _ (sortIds_pairwise ids)
  unfold History.collect collectLoop
  simp only
  split
  · exact sortIds_pairwise _
  · split
    · exact sortIds_pairwise _
    · exact this _ _ _ _ (sortIds_pairwise _)

/-- **The code violates C10**: documented is that entry `i` of the result belongs to the particle
with the id `self.ids[i]`. For any ids that are not sorted already this is false after the call:
the result has the order of the request, but `self.ids` has been sorted. -/
theorem history_ids_violated (ids0 : List Int) (h0 : ids0.Nodup) (hne : ids0 ≠ [])
    (hs : ¬ ids0.Pairwise (· ≤ ·)) (d : PDump V) (ds : List (PDump V)) :
    ((History.new ids0).collect (d :: ds)).1 = .ok (ids0.map (trajectory (d :: ds))) ∧
    ((History.new ids0).collect (d :: ds)).2.ids ≠ ids0 := by
  refine ⟨collect_trajectories_partial ids0 h0 hne _ .new _, fun h => hs ?_⟩
  rw [← h]
  exact collect_sorts_ids _ d ds

example : ¬ ([3, 1] : List Int).Pairwise (· ≤ ·) := by simp

/-- C10: `skip(n)` keeps the first id and then every `n + 1`-th. -/
theorem skip_ids (h : History) (n i : ℕ) : (h.skip n).ids[i]? = h.ids[i * (n + 1)]? := by
  have : ∀ (l : List Int) (i : ℕ), (stride n l)[i]? = l[i * (n + 1)]? := by
    intro l
    induction hl : l.length using Nat.strong_induction_on generalizing l with
    | _ m ih =>
      intro i
      cases l with
      | nil => simp [stride]
      | cons a l =>
        unfold stride
        cases i with
        | zero => simp
        | succ i =>
          rw [List.getElem?_cons_succ, ih (l.drop n).length (by
            rw [List.length_drop, ← hl, List.length_cons]
            omega) _ rfl, List.getElem?_drop]
          have : (i + 1) * (n + 1) = (n + i * (n + 1)) + 1 := by ring
          rw [this, List.getElem?_cons_succ]
  exact this h.ids i

/-- C10: after `skip` the entries of the result belong to the remaining ids, in their order, for all
different ids. -/
theorem skip_collect_partial (h : History) (h0 : h.ids.Nodup) (hne : h.ids ≠ []) (n : ℕ)
    (ds : List (PDump V)) :
    ((h.skip n).collect ds).1 = .ok ((h.skip n).ids.map (trajectory ds)) := by
  refine collect_trajectories_partial (h.skip n).ids ?_ ?_ _ .new ds
  · rw [List.nodup_iff_getElem?_ne_getElem?]
    intro i j hij hj
    have hj' : j * (n + 1) < h.ids.length := by
      have := skip_ids h n j
      rw [List.getElem?_eq_getElem hj] at this
      exact (List.getElem?_eq_some_iff.1 this.symm).1
    rw [skip_ids, skip_ids]
    exact List.nodup_iff_getElem?_ne_getElem?.1 h0 _ _
      (Nat.mul_lt_mul_of_pos_right hij (Nat.succ_pos n)) hj'
  · intro he
    have := skip_ids h n 0
    rw [he] at this
    cases hi : h.ids with
    | nil => exact hne hi
    | cons a l => rw [hi] at this; simp at this

example : ((History.new [5, 1, 3, 2]).skip 1).ids = [5, 3] := by
  simp [History.skip, History.new, stride]

/-- **The code violates C10**: for a duplicate id only the last occurrence gets the trajectory. -/
theorem collect_duplicate_violated :
    ((History.new [1, 1]).collect [[((1 : Int), (10 : Int))]]).1 = .ok [[], [10]] := by
  unfold History.collect collectLoop
  rw [show (History.new [1, 1]).ids = [1, 1] from rfl, selectDump_ok _ (by simp)]
  rfl

end Postpic.Props
