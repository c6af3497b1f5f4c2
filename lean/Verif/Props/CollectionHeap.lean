import Verif.Model.CollectionHeap
import Verif.Props.Collection

/-!
# Arguments of selections
-/

set_option autoImplicit false

namespace Postpic.Props

open Postpic Postpic.Spec Postpic.Particles

variable {V : Type}

theorem resolve_update (σ : Store) (m : MaskRef) (a i n : ℕ) :
    (m.update σ a i n).resolve σ = newMask (m.resolve σ) (((σ.bools a).drop i).take n) := by
  cases m <;> rfl

theorem compressBool_mask {s t : SS V} {c : List Bool} (h : (compressBool s c).1 = .ok t) :
    t.dump = (len s).2.dump ∧ t.mask = newMask (len s).2.mask c := by
  unfold compressBool at h
  generalize len s = r at *
  obtain ⟨r1, s'⟩ := r
  cases r1 with
  | error e => cases h
  | ok n =>
    simp only at h
    split_ifs at h
    simp only at h
    cases hc : filterCache c s'.cache Key.all with
    | error e => rw [hc] at h; cases h
    | ok cache =>
      rw [hc] at h
      obtain rfl := Except.ok.inj h
      exact ⟨rfl, rfl⟩

theorem len_resolve {σ : Store} {s : RefSS V} {N : ℕ} (h : Inv (s.resolve σ) N) :
    ({ s with cache := (len (s.resolve σ)).2.cache } : RefSS V).resolve σ = (len (s.resolve σ)).2 := by
  obtain ⟨_, _, h3, h4⟩ := len_spec h
  generalize (len (s.resolve σ)).2 = t at *
  obtain ⟨d, m, c⟩ := t
  simp only [RefSS.resolve] at h3 h4 ⊢
  rw [h3, h4]

theorem compressRef_resolve {σ : Store} {s : RefSS V} {N : ℕ} (h : Inv (s.resolve σ) N) (a i n : ℕ) :
    (compressRef σ s a i n).map (RefSS.resolve σ) = (compressBool (s.resolve σ) (((σ.bools a).drop i).take n)).1 := by
  unfold compressRef
  cases hc : (compressBool (s.resolve σ) (((σ.bools a).drop i).take n)).1 with
  | error e => rfl
  | ok t =>
    obtain ⟨h1, h2⟩ := compressBool_mask hc
    obtain ⟨_, _, h3, h4⟩ := len_spec h
    simp only [bind, Except.bind, pure, Except.pure, Except.map]
    congr 1
    obtain ⟨d, m, c⟩ := t
    simp only [RefSS.resolve, resolve_update] at h1 h2 h3 h4 ⊢
    rw [h1, h3, h2, h4]

/-! ## C74 -/

/-- C74: `compress` with an array of the user gives the collection which it gives for the values of that array. Partial: as long as the
array is not changed, see `compress_shared_violated`. -/
theorem compress_array_partial (σ : Store) (a i : ℕ) (ms : List (RefSS V)) (Ns : List ℕ)
    (h : List.Forall₂ (fun s N => Inv (s.resolve σ) N) ms Ns) :
    (msCompressRef σ a i ms).map (fun l => l.map (RefSS.resolve σ)) = msCompressBool (σ.bools a) i (ms.map (RefSS.resolve σ)) := by
  induction h generalizing i with
  | nil => rfl
  | @cons s N ms Ns hs _ ih =>
    simp only [msCompressRef, List.map_cons, msCompressBool]
    rw [(len_spec hs).1]
    simp only [bind, Except.bind]
    have hr := len_resolve hs
    have hc := compressRef_resolve (s := { s with cache := (len (s.resolve σ)).2.cache }) (N := N) (σ := σ)
      (by rw [hr]; exact (len_spec hs).2.1) a i (selOf N (s.resolve σ).mask).length
    rw [hr] at hc
    rw [← hc, ← ih]
    cases compressRef σ { s with cache := (len (s.resolve σ)).2.cache } a i (selOf N (s.resolve σ).mask).length with
    | error e => rfl
    | ok t =>
      simp only [Except.map]
      cases msCompressRef σ a (i + (selOf N (s.resolve σ).mask).length) ms with
      | error e => rfl
      | ok l => rfl

/-- C74: a collection which had been filtered before does not share anything with the array: whatever the user writes into it later,
the selection stays as it is. -/
theorem compress_again_independent (σ σ' : Store) (a i : ℕ) (ms ms' : List (RefSS V))
    (hm : ∀ s ∈ ms, ∃ b, s.mask = .own b ∨ ∃ x y z, s.mask = .view x y z) (h : msCompressRef σ a i ms = .ok ms') :
    ms'.map (RefSS.resolve σ') = ms'.map (RefSS.resolve σ) := by
  induction ms generalizing i ms' with
  | nil =>
    obtain rfl := Except.ok.inj h
    rfl
  | cons s ms ih =>
    simp only [msCompressRef, bind, Except.bind] at h
    cases hl : (len (s.resolve σ)).1 with
    | error e => rw [hl] at h; cases h
    | ok n =>
      rw [hl] at h
      simp only [compressRef, bind, Except.bind] at h
      split at h
      · cases h
      next t ht =>
        split at ht
        · cases ht
        next u hu =>
          obtain rfl := Except.ok.inj ht
          split at h
          · cases h
          next l hl' =>
            obtain rfl := Except.ok.inj h
            rw [List.map_cons, List.map_cons, ih _ _ (fun s hs => hm s (by simp [hs])) hl']
            congr 1
            obtain ⟨b, hb | ⟨x, y, z, hb⟩⟩ := hm s (by simp) <;> simp [RefSS.resolve, hb, MaskRef.update, MaskRef.resolve]

/-- C74: selecting by an array of ids gives what it gives for the values, and does not change any other array. Partial: the array itself
is changed, see `select_sorts_violated`. -/
theorem select_array_partial (toInt : V → Int) (σ : Store) (a : ℕ) (ms : MS V) :
    (msSelectRef toInt σ a ms).1 = msCompressInt toInt (σ.ints a) ms ∧ (msSelectRef toInt σ a ms).2.bools = σ.bools ∧
    (∀ b, b ≠ a → (msSelectRef toInt σ a ms).2.ints b = σ.ints b) ∧
    ((msSelectRef toInt σ a ms).2.ints a).Perm (σ.ints a) := by
  refine ⟨rfl, ?_, ?_, ?_⟩
  · simp only [msSelectRef]
    split_ifs <;> rfl
  · intro b hb
    simp only [msSelectRef]
    split_ifs
    · rfl
    · simp [hb]
  · simp only [msSelectRef]
    split_ifs
    · exact List.Perm.refl _
    · simp only [if_true, sortIds]
      exact List.mergeSort_perm _ _

/-! ### Examples and violations -/

/-- A species of three particles, not filtered. -/
def refSpecies : RefSS Int := ⟨exDump, .none, fun _ => none⟩

/-- An array of booleans and one of ids. -/
def exStore : Store := ⟨fun _ => [true, false, true], fun _ => [3, 1]⟩

example : List.Forall₂ (fun s N => Inv (RefSS.resolve exStore s) N) [refSpecies, refSpecies] [3, 3] :=
  .cons (inv_fresh _ _ exDump_wf) (.cons (inv_fresh _ _ exDump_wf) .nil)

example : ∃ ms', msCompressRef exStore 0 0 [⟨exDump, .own [true, true, true], fun _ => none⟩] = .ok ms' ∧
    ms'.map (fun s => (s.resolve exStore).mask) = [.bools [true, false, true]] := ⟨_, rfl, rfl⟩

/-- C74 violated: the selection of a species which was not filtered before is the array of the user. After the user has changed it
(for example to use it for something else), the collection has other particles: 2 before and 3 afterwards. -/
theorem compress_shared_violated : ∃ (σ' : Store) (ms' : List (RefSS Int)), msCompressRef exStore 0 0 [refSpecies] = .ok ms' ∧
    msLen (ms'.map (RefSS.resolve exStore)) = .ok 2 ∧ σ'.bools 0 = [true, true, true] ∧
    msLen (ms'.map (RefSS.resolve σ')) = .ok 3 := by
  exact ⟨⟨fun _ => [true, true, true], fun _ => []⟩, _, rfl, rfl, rfl, rfl⟩

/-- C74 violated: an array of ids is sorted in place; afterwards the array of the user has another order. -/
theorem select_sorts_violated : exStore.ints 0 = [3, 1] ∧ (msSelectRef id exStore 0 [fresh exDump]).2.ints 0 = [1, 3] := by
  refine ⟨rfl, ?_⟩
  simp [msSelectRef, exStore, sortIds, List.mergeSort, List.MergeSort.Internal.splitInTwo]

end Postpic.Props
