import Mathlib.Algebra.Order.Archimedean.Basic
import Mathlib.Algebra.Order.Field.Basic
import Mathlib.Algebra.Order.Floor.Ring
import Mathlib.Data.List.Forall2
import Mathlib.Data.List.Nodup
import Mathlib.Tactic.Linarith
import Mathlib.Tactic.Ring
import Verif.Spec.Interp
import Verif.Lemmas.Field

/-!
# Lemmas: parallel interpolation
-/

set_option autoImplicit false
set_option linter.unusedSectionVars false

namespace Postpic.Interp

open Postpic

/-! ### Products -/

theorem mem_product {α : Type} {ls : List (List α)} {x : List α} :
    x ∈ product ls ↔ List.Forall₂ (· ∈ ·) x ls := by
  induction ls generalizing x with
  | nil => simp [product]
  | cons l ls ih =>
    simp only [product, List.mem_flatMap, List.mem_map]
    constructor
    · rintro ⟨a, ha, y, hy, rfl⟩
      exact List.Forall₂.cons ha (ih.1 hy)
    · intro h
      cases h with
      | cons h1 h2 => exact ⟨_, h1, _, ih.2 h2, rfl⟩

theorem nodup_product {α : Type} {ls : List (List α)} (h : ∀ l ∈ ls, l.Nodup) : (product ls).Nodup := by
  induction ls with
  | nil => simp [product]
  | cons l ls ih =>
    have hp := ih fun l hl => h l (List.mem_cons_of_mem _ hl)
    unfold product
    rw [List.nodup_flatMap]
    refine ⟨fun x _ => hp.map (fun a b h => (List.cons_eq_cons.1 h).2), ?_⟩
    refine (h l (List.mem_cons_self ..)).pairwise_of_forall_ne ?_
    intro a _ b _ hab x hx hy
    obtain ⟨y, _, rfl⟩ := List.mem_map.1 hx
    obtain ⟨z, _, hz⟩ := List.mem_map.1 hy
    exact hab (List.cons_eq_cons.1 hz).1.symm

theorem inBounds_nil {idx : List ℕ} : InBounds [] idx ↔ idx = [] := by
  constructor
  · intro h
    exact List.length_eq_zero_iff.1 h.1
  · rintro rfl
    exact ⟨rfl, by simp⟩

theorem inBounds_cons {n : ℕ} {shape idx : List ℕ} :
    InBounds (n :: shape) idx ↔ ∃ i rest, idx = i :: rest ∧ i < n ∧ InBounds shape rest := by
  constructor
  · intro ⟨h1, h2⟩
    cases idx with
    | nil => simp at h1
    | cons i rest =>
      refine ⟨i, rest, rfl, h2 0 i n rfl rfl, by simpa using h1, ?_⟩
      intro d j m hj hm
      exact h2 (d + 1) j m (by simpa using hj) (by simpa using hm)
  · rintro ⟨i, rest, rfl, hi, h1, h2⟩
    refine ⟨by simp [h1], ?_⟩
    intro d j m hj hm
    cases d with
    | zero => cases hj; cases hm; exact hi
    | succ d => exact h2 d j m (by simpa using hj) (by simpa using hm)

theorem mem_indices {shape idx : List ℕ} : idx ∈ indices shape ↔ InBounds shape idx := by
  unfold indices
  rw [mem_product]
  induction shape generalizing idx with
  | nil => simp [inBounds_nil]
  | cons n shape ih =>
    rw [inBounds_cons, List.map_cons]
    constructor
    · intro h
      cases h with
      | cons h1 h2 => exact ⟨_, _, rfl, List.mem_range.1 h1, ih.1 h2⟩
    · rintro ⟨i, rest, rfl, hi, hr⟩
      exact List.Forall₂.cons (List.mem_range.2 hi) (ih.2 hr)

theorem nodup_indices (shape : List ℕ) : (indices shape).Nodup := by
  apply nodup_product
  intro l hl
  obtain ⟨n, _, rfl⟩ := List.mem_map.1 hl
  exact List.nodup_range

/-! ### Chunks -/

/-- The chunks of one axis. -/
def slices (L n : ℕ) : List (ℕ × ℕ) :=
  (List.range ((n + L - 1) / L)).map fun k =>
    (k * L, if k + 1 = (n + L - 1) / L then n else k * L + L)

theorem axisChunks_eq {L n : ℕ} (hL : 0 < L) (hn : 0 < n) : axisChunks L n = .ok (slices L n) := by
  have hm : 0 < (n + L - 1) / L := Nat.div_pos (by omega) hL
  unfold axisChunks slices
  set m := (n + L - 1) / L
  have hidx : pyIdx (((List.range m).map (· * L)).map (· + L)).length (-1) = some (m - 1) := by
    rw [List.length_map, List.length_map, List.length_range]
    unfold pyIdx
    rw [if_neg (by omega), if_pos (by omega)]
    congr 1
    omega
  unfold pySet
  simp only [hidx, bind, Except.bind, pure, Except.pure]
  congr 1
  apply List.ext_getElem
  · simp
  intro k h1 h2
  have hk : k < m := by simpa using h2
  simp only [List.getElem_zip, List.getElem_map, List.getElem_range, List.getElem_set]
  by_cases h : m - 1 = k
  · rw [if_pos h, if_pos (by omega)]
  · rw [if_neg h, if_neg (by omega)]

theorem slice_lt {L n : ℕ} (hL : 0 < L) {k : ℕ} : k < (n + L - 1) / L ↔ k * L < n := by
  rw [Nat.lt_iff_add_one_le, Nat.le_div_iff_mul_le hL, Nat.add_mul, Nat.one_mul]
  omega

theorem mem_slices {L n : ℕ} (hL : 0 < L) {s : ℕ × ℕ} (h : s ∈ slices L n) : s.1 < s.2 ∧ s.2 ≤ n := by
  obtain ⟨k, hk, rfl⟩ := List.mem_map.1 h
  have hk := List.mem_range.1 hk
  have h1 := (slice_lt hL).1 hk
  split_ifs with h2
  · exact ⟨h1, le_refl _⟩
  · have : k + 1 < (n + L - 1) / L := by omega
    have := (slice_lt hL).1 this
    rw [Nat.add_mul, Nat.one_mul] at this
    exact ⟨by simp only; omega, by simp only; omega⟩

theorem slice_of {L n i : ℕ} (hL : 0 < L) (hi : i < n) :
    ∃ s ∈ slices L n, s.1 ≤ i ∧ i < s.2 := by
  have hd : i / L * L ≤ i := Nat.div_mul_le_self i L
  have hk : i / L < (n + L - 1) / L := (slice_lt hL).2 (by omega)
  refine ⟨_, List.mem_map.2 ⟨i / L, List.mem_range.2 hk, rfl⟩, hd, ?_⟩
  split_ifs with h
  · exact hi
  · have := Nat.lt_succ_iff.1 (Nat.lt_succ_self (i / L))
    have h2 : i < (i / L + 1) * L := by
      rw [← Nat.div_lt_iff_lt_mul hL]
      exact Nat.lt_succ_self _
    rw [Nat.add_mul, Nat.one_mul] at h2
    exact h2

theorem slice_unique {L n i : ℕ} (hL : 0 < L) {s t : ℕ × ℕ} (hs : s ∈ slices L n) (ht : t ∈ slices L n)
    (h1 : s.1 ≤ i ∧ i < s.2) (h2 : t.1 ≤ i ∧ i < t.2) : s = t := by
  have key : ∀ k, k < (n + L - 1) / L → k * L ≤ i →
      i < (if k + 1 = (n + L - 1) / L then n else k * L + L) → k = i / L := by
    intro k hk h1 h2
    have h3 : i < (k + 1) * L := by
      rw [Nat.add_mul, Nat.one_mul]
      split_ifs at h2 with h
      · have : ¬ (k + 1) < (n + L - 1) / L := by omega
        rw [slice_lt hL, Nat.add_mul, Nat.one_mul] at this
        omega
      · exact h2
    apply le_antisymm
    · exact (Nat.le_div_iff_mul_le hL).2 h1
    · exact Nat.lt_succ_iff.1 ((Nat.div_lt_iff_lt_mul hL).2 h3)
  obtain ⟨k, hk, rfl⟩ := List.mem_map.1 hs
  obtain ⟨l, hl, rfl⟩ := List.mem_map.1 ht
  rw [key k (List.mem_range.1 hk) h1.1 h1.2, key l (List.mem_range.1 hl) h2.1 h2.2]

theorem nodup_slices {L n : ℕ} (hL : 0 < L) : (slices L n).Nodup := by
  apply List.nodup_range.map
  intro a b h
  exact Nat.eq_of_mul_eq_mul_right hL (Prod.mk.inj h).1

theorem chunks_eq {L : ℕ} (hL : 0 < L) {shape : List ℕ} (h0 : 0 ∉ shape) :
    chunks L shape = .ok (product (shape.map (slices L))) := by
  have : shape.mapM (axisChunks L) = .ok (shape.map (slices L)) := by
    apply Fields.mapM_of_forall2
    rw [List.forall₂_map_right_iff, List.forall₂_same]
    intro n hn
    exact axisChunks_eq hL (Nat.pos_of_ne_zero fun h => h0 (h ▸ hn))
  unfold chunks
  rw [this]
  rfl

/-- The index belongs to the chunk. -/
def InChunk (c : List (ℕ × ℕ)) (idx : List ℕ) : Prop :=
  List.Forall₂ (fun s i => s.1 ≤ i ∧ i < s.2) c idx

theorem chunk_of {L : ℕ} (hL : 0 < L) {shape idx : List ℕ} (h : InBounds shape idx) :
    ∃ c ∈ product (shape.map (slices L)), InChunk c idx := by
  induction shape generalizing idx with
  | nil =>
    rw [inBounds_nil.1 h]
    exact ⟨[], by simp [product], List.Forall₂.nil⟩
  | cons n shape ih =>
    obtain ⟨i, rest, rfl, hi, hr⟩ := inBounds_cons.1 h
    obtain ⟨c, hc, hc'⟩ := ih hr
    obtain ⟨s, hs, hs'⟩ := slice_of hL hi
    rw [mem_product] at hc
    exact ⟨s :: c, mem_product.2 (List.Forall₂.cons hs hc), List.Forall₂.cons hs' hc'⟩

theorem chunk_unique {L : ℕ} (hL : 0 < L) {shape idx : List ℕ} {c c' : List (ℕ × ℕ)}
    (hc : c ∈ product (shape.map (slices L))) (hc' : c' ∈ product (shape.map (slices L)))
    (h : InChunk c idx) (h' : InChunk c' idx) : c = c' := by
  rw [mem_product] at hc hc'
  induction shape generalizing idx c c' with
  | nil =>
    cases hc
    cases hc'
    rfl
  | cons n shape ih =>
    cases hc with
    | cons a1 a2 =>
      cases hc' with
      | cons b1 b2 =>
        cases h with
        | cons c1 c2 =>
          cases h' with
          | cons d1 d2 => rw [slice_unique hL a1 b1 c1 d1, ih a2 b2 c2 d2]

theorem chunk_inBounds {L : ℕ} (hL : 0 < L) {shape idx : List ℕ} {c : List (ℕ × ℕ)}
    (hc : c ∈ product (shape.map (slices L))) (h : InChunk c idx) : InBounds shape idx := by
  rw [mem_product] at hc
  induction shape generalizing idx c with
  | nil =>
    cases hc
    cases h
    exact inBounds_nil.2 rfl
  | cons n shape ih =>
    cases hc with
    | cons a1 a2 =>
      cases h with
      | cons c1 c2 =>
        have := mem_slices hL a1
        exact inBounds_cons.2 ⟨_, _, rfl, by omega, ih a2 c2⟩

/-- The position in the output of a position in the chunk. -/
def place (c : List (ℕ × ℕ)) (idx : List ℕ) : List ℕ :=
  List.zipWith (fun (s : ℕ × ℕ) i => s.1 + i) c idx

/-- The positions in a chunk. -/
def inner (c : List (ℕ × ℕ)) : List (List ℕ) := indices (c.map fun s => s.2 - s.1)

theorem mem_place {c : List (ℕ × ℕ)} {g : List ℕ} :
    g ∈ (inner c).map (place c) ↔ InChunk c g := by
  unfold InChunk
  rw [List.mem_map]
  constructor
  · rintro ⟨idx, hi, rfl⟩
    unfold inner at hi
    rw [mem_indices] at hi
    induction c generalizing idx with
    | nil => exact List.Forall₂.nil
    | cons s c ih =>
      obtain ⟨i, rest, rfl, hi, hr⟩ := inBounds_cons.1 hi
      simp only at hi
      exact List.Forall₂.cons ⟨by simp only; omega, by simp only; omega⟩ (ih rest hr)
  · intro h
    induction h with
    | nil => exact ⟨[], mem_indices.2 (inBounds_nil.2 rfl), rfl⟩
    | @cons s i c g h1 h2 ih =>
      obtain ⟨idx, hi, rfl⟩ := ih
      unfold inner at hi
      rw [mem_indices] at hi
      refine ⟨(i - s.1) :: idx, mem_indices.2 (inBounds_cons.2 ⟨_, _, rfl, by simp only; omega, hi⟩), ?_⟩
      unfold place
      rw [List.zipWith_cons_cons]
      congr 1
      omega

theorem place_injective {c : List (ℕ × ℕ)} {a b : List ℕ} (ha : a.length = c.length)
    (hb : b.length = c.length) (h : place c a = place c b) : a = b := by
  induction c generalizing a b with
  | nil => rw [List.length_eq_zero_iff.1 ha, List.length_eq_zero_iff.1 hb]
  | cons s c ih =>
    cases a with
    | nil => simp at ha
    | cons i a =>
      cases b with
      | nil => simp at hb
      | cons j b =>
        unfold place at h
        rw [List.zipWith_cons_cons, List.zipWith_cons_cons] at h
        obtain ⟨h1, h2⟩ := List.cons_eq_cons.1 h
        rw [ih (by simpa using ha) (by simpa using hb) h2]
        congr 1
        omega

theorem nodup_place (c : List (ℕ × ℕ)) : ((inner c).map (place c)).Nodup := by
  apply (nodup_indices _).map_on
  intro a ha b hb h
  have ha := (mem_indices.1 ha).1
  have hb := (mem_indices.1 hb).1
  rw [List.length_map] at ha hb
  exact place_injective ha hb h

/-! ### Schedules -/

theorem interleaving_perm {α : Type} {ts : List (List α)} {l : List α} (h : Interleaving ts l) :
    l.Perm ts.flatten := by
  induction h with
  | done h =>
    rw [List.flatten_eq_nil_iff.2 h]
  | @step pre post w rest l h ih =>
    rw [List.flatten_append, List.flatten_cons] at ih ⊢
    refine (List.Perm.cons w ih).trans ?_
    rw [List.cons_append]
    exact List.perm_middle.symm

theorem interleaving_flatten {α : Type} (ts : List (List α)) : Interleaving ts ts.flatten := by
  suffices ∀ (ts pre : List (List α)), (∀ t ∈ pre, t = []) → Interleaving (pre ++ ts) ts.flatten by
    exact this ts [] (by simp)
  intro ts
  induction ts with
  | nil =>
    intro pre h
    exact .done (by simpa using h)
  | cons t ts ih =>
    intro pre h
    induction t with
    | nil =>
      have := ih (pre ++ [[]]) (by
        intro t ht
        rcases List.mem_append.1 ht with ht | ht
        · exact h t ht
        · simpa using ht)
      simpa using this
    | cons w t iht =>
      rw [List.flatten_cons, List.cons_append]
      apply Interleaving.step
      rw [← List.flatten_cons]
      exact iht

theorem run_eq {K : Type} (F : List ℕ → K) {ws : List (Write K)} (h : ∀ w ∈ ws, w.2 = F w.1)
    (mem : List ℕ → K) (idx : List ℕ) :
    (idx ∈ ws.map Prod.fst → run mem ws idx = F idx) ∧ (idx ∉ ws.map Prod.fst → run mem ws idx = mem idx) := by
  induction ws generalizing mem with
  | nil => simp [run]
  | cons w ws ih =>
    have := ih (fun w hw => h w (List.mem_cons_of_mem _ hw)) (fun i => if i = w.1 then w.2 else mem i)
    have e : run mem (w :: ws) = run (fun i => if i = w.1 then w.2 else mem i) ws := rfl
    rw [e, List.map_cons, List.mem_cons]
    by_cases hm : idx ∈ ws.map Prod.fst
    · exact ⟨fun _ => this.1 hm, fun hn => absurd (Or.inr hm) hn⟩
    · rw [this.2 hm]
      by_cases hw : idx = w.1
      · exact ⟨fun _ => by rw [if_pos hw, h w (List.mem_cons_self ..), hw], fun hn => absurd (Or.inl hw) hn⟩
      · exact ⟨fun h => absurd h (by simp [hw, hm]), fun _ => if_neg hw⟩

/-! ### The region of a chunk -/

section
variable {K : Type} [_root_.Field K] [LinearOrder K] [IsStrictOrderedRing K] [FloorRing K]

/-- The region belongs to coordinates around `c`. -/
def Covers (n : ℕ) (c : K) (r : ℤ × ℤ) : Prop :=
  ∃ lo hi : K, lo ≤ c ∧ c ≤ hi ∧ r = (max 0 (⌊lo⌋ - 5), min (n : ℤ) (⌈hi⌉ + 5))

theorem region_covers {n : ℕ} {l : List K} (h : l ≠ []) :
    ∃ r, region n l = .ok r ∧ ∀ c ∈ l, Covers n c r := by
  obtain ⟨lo, hlo⟩ : ∃ lo, l.min? = some lo := by
    cases hm : l.min? with
    | none => exact absurd (List.min?_eq_none_iff.1 hm) h
    | some x => exact ⟨x, rfl⟩
  obtain ⟨hi, hhi⟩ : ∃ hi, l.max? = some hi := by
    cases hm : l.max? with
    | none => exact absurd (List.max?_eq_none_iff.1 hm) h
    | some x => exact ⟨x, rfl⟩
  refine ⟨(max 0 (⌊lo⌋ - 5), min (n : ℤ) (⌈hi⌉ + 5)), ?_, ?_⟩
  · unfold region
    rw [hlo, hhi]
  · intro c hc
    exact ⟨lo, hi, (List.min?_eq_some_iff.1 hlo).2 c hc, (List.max?_eq_some_iff.1 hhi).2 c hc, rfl⟩

theorem mapCoordinate_inside {mode : Mode} {n : ℕ} {c : K} (h : Inside n c) :
    mapCoordinate mode n c = some c := by
  unfold mapCoordinate
  rw [if_neg (not_lt.2 h.1), if_neg (not_lt.2 h.2)]

theorem mapCoordinate_outside {n : ℕ} {c : K} (h : ¬ Inside n c) :
    mapCoordinate .constant n c = none := by
  unfold mapCoordinate
  by_cases h1 : c < 0
  · rw [if_pos h1]
  · rw [if_neg h1, if_pos]
    by_contra h2
    exact h ⟨not_lt.1 h1, not_lt.1 h2⟩

/-- Start and length of the region. -/
theorem covers_inside {n : ℕ} {c : K} {r : ℤ × ℤ} (hr : Covers n c r) (h : Inside n c) :
    0 ≤ r.1 ∧ r.1 < r.2 ∧ r.2 ≤ n ∧ (r.1 = 0 ∨ r.1 + 5 ≤ ⌊c⌋) ∧ (r.2 = n ∨ ⌊c⌋ + 5 ≤ r.2 ) ∧
      0 ≤ ⌊c⌋ ∧ ⌊c⌋ ≤ (n : ℤ) - 1 := by
  obtain ⟨lo, hi, h1, h2, rfl⟩ := hr
  have f0 : 0 ≤ ⌊c⌋ := Int.floor_nonneg.2 h.1
  have f1 : ⌊c⌋ ≤ (n : ℤ) - 1 := by
    have : ((⌊c⌋ : ℤ) : K) ≤ (((n : ℤ) - 1 : ℤ) : K) := by
      push_cast
      exact (Int.floor_le c).trans h.2
    exact_mod_cast this
  have f2 : ⌊lo⌋ ≤ ⌊c⌋ := Int.floor_le_floor h1
  have f3 : ⌊c⌋ ≤ ⌈hi⌉ := (Int.floor_le_ceil c).trans (Int.ceil_le_ceil h2)
  simp only
  omega

theorem covers_outside {n : ℕ} {c : K} {r : ℤ × ℤ} (hr : Covers n c r) (h : ¬ Inside n c) :
    ¬ Inside (clampFwd n r.2 - clampFwd n r.1) (c - (r.1 : K)) := by
  obtain ⟨lo, hi, h1, h2, rfl⟩ := hr
  rintro ⟨g1, g2⟩
  simp only at g1 g2
  set a : ℤ := max 0 (⌊lo⌋ - 5) with ha
  have ha0 : 0 ≤ a := le_max_left _ _
  by_cases hc : c < 0
  · have : (0 : K) ≤ (a : K) := by exact_mod_cast ha0
    linarith
  · have hn : (n : K) - 1 < c := by
      by_contra hn
      exact h ⟨not_lt.1 hc, not_lt.1 hn⟩
    have hfl : (⌊c⌋ : K) ≤ c := Int.floor_le c
    -- the length is at most `n - a`
    have hb : 0 ≤ min (n : ℤ) (⌈hi⌉ + 5) := by
      have : 0 ≤ ⌈hi⌉ := Int.ceil_nonneg ((not_lt.1 hc).trans h2)
      omega
    set b : ℤ := min (n : ℤ) (⌈hi⌉ + 5) with hbd
    have hbn : b ≤ n := min_le_left _ _
    unfold clampFwd at g2
    rw [if_neg (by omega), if_neg (by omega)] at g2
    by_cases han : a ≤ n
    · have : ((min b.toNat n - min a.toNat n : ℕ) : ℤ) ≤ (n : ℤ) - a := by omega
      have : ((min b.toNat n - min a.toNat n : ℕ) : K) ≤ (n : K) - (a : K) := by exact_mod_cast this
      linarith
    · have h0 : min b.toNat n - min a.toNat n = 0 := by omega
      rw [h0] at g2
      simp only [Nat.cast_zero] at g2
      linarith

theorem mapCoordinate_shift {mode : Mode} {n : ℕ} {c : K} {r : ℤ × ℤ} (hr : Covers n c r)
    (h : mode = .constant ∨ Inside n c) :
    mapCoordinate mode (clampFwd n r.2 - clampFwd n r.1) (c - (r.1 : K)) =
      (mapCoordinate mode n c).map (· - (r.1 : K)) := by
  by_cases hc : Inside n c
  · obtain ⟨h1, h2, h3, -⟩ := covers_inside hr hc
    rw [mapCoordinate_inside hc, Option.map_some]
    apply mapCoordinate_inside
    obtain ⟨lo, hi, l1, l2, rfl⟩ := hr
    simp only at h1 h2 h3 ⊢
    set a : ℤ := max 0 (⌊lo⌋ - 5) with ha
    set b : ℤ := min (n : ℤ) (⌈hi⌉ + 5) with hb
    constructor
    · have : (a : K) ≤ c := by
        rcases max_choice 0 (⌊lo⌋ - 5) with h | h
        · rw [ha, h]
          simpa using hc.1
        · rw [ha, h]
          push_cast
          have := Int.floor_le lo
          linarith
      linarith
    · unfold clampFwd
      rw [if_neg (by omega), if_neg (by omega)]
      have hlen : ((min b.toNat n - min a.toNat n : ℕ) : ℤ) = b - a := by omega
      have hlen : ((min b.toNat n - min a.toNat n : ℕ) : K) = (b : K) - (a : K) := by exact_mod_cast hlen
      rw [hlen]
      have : c ≤ (b : K) - 1 := by
        rcases min_choice (n : ℤ) (⌈hi⌉ + 5) with h | h
        · rw [hb, h]
          push_cast
          exact hc.2
        · rw [hb, h]
          push_cast
          have := Int.le_ceil hi
          linarith
      linarith
  · rcases h with rfl | h
    · rw [mapCoordinate_outside hc, mapCoordinate_outside (covers_outside hr hc)]
      rfl
    · exact absurd h hc

theorem mirrorIndex_self {n : ℕ} {i : ℤ} (h0 : 0 ≤ i) (h1 : i < n) : mirrorIndex n i = i.toNat := by
  unfold mirrorIndex
  by_cases hn : n ≤ 1
  · rw [if_pos hn]
    omega
  · rw [if_neg hn]
    simp only
    rw [if_neg (by omega), if_neg (by omega)]

theorem mirrorIndex_low {n : ℕ} {i : ℤ} (h0 : -2 ≤ i) (h1 : i < 0) (hn : 5 ≤ n) :
    mirrorIndex n i = (-i).toNat := by
  unfold mirrorIndex
  rw [if_neg (by omega)]
  simp only
  rw [if_pos h1]
  have : -i / (2 * (n : ℤ) - 2) = 0 := Int.ediv_eq_zero_of_lt (by omega) (by omega)
  rw [this, if_neg (by omega)]
  omega

theorem mirrorIndex_high {n : ℕ} {i : ℤ} (h0 : (n : ℤ) ≤ i) (h1 : i ≤ n + 2) (hn : 6 ≤ n) :
    mirrorIndex n i = (2 * (n : ℤ) - 2 - i).toNat := by
  unfold mirrorIndex
  rw [if_neg (by omega)]
  simp only
  rw [if_neg (by omega), if_pos h0]
  have : i / (2 * (n : ℤ) - 2) = 0 := Int.ediv_eq_zero_of_lt (by omega) (by omega)
  rw [this, if_pos (by omega)]
  omega

theorem centre_shift (order : ℕ) (c : K) (a : ℤ) : centre order (c - (a : K)) = centre order c - a := by
  unfold centre
  split_ifs
  · exact Int.floor_sub_intCast c a
  · rw [sub_add_eq_add_sub]
    exact Int.floor_sub_intCast _ a

theorem centre_bounds (order : ℕ) (c : K) : ⌊c⌋ ≤ centre order c ∧
    (order % 2 = 1 → centre order c = ⌊c⌋) ∧ centre order c ≤ ⌊c⌋ + 1 ∧
    (∀ n : ℕ, c ≤ (n : K) - 1 → centre order c ≤ (n : ℤ) - 1) := by
  unfold centre
  split_ifs with h
  · refine ⟨le_refl _, fun _ => rfl, by omega, ?_⟩
    intro n hn
    have : ((⌊c⌋ : ℤ) : K) ≤ (((n : ℤ) - 1 : ℤ) : K) := by
      push_cast
      exact (Int.floor_le c).trans hn
    exact_mod_cast this
  · refine ⟨Int.floor_le_floor (by linarith), fun h' => absurd h' h, ?_, ?_⟩
    · have : ⌊c + 1 / 2⌋ ≤ ⌊c + 1⌋ := Int.floor_le_floor (by linarith)
      rwa [Int.floor_add_one] at this
    · intro n hn
      rw [← Int.lt_add_one_iff, Int.floor_lt]
      push_cast
      linarith

theorem mirror_shift {n : ℕ} {c : K} {r : ℤ × ℤ} (hr : Covers n c r) (h : Inside n c) {order : ℕ}
    (ho : order ≤ 5) {k : ℕ} (hk : k ≤ order) :
    clampFwd n r.1 + mirrorIndex (clampFwd n r.2 - clampFwd n r.1)
        (centre order (c - (r.1 : K)) - (order / 2 : ℕ) + k) =
      mirrorIndex n (centre order c - (order / 2 : ℕ) + k) := by
  obtain ⟨h1, h2, h3, h4, h5, f0, f1⟩ := covers_inside hr h
  obtain ⟨c1, c2, c3, c4⟩ := centre_bounds order c
  have c4 := c4 n h.2
  rw [centre_shift]
  set m := centre order c
  obtain ⟨a, b⟩ := r
  simp only at h1 h2 h3 h4 h5 ⊢
  have e1 : clampFwd n a = a.toNat := by
    unfold clampFwd
    rw [if_neg (by omega)]
    omega
  have e2 : clampFwd n b = b.toNat := by
    unfold clampFwd
    rw [if_neg (by omega)]
    omega
  rw [e1, e2]
  have hi : ∃ i : ℤ, m - (order / 2 : ℕ) + k = i ∧ -2 ≤ i ∧ ⌊c⌋ - 2 ≤ i ∧ i ≤ ⌊c⌋ + 3 ∧ i ≤ n + 2 := by
    refine ⟨_, rfl, ?_, ?_, ?_, ?_⟩
    · omega
    · omega
    · by_cases hodd : order % 2 = 1
      · have := c2 hodd
        omega
      · omega
    · by_cases hodd : order % 2 = 1
      · have := c2 hodd
        omega
      · omega
  obtain ⟨i, hi, i1, i2, i3, i4⟩ := hi
  have e3 : m - a - ((order / 2 : ℕ) : ℤ) + k = i - a := by omega
  rw [hi, e3]
  by_cases l1 : i < 0
  · have ha : a = 0 := by omega
    subst ha
    simp only [Int.toNat_zero, Nat.zero_add, Nat.sub_zero, sub_zero]
    rcases h5 with h5 | h5
    · rw [h5]
      simp
    · rw [mirrorIndex_low i1 l1 (by omega), mirrorIndex_low i1 l1 (by omega)]
  · by_cases l2 : (n : ℤ) ≤ i
    · have hb : b = n := by omega
      subst hb
      rcases h4 with h4 | h4
      · subst h4
        simp
      · rw [mirrorIndex_high l2 i4 (by omega), mirrorIndex_high (by omega) (by omega) (by omega)]
        omega
    · rw [mirrorIndex_self (by omega) (by omega), mirrorIndex_self (by omega) (by omega)]
      omega

/-- The region fits to the coordinates in all dimensions. -/
inductive Fits : List ℕ → List K → List (ℤ × ℤ) → Prop where
  | nil : Fits [] [] []
  | cons {n : ℕ} {c : K} {r : ℤ × ℤ} {shape : List ℕ} {cs : List K} {rs : List (ℤ × ℤ)}
      (h : Covers n c r) (hs : Fits shape cs rs) : Fits (n :: shape) (c :: cs) (r :: rs)

theorem Fits.length {shape : List ℕ} {cs : List K} {rs : List (ℤ × ℤ)} (h : Fits shape cs rs) :
    cs.length = shape.length := by
  induction h with
  | nil => rfl
  | cons _ _ ih => simp [ih]

theorem fits_of_get {shape : List ℕ} {cs : List K} {rs : List (ℤ × ℤ)} (h1 : cs.length = shape.length)
    (h2 : rs.length = shape.length)
    (h : ∀ (a n : ℕ) (c : K) (r : ℤ × ℤ), shape[a]? = some n → cs[a]? = some c → rs[a]? = some r →
      Covers n c r) : Fits shape cs rs := by
  induction shape generalizing cs rs with
  | nil =>
    rw [List.length_eq_zero_iff.1 h1, List.length_eq_zero_iff.1 h2]
    exact .nil
  | cons n shape ih =>
    cases cs with
    | nil => simp at h1
    | cons c cs =>
      cases rs with
      | nil => simp at h2
      | cons r rs =>
        refine .cons (h 0 n c r rfl rfl rfl) (ih (by simpa using h1) (by simpa using h2) ?_)
        intro a m d s hm hd hs
        exact h (a + 1) m d s (by simpa using hm) (by simpa using hd) (by simpa using hs)

/-- The shape of the region. -/
def subShape (shape : List ℕ) (rs : List (ℤ × ℤ)) : List ℕ :=
  List.zipWith (fun n (s : ℤ × ℤ) => clampFwd n s.2 - clampFwd n s.1) shape rs

/-- The first indices of the region. -/
def subStart (shape : List ℕ) (rs : List (ℤ × ℤ)) : List ℕ :=
  List.zipWith (fun n (s : ℤ × ℤ) => clampFwd n s.1) shape rs

/-- Shifted coordinates. -/
def shifted (cs : List K) (rs : List (ℤ × ℤ)) : List K :=
  List.zipWith (fun c (s : ℤ × ℤ) => c - (s.1 : K)) cs rs

theorem stencil_shift (weight : ℕ → K → ℕ → K) {order : ℕ} (ho : order ≤ 5) {shape : List ℕ} {cs : List K}
    {rs : List (ℤ × ℤ)} (h : Fits shape cs rs) (hin : List.Forall₂ Inside shape cs) (at' : List ℕ → K) :
    stencil weight order (subShape shape rs) (shifted cs rs)
      (fun idx => at' (List.zipWith (fun s i => s + i) (subStart shape rs) idx)) =
    stencil weight order shape cs at' := by
  induction h generalizing at' with
  | nil => rfl
  | @cons n c r shape cs rs h hs ih =>
    cases hin with
    | cons i1 i2 =>
      simp only [subShape, shifted, subStart, List.zipWith_cons_cons, stencil]
      congr 1
      apply List.map_congr_left
      intro k hk
      have hk := List.mem_range.1 hk
      rw [mirror_shift h i1 ho (by omega)]
      congr 1
      · rw [centre_shift]
        push_cast
        congr 1
        ring
      · exact ih i2 fun idx => at' (mirrorIndex n (centre order c - (order / 2 : ℕ) + k) :: idx)

theorem mapM_id_inside {mode : Mode} {shape : List ℕ} {cs : List K} (h : List.Forall₂ Inside shape cs) :
    (List.zipWith (mapCoordinate mode) shape cs).mapM id = some cs := by
  induction h with
  | nil => rfl
  | cons h1 h2 ih =>
    rw [List.zipWith_cons_cons, List.mapM_cons, mapCoordinate_inside h1, ih]
    rfl

theorem mapM_id_none {l : List (Option K)} : l.mapM id = none ↔ none ∈ l := by
  induction l with
  | nil => simp
  | cons a l ih =>
    cases a with
    | none => simp
    | some a =>
      rw [List.mapM_cons]
      cases h : l.mapM id with
      | none => simp [ih.1 h]
      | some m =>
        have : none ∉ l := fun hn => by rw [ih.2 hn] at h; cases h
        simp [this]

theorem outside_mem {shape : List ℕ} {cs : List K} (hl : cs.length = shape.length)
    (h : ¬ List.Forall₂ Inside shape cs) : none ∈ List.zipWith (mapCoordinate .constant) shape cs := by
  induction shape generalizing cs with
  | nil =>
    rw [List.length_eq_zero_iff.1 hl] at h
    exact absurd List.Forall₂.nil h
  | cons n shape ih =>
    cases cs with
    | nil => simp at hl
    | cons c cs =>
      rw [List.zipWith_cons_cons, List.mem_cons]
      by_cases hc : Inside n c
      · right
        exact ih (by simpa using hl) fun h' => h (List.Forall₂.cons hc h')
      · left
        exact (mapCoordinate_outside hc).symm

theorem outside_mem_sub {shape : List ℕ} {cs : List K} {rs : List (ℤ × ℤ)} (hf : Fits shape cs rs)
    (h : ¬ List.Forall₂ Inside shape cs) :
    none ∈ List.zipWith (mapCoordinate .constant) (subShape shape rs) (shifted cs rs) := by
  induction hf with
  | nil => exact absurd List.Forall₂.nil h
  | @cons n c r shape cs rs h1 hs ih =>
    simp only [subShape, shifted, List.zipWith_cons_cons, List.mem_cons]
    by_cases hc : Inside n c
    · right
      exact ih fun h' => h (List.Forall₂.cons hc h')
    · left
      exact (mapCoordinate_outside (covers_outside h1 hc)).symm

theorem inside_pos {shape : List ℕ} {cs : List K} (h : List.Forall₂ Inside shape cs) : 0 ∉ shape := by
  induction h with
  | nil => simp
  | @cons n c shape cs h1 h2 ih =>
    intro h0
    rcases List.mem_cons.1 h0 with h0 | h0
    · have := h1.1.trans h1.2
      rw [← h0] at this
      norm_num at this
    · exact ih h0

theorem inside_sub {shape : List ℕ} {cs : List K} {rs : List (ℤ × ℤ)} (hf : Fits shape cs rs)
    (h : List.Forall₂ Inside shape cs) : List.Forall₂ Inside (subShape shape rs) (shifted cs rs) := by
  induction hf with
  | nil => exact List.Forall₂.nil
  | @cons n c r shape cs rs h1 hs ih =>
    cases h with
    | cons i1 i2 =>
      refine List.Forall₂.cons ?_ (ih i2)
      by_contra hc
      have := mapCoordinate_shift (mode := .constant) h1 (Or.inl rfl)
      rw [mapCoordinate_outside hc, mapCoordinate_inside i1] at this
      cases this

/-- A sample computed from the region equals the sample computed from the whole array. -/
theorem interp_sub (weight : ℕ → K → ℕ → K) {order : ℕ} (ho : order ≤ 5) (mode : Mode) (cval : K)
    (a : Arr K) {cs : List K} {rs : List (ℤ × ℤ)} (h : Fits a.shape cs rs)
    (hm : mode = .constant ∨ List.Forall₂ Inside a.shape cs) :
    ∃ v, interp weight order mode cval (subArray a rs) (shifted cs rs) = .ok v ∧
      interp weight order mode cval a cs = .ok v := by
  by_cases hin : List.Forall₂ Inside a.shape cs
  · refine ⟨stencil weight order a.shape cs a.at', ?_, ?_⟩
    · unfold interp
      have hs : (subArray a rs).shape = subShape a.shape rs := rfl
      have hi := inside_sub h hin
      rw [hs, mapM_id_inside hi]
      simp only
      rw [if_neg (inside_pos hi)]
      congr 1
      exact stencil_shift weight ho h hin a.at'
    · unfold interp
      rw [mapM_id_inside hin]
      simp only
      rw [if_neg (inside_pos hin)]
  · rcases hm with rfl | hm
    · refine ⟨cval, ?_, ?_⟩
      · unfold interp
        have hs : (subArray a rs).shape = subShape a.shape rs := rfl
        rw [hs, mapM_id_none.2 (outside_mem_sub h hin)]
      · unfold interp
        rw [mapM_id_none.2 (outside_mem h.length hin)]
    · exact absurd hm hin

theorem interp_ok (weight : ℕ → K → ℕ → K) (order : ℕ) (mode : Mode) (cval : K) (a : Arr K) {cs : List K}
    (hl : cs.length = a.shape.length) (hm : mode = .constant ∨ List.Forall₂ Inside a.shape cs) :
    ∃ v, interp weight order mode cval a cs = .ok v := by
  by_cases hin : List.Forall₂ Inside a.shape cs
  · refine ⟨stencil weight order a.shape cs a.at', ?_⟩
    unfold interp
    rw [mapM_id_inside hin]
    simp only
    rw [if_neg (inside_pos hin)]
  · rcases hm with rfl | hm
    · refine ⟨cval, ?_⟩
      unfold interp
      rw [mapM_id_none.2 (outside_mem hl hin)]
    · exact absurd hm hin

/-! ### Tasks -/

theorem mapM_exists {α β : Type} {g : α → Res β} {P : α → β → Prop} {l : List α}
    (h : ∀ a ∈ l, ∃ b, g a = .ok b ∧ P a b) : ∃ r, l.mapM g = .ok r ∧ List.Forall₂ P l r := by
  induction l with
  | nil => exact ⟨[], rfl, .nil⟩
  | cons a l ih =>
    obtain ⟨b, hb, hp⟩ := h a (List.mem_cons_self ..)
    obtain ⟨r, hr, hP⟩ := ih fun a ha => h a (List.mem_cons_of_mem _ ha)
    refine ⟨b :: r, ?_, .cons hp hP⟩
    rw [List.mapM_cons, hb, hr]
    rfl

theorem mem_left {α β : Type} {P : α → β → Prop} {l : List α} {r : List β} (h : List.Forall₂ P l r)
    {a : α} (ha : a ∈ l) : ∃ b ∈ r, P a b := by
  induction h with
  | nil => cases ha
  | cons h1 h2 ih =>
    rcases List.mem_cons.1 ha with rfl | ha
    · exact ⟨_, List.mem_cons_self .., h1⟩
    · obtain ⟨b, hb, hp⟩ := ih ha
      exact ⟨b, List.mem_cons_of_mem _ hb, hp⟩

theorem mem_right {α β : Type} {P : α → β → Prop} {l : List α} {r : List β} (h : List.Forall₂ P l r)
    {b : β} (hb : b ∈ r) : ∃ a ∈ l, P a b := by
  obtain ⟨a, ha, hp⟩ := mem_left h.flip hb
  exact ⟨a, ha, hp⟩

theorem inner_ne_nil {c : List (ℕ × ℕ)} (h : ∀ s ∈ c, s.1 < s.2) : inner c ≠ [] := by
  intro h0
  have : c.map (fun _ => 0) ∈ inner c := by
    unfold inner
    rw [mem_indices]
    clear h0
    induction c with
    | nil => exact inBounds_nil.2 rfl
    | cons s c ih =>
      rw [List.map_cons, List.map_cons]
      have := h s (List.mem_cons_self ..)
      exact inBounds_cons.2 ⟨_, _, rfl, by omega, ih fun s hs => h s (List.mem_cons_of_mem _ hs)⟩
  rw [h0] at this
  cases this

theorem chunkTask_spec (weight : ℕ → K → ℕ → K) {order : ℕ} (ho : order ≤ 5) (mode : Mode) (cval : K)
    (a coordinates : Arr K) {c : List (ℕ × ℕ)} (hc : ∀ s ∈ c, s.1 < s.2)
    (hm : mode = .constant ∨ ∀ idx, InChunk c idx →
      List.Forall₂ Inside a.shape (coordsAt a.shape.length coordinates idx)) :
    ∃ ws, chunkTask weight order mode cval a coordinates c = .ok ws ∧
      ws.map Prod.fst = (inner c).map (place c) ∧
      ∀ w ∈ ws, interp weight order mode cval a (coordsAt a.shape.length coordinates w.1) = .ok w.2 := by
  obtain ⟨r, hr, hP⟩ := mapM_exists (l := List.range a.shape.length)
    (g := fun d => region (a.shape.getD d 0) ((inner c).map fun idx => coordinates.at' (d :: place c idx)))
    (P := fun d r => ∀ x ∈ (inner c).map (fun idx => coordinates.at' (d :: place c idx)),
      Covers (a.shape.getD d 0) x r) (by
      intro d _
      apply region_covers
      intro h
      exact inner_ne_nil hc (List.map_eq_nil_iff.1 h))
  have hrl : r.length = a.shape.length := by rw [← hP.length_eq, List.length_range]
  have hfit : ∀ idx ∈ inner c, Fits a.shape (coordsAt a.shape.length coordinates (place c idx)) r := by
    intro idx hidx
    apply fits_of_get (by simp [coordsAt]) hrl
    intro d n x s hn hx hs
    have hd : d < a.shape.length := (List.getElem?_eq_some_iff.1 hn).1
    have hg := hP.get (i := d) (by simpa using hd) (by omega)
    simp only [List.get_eq_getElem, List.getElem_range] at hg
    have e1 : a.shape.getD d 0 = n := by rw [List.getD_eq_getElem?_getD, hn]; rfl
    have e2 : r[d]'(by omega) = s := (List.getElem?_eq_some_iff.1 hs).2
    have e3 : x = coordinates.at' (d :: place c idx) := by
      unfold coordsAt at hx
      rw [List.getElem?_map, List.getElem?_range hd] at hx
      exact (Option.some.inj hx).symm
    rw [e1, e2] at hg
    rw [e3]
    exact hg _ (List.mem_map.2 ⟨idx, hidx, rfl⟩)
  have hsh : ∀ idx, (List.range a.shape.length).map (fun d =>
      coordinates.at' (d :: place c idx) - ((r.getD d (0, 0)).1 : K)) =
      shifted (coordsAt a.shape.length coordinates (place c idx)) r := by
    intro idx
    apply List.ext_getElem
    · simp [shifted, coordsAt, hrl]
    intro d h1 h2
    have hd : d < a.shape.length := by simpa using h1
    simp only [shifted, coordsAt, List.getElem_map, List.getElem_range, List.getElem_zipWith]
    rw [List.getD_eq_getElem?_getD, List.getElem?_eq_getElem (by omega)]
    rfl
  obtain ⟨ws, hws, hW⟩ := mapM_exists (l := inner c)
    (g := fun idx => (interp weight order mode cval (subArray a r)
      ((List.range a.shape.length).map fun d =>
        coordinates.at' (d :: place c idx) - ((r.getD d (0, 0)).1 : K))) >>= fun v =>
          (pure (place c idx, v) : Res (Write K)))
    (P := fun idx w => w.1 = place c idx ∧
      interp weight order mode cval a (coordsAt a.shape.length coordinates w.1) = .ok w.2) (by
      intro idx hidx
      have hch : InChunk c (place c idx) := mem_place.1 (List.mem_map.2 ⟨idx, hidx, rfl⟩)
      obtain ⟨v, h1, h2⟩ := interp_sub weight ho mode cval a (hfit idx hidx)
        (hm.imp id fun h => h _ hch)
      refine ⟨(place c idx, v), ?_, rfl, h2⟩
      rw [hsh, h1]
      rfl)
  refine ⟨ws, ?_, ?_, ?_⟩
  · unfold chunkTask
    show ((List.range a.shape.length).mapM (fun d => region (a.shape.getD d 0)
      ((inner c).map fun idx => coordinates.at' (d :: place c idx))) >>= fun r => _) = _
    rw [hr]
    exact hws
  · clear hws
    generalize inner c = l at hW
    induction hW with
    | nil => rfl
    | cons h1 h2 ih => rw [List.map_cons, List.map_cons, ih, h1.1]
  · intro w hw
    clear hws
    generalize inner c = l at hW
    induction hW with
    | nil => cases hw
    | cons h1 h2 ih =>
      rcases List.mem_cons.1 hw with rfl | hw
      · exact h1.2
      · exact ih hw

theorem wholeTask_spec (weight : ℕ → K → ℕ → K) (order : ℕ) (mode : Mode) (cval : K)
    (a coordinates : Arr K) (shape : List ℕ)
    (hm : mode = .constant ∨ ∀ idx, InBounds shape idx →
      List.Forall₂ Inside a.shape (coordsAt a.shape.length coordinates idx)) :
    ∃ ws, wholeTask weight order mode cval a coordinates shape = .ok ws ∧
      ws.map Prod.fst = indices shape ∧
      ∀ w ∈ ws, interp weight order mode cval a (coordsAt a.shape.length coordinates w.1) = .ok w.2 := by
  obtain ⟨ws, hws, hW⟩ := mapM_exists (l := indices shape)
    (g := fun idx => (interp weight order mode cval a
      ((List.range a.shape.length).map fun d => coordinates.at' (d :: idx))) >>= fun v =>
          (pure (idx, v) : Res (Write K)))
    (P := fun idx w => w.1 = idx ∧
      interp weight order mode cval a (coordsAt a.shape.length coordinates w.1) = .ok w.2) (by
      intro idx hidx
      obtain ⟨v, h⟩ := interp_ok weight order mode cval a
        (cs := coordsAt a.shape.length coordinates idx) (by simp [coordsAt])
        (hm.imp id fun h => h _ (mem_indices.1 hidx))
      refine ⟨(idx, v), ?_, rfl, h⟩
      show (interp weight order mode cval a (coordsAt a.shape.length coordinates idx) >>= _) = _
      rw [h]
      rfl)
  refine ⟨ws, hws, ?_, ?_⟩
  · clear hws
    generalize indices shape = l at hW
    induction hW with
    | nil => rfl
    | cons h1 h2 ih => rw [List.map_cons, ih, h1.1]
  · intro w hw
    clear hws
    generalize indices shape = l at hW
    induction hW with
    | nil => cases hw
    | cons h1 h2 ih =>
      rcases List.mem_cons.1 hw with rfl | hw
      · exact h1.2
      · exact ih hw

/-- The tasks write every output point exactly once, with the value of the whole array. -/
theorem tasks_spec (weight : ℕ → K → ℕ → K) (splineFilter : ℕ → Arr K → Arr K)
    (hfilter : ∀ k a, (splineFilter k a).shape = a.shape) (input coordinates : Arr K) (order : ℕ)
    (ho : order ≤ 5) (mode : Mode) (cval : K) (prefilter : Bool) (chunklen : Option ℤ) (shape : List ℕ)
    (hs : coordinates.shape = input.shape.length :: shape) (h1 : input.shape ≠ []) (h2 : shape ≠ [])
    (h0 : 0 ∉ shape)
    (hm : mode = .constant ∨ ∀ idx, InBounds shape idx →
      List.Forall₂ Inside input.shape (coordsAt input.shape.length coordinates idx)) :
    ∃ ts, tasks weight splineFilter input coordinates order mode cval prefilter chunklen = .ok ts ∧
      (ts.flatten.map Prod.fst).Nodup ∧
      (∀ idx, idx ∈ ts.flatten.map Prod.fst ↔ InBounds shape idx) ∧
      ∀ w ∈ ts.flatten, interp weight order mode cval
        (if prefilter ∧ 1 < order then splineFilter order input else input)
        (coordsAt input.shape.length coordinates w.1) = .ok w.2 := by
  set filtered := if prefilter ∧ 1 < order then splineFilter order input else input with hf
  have hfs : filtered.shape = input.shape := by
    rw [hf]
    split_ifs
    · exact hfilter _ _
    · rfl
  rw [← hfs] at hm
  have hhead : tasks weight splineFilter input coordinates order mode cval prefilter chunklen =
      (if 0 < chunklen.getD (if shape.length < 3 then 1024 else 128) then
        chunks (chunklen.getD (if shape.length < 3 then 1024 else 128)).toNat shape >>= fun cs =>
          cs.mapM (chunkTask weight order mode cval filtered coordinates)
      else wholeTask weight order mode cval filtered coordinates shape >>= fun t =>
        (pure [t] : Res (List (List (Write K))))) := by
    unfold tasks
    have e1 : ¬ ((order : ℤ) < 0 ∨ 5 < (order : ℤ)) := by omega
    have e2 : ¬ (input.shape.length < 1 ∨ shape.length < 1) := by
      have := List.length_pos_iff.2 h1
      have := List.length_pos_iff.2 h2
      omega
    simp only [hs, List.tail_cons, List.head?_cons, e1, e2, if_false, ne_eq, not_true, Int.toNat_natCast,
      ← hf]
  rw [hhead]
  by_cases hch : 0 < chunklen.getD (if shape.length < 3 then 1024 else 128)
  · rw [if_pos hch]
    set L := (chunklen.getD (if shape.length < 3 then 1024 else 128)).toNat with hLd
    have hL : 0 < L := by omega
    rw [chunks_eq hL h0]
    set C := product (shape.map (slices L)) with hC
    obtain ⟨ts, hts, hT⟩ := mapM_exists (l := C) (g := chunkTask weight order mode cval filtered coordinates)
      (P := fun c ws => ws.map Prod.fst = (inner c).map (place c) ∧
        ∀ w ∈ ws, interp weight order mode cval filtered
          (coordsAt filtered.shape.length coordinates w.1) = .ok w.2) (by
        intro c hc
        obtain ⟨ws, w1, w2, w3⟩ := chunkTask_spec weight ho mode cval filtered coordinates (c := c) (by
          intro s hs'
          have hp := mem_product.1 hc
          obtain ⟨l, hl, hsl⟩ := mem_left hp hs'
          obtain ⟨n, _, rfl⟩ := List.mem_map.1 hl
          exact (mem_slices hL hsl).1) (hm.imp id fun h idx hidx => h idx (chunk_inBounds hL hc hidx))
        exact ⟨ws, w1, w2, w3⟩)
    have hflat : ts.flatten.map Prod.fst = (C.map fun c => (inner c).map (place c)).flatten := by
      rw [List.map_flatten]
      congr 1
      clear hts
      generalize C = l at hT
      induction hT with
      | nil => rfl
      | cons g1 g2 ih => rw [List.map_cons, List.map_cons, ih, g1.1]
    refine ⟨ts, hts, ?_, ?_, ?_⟩
    · rw [hflat, ← List.flatMap_def, List.nodup_flatMap]
      refine ⟨fun c _ => nodup_place c, ?_⟩
      have hCn : C.Nodup := by
        apply nodup_product
        intro l hl
        obtain ⟨n, _, rfl⟩ := List.mem_map.1 hl
        exact nodup_slices hL
      refine hCn.pairwise_of_forall_ne ?_
      intro c hc c' hc' hne g hg hg'
      exact hne (chunk_unique hL hc hc' (mem_place.1 hg) (mem_place.1 hg'))
    · intro idx
      rw [hflat, ← List.flatMap_def, List.mem_flatMap]
      constructor
      · rintro ⟨c, hc, hi⟩
        exact chunk_inBounds hL hc (mem_place.1 hi)
      · intro hi
        obtain ⟨c, hc, hi⟩ := chunk_of hL hi
        exact ⟨c, hc, mem_place.2 hi⟩
    · intro w hw
      obtain ⟨t, ht, hw⟩ := List.mem_flatten.1 hw
      obtain ⟨c, _, hp⟩ := mem_right hT ht
      have := hp.2 w hw
      rwa [hfs] at this
  · rw [if_neg hch]
    obtain ⟨ws, w1, w2, w3⟩ := wholeTask_spec weight order mode cval filtered coordinates shape hm
    rw [hfs] at w3
    refine ⟨[ws], ?_, ?_, ?_, ?_⟩
    · rw [w1]
      rfl
    · rw [List.flatten_singleton, w2]
      exact nodup_indices shape
    · intro idx
      rw [List.flatten_singleton, w2]
      exact mem_indices
    · rw [List.flatten_singleton]
      exact w3

end

end Postpic.Interp
