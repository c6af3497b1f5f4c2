import Mathlib.Algebra.Order.Floor.Ring
import Mathlib.Tactic.Module
import Mathlib.Tactic.FieldSimp
import Mathlib.Tactic.Ring
import Mathlib.Tactic.Linarith
import Mathlib.Tactic.Positivity
import Verif.Model.Stagger
import Verif.Spec.Stagger
import Verif.Lemmas.FieldResolution
import Verif.Lemmas.Io

/-!
# Lemmas about shifted and staggered grids
-/

set_option autoImplicit false
set_option linter.unusedSectionVars false

namespace Postpic.Fields

open Postpic Postpic.Axes Postpic.Spec

section
variable {K : Type} [_root_.Field K] [LinearOrder K] [IsStrictOrderedRing K] [FloorRing K]
variable {V : Type} [AddCommGroup V] [Module K V]

theorem linearSample_polygon (g : ℕ → V) {n : ℕ} (hn : 0 < n) (e : K) {h : K} (hh : 0 < h) (p : K) :
    OnPolygon (ap e h n) g (e + p * h) (linearSample g n p) := by
  have hlast : ((n - 1 : ℕ) : K) = (n : K) - 1 := by rw [Nat.cast_sub hn, Nat.cast_one]
  unfold OnPolygon linearSample nearest
  rw [ap_length]
  by_cases h0 : p < 0
  · left
    refine ⟨e, by rw [ap_get _ _ _ _ hn]; simp, ?_, ?_⟩
    · have := mul_neg_of_neg_of_pos h0 hh
      linarith
    · rw [if_pos h0]
      simp
  · by_cases h1 : ((n - 1 : ℕ) : K) ≤ p
    · right
      left
      refine ⟨e + ((n - 1 : ℕ) : K) * h, ap_get _ _ _ _ (by omega), ?_, ?_⟩
      · have := mul_le_mul_of_nonneg_right h1 hh.le
        linarith
      · rw [if_neg h0]
        have hq : (if ((n - 1 : ℕ) : K) < p then ((n - 1 : ℕ) : K) else p) = ((n - 1 : ℕ) : K) := by
          split_ifs with h2
          · rfl
          · exact le_antisymm (not_lt.1 h2) h1
        rw [hq]
        simp
    · right
      right
      rw [not_le] at h1
      rw [not_lt] at h0
      have hf0 : 0 ≤ ⌊p⌋ := Int.floor_nonneg.2 h0
      obtain ⟨i, hi⟩ : ∃ i : ℕ, ⌊p⌋ = (i : ℤ) := ⟨⌊p⌋.toNat, (Int.toNat_of_nonneg hf0).symm⟩
      have hle : (i : K) ≤ p := by
        have := Int.floor_le p
        rw [hi] at this
        exact_mod_cast this
      have hlt : p < (i : K) + 1 := by
        have := Int.lt_floor_add_one p
        rw [hi] at this
        exact_mod_cast this
      have hin : i + 1 < n := by
        have : (i : K) < ((n - 1 : ℕ) : K) := lt_of_le_of_lt hle h1
        have : i < n - 1 := by exact_mod_cast this
        omega
      refine ⟨i, e + (i : K) * h, e + ((i + 1 : ℕ) : K) * h, ap_get _ _ _ _ (by omega), ap_get _ _ _ _ hin, ?_, ?_, ?_, ?_⟩
      · have := mul_le_mul_of_nonneg_right hle hh.le
        linarith
      · have := mul_le_mul_of_nonneg_right hlt.le hh.le
        push_cast
        linarith
      · push_cast
        intro hab
        have : h = 0 := by linarith
        exact hh.ne' this
      · rw [if_neg (not_lt.2 h0), if_neg (not_lt.2 h1.le)]
        simp only [hi, Int.toNat_natCast, hin, if_true, Int.cast_natCast]
        have : (e + p * h - (e + (i : K) * h)) / (e + ((i + 1 : ℕ) : K) * h - (e + (i : K) * h)) = p - i := by
          have e2 : e + ((i + 1 : ℕ) : K) * h - (e + (i : K) * h) = h := by
            push_cast
            ring
          rw [e2, div_eq_iff hh.ne']
          ring
        rw [this]
        module

/-- One dimension: number of points, first point, spacing, shift. -/
structure Dim (K : Type) where
  n : ℕ
  e : K
  h : K
  s : K

theorem shiftAt_multilinear (T : List (Dim K)) (hT : ∀ t ∈ T, 0 < t.n ∧ 0 < t.h) (g : List ℕ → V) (idx : List ℕ)
    (p : List K) (hp : PointAt (T.map fun t => ap (t.e + t.s) t.h t.n) idx p) :
    Multilinear (T.map fun t => ap t.e t.h t.n) g p (shiftAt (T.map fun t => (t.n, -(t.s / t.h))) g idx) := by
  induction T generalizing g idx p with
  | nil =>
    match idx, p, hp with
    | [], [], _ => simp [Multilinear, shiftAt]
  | cons t T ih =>
    match idx, p, hp with
    | i :: idx, q :: p, hp =>
      obtain ⟨hq, hp⟩ := hp
      obtain ⟨hn, hh⟩ := hT t (by simp)
      refine ⟨fun j => shiftAt (T.map fun t => (t.n, -(t.s / t.h))) (fun u => g (j :: u)) idx, ?_, ?_⟩
      · intro j _
        exact ih (fun u hu => hT u (by simp [hu])) _ idx p hp
      · have hi : i < t.n := by
          have := (List.getElem?_eq_some_iff.1 hq).1
          rwa [ap_length] at this
        rw [ap_get _ _ _ _ hi] at hq
        have := linearSample_polygon (fun j => shiftAt (T.map fun t => (t.n, -(t.s / t.h))) (fun u => g (j :: u)) idx)
          hn t.e hh ((i : K) - -(t.s / t.h))
        have e : t.e + ((i : K) - -(t.s / t.h)) * t.h = q := by
          rw [← Option.some.inj hq]
          field_simp [hh.ne']
          ring
        rw [e] at this
        exact this

theorem multilinear_exact (F : List K → V) (hF : AffineEach F) (xs : List (List K)) (pre p : List K) (v : V)
    (hin : WithinGrid xs p) (g : List ℕ → V)
    (hg : ∀ idx q, PointAt xs idx q → g idx = F (pre ++ q)) (hm : Multilinear xs g p v) : v = F (pre ++ p) := by
  induction xs generalizing pre p v g with
  | nil =>
    match p, hin with
    | [], _ =>
      rw [show v = g [] from hm]
      exact hg [] [] trivial
  | cons x xs ih =>
    match p, hin with
    | q :: p, ⟨⟨a, b, ha, hb, haq, hqb⟩, hin⟩ =>
      obtain ⟨y, hy, hv⟩ := hm
      have hyi : ∀ (i : ℕ) (c : K), x[i]? = some c → y i = F (pre ++ c :: p) := by
        intro i c hc
        have := ih (pre ++ [c]) p (y i) hin (fun idx => g (i :: idx)) (by
          intro idx q hq
          rw [hg (i :: idx) (c :: q) ⟨hc, hq⟩]
          simp) (hy i (List.getElem?_eq_some_iff.1 hc).1)
        rw [this]
        simp
      rcases hv with ⟨a', ha', hle, rfl⟩ | ⟨b', hb', hle, rfl⟩ | ⟨i, c, d, hc, hd, hcq, hqd, hcd, rfl⟩
      · rw [ha] at ha'
        cases ha'
        obtain rfl := le_antisymm hle haq
        exact hyi 0 _ ha
      · rw [hb] at hb'
        cases hb'
        obtain rfl := le_antisymm hle hqb
        exact hyi _ _ hb
      · rw [hyi i c hc, hyi (i + 1) d hd, ← hF pre p c d ((q - c) / (d - c))]
        congr 3
        have : d - c ≠ 0 := sub_ne_zero.2 (Ne.symm hcd)
        field_simp
        ring

theorem setShift_ok (σ : ℕ → K) (L : List ℕ) (l : List K) (hL : ∀ d ∈ L, d < l.length) :
    ∃ l', setShift (L.map fun (d : ℕ) => ((d : ℤ), σ d)) l = .ok l' ∧ l'.length = l.length ∧
      ∀ d : ℕ, l'[d]? = if d ∈ L then some (σ d) else l[d]? := by
  induction L generalizing l with
  | nil => exact ⟨l, rfl, rfl, by simp⟩
  | cons k L ih =>
    have hk := hL k (by simp)
    obtain ⟨l', h1, h2, h3⟩ := ih (l.set k (σ k)) (by
      intro d hd
      rw [List.length_set]
      exact hL d (by simp [hd]))
    refine ⟨l', ?_, by rw [h2, List.length_set], ?_⟩
    · simp only [List.map_cons, setShift, pySet, pyIdx_nat hk, bind, Except.bind]
      exact h1
    · intro d
      rw [h3, List.getElem?_set]
      by_cases hd : d ∈ L
      · simp [hd]
      · by_cases hdk : k = d
        · subst hdk
          simp [hd, hk]
        · have : d ≠ k := Ne.symm hdk
          simp [hd, hdk, this]

/-- The axis moved by `s`, without name and unit. -/
def movedAxis (ax : Axis K) (s : K) : Axis K :=
  ⟨"", "", ax.gridNode.map (· + s), ax.grid.map (· + s), (ax.extent.1 + s, ax.extent.2 + s)⟩

theorem moved_even {ax : Axis K} {e0 h : K} (he : EvenAxis ax e0 h) (s : K) : EvenAxis (movedAxis ax s) (e0 + s) h := by
  have hl : (movedAxis ax s).grid.length = ax.grid.length := by simp [movedAxis]
  constructor
  · rw [hl]
    show ax.gridNode.map (· + s) = _
    rw [he.nodes, List.map_map]
    apply List.map_congr_left
    intro i _
    simp only [Function.comp]
    ring
  · rw [hl]
    show ax.grid.map (· + s) = _
    conv_lhs => rw [he.grid]
    rw [List.map_map]
    apply List.map_congr_left
    intro i _
    simp only [Function.comp]
    ring
  · rw [hl]
    show (ax.extent.1 + s, ax.extent.2 + s) = _
    rw [he.extent]
    simp only [Prod.mk.injEq, true_and]
    ring

theorem mkAxis_moved (spl : Splines K) {ax : Axis K} {e0 h : K} (he : EvenAxis ax e0 h) (hh : 0 < h) (s : K) :
    mkAxis spl { gridNode := some (ax.gridNode.map (· + s)), grid := some (ax.grid.map (· + s)) } =
      .ok (movedAxis ax s) :=
  Io.mkAxis_again spl (ax := movedAxis ax s) "" "" (even_valid (moved_even he s) hh)

theorem shiftAxes_ok (spl : Splines K) (old : List (Axis K)) (e0 h : ℕ → K)
    (hax : ∀ (d : ℕ) (ax : Axis K), old[d]? = some ax → EvenAxis ax (e0 d) (h d) ∧ 0 < h d) (σ : ℕ → K) (L : List ℕ)
    (hL : ∀ d ∈ L, d < old.length) (axes : List (Axis K)) (hl : axes.length = old.length) :
    ∃ axes', shiftAxes spl old (L.map fun (d : ℕ) => ((d : ℤ), σ d)) axes = .ok axes' ∧ axes'.length = old.length ∧
      ∀ d : ℕ, axes'[d]? = if d ∈ L then (old[d]?).map (movedAxis · (σ d)) else axes[d]? := by
  induction L generalizing axes with
  | nil => exact ⟨axes, rfl, hl, by simp⟩
  | cons k L ih =>
    have hk := hL k (by simp)
    obtain ⟨ax, hak⟩ : ∃ ax, old[k]? = some ax := ⟨_, List.getElem?_eq_getElem hk⟩
    obtain ⟨l', h1, h2, h3⟩ := ih (fun d hd => hL d (by simp [hd])) (axes.set k (movedAxis ax (σ k)))
      (by rw [List.length_set]; exact hl)
    refine ⟨l', ?_, h2, ?_⟩
    · obtain ⟨g1, g2⟩ := hax k ax hak
      simp only [List.map_cons, shiftAxes, pyGet_of (pyIdx_nat hk) hak, bind, Except.bind, mkAxis_moved spl g1 g2, pySet]
      rw [hl, pyIdx_nat hk]
      exact h1
    · intro d
      rw [h3, List.getElem?_set]
      by_cases hd : d ∈ L
      · simp [hd]
      · by_cases hdk : k = d
        · subst hdk
          rw [if_neg hd, if_pos rfl, if_pos (by omega), if_pos (by simp), hak]
          rfl
        · have : d ≠ k := Ne.symm hdk
          simp [hd, hdk, this]

end

end Postpic.Fields
