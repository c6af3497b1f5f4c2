import Mathlib.Data.Nat.Log
import Mathlib.Tactic.Linarith
import Mathlib.Tactic.NormNum
import Mathlib.Algebra.Order.BigOperators.Group.List
import Mathlib.Order.Bounds.Basic
import Verif.Model.FftPad
import Verif.Spec.FftPad
import Verif.Lemmas.FieldResolution

/-!
# Lemmas about the sizes for fast Fourier transforms
-/

set_option autoImplicit false

namespace Postpic.Fields

open Postpic Postpic.Axes Postpic.Spec

theorem mem_choices {rs : List (List ℕ)} {ps : List ℕ} :
    ps ∈ choices rs ↔ List.Forall₂ (fun p r => p ∈ r) ps rs := by
  induction rs generalizing ps with
  | nil => cases ps <;> simp [choices]
  | cons r rs ih =>
    cases ps with
    | nil => simp [choices]
    | cons p ps => simp [choices, ih]

theorem productPy_eq {l : List ℕ} (h : l ≠ []) : productPy l = .ok l.prod := by
  cases l with
  | nil => exact absurd rfl h
  | cons x xs =>
    have : ∀ (l : List ℕ) (a : ℕ), l.foldl (· * ·) a = a * l.prod := by
      intro l
      induction l with
      | nil => intro a; simp
      | cons y l ih => intro a; rw [List.foldl_cons, ih, List.prod_cons, mul_assoc]
    rw [productPy, this, List.prod_cons]

theorem mapM_all_ok {α β : Type} {f : α → Res β} {g : α → β} :
    ∀ {l : List α}, (∀ a ∈ l, f a = .ok (g a)) → l.mapM f = .ok (l.map g)
  | [], _ => rfl
  | a :: l, h => by
    rw [List.mapM_cons, h a (by simp), mapM_all_ok (l := l) fun b hb => h b (by simp [hb])]
    rfl

theorem splitFactors_eq (factors : List ℕ) : splitFactors factors =
    (1 :: ((if 11 ∈ factors then [11] else []) ++ (if 13 ∈ factors then [13] else [])),
      (factors.erase 11).erase 13) := by
  have h13 : 13 ∈ factors.erase 11 ↔ 13 ∈ factors := List.mem_erase_of_ne (by decide)
  unfold splitFactors
  simp only [List.foldl_cons, List.foldl_nil]
  by_cases h1 : 11 ∈ factors
  · by_cases h2 : 13 ∈ factors
    · simp [h1, h2, h13]
    · simp [h1, h2, h13, List.erase_of_not_mem]
  · by_cases h2 : 13 ∈ factors
    · simp [h1, h2, List.erase_of_not_mem]
    · simp [h1, h2, List.erase_of_not_mem]

theorem mem_extras {factors : List ℕ} {x : ℕ} : x ∈ (splitFactors factors).1 ↔
    x = 1 ∨ (x = 11 ∧ 11 ∈ factors) ∨ (x = 13 ∧ 13 ∈ factors) := by
  rw [splitFactors_eq]
  by_cases h1 : 11 ∈ factors <;> by_cases h2 : 13 ∈ factors <;> simp [h1, h2]

theorem choices_length {fs : List ℕ} {b : ℕ → List ℕ} {ps : List ℕ}
    (h : ps ∈ choices (fs.map b)) : ps.length = fs.length := by
  rw [mem_choices] at h
  simpa using h.length_eq

theorem sizesWith_eq (lg : ℕ → ℕ → ℕ → ℕ) (max : ℕ) {fs : List ℕ} (hfs : fs ≠ []) (e : ℕ) :
    sizesWith lg max fs e = .ok ((choices (fs.map fun i => List.range (lg max e i + 1))).map
      fun ps => e * (List.zipWith (fun f p => f ^ p) fs ps).prod) := by
  unfold sizesWith
  apply mapM_all_ok
  intro ps hps
  have hl := choices_length hps
  rw [productPy_eq]
  · rfl
  · intro h0
    have := congrArg List.length h0
    rw [List.length_zipWith, hl, min_self] at this
    exact hfs (List.length_eq_zero_iff.1 this)

/-- Every factor to its power divides the product, so that it is not larger. -/
theorem le_prod_pow : ∀ {fs ps : List ℕ}, (∀ f ∈ fs, 2 ≤ f) → ∀ {i f p : ℕ}, fs[i]? = some f →
    ps[i]? = some p → f ^ p ≤ (List.zipWith (fun f p => f ^ p) fs ps).prod := by
  have one_le : ∀ {fs ps : List ℕ}, (∀ f ∈ fs, 2 ≤ f) →
      1 ≤ (List.zipWith (fun f p => f ^ p) fs ps).prod := by
    intro fs
    induction fs with
    | nil => intro ps _; simp
    | cons f fs ih =>
      intro ps h
      cases ps with
      | nil => simp
      | cons p ps =>
        rw [List.zipWith_cons_cons, List.prod_cons]
        have h2 : 2 ≤ f := h f (by simp)
        exact Nat.mul_pos (Nat.pow_pos (by omega)) (ih fun g hg => h g (by simp [hg]))
  intro fs
  induction fs with
  | nil => intro ps _ i f p h; simp at h
  | cons g fs ih =>
    intro ps h i f p hf hp
    cases ps with
    | nil => simp at hp
    | cons q ps =>
      rw [List.zipWith_cons_cons, List.prod_cons]
      have h2 : 2 ≤ g := h g (by simp)
      cases i with
      | zero =>
        simp only [List.getElem?_cons_zero, Option.some.injEq] at hf hp
        subst hf hp
        exact Nat.le_mul_of_pos_right _ (one_le fun g hg => h g (by simp [hg]))
      | succ i =>
        simp only [List.getElem?_cons_succ] at hf hp
        exact le_trans (ih (fun g hg => h g (by simp [hg])) hf hp)
          (Nat.le_mul_of_pos_left _ (Nat.pow_pos (by omega)))

theorem forall₂_getElem {α β : Type} {R : α → β → Prop} {l : List α} {m : List β}
    (hl : l.length = m.length) (h : ∀ (i : ℕ) (a : α) (b : β), l[i]? = some a → m[i]? = some b → R a b) :
    List.Forall₂ R l m := by
  rw [List.forall₂_iff_get]
  refine ⟨hl, fun i h1 h2 => ?_⟩
  exact h i _ _ (List.getElem?_eq_getElem h1) (List.getElem?_eq_getElem h2)

/-- The setter computes a sorted list of all good sizes up to the maximum. -/
theorem fftSizes_spec {lg : ℕ → ℕ → ℕ → ℕ} (hlg : LogOk lg) {factors : List ℕ}
    (h2 : ∀ f ∈ factors, 2 ≤ f) (hne : (factors.erase 11).erase 13 ≠ []) (max : ℕ) :
    ∃ l, fftSizes lg factors max = .ok l ∧ l.Pairwise (· ≤ ·) ∧
      ∀ x, x ∈ l ↔ GoodFor factors x ∧ x ≤ max := by
  unfold fftSizes
  have hs : (splitFactors factors).2 = (factors.erase 11).erase 13 := by rw [splitFactors_eq]
  simp only
  rw [hs, mapM_all_ok fun e _ => sizesWith_eq lg max hne e]
  refine ⟨_, rfl, ?_, ?_⟩
  · exact List.pairwise_insertionSort _ _
  · intro x
    rw [List.mem_insertionSort, List.mem_filter, List.mem_flatten]
    simp only [List.mem_map, decide_eq_true_eq]
    constructor
    · rintro ⟨⟨l, ⟨e, he, rfl⟩, hx⟩, hmax⟩
      obtain ⟨ps, hps, rfl⟩ := List.mem_map.1 hx
      exact ⟨⟨e, ps, mem_extras.1 he, choices_length hps, rfl⟩, hmax⟩
    · rintro ⟨⟨e, ps, he, hps, rfl⟩, hmax⟩
      refine ⟨⟨_, ⟨e, mem_extras.2 he, rfl⟩, List.mem_map.2 ⟨ps, ?_, rfl⟩⟩, hmax⟩
      rw [mem_choices]
      refine forall₂_getElem (by simpa using hps) ?_
      intro i p r hp hr
      rw [List.getElem?_map] at hr
      obtain ⟨f, hf, rfl⟩ := Option.map_eq_some_iff.1 hr
      rw [List.mem_range, Nat.lt_succ_iff]
      have hpos : 0 < e := by rcases he with h | h | h <;> omega
      have hmem : ∀ g ∈ (factors.erase 11).erase 13, 2 ≤ g := fun g hg =>
        h2 g (List.mem_of_mem_erase (List.mem_of_mem_erase hg))
      refine hlg max e f p (hmem f (List.mem_of_getElem? hf)) hpos (le_trans ?_ hmax)
      exact Nat.mul_le_mul_left e (le_prod_pow hmem hf hp)

/-- The object knows exactly the good sizes up to its maximum. -/
structure FftwPad.Ok (factors : List ℕ) (p : FftwPad) : Prop where
  same : p.factors = factors
  pos : 1 ≤ p.max
  sorted : p.sizes.Pairwise (· ≤ ·)
  mem : ∀ x, x ∈ p.sizes ↔ GoodFor factors x ∧ x ≤ p.max

theorem goodFor_one (factors : List ℕ) : GoodFor factors 1 := by
  refine ⟨1, List.replicate ((factors.erase 11).erase 13).length 0, Or.inl rfl, by simp, ?_⟩
  have : ∀ l : List ℕ, (List.zipWith (fun f p => f ^ p) l (List.replicate l.length 0)).prod = 1 := by
    intro l
    induction l with
    | nil => rfl
    | cons f l ih => rw [List.length_cons, List.replicate_succ, List.zipWith_cons_cons,
        List.prod_cons, ih, pow_zero, one_mul]
  rw [this]

theorem searchSizes_spec {sizes : List ℕ} (hs : sizes.Pairwise (· ≤ ·)) (n : ℕ) :
    (∃ s, searchSizes sizes n = .ok s ∧ IsLeast {x | x ∈ sizes ∧ n ≤ x} s) ∨
      (searchSizes sizes n = .error .indexError ∧ ∀ x ∈ sizes, x < n) := by
  induction sizes with
  | nil => right; exact ⟨rfl, by simp⟩
  | cons a l ih =>
    by_cases ha : a < n
    · have hred : searchSizes (a :: l) n = searchSizes l n := by
        unfold searchSizes
        rw [List.takeWhile_cons_of_pos (by simpa using ha)]
        simp
      rcases ih (List.pairwise_cons.1 hs).2 with ⟨s, h1, h2, h3⟩ | ⟨h1, h2⟩
      · left
        refine ⟨s, hred.trans h1, ⟨by simp [h2.1], h2.2⟩, ?_⟩
        rintro x ⟨hx, hn⟩
        rcases List.mem_cons.1 hx with rfl | hx
        · omega
        · exact h3 ⟨hx, hn⟩
      · right
        refine ⟨hred.trans h1, ?_⟩
        intro x hx
        rcases List.mem_cons.1 hx with rfl | hx
        · exact ha
        · exact h2 x hx
    · left
      refine ⟨a, ?_, ⟨by simp, by omega⟩, ?_⟩
      · unfold searchSizes
        rw [List.takeWhile_cons_of_neg (by simpa using ha)]
        rfl
      · rintro x ⟨hx, -⟩
        rcases List.mem_cons.1 hx with rfl | hx
        · exact le_refl _
        · exact (List.pairwise_cons.1 hs).1 x hx

theorem le_getLast {l : List ℕ} (hs : l.Pairwise (· ≤ ·)) {m : ℕ} (h : l.getLast? = some m) :
    m ∈ l ∧ ∀ x ∈ l, x ≤ m := by
  obtain ⟨l', rfl⟩ := List.getLast?_eq_some_iff.1 h
  refine ⟨by simp, fun x hx => ?_⟩
  rw [List.mem_append, List.mem_singleton] at hx
  rcases hx with hx | rfl
  · exact (List.pairwise_append.1 hs).2.2 x hx m (by simp)
  · exact le_refl _

theorem FftwPad.Ok.call {lg : ℕ → ℕ → ℕ → ℕ} (hlg : LogOk lg) {factors : List ℕ}
    (h2 : ∀ f ∈ factors, 2 ≤ f) (hne : (factors.erase 11).erase 13 ≠ []) {p : FftwPad}
    (hp : p.Ok factors) (n : ℕ) : (p.call lg n).2.Ok factors ∧
      (p.max < n → (p.call lg n).2.max = n + 10000) ∧
      ((∃ s, (p.call lg n).1 = .ok s ∧ IsLeast {x | GoodFor factors x ∧ n ≤ x} s ∧
          (s ≤ p.max ∨ s ≤ n + 10000)) ∨
        ((p.call lg n).1 = .error .indexError ∧
          ∀ x, GoodFor factors x → n ≤ x → n + 10000 < x ∧ p.max < x)) := by
  have key : ∀ q : FftwPad, q.Ok factors →
      (∃ s, searchSizes q.sizes n = .ok s ∧ IsLeast {x | GoodFor factors x ∧ n ≤ x} s ∧
          s ≤ q.max) ∨
        (searchSizes q.sizes n = .error .indexError ∧
          ∀ x, GoodFor factors x → n ≤ x → q.max < x) := by
    intro q hq
    rcases searchSizes_spec hq.sorted n with ⟨s, h1, h3, h4⟩ | ⟨h1, h3⟩
    · left
      have hs := (hq.mem s).1 h3.1
      refine ⟨s, h1, ⟨⟨hs.1, h3.2⟩, ?_⟩, hs.2⟩
      rintro x ⟨hx, hn⟩
      by_cases hxm : x ≤ q.max
      · exact h4 ⟨(hq.mem x).2 ⟨hx, hxm⟩, hn⟩
      · omega
    · right
      refine ⟨h1, fun x hx hn => ?_⟩
      by_contra hc
      have := h3 x ((hq.mem x).2 ⟨hx, not_lt.1 hc⟩)
      omega
  unfold FftwPad.call
  cases hlast : p.sizes.getLast? with
  | none =>
    rw [List.getLast?_eq_none_iff] at hlast
    have := (hp.mem 1).2 ⟨goodFor_one factors, hp.pos⟩
    rw [hlast] at this
    simp at this
  | some last =>
    obtain ⟨hm, hle⟩ := le_getLast hp.sorted hlast
    have hlm := ((hp.mem last).1 hm).2
    simp only
    by_cases hlt : last < n
    · rw [if_pos hlt, hp.same]
      obtain ⟨l, h3, h4, h5⟩ := fftSizes_spec hlg h2 hne (n + 10000)
      rw [h3]
      simp only
      have hok : FftwPad.Ok factors { p with factors, max := n + 10000, sizes := l } :=
        ⟨rfl, by simp, h4, h5⟩
      refine ⟨⟨rfl, by simp, h4, h5⟩, fun _ => trivial, ?_⟩
      rcases key _ hok with ⟨s, g1, g2, g3⟩ | ⟨g1, g2⟩
      · exact Or.inl ⟨s, g1, g2, Or.inr g3⟩
      · refine Or.inr ⟨g1, fun x hx hn => ⟨g2 x hx hn, ?_⟩⟩
        by_contra hc
        have := hle x ((hp.mem x).2 ⟨hx, by omega⟩)
        omega
    · rw [if_neg hlt]
      refine ⟨hp, fun h => by omega, ?_⟩
      rcases key p hp with ⟨s, g1, g2, g3⟩ | ⟨h3, h4⟩
      · exact Or.inl ⟨s, g1, g2, Or.inl g3⟩
      · exfalso
        have := (hp.mem last).1 hm
        have := h4 last this.1 (not_lt.1 hlt)
        omega

theorem FftwPad.Ok.after {lg : ℕ → ℕ → ℕ → ℕ} (hlg : LogOk lg) {factors : List ℕ}
    (h2 : ∀ f ∈ factors, 2 ≤ f) (hne : (factors.erase 11).erase 13 ≠ []) (calls : List ℕ) :
    ∀ {p : FftwPad}, p.Ok factors → (p.after lg calls).Ok factors := by
  induction calls with
  | nil => intro p hp; exact hp
  | cons n l ih => intro p hp; exact ih (hp.call hlg h2 hne n).1

theorem FftwPad.new_ok {lg : ℕ → ℕ → ℕ → ℕ} (hlg : LogOk lg) {factors : List ℕ}
    (h2 : ∀ f ∈ factors, 2 ≤ f) (hne : (factors.erase 11).erase 13 ≠ []) {max : ℕ} (hm : 1 ≤ max) :
    ∃ p, FftwPad.new lg max factors = .ok p ∧ p.Ok factors ∧ p.max = max := by
  obtain ⟨l, h3, h4, h5⟩ := fftSizes_spec hlg h2 hne max
  refine ⟨{ factors, max, sizes := l }, ?_, ⟨rfl, hm, h4, h5⟩, rfl⟩
  unfold FftwPad.new
  rw [h3]
  rfl

theorem goodFor_default {m : ℕ} : GoodFor [2, 3, 5, 7, 11, 13] m ↔ GoodSize m := by
  have hl : (([2, 3, 5, 7, 11, 13] : List ℕ).erase 11).erase 13 = [2, 3, 5, 7] := by decide
  unfold GoodFor GoodSize
  rw [hl]
  constructor
  · rintro ⟨x, ps, hx, hps, rfl⟩
    match ps, hps with
    | [a, b, c, d], _ =>
      rcases hx with rfl | ⟨rfl, -⟩ | ⟨rfl, -⟩
      · exact ⟨a, b, c, d, 0, 0, by omega, by simp [mul_assoc]⟩
      · exact ⟨a, b, c, d, 1, 0, by omega, by simp; ring⟩
      · exact ⟨a, b, c, d, 0, 1, by omega, by simp; ring⟩
  · rintro ⟨a, b, c, d, e, f, hef, rfl⟩
    rcases (by omega : (e = 0 ∧ f = 0) ∨ (e = 1 ∧ f = 0) ∨ (e = 0 ∧ f = 1)) with
      ⟨rfl, rfl⟩ | ⟨rfl, rfl⟩ | ⟨rfl, rfl⟩
    · exact ⟨1, [a, b, c, d], by simp, rfl, by simp [mul_assoc]⟩
    · exact ⟨11, [a, b, c, d], by simp, rfl, by simp; ring⟩
    · exact ⟨13, [a, b, c, d], by simp, rfl, by simp; ring⟩

/-- The exact logarithm is large enough. -/
theorem exactLog_ok : LogOk fun max e i => Nat.log i (max / e + 1) := by
  intro max e i p hi he h
  have h1 : i ^ p ≤ max / e := (Nat.le_div_iff_mul_le he).2 (by rwa [Nat.mul_comm])
  exact Nat.le_log_of_pow_le (by omega) (by omega)

/-! ### Automatic padding -/

/-- The pad widths for a dimension with `l` points that is padded to `t`. -/
def halves (l t : ℕ) : ℕ × ℕ := ((t - l) / 2, (t - l) - (t - l) / 2)

theorem halves_sum {l t : ℕ} (h : l ≤ t) : (halves l t).1 + l + (halves l t).2 = t := by
  unfold halves
  simp only
  omega

theorem autopadWidths_spec {shape : List ℕ} {padsize : ℕ → Res ℕ} {t : ℕ → ℕ}
    (ht : ∀ l ∈ shape, padsize l = .ok (t l) ∧ l ≤ t l) :
    ∀ (axs : List ℤ) (w : List (ℤ × ℤ)), w.length = shape.length →
      (∀ a ∈ axs, ∃ d, pyIdx shape.length a = some d) →
      ∃ w', autopadWidths shape padsize axs w = .ok w' ∧ w'.length = w.length ∧
        ∀ (d l : ℕ), shape[d]? = some l → w'[d]? =
          if ∃ a ∈ axs, pyIdx shape.length a = some d then
            some (((halves l (t l)).1 : ℤ), ((halves l (t l)).2 : ℤ)) else w[d]? := by
  intro axs
  induction axs with
  | nil => intro w hw _; exact ⟨w, rfl, rfl, by simp⟩
  | cons a axs ih =>
    intro w hw hax
    obtain ⟨k, hk⟩ := hax a (by simp)
    have hkl := pyIdx_lt hk
    have hs : shape[k]? = some shape[k] := List.getElem?_eq_getElem hkl
    obtain ⟨h1, h2⟩ := ht shape[k] (List.getElem_mem _)
    have hnum : ((t shape[k] : ℤ) - shape[k]).fdiv 2 = ((halves shape[k] (t shape[k])).1 : ℤ) := by
      unfold halves
      simp only
      rw [Int.fdiv_eq_ediv_of_nonneg _ (by omega)]
      omega
    have hnum2 : (t shape[k] : ℤ) - shape[k] - ((halves shape[k] (t shape[k])).1 : ℤ) =
        ((halves shape[k] (t shape[k])).2 : ℤ) := by
      unfold halves
      simp only
      omega
    obtain ⟨w', g1, g2, g3⟩ := ih (w.set k (((halves shape[k] (t shape[k])).1 : ℤ),
      ((halves shape[k] (t shape[k])).2 : ℤ))) (by simpa using hw) fun b hb => hax b (by simp [hb])
    refine ⟨w', ?_, by simpa using g2, ?_⟩
    · rw [autopadWidths, pyGet_of hk hs]
      simp only [bind, Except.bind, h1]
      rw [hnum, hnum2, pySet_of _ (by rw [hw]; exact hk)]
      exact g1
    · intro d l hd
      rw [g3 d l hd]
      by_cases hkd : k = d
      · subst hkd
        rw [hs, Option.some.injEq] at hd
        subst hd
        rw [if_pos (⟨a, by simp, hk⟩ : ∃ b ∈ a :: axs, pyIdx shape.length b = some k)]
        split_ifs
        · rfl
        · rw [List.getElem?_set_self (by omega)]
      · rw [List.getElem?_set_ne hkd]
        have : (∃ b ∈ a :: axs, pyIdx shape.length b = some d) ↔
            ∃ b ∈ axs, pyIdx shape.length b = some d := by
          constructor
          · rintro ⟨b, hb, hbd⟩
            rcases List.mem_cons.1 hb with rfl | hb
            · rw [hk, Option.some.injEq] at hbd
              exact absurd hbd hkd
            · exact ⟨b, hb, hbd⟩
          · rintro ⟨b, hb, hbd⟩
            exact ⟨b, by simp [hb], hbd⟩
        simp only [this]

end Postpic.Fields
