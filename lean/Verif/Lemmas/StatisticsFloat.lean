import Mathlib.Algebra.Order.BigOperators.Group.List
import Mathlib.Algebra.BigOperators.Ring.List
import Verif.Lemmas.RoundingError
import Verif.Lemmas.Within
import Verif.Spec.StatisticsFloat

/-!
# Lemmas about statistics with rounding
-/

set_option autoImplicit false
set_option linter.unusedSectionVars false

namespace Postpic.Statistics

open Postpic Postpic.Histogram Postpic.Spec

variable {K : Type} [Field K] [LinearOrder K] [IsStrictOrderedRing K] [FloorRing K] {rnd : K → Dbl K} {u : K}

/-- `y` is the sum of `xs`, each of them after `k` roundings. -/
def Spread (u : K) (k : ℕ) (xs : List K) (y : K) : Prop :=
  ∃ fs : List K, fs.length = xs.length ∧ (∀ f ∈ fs, (1 - u) ^ k ≤ f ∧ f * (1 - u) ^ k ≤ 1) ∧ y = (List.zipWith (· * ·) xs fs).sum

theorem factor_mono (hu0 : 0 ≤ u) (hu1 : u < 1) {k l : ℕ} (h : k ≤ l) {f : K} (hf : (1 - u) ^ k ≤ f ∧ f * (1 - u) ^ k ≤ 1) :
    (1 - u) ^ l ≤ f ∧ f * (1 - u) ^ l ≤ 1 := by
  have hw : (1 - u) ^ l ≤ (1 - u) ^ k := pow_le_pow_of_le_one (by linarith) (by linarith) h
  have h0 : 0 < f := lt_of_lt_of_le (pow_pos (by linarith) k) hf.1
  exact ⟨hw.trans hf.1, (mul_le_mul_of_nonneg_left hw h0.le).trans hf.2⟩

theorem factor_mul (hu1 : u < 1) {k l : ℕ} {f g : K} (hf : (1 - u) ^ k ≤ f ∧ f * (1 - u) ^ k ≤ 1)
    (hg : (1 - u) ^ l ≤ g ∧ g * (1 - u) ^ l ≤ 1) : (1 - u) ^ (k + l) ≤ f * g ∧ f * g * (1 - u) ^ (k + l) ≤ 1 := by
  have hk : 0 < (1 - u) ^ k := pow_pos (by linarith) k
  have hl : 0 < (1 - u) ^ l := pow_pos (by linarith) l
  rw [pow_add]
  constructor
  · exact mul_le_mul hf.1 hg.1 hl.le (hk.le.trans hf.1)
  · calc f * g * ((1 - u) ^ k * (1 - u) ^ l) = (f * (1 - u) ^ k) * (g * (1 - u) ^ l) := by ring
      _ ≤ 1 * 1 := mul_le_mul hf.2 hg.2 (mul_nonneg (hl.le.trans hg.1) hl.le) (by norm_num)
      _ = 1 := one_mul 1

theorem spread_mono (hu0 : 0 ≤ u) (hu1 : u < 1) {k l : ℕ} (h : k ≤ l) {xs : List K} {y : K} (hs : Spread u k xs y) : Spread u l xs y := by
  obtain ⟨fs, h1, h2, h3⟩ := hs
  exact ⟨fs, h1, fun f hf => factor_mono hu0 hu1 h (h2 f hf), h3⟩

theorem spread_single {k : ℕ} {x y : K} (h : Within u k x y) : Spread u k [x] y := by
  obtain ⟨t, h1, h2, h3⟩ := h
  exact ⟨[t], rfl, by simpa using ⟨h1, h2⟩, by simpa using h3⟩

theorem spread_append {k : ℕ} {xs xs' : List K} {y y' : K} (h : Spread u k xs y) (h' : Spread u k xs' y') :
    Spread u k (xs ++ xs') (y + y') := by
  obtain ⟨fs, h1, h2, h3⟩ := h
  obtain ⟨gs, g1, g2, g3⟩ := h'
  refine ⟨fs ++ gs, by simp [h1, g1], ?_, ?_⟩
  · intro f hf
    rcases List.mem_append.1 hf with hf | hf
    · exact h2 f hf
    · exact g2 f hf
  · rw [List.zipWith_append h1.symm, List.sum_append, h3, g3]

theorem zipWith_scale (xs fs : List K) (g : K) : (List.zipWith (· * ·) xs (fs.map (· * g))).sum = (List.zipWith (· * ·) xs fs).sum * g := by
  induction xs generalizing fs with
  | nil => simp
  | cons x xs ih =>
    cases fs with
    | nil => simp
    | cons f fs => simp only [List.map_cons, List.zipWith_cons_cons, List.sum_cons, ih]; ring

theorem spread_mul (hu1 : u < 1) {k l : ℕ} {xs : List K} {y g : K} (h : Spread u k xs y) (hg : (1 - u) ^ l ≤ g ∧ g * (1 - u) ^ l ≤ 1) :
    Spread u (k + l) xs (y * g) := by
  obtain ⟨fs, h1, h2, h3⟩ := h
  refine ⟨fs.map (· * g), by simp [h1], ?_, by rw [zipWith_scale, h3]⟩
  intro f hf
  obtain ⟨f', hf', rfl⟩ := List.mem_map.1 hf
  exact factor_mul hu1 (h2 f' hf') hg

/-- A rounding is a factor. -/
theorem round_factor (hu0 : 0 ≤ u) (hu1 : u < 1) {y z : K} (h : |z - y| ≤ u * |y|) : ∃ g, ((1 - u) ^ 1 ≤ g ∧ g * (1 - u) ^ 1 ≤ 1) ∧ z = y * g := by
  obtain ⟨t, h1, h2, h3⟩ := within_round hu0 hu1 (within_refl y) h
  exact ⟨t, ⟨h1, h2⟩, h3⟩

theorem spread_round (hu0 : 0 ≤ u) (hu1 : u < 1) {k : ℕ} {xs : List K} {y z : K} (h : Spread u k xs y) (hz : |z - y| ≤ u * |y|) :
    Spread u (k + 1) xs z := by
  obtain ⟨g, hg, rfl⟩ := round_factor hu0 hu1 hz
  exact spread_mul hu1 h hg

/-- Sums of numbers which are not negative. -/
theorem spread_within (hu0 : 0 ≤ u) (hu1 : u < 1) {k : ℕ} {xs : List K} {y : K} (hx : ∀ x ∈ xs, 0 ≤ x) (h : Spread u k xs y) :
    Within u k xs.sum y := by
  obtain ⟨fs, h1, h2, h3⟩ := h
  induction xs generalizing fs y with
  | nil =>
    simp only [List.zipWith_nil_left, List.sum_nil] at h3
    subst h3
    exact within_mono hu0 hu1 (Nat.zero_le k) (within_refl 0)
  | cons x xs ih =>
    cases fs with
    | nil => simp at h1
    | cons f fs =>
      simp only [List.zipWith_cons_cons, List.sum_cons] at h3
      subst h3
      simp only [List.length_cons, add_left_inj] at h1
      rw [List.sum_cons]
      refine within_add (hx x (by simp)) (List.sum_nonneg fun z hz => hx z (by simp [hz])) hu0 hu1 ?_
        (ih (fun z hz => hx z (by simp [hz])) fs h1 (fun g hg => h2 g (by simp [hg])) rfl)
      obtain ⟨h4, h5⟩ := h2 f (by simp)
      exact ⟨f, h4, h5, rfl⟩

theorem factor_error (hu0 : 0 ≤ u) {k : ℕ} (hk : k * u ≤ 1 / 2) {f : K} (hf : (1 - u) ^ k ≤ f ∧ f * (1 - u) ^ k ≤ 1) :
    |f - 1| ≤ 2 * k * u := by
  have := within_error hu0 hk (⟨f, hf.1, hf.2, by ring⟩ : Within u k 1 f)
  simpa using this

theorem spread_error (hu0 : 0 ≤ u) {k : ℕ} (hk : k * u ≤ 1 / 2) {xs : List K} {y : K} (h : Spread u k xs y) :
    |y - xs.sum| ≤ 2 * k * u * (xs.map abs).sum := by
  obtain ⟨fs, h1, h2, h3⟩ := h
  subst h3
  induction xs generalizing fs with
  | nil => simp
  | cons x xs ih =>
    cases fs with
    | nil => simp at h1
    | cons f fs =>
      simp only [List.length_cons, add_left_inj] at h1
      have h4 := ih fs h1 (fun g hg => h2 g (by simp [hg]))
      have h5 := factor_error hu0 hk (h2 f (by simp))
      simp only [List.zipWith_cons_cons, List.sum_cons, List.map_cons]
      have e : x * f + (List.zipWith (· * ·) xs fs).sum - (x + xs.sum) = x * (f - 1) + ((List.zipWith (· * ·) xs fs).sum - xs.sum) := by ring
      rw [e]
      refine (abs_add_le _ _).trans ?_
      rw [abs_mul]
      have := mul_le_mul_of_nonneg_left h5 (abs_nonneg x)
      linarith

/-- The error of a sum. -/
theorem sumF_spread (A : Accurate rnd u) (hu1 : u < 1) {k : ℕ} (xs : List K) (ys : List (Dbl K))
    (h : ∀ i, i < xs.length → ∃ y, ys[i]? = some (.fin y) ∧ Within u k (xs.getD i 0) y) (t : SumTree) (ht : ∀ i ∈ t.leaves, i < xs.length) :
    ∃ y, sumF rnd ys t = .fin y ∧ Spread u (k + t.depth) (t.leaves.map fun i => xs.getD i 0) y := by
  have hu0 := A.nonneg
  induction t with
  | empty => exact ⟨0, rfl, [], by simp [SumTree.leaves]⟩
  | leaf i =>
    obtain ⟨y, h1, h2⟩ := h i (ht i (by simp [SumTree.leaves]))
    refine ⟨y, by simp [sumF, h1], ?_⟩
    simpa [SumTree.leaves, SumTree.depth] using spread_single h2
  | node l r ihl ihr =>
    obtain ⟨a, a1, a2⟩ := ihl fun i hi => ht i (by simp [SumTree.leaves, hi])
    obtain ⟨b, b1, b2⟩ := ihr fun i hi => ht i (by simp [SumTree.leaves, hi])
    obtain ⟨z, z1, z2⟩ := add_near A a b
    refine ⟨z, by rw [sumF, a1, b1, z1], ?_⟩
    have := spread_round hu0 hu1 (spread_append (spread_mono hu0 hu1 (show k + l.depth ≤ k + max l.depth r.depth by omega) a2)
      (spread_mono hu0 hu1 (show k + r.depth ≤ k + max l.depth r.depth by omega) b2)) z2
    simpa [SumTree.leaves, SumTree.depth, Nat.add_assoc] using this

theorem leaves_perm (xs : List K) {t : SumTree} (ht : Adds t xs.length) : (t.leaves.map fun i => xs.getD i 0).Perm xs := by
  have h := ht.map fun i => xs.getD i 0
  have e : (List.range xs.length).map (fun i => xs.getD i 0) = xs := by
    apply List.ext_getElem
    · simp
    · intro i h1 h2
      simp [List.getD, List.getElem?_eq_getElem h2]
  rwa [e] at h

/-- The error of an average. -/
theorem averageF_spread (A : Accurate rnd u) (hu1 : u < 1) {k : ℕ} (data w : List K) (ds : List (Dbl K)) (t : SumTree)
    (hlen : w.length = data.length) (hw : ∀ a ∈ w, 0 ≤ a) (hpos : 0 < w.sum) (ht : Adds t data.length)
    (h : ∀ i, i < data.length → ∃ y, ds[i]? = some (.fin y) ∧ Within u k (data.getD i 0) y) :
    ∃ y, averageF rnd t ds (w.map .fin) = .ok (.fin y) ∧
      Spread u (k + 2 * t.depth + 2) (t.leaves.map fun i => (List.zipWith (· * ·) data w).getD i 0) (y * w.sum) := by
  have hu0 := A.nonneg
  have hmem : ∀ i ∈ t.leaves, i < data.length := fun i hi => by simpa using ht.subset hi
  obtain ⟨s, s1, s2⟩ := sumF_spread A hu1 (k := 0) w (w.map .fin) (by
    intro i hi
    exact ⟨w.getD i 0, by simp [List.getD, List.getElem?_eq_getElem hi], within_refl _⟩) t (by rw [hlen]; exact hmem)
  have s3 := spread_within hu0 hu1 (by
    intro x hx
    obtain ⟨i, hi, rfl⟩ := List.mem_map.1 hx
    have hi' : i < w.length := by rw [hlen]; exact hmem i hi
    simp only [List.getD, List.getElem?_eq_getElem hi', Option.getD_some]
    exact hw _ (List.getElem_mem _)) s2
  rw [(leaves_perm w (by rw [hlen]; exact ht)).sum_eq, Nat.zero_add] at s3
  obtain ⟨g, g1, g2, g3⟩ := within_inv hu1 s3
  have hs0 : 0 < s := within_pos hu1 hpos s3
  have hz : (List.zipWith (· * ·) data w).length = data.length := by simp [hlen]
  obtain ⟨p, p1, p2⟩ := sumF_spread A hu1 (k := k + 1) (List.zipWith (· * ·) data w) (List.zipWith (Dbl.mul rnd) ds (w.map .fin)) (by
    intro i hi
    rw [hz] at hi
    have hi' : i < w.length := by omega
    obtain ⟨y, y1, y2⟩ := h i hi
    obtain ⟨z, z1, z2⟩ := mul_near A y w[i]
    refine ⟨z, ?_, ?_⟩
    · simp [List.getElem?_zipWith, y1, List.getElem?_eq_getElem hi', z1]
    · have e : (List.zipWith (· * ·) data w).getD i 0 = data.getD i 0 * w[i] := by
        simp [List.getD, List.getElem?_zipWith, List.getElem?_eq_getElem hi, List.getElem?_eq_getElem hi']
      rw [e]
      have := within_mul hu1 y2 (within_refl (u := u) w[i])
      exact within_round hu0 hu1 this z2) t (by rw [hz]; exact hmem)
  obtain ⟨y, y1, y2⟩ := A.near (p / s)
  refine ⟨y, ?_, ?_⟩
  · unfold averageF
    rw [s1, p1, if_neg (by intro h; cases h; exact lt_irrefl _ hs0)]
    simp only [Dbl.div, if_neg hs0.ne', y1]
  · obtain ⟨f, hf, rfl⟩ := round_factor hu0 hu1 y2
    have e : p / s * f * w.sum = p * g * f := by
      rw [div_eq_mul_inv, g3]
      field_simp
    rw [e]
    have := spread_mul hu1 (spread_mul hu1 p2 ⟨g1, g2⟩) hf
    have e2 : k + 1 + t.depth + t.depth + 1 = k + 2 * t.depth + 2 := by ring
    rwa [e2] at this

/-! ### Quantiles -/

/-- The entries of the cumulated sum after the one with the value `acc`. -/
theorem scanF_get (A : Accurate rnd u) (F : Format rnd) (hu1 : u < 1) (l : List K) (hl : ∀ a ∈ l, 0 ≤ a) :
    ∀ (c acc : K) (k : ℕ), 0 ≤ c → Within u k c acc → ∀ i, i < l.length →
      ∃ y, (scanF rnd (.fin acc) l)[i]? = some (.fin y) ∧ Within u (k + i + 1) (c + (l.take (i + 1)).sum) y ∧ rnd y = .fin y := by
  have hu0 := A.nonneg
  induction l with
  | nil => intro c acc k _ _ i hi; simp at hi
  | cons a l ih =>
    intro c acc k hc hw i hi
    have ha := hl a (by simp)
    obtain ⟨z, z1, z2⟩ := add_near A acc a
    have z3 : Within u (k + 1) (c + a) z :=
      within_round hu0 hu1 (within_add hc ha hu0 hu1 hw (within_mono hu0 hu1 (Nat.zero_le k) (within_refl a))) z2
    cases i with
    | zero =>
      refine ⟨z, by simp [scanF, z1], by simpa using z3, ?_⟩
      have : rnd (acc + a) = .fin z := z1
      exact F.idem _ _ this
    | succ i =>
      obtain ⟨y, y1, y2, y3⟩ := ih (fun b hb => hl b (by simp [hb])) (c + a) z (k + 1) (by linarith) z3 i (by simpa using hi)
      refine ⟨y, by simp [scanF, z1, y1], ?_, y3⟩
      have e : k + (i + 1) + 1 = k + 1 + i + 1 := by ring
      rw [e, List.take_succ_cons, List.sum_cons, ← add_assoc]
      exact y2

/-- The entries of the cumulated sum. -/
theorem cumsumF_get (A : Accurate rnd u) (F : Format rnd) (hu1 : u < 1) (l : List K) (hl : ∀ a ∈ l, 0 ≤ a) (hr : ∀ a ∈ l, rnd a = .fin a)
    (i : ℕ) (hi : i < l.length) :
    ∃ y, (cumsumF rnd l)[i]? = some (.fin y) ∧ Within u i (l.take (i + 1)).sum y ∧ rnd y = .fin y := by
  cases l with
  | nil => simp at hi
  | cons a l =>
    cases i with
    | zero => exact ⟨a, rfl, by simpa using within_refl a, hr a (by simp)⟩
    | succ i =>
      obtain ⟨y, y1, y2, y3⟩ := scanF_get A F hu1 l (fun b hb => hl b (by simp [hb])) a a 0 (hl a (by simp)) (within_refl a) i (by simpa using hi)
      exact ⟨y, by simpa [cumsumF] using y1, by simpa using y2, y3⟩

theorem scanF_length (l : List K) (acc : Dbl K) : (scanF rnd acc l).length = l.length := by
  induction l generalizing acc with
  | nil => rfl
  | cons a l ih => simp [scanF, ih]

theorem cumsumF_length (l : List K) : (cumsumF rnd l).length = l.length := by
  cases l with
  | nil => rfl
  | cons a l => simp [cumsumF, scanF_length]

theorem scanF_step (l : List K) (acc : Dbl K) (i : ℕ) (a : Dbl K) (ha : (acc :: scanF rnd acc l)[i]? = some a) (hi : i < l.length) :
    (scanF rnd acc l)[i]? = some (Dbl.add rnd a (.fin l[i])) := by
  induction l generalizing acc i with
  | nil => simp at hi
  | cons b l ih =>
    cases i with
    | zero =>
      simp only [List.getElem?_cons_zero, Option.some.injEq] at ha
      subst ha
      simp [scanF]
    | succ i =>
      simp only [List.getElem?_cons_succ] at ha
      have := ih (Dbl.add rnd acc (.fin b)) i (by simpa [scanF] using ha) (by simpa using hi)
      simpa [scanF] using this

theorem cumsumF_step (l : List K) (i : ℕ) (a : Dbl K) (ha : (cumsumF rnd l)[i]? = some a) (hi : i + 1 < l.length) :
    (cumsumF rnd l)[i + 1]? = some (Dbl.add rnd a (.fin l[i + 1])) := by
  cases l with
  | nil => simp at hi
  | cons b l =>
    have := scanF_step (rnd := rnd) l (.fin b) i a ha (by simpa using hi)
    simpa [cumsumF] using this

theorem takeWhile_before {α : Type} (p : α → Bool) (c : List α) (i : ℕ) (hi : i < (c.takeWhile p).length) (a : α) (ha : c[i]? = some a) :
    p a = true := by
  have hp : c.takeWhile p <+: c := List.takeWhile_prefix _
  obtain ⟨r, hr⟩ := hp
  rw [← hr, List.getElem?_append_left hi] at ha
  exact List.all_eq_true.1 (List.all_takeWhile (p := p) (l := c)) _ (List.mem_of_getElem? ha)

theorem takeWhile_at {α : Type} (p : α → Bool) (c : List α) (a : α) (ha : c[(c.takeWhile p).length]? = some a) : p a = false := by
  induction c with
  | nil => simp at ha
  | cons b c ih =>
    by_cases hb : p b = true
    · rw [List.takeWhile_cons_of_pos hb] at ha
      exact ih (by simpa using ha)
    · rw [List.takeWhile_cons_of_neg hb] at ha
      simp only [List.length_nil, List.getElem?_cons_zero, Option.some.injEq] at ha
      subst ha
      simpa using hb

/-- In a sorted list the first entries are at most the value behind them. -/
theorem sorted_le (s : List (K × K)) (hs : s.Pairwise fun a b => a.1 ≤ b.1) (hw : ∀ a ∈ s, 0 ≤ a.2) (n : ℕ) (hlt : n < s.length) :
    ((s.take (n + 1)).map (·.2)).sum ≤ ((s.filter fun a => decide (a.1 ≤ s[n].1)).map (·.2)).sum := by
  have hall : ∀ a ∈ s.take (n + 1), a.1 ≤ s[n].1 := by
    intro a ha
    obtain ⟨i, hi, rfl⟩ := List.mem_iff_getElem.1 ha
    rw [List.length_take] at hi
    rw [List.getElem_take]
    rcases Nat.lt_or_ge i n with h | h
    · exact List.pairwise_iff_getElem.1 hs i n (by omega) hlt h
    · have : i = n := by omega
      subst this; exact le_refl _
  have hsplit : s = s.take (n + 1) ++ s.drop (n + 1) := (List.take_append_drop _ _).symm
  have : s.filter (fun a => decide (a.1 ≤ s[n].1))
      = s.take (n + 1) ++ (s.drop (n + 1)).filter (fun a => decide (a.1 ≤ s[n].1)) := by
    generalize s[n].1 = x at hall
    conv_lhs => rw [hsplit]
    rw [List.filter_append]
    congr 1
    exact List.filter_eq_self.2 fun a ha => by simpa using hall a ha
  rw [this, List.map_append, List.sum_append]
  have hnn : 0 ≤ (((s.drop (n + 1)).filter (fun a => decide (a.1 ≤ s[n].1))).map (·.2)).sum := by
    apply List.sum_nonneg
    intro y hy
    obtain ⟨a, ha, rfl⟩ := List.mem_map.1 hy
    exact hw a (List.drop_subset _ _ (List.mem_of_mem_filter ha))
  linarith

/-- In a sorted list all smaller values are before an entry. -/
theorem sorted_lt (s : List (K × K)) (hs : s.Pairwise fun a b => a.1 ≤ b.1) (hw : ∀ a ∈ s, 0 ≤ a.2) (n : ℕ) (hlt : n < s.length) :
    ((s.filter fun a => decide (a.1 < s[n].1)).map (·.2)).sum ≤ ((s.take n).map (·.2)).sum := by
  have hlast : ∀ a ∈ s.drop n, ¬ a.1 < s[n].1 := by
    intro a ha
    obtain ⟨i, hi, rfl⟩ := List.mem_iff_getElem.1 ha
    rw [List.length_drop] at hi
    rw [List.getElem_drop, not_lt]
    rcases Nat.eq_zero_or_pos i with hi0 | hi0
    · subst hi0; exact le_refl _
    · exact List.pairwise_iff_getElem.1 hs n (n + i) hlt (by omega) (by omega)
  have hsplit : s = s.take n ++ s.drop n := (List.take_append_drop _ _).symm
  have : s.filter (fun a => decide (a.1 < s[n].1)) = (s.take n).filter (fun a => decide (a.1 < s[n].1)) := by
    generalize s[n].1 = x at hlast
    conv_lhs => rw [hsplit]
    rw [List.filter_append]
    have : (s.drop n).filter (fun a => decide (a.1 < x)) = [] := by
      rw [List.filter_eq_nil_iff]
      intro a ha
      simpa using hlast a ha
    rw [this, List.append_nil]
  rw [this]
  apply List.Sublist.sum_le_sum
  · exact List.filter_sublist.map _
  · intro z hz
    obtain ⟨a, ha, rfl⟩ := List.mem_map.1 hz
    exact hw a (List.take_subset _ _ ha)

/-- Comparing rounded numbers. -/
theorem within_le (hu0 : 0 ≤ u) (hu1 : u < 1) {k l n : ℕ} (hn : k + l ≤ n) {a b a' b' : K} (ha : 0 ≤ a) (hb : 0 ≤ b) (h : Within u k a a')
    (h' : Within u l b b') (hle : a' ≤ b') : (1 - n * u) * a ≤ b := by
  obtain ⟨f, f1, f2, rfl⟩ := h
  obtain ⟨g, g1, g2, rfl⟩ := h'
  have hk : 0 < (1 - u) ^ k := pow_pos (by linarith) k
  have hl : 0 < (1 - u) ^ l := pow_pos (by linarith) l
  have hb1 : 1 - n * u ≤ (1 - u) ^ (k + l) := by
    have h1 := one_add_mul_le_pow (show (-2 : K) ≤ -u by linarith) n
    have h2 : (1 - u) ^ n ≤ (1 - u) ^ (k + l) := pow_le_pow_of_le_one (by linarith) (by linarith) hn
    rw [← sub_eq_add_neg] at h1
    linarith
  calc (1 - n * u) * a ≤ (1 - u) ^ (k + l) * a := mul_le_mul_of_nonneg_right hb1 ha
    _ = (1 - u) ^ l * (a * (1 - u) ^ k) := by rw [pow_add]; ring
    _ ≤ (1 - u) ^ l * (a * f) := mul_le_mul_of_nonneg_left (mul_le_mul_of_nonneg_left f1 ha) hl.le
    _ ≤ (1 - u) ^ l * (b * g) := mul_le_mul_of_nonneg_left hle hl.le
    _ = b * (g * (1 - u) ^ l) := by ring
    _ ≤ b * 1 := mul_le_mul_of_nonneg_left g2 hb
    _ = b := mul_one b

end Postpic.Statistics
