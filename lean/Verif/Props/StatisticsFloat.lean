import Verif.Lemmas.StatisticsFloat
import Verif.Props.Statistics
import Verif.Props.AxisFloat
import Verif.Lemmas.Nearest53

/-!
# Rounding errors of mean, variance and quantiles
-/

set_option autoImplicit false
set_option linter.unusedSectionVars false

namespace Postpic.Props

open Postpic Postpic.Statistics Postpic.Spec Postpic.Histogram

section
variable {K : Type} [Field K] [LinearOrder K] [IsStrictOrderedRing K] [FloorRing K] {rnd : K → Dbl K} {u : K}

/-! ## C125: mean, variance and quantiles are accurate despite rounding -/

theorem zipWith_abs (data w : List K) (hw : ∀ a ∈ w, 0 ≤ a) :
    (List.zipWith (· * ·) data w).map abs = List.zipWith (· * ·) (data.map abs) w := by
  induction data generalizing w with
  | nil => simp
  | cons x data ih =>
    cases w with
    | nil => simp
    | cons a w =>
      simp only [List.zipWith_cons_cons, List.map_cons, abs_mul, abs_of_nonneg (hw a (by simp))]
      rw [ih w fun b hb => hw b (by simp [hb])]

/-- C125: whatever the order of the additions, the error of the mean is at most `2 d + 2` roundings of the mean of the absolute values,
where `d` is the depth of the additions. -/
theorem mean_rounded (A : Accurate rnd u) (data w : List K) (t : SumTree) (hlen : w.length = data.length) (hw : ∀ a ∈ w, 0 ≤ a)
    (hpos : 0 < w.sum) (ht : Adds t data.length) (hk : ((2 * t.depth + 2 : ℕ) : K) * u ≤ 1 / 2) :
    mean data w = .ok (wmeanOf data w) ∧
    ∃ y, meanF rnd t data w = .ok (.fin y) ∧ |y - wmeanOf data w| ≤ 2 * (2 * t.depth + 2 : ℕ) * u * magnitude data w := by
  have hu0 := A.nonneg
  have hu1 : u < 1 := by
    have : (1 : K) ≤ ((2 * t.depth + 2 : ℕ) : K) := by exact_mod_cast (by omega : 1 ≤ 2 * t.depth + 2)
    nlinarith
  refine ⟨by rw [mean, average, if_neg hpos.ne']; rfl, ?_⟩
  obtain ⟨y, h1, h2⟩ := averageF_spread A hu1 (k := 0) data w (data.map .fin) t hlen hw hpos ht (by
    intro i hi
    exact ⟨data.getD i 0, by simp [List.getD, List.getElem?_eq_getElem hi], within_refl _⟩)
  refine ⟨y, h1, ?_⟩
  rw [Nat.zero_add] at h2
  have h3 := spread_error hu0 hk h2
  have hz : (List.zipWith (· * ·) data w).length = data.length := by simp [hlen]
  have hp := leaves_perm (List.zipWith (· * ·) data w) (t := t) (by rw [hz]; exact ht)
  rw [hp.sum_eq, (hp.map abs).sum_eq, zipWith_abs data w hw] at h3
  have e : y * w.sum - (List.zipWith (· * ·) data w).sum = (y - wmeanOf data w) * w.sum := by
    unfold wmeanOf
    field_simp
  rw [e, abs_mul, abs_of_pos hpos] at h3
  have e2 : magnitude data w = (List.zipWith (· * ·) (data.map abs) w).sum / w.sum := rfl
  rw [e2, ← mul_div_assoc, le_div_iff₀ hpos]
  exact h3

theorem spread_var (data w : List K) (m : K) (hlen : w.length = data.length) (hpos : 0 < w.sum) :
    wmeanOf (data.map fun x => (x - m) ^ 2) w = varOf data w + (m - wmeanOf data w) ^ 2 := by
  have key : ∀ c : K, (List.zipWith (· * ·) (data.map fun x => (x - c) ^ 2) w).sum =
      (List.zipWith (· * ·) (data.map (· ^ 2)) w).sum - 2 * c * (List.zipWith (· * ·) data w).sum + c ^ 2 * w.sum := by
    intro c
    clear hpos
    induction data generalizing w with
    | nil =>
      have : w = [] := List.length_eq_zero_iff.1 hlen
      subst this; simp
    | cons x data ih =>
      cases w with
      | nil => simp at hlen
      | cons a w =>
        simp only [List.map_cons, List.zipWith_cons_cons, List.sum_cons]
        rw [ih w (by simpa using hlen)]
        ring
  unfold varOf
  rw [wmeanOf, wmeanOf, key, key]
  have h0 := hpos.ne'
  have e : (List.zipWith (· * ·) data w).sum = wmeanOf data w * w.sum := by
    unfold wmeanOf
    field_simp
  rw [e]
  field_simp
  ring

theorem varOf_nonneg (data w : List K) (hlen : w.length = data.length) (hw : ∀ a ∈ w, 0 ≤ a) (hpos : 0 < w.sum) : 0 ≤ varOf data w := by
  unfold varOf
  rw [wmeanOf, le_div_iff₀ hpos]
  refine le_zipWith_sum _ w 0 (by simpa using hlen) hw ?_
  intro x hx
  obtain ⟨y, _, rfl⟩ := List.mem_map.1 hx
  positivity

/-- C125: the computed variance is never negative (its root, the standard deviation, is a number). It has a relative error of `2 d + 5`
roundings, and an error which is the square of that of the mean: nothing like `<x²> - <x>²` is subtracted. -/
theorem var_rounded (A : Accurate rnd u) (data w : List K) (t : SumTree) (hlen : w.length = data.length) (hw : ∀ a ∈ w, 0 ≤ a)
    (hpos : 0 < w.sum) (ht : Adds t data.length) (hk : ((2 * t.depth + 5 : ℕ) : K) * u ≤ 1 / 2) :
    var data w = .ok (varOf data w) ∧
    ∃ y, varF rnd t data w = .ok (.fin y) ∧ 0 ≤ y ∧
      |y - varOf data w| ≤ 2 * (2 * t.depth + 5 : ℕ) * u * varOf data w + 2 * (2 * (2 * t.depth + 2 : ℕ) * u * magnitude data w) ^ 2 := by
  have hu0 := A.nonneg
  have hu1 : u < 1 := by
    have : (1 : K) ≤ ((2 * t.depth + 5 : ℕ) : K) := by exact_mod_cast (by omega : 1 ≤ 2 * t.depth + 5)
    nlinarith
  refine ⟨?_, ?_⟩
  · rw [var_eq data w hpos]
    rfl
  have hk' : ((2 * t.depth + 2 : ℕ) : K) * u ≤ 1 / 2 := by
    refine le_trans (mul_le_mul_of_nonneg_right ?_ hu0) hk
    exact_mod_cast (by omega : 2 * t.depth + 2 ≤ 2 * t.depth + 5)
  obtain ⟨-, m, m1, m2⟩ := mean_rounded A data w t hlen hw hpos ht hk'
  have m1' : averageF rnd t (data.map .fin) (w.map .fin) = .ok (.fin m) := m1
  obtain ⟨y, h1, h2⟩ := averageF_spread A hu1 (k := 3) (data.map fun x => (x - m) ^ 2) w
    (data.map fun x => Dbl.mul rnd (Dbl.sub rnd (.fin x) (.fin m)) (Dbl.sub rnd (.fin x) (.fin m))) t (by simpa using hlen) hw hpos
    (by simpa using ht) (by
      intro i hi
      rw [List.length_map] at hi
      obtain ⟨d, d1, d2⟩ := sub_near A data[i] m
      obtain ⟨z, z1, z2⟩ := mul_near A d d
      refine ⟨z, ?_, ?_⟩
      · simp [List.getElem?_eq_getElem hi, d1, z1]
      · have hd := within_round hu0 hu1 (within_refl (data[i] - m)) d2
        have := within_round hu0 hu1 (within_mul hu1 hd hd) z2
        have e : (data.map fun x => (x - m) ^ 2).getD i 0 = (data[i] - m) * (data[i] - m) := by
          simp [List.getD, List.getElem?_eq_getElem hi, sq]
        rw [e]
        exact this)
  have hnn : ∀ x ∈ List.zipWith (· * ·) (data.map fun x => (x - m) ^ 2) w, 0 ≤ x := by
    intro x hx
    obtain ⟨i, hi, rfl⟩ := List.mem_iff_getElem.1 hx
    rw [List.getElem_zipWith]
    refine mul_nonneg ?_ (hw _ (List.getElem_mem _))
    rw [List.getElem_map]
    positivity
  have hz : (List.zipWith (· * ·) (data.map fun x => (x - m) ^ 2) w).length = data.length := by simp [hlen]
  have hp := leaves_perm (List.zipWith (· * ·) (data.map fun x => (x - m) ^ 2) w) (t := t) (by rw [hz]; exact ht)
  have h3 := spread_within hu0 hu1 (fun x hx => hnn x (hp.subset hx)) h2
  rw [hp.sum_eq, show 3 + 2 * t.depth + 2 = 2 * t.depth + 5 by ring] at h3
  have e : (List.zipWith (· * ·) (data.map fun x => (x - m) ^ 2) w).sum = (varOf data w + (m - wmeanOf data w) ^ 2) * w.sum := by
    rw [← spread_var data w m hlen hpos, wmeanOf, div_mul_cancel₀ _ hpos.ne']
  rw [e] at h3
  have hV := varOf_nonneg data w hlen hw hpos
  have hS : 0 ≤ varOf data w + (m - wmeanOf data w) ^ 2 := add_nonneg hV (sq_nonneg _)
  have h4 : 0 ≤ y * w.sum := within_nonneg hu1 (mul_nonneg hS hpos.le) h3
  have h5 := within_error hu0 hk h3
  rw [← sub_mul, abs_mul, abs_mul, abs_of_pos hpos, ← mul_assoc] at h5
  have h6 := le_of_mul_le_mul_right h5 hpos
  rw [abs_of_nonneg hS] at h6
  refine ⟨y, ?_, nonneg_of_mul_nonneg_left h4 hpos, ?_⟩
  · unfold varF
    rw [m1']
    exact h1
  · have hq : (m - wmeanOf data w) ^ 2 ≤ (2 * (2 * t.depth + 2 : ℕ) * u * magnitude data w) ^ 2 := sq_le_sq' (by
      have := neg_abs_le (m - wmeanOf data w)
      linarith) ((le_abs_self _).trans m2)
    have hs1 := sq_nonneg (m - wmeanOf data w)
    generalize (m - wmeanOf data w) ^ 2 = s at *
    generalize (2 * ((2 * t.depth + 2 : ℕ) : K) * u * magnitude data w) ^ 2 = s' at *
    have hs0 : |y - varOf data w| ≤ |y - (varOf data w + s)| + |s| := by
      have := abs_add_le (y - (varOf data w + s)) s
      rwa [show y - (varOf data w + s) + s = y - varOf data w by ring] at this
    rw [abs_of_nonneg hs1] at hs0
    nlinarith

/-- The cumulated weights ascend, despite rounding; this is what `searchsorted` needs. -/
theorem cumsum_rounded_ascending (A : Accurate rnd u) (F : Format rnd) (hu1 : u < 1) (l : List K) (hl : ∀ a ∈ l, 0 ≤ a)
    (hr : ∀ a ∈ l, rnd a = .fin a) (i : ℕ) (a b : Dbl K) (ha : (cumsumF rnd l)[i]? = some a) (hb : (cumsumF rnd l)[i + 1]? = some b) :
    a.le b = true := by
  have hi : i + 1 < l.length := by
    rw [← cumsumF_length (rnd := rnd) l]
    exact (List.getElem?_eq_some_iff.1 hb).1
  have h := cumsumF_step (rnd := rnd) l i a ha hi
  obtain ⟨y, y1, -, y3⟩ := cumsumF_get A F hu1 l hl hr i (by omega)
  rw [ha] at y1
  cases y1
  rw [hb] at h
  obtain ⟨z, z1⟩ := A.near (y + l[i + 1])
  have e : Dbl.add rnd (.fin y) (.fin l[i + 1]) = .fin z := z1.1
  rw [e] at h
  cases h
  have := F.mono y (y + l[i + 1]) y z (by linarith [hl l[i + 1] (List.getElem_mem _)]) y3 z1.1
  simpa [Dbl.le] using this

/-- C125: `quantile` finds a value of the data, for every `q` from 0 to 1, also if the sums of the weights are rounded (no index is
out of range). Up to `2 n` roundings, at most the fraction `q` of the weight lies below this value, and at least `q` at or below it. -/
theorem quantile_rounded (A : Accurate rnd u) (F : Format rnd) (hu1 : u < 1) (data w : List K) (idx : List ℕ) (q : K)
    (hlen : w.length = data.length) (hne : data ≠ []) (hw : ∀ a ∈ w, 0 ≤ a) (hr : ∀ a ∈ w, rnd a = .fin a)
    (hidx : IsArgsort data idx) (h0 : 0 ≤ q) (h1 : q ≤ 1) :
    ∃ x, quantileF rnd data w idx q = .ok x ∧ x ∈ data ∧
      (1 - (2 * data.length : ℕ) * u) * weightOf data w (fun y => decide (y < x)) ≤ q * w.sum ∧
      (1 - (2 * data.length : ℕ) * u) * (q * w.sum) ≤ weightOf data w (fun y => decide (y ≤ x)) := by
  have hu0 := A.nonneg
  obtain ⟨hperm, hsort⟩ := hidx
  have hmem : ∀ i ∈ idx, i < data.length := fun i hi => by simpa using hperm.subset hi
  letI : Inhabited K := ⟨0⟩
  set f : ℕ → K × K := fun i => (data.getD i 0, w.getD i 0) with hf
  set s := idx.map f with hs
  have hzip : data.zip w = (List.range data.length).map f := by
    apply List.ext_getElem
    · simp [hlen]
    · intro i h1 h2
      simp only [List.length_zip, hlen, min_self] at h1
      have hw' : i < w.length := by omega
      simp [hf, List.getD, List.getElem?_eq_getElem h1, List.getElem?_eq_getElem hw']
  have hsp : s.Perm (data.zip w) := by rw [hzip, hs]; exact hperm.map f
  have hsl : s.length = data.length := by rw [hsp.length_eq]; simp [hlen]
  have hwf : ∀ p : K → Bool, weightOf data w p = ((s.filter fun a => p a.1).map (·.2)).sum := by
    intro p
    unfold weightOf
    exact (((hsp.filter _).map _).sum_eq).symm
  have hsum : (s.map (·.2)).sum = w.sum := by
    rw [(hsp.map _).sum_eq]
    congr 1
    rw [List.map_snd_zip]; omega
  have hnpos : 0 < s.length := by rw [hsl]; exact List.length_pos_iff.2 hne
  have hin : ∀ a ∈ s, a.2 ∈ w := fun a ha => (List.of_mem_zip (hsp.subset ha)).2
  have hsw : ∀ a ∈ s, 0 ≤ a.2 := fun a ha => hw a.2 (hin a ha)
  have hss : s.Pairwise fun a b => a.1 ≤ b.1 := by
    rw [hs, List.pairwise_map]
    refine hsort.imp_of_mem ?_
    intro i j hi hj hij
    have hi' := hmem i hi
    have hj' := hmem j hj
    refine hij _ _ ?_ ?_
    · simp [hf, List.getD, List.getElem?_eq_getElem hi']
    · simp [hf, List.getD, List.getElem?_eq_getElem hj']
  have hWnn : 0 ≤ w.sum := List.sum_nonneg hw
  have hws : idx.mapM (at? w) = .ok (s.map (·.2)) := by
    rw [mapM_at w idx (fun i hi => by rw [hlen]; exact hmem i hi), hs, List.map_map]
    rfl
  -- the cumulated sums
  set c := cumsumF rnd (s.map (·.2)) with hc
  have hcl : c.length = s.length := by rw [hc, cumsumF_length, List.length_map]
  have hget : ∀ i, i < s.length → ∃ y, c[i]? = some (.fin y) ∧ Within u i ((s.take (i + 1)).map (·.2)).sum y ∧ rnd y = .fin y := by
    intro i hi
    have := cumsumF_get A F hu1 (s.map (·.2)) (by
      intro a ha
      obtain ⟨b, hb, rfl⟩ := List.mem_map.1 ha
      exact hsw b hb) (by
      intro a ha
      obtain ⟨b, hb, rfl⟩ := List.mem_map.1 ha
      exact hr _ (hin b hb)) i (by simpa using hi)
    rwa [← List.map_take] at this
  obtain ⟨last, l1, l2, l3⟩ := hget (s.length - 1) (by omega)
  rw [show s.length - 1 + 1 = s.length by omega, List.take_length, hsum] at l2
  have hlast : c.getLast? = some (.fin last) := by
    rw [List.getLast?_eq_getElem?, hcl, l1]
  have hlast0 : 0 ≤ last := within_nonneg hu1 hWnn l2
  obtain ⟨t, t1, t2⟩ := mul_near A last q
  have tw : Within u (s.length - 1 + 0 + 1) (w.sum * q) t := within_round hu0 hu1 (within_mul hu1 l2 (within_refl q)) t2
  have tle : t ≤ last := F.mono (last * q) last t last (by nlinarith) t1 l3
  -- the index
  set n := (c.takeWhile fun a => a.lt (.fin t)).length with hn
  have hnle : n ≤ c.length := by rw [hn]; exact (List.takeWhile_sublist _).length_le
  have hlt : n < s.length := by
    by_contra hcon
    have h := takeWhile_before (fun a : Dbl K => a.lt (.fin t)) c (s.length - 1) (by omega) _ l1
    simp only [Dbl.lt, decide_eq_true_eq] at h
    exact absurd tle (not_le.2 h)
  have hni : n < idx.length := by rw [hs, List.length_map] at hlt; exact hlt
  have hi' := hmem idx[n] (List.getElem_mem _)
  have hsn : s[n].1 = data[idx[n]] := by
    simp [hs, hf, List.getD, List.getElem?_eq_getElem hi']
  refine ⟨data[idx[n]], ?_, List.getElem_mem _, ?_, ?_⟩
  · unfold quantileF
    rw [if_neg (by push Not; exact ⟨h0, h1⟩)]
    simp only [hws, bind, Except.bind, ← hc, hlast, t1]
    rw [← hn]
    simp only [at?, List.getElem?_eq_getElem hni, List.getElem?_eq_getElem hi']
  · rw [hwf, ← hsn]
    have h3 := sorted_lt s hss hsw n hlt
    have hfil : 0 ≤ ((s.filter fun a => decide (a.1 < s[n].1)).map (·.2)).sum := by
      apply List.sum_nonneg
      intro y hy
      obtain ⟨a, ha, rfl⟩ := List.mem_map.1 hy
      exact hsw a (List.mem_of_mem_filter ha)
    rcases Nat.eq_zero_or_pos n with hn0 | hn0
    · have h4 : ((s.filter fun a => decide (a.1 < s[n].1)).map (·.2)).sum = 0 := by
        refine le_antisymm (h3.trans (le_of_eq ?_)) hfil
        rw [hn0]; simp
      rw [h4, mul_zero]
      exact mul_nonneg h0 hWnn
    · obtain ⟨y, y1, y2, -⟩ := hget (n - 1) (by omega)
      have h4 := takeWhile_before (fun a : Dbl K => a.lt (.fin t)) c (n - 1) (by omega) _ y1
      simp only [Dbl.lt, decide_eq_true_eq] at h4
      rw [show n - 1 + 1 = n by omega] at y2
      have hn2 : n - 1 + (s.length - 1 + 0 + 1) ≤ 2 * data.length := by omega
      have h5 := within_le hu0 hu1 hn2 (hfil.trans h3) (mul_nonneg hWnn h0) y2 tw h4.le
      rw [mul_comm q]
      by_cases hsg : 0 ≤ 1 - ((2 * data.length : ℕ) : K) * u
      · exact (mul_le_mul_of_nonneg_left h3 hsg).trans h5
      · exact (mul_nonpos_of_nonpos_of_nonneg (not_le.1 hsg).le hfil).trans (mul_nonneg hWnn h0)
  · rw [hwf, ← hsn]
    have h3 := sorted_le s hss hsw n hlt
    obtain ⟨y, y1, y2, -⟩ := hget n hlt
    have h4 := takeWhile_at (fun a : Dbl K => a.lt (.fin t)) c _ y1
    simp only [Dbl.lt, decide_eq_false_iff_not, not_lt] at h4
    have hs0 : 0 ≤ ((s.take (n + 1)).map (·.2)).sum := by
      apply List.sum_nonneg
      intro z hz
      obtain ⟨a, ha, rfl⟩ := List.mem_map.1 hz
      exact hsw a (List.take_subset _ _ ha)
    have hn2 : (s.length - 1 + 0 + 1) + n ≤ 2 * data.length := by omega
    have h5 := within_le hu0 hu1 hn2 (mul_nonneg hWnn h0) hs0 tw y2 h4
    rw [mul_comm q]
    exact h5.trans h3

end

/-- Rounding to 53 binary digits keeps the order and does not change its results. -/
theorem nearest53_format : Format nearest53 where
  mono x y x' y' h hx hy := by
    have ex : x' = near53 x := (Dbl.fin.inj hx).symm
    have ey : y' = near53 y := (Dbl.fin.inj hy).symm
    rw [ex, ey]
    exact near53_mono h
  idem x y h := by
    have e : y = near53 x := (Dbl.fin.inj h).symm
    rw [e]
    exact congrArg Dbl.fin (near53_idem x)

theorem nearest53_rounding : Rounding nearest53 where
  mono x y h := by
    have := near53_mono h
    exact decide_eq_true this
  exact n hn := by
    have h := near53_exact n (-1) (le_trans hn (by norm_num))
    rw [zpow_neg_one, ← div_eq_mul_inv] at h
    exact congrArg Dbl.fin h

/-- The double next to 0.1. -/
def tenth : ℚ := 3602879701896397 / 2 ^ 55

/-- The error of the mean is real: the mean of three values 0.1 is computed as a number above 0.1, outside the range of the data. -/
theorem mean_rounded_outside :
    nearest53 tenth = .fin tenth ∧ mean [tenth, tenth, tenth] [1, 1, 1] = .ok tenth ∧
    ∃ y, meanF nearest53 (.node (.node (.leaf 0) (.leaf 1)) (.leaf 2)) [tenth, tenth, tenth] [1, 1, 1] = .ok (.fin y) ∧ tenth < y := by
  refine ⟨by decide +kernel, by decide +kernel, 7205759403792795 / 2 ^ 56, by decide +kernel, by decide +kernel⟩

/-- The error of the variance is real: of three equal values, it is not zero. -/
theorem var_rounded_positive :
    var [tenth, tenth, tenth] [1, 1, 1] = .ok 0 ∧
    varF nearest53 (.node (.node (.leaf 0) (.leaf 1)) (.leaf 2)) [tenth, tenth, tenth] [1, 1, 1] = .ok (.fin (1 / 2 ^ 112)) := by
  decide +kernel

/-- An order of three additions. -/
def threeAdds : SumTree := .node (.node (.leaf 0) (.leaf 1)) (.leaf 2)

example := mean_rounded nearest53_accurate [tenth, -3, 5 / 2] [1, 2, 1 / 2] threeAdds (by rfl) (by decide +kernel) (by decide +kernel)
  (show threeAdds.leaves.Perm (List.range 3) by decide) (by norm_num [threeAdds, SumTree.depth])
example := var_rounded nearest53_accurate [tenth, -3, 5 / 2] [1, 2, 1 / 2] threeAdds (by rfl) (by decide +kernel) (by decide +kernel)
  (show threeAdds.leaves.Perm (List.range 3) by decide) (by norm_num [threeAdds, SumTree.depth])
example := cumsum_rounded_ascending nearest53_accurate nearest53_format (by norm_num) [tenth, 0, tenth] (by decide +kernel)
  (by decide +kernel) 1
example := quantile_rounded nearest53_accurate nearest53_format (by norm_num) [5, tenth, -3] [tenth, 1, tenth] [2, 1, 0] (1 / 2) (by rfl)
  (by decide) (by decide +kernel) (by decide +kernel)
  (show IsArgsort ([5, tenth, -3] : List ℚ) [2, 1, 0] from
    ⟨by decide, by
      refine List.Pairwise.cons ?_ (List.Pairwise.cons ?_ (List.Pairwise.cons (by simp) List.Pairwise.nil)) <;>
      · intro j hj a b ha hb
        simp only [List.mem_cons, List.not_mem_nil, or_false] at hj
        rcases hj with rfl | rfl <;> (cases ha; cases hb; decide +kernel)⟩) (by decide +kernel) (by decide +kernel)
example : quantileF nearest53 [5, tenth, -3] [tenth, 1, tenth] [2, 1, 0] (1 / 2) = .ok tenth := by decide +kernel
example := nearest_rounded nearest53 nearest53_rounding axisSample valid_sample (by decide) (7 / 5)

end Postpic.Props
