import Verif.Lemmas.StatisticsDouble

/-!
# Mean, variance and quantiles of IEEE doubles
-/

set_option autoImplicit false

namespace Postpic.Props

open Postpic Postpic.Histogram Postpic.Statistics Postpic.Spec

/-! ## C137: statistics of doubles -/

/-- C137: the mean of up to `2^64` doubles, 0 or between `2^-300` and `2^300`, with weights in the same range, is a double. The error is at
most `2 d + 2` roundings of the mean of the absolute values. -/
theorem mean_double (data w : List ℚ) (t : SumTree) (hlen : w.length = data.length) (hx : ModerateDoubles (-300) 300 data)
    (hm : ModerateDoubles (-300) 300 w) (hw : ∀ a ∈ w, 0 ≤ a) (hpos : 0 < w.sum) (hn : data.length ≤ 2 ^ 64) (ht : Adds t data.length)
    (hk : ((2 * t.depth + 2 : ℕ) : ℚ) * (1 / 2 ^ 53) ≤ 1 / 2) :
    mean data w = .ok (wmeanOf data w) ∧
    ∃ y, meanF double t data w = .ok (.fin y) ∧ double y = .fin y ∧
      |y - wmeanOf data w| ≤ 2 * (2 * t.depth + 2 : ℕ) * (1 / 2 ^ 53) * magnitude data w := by
  obtain ⟨h1, y, h2, h3⟩ := mean_rounded digits53_accurate data w t hlen hw hpos ht hk
  have hd : (t.depth : ℚ) * (1 / 2 ^ 53) ≤ 1 / 2 := by
    push_cast at hk
    have : (0 : ℚ) ≤ t.depth := Nat.cast_nonneg _
    linarith
  obtain ⟨e1, e2⟩ := average_agree (p := 300) (p' := 300) (q := 300) (by norm_num) (by norm_num) (by norm_num) (by norm_num) hlen
    (fun x h => (hx x h).2) hm t ht hn hd
  have e3 : averageF double t (data.map .fin) (w.map .fin) = .ok (.fin y) := e1.trans h2
  exact ⟨h1, y, e3, (e2 y e3).1, h3⟩

/-- C137: the variance of up to `2^64` doubles, 0 or between `2^-130` and `2^130`, with weights 0 or between `2^-50` and `2^50`, is a double
and not negative; its error is that of C125. -/
theorem var_double (data w : List ℚ) (t : SumTree) (hlen : w.length = data.length) (hx : ModerateDoubles (-130) 130 data)
    (hm : ModerateDoubles (-50) 50 w) (hw : ∀ a ∈ w, 0 ≤ a) (hpos : 0 < w.sum) (hn : data.length ≤ 2 ^ 64) (ht : Adds t data.length)
    (hk : ((2 * t.depth + 5 : ℕ) : ℚ) * (1 / 2 ^ 53) ≤ 1 / 2) :
    var data w = .ok (varOf data w) ∧
    ∃ y, varF double t data w = .ok (.fin y) ∧ double y = .fin y ∧ 0 ≤ y ∧
      |y - varOf data w| ≤ 2 * (2 * t.depth + 5 : ℕ) * (1 / 2 ^ 53) * varOf data w +
        2 * (2 * (2 * t.depth + 2 : ℕ) * (1 / 2 ^ 53) * magnitude data w) ^ 2 := by
  obtain ⟨h1, y, h2, h3, h4⟩ := var_rounded digits53_accurate data w t hlen hw hpos ht hk
  have hd : (t.depth : ℚ) * (1 / 2 ^ 53) ≤ 1 / 2 := by
    push_cast at hk
    have : (0 : ℚ) ≤ t.depth := Nat.cast_nonneg _
    linarith
  obtain ⟨e1, e2⟩ := average_agree (p := 130) (p' := 130) (q := 50) (by norm_num) (by norm_num) (by norm_num) (by norm_num) hlen
    (fun x h => (hx x h).2) hm t ht hn hd
  refine ⟨h1, y, ?_⟩
  have hvar : ∀ rnd : ℚ → Dbl ℚ, varF rnd t data w = (averageF rnd t (data.map .fin) (w.map .fin) >>= fun m =>
    averageF rnd t (data.map fun x => Dbl.mul rnd (Dbl.sub rnd (.fin x) m) (Dbl.sub rnd (.fin x) m)) (w.map .fin)) := fun rnd => rfl
  obtain ⟨-, m, m1, -⟩ := mean_rounded digits53_accurate data w t hlen hw hpos ht (by
    push_cast at hk ⊢
    linarith)
  have m2 : averageF double t (data.map .fin) (w.map .fin) = .ok (.fin m) := e1.trans m1
  obtain ⟨m3, m4⟩ := e2 m m2
  have hdev : ∀ x ∈ data, Dbl.mul double (Dbl.sub double (.fin x) (.fin m)) (Dbl.sub double (.fin x) (.fin m)) =
      .fin (nearDouble (nearDouble (x - m) * nearDouble (x - m))) ∧
      Dbl.mul digits53 (Dbl.sub digits53 (.fin x) (.fin m)) (Dbl.sub digits53 (.fin x) (.fin m)) =
      .fin (nearDouble (nearDouble (x - m) * nearDouble (x - m))) ∧ Moderate (-798) 696 (nearDouble (nearDouble (x - m) * nearDouble (x - m))) := by
    intro x hxd
    have w1 := moderate_weaken (hx x hxd).2 (a' := -347) (b' := 347) (by norm_num) (by norm_num)
    have w2 := moderate_weaken m4 (a' := -347) (b' := 347) (by norm_num) (by norm_num)
    obtain ⟨f1, f2, f3, -⟩ := moderate_round (by norm_num) (by norm_num) (moderate_sub (hx x hxd).1 m3 w1 w2)
    obtain ⟨g1, g2, g3, -⟩ := moderate_round (by norm_num) (by norm_num) (moderate_mul f3 f3)
    rw [sub_eq_add_neg] at f1 f2
    have f1' : Dbl.sub double (.fin x) (.fin m) = .fin (nearDouble (x - m)) := by rw [sub_eq_add_neg]; exact f1
    have f2' : Dbl.sub digits53 (.fin x) (.fin m) = .fin (nearDouble (x - m)) := by rw [sub_eq_add_neg]; exact f2
    rw [f1', f2']
    exact ⟨g1, g2, moderate_weaken g3 (by norm_num) (by norm_num)⟩
  set ds := data.map fun x => nearDouble (nearDouble (x - m) * nearDouble (x - m)) with hds
  have d1 : (data.map fun x => Dbl.mul double (Dbl.sub double (.fin x) (.fin m)) (Dbl.sub double (.fin x) (.fin m))) = ds.map .fin := by
    rw [hds, List.map_map]
    exact List.map_congr_left fun x h => (hdev x h).1
  have d2 : (data.map fun x => Dbl.mul digits53 (Dbl.sub digits53 (.fin x) (.fin m)) (Dbl.sub digits53 (.fin x) (.fin m))) = ds.map .fin := by
    rw [hds, List.map_map]
    exact List.map_congr_left fun x h => (hdev x h).2.1
  have dl : ds.length = data.length := by rw [hds, List.length_map]
  obtain ⟨v1, v2⟩ := average_agree (p := 798) (p' := 696) (q := 50) (ds := ds) (by norm_num) (by norm_num) (by norm_num) (by norm_num)
    (by rw [dl]; exact hlen) (fun x h => by
      obtain ⟨z, hz, rfl⟩ := List.mem_map.1 h
      exact (hdev z hz).2.2) hm t (by rw [dl]; exact ht) (by rw [dl]; exact hn) hd
  have m1' : averageF digits53 t (data.map .fin) (w.map .fin) = .ok (.fin m) := m1
  have y1 : averageF digits53 t (ds.map .fin) (w.map .fin) = .ok (.fin y) := by
    rw [hvar, m1'] at h2
    simp only [bind, Except.bind] at h2
    rwa [d2] at h2
  have y2 := v1.trans y1
  refine ⟨?_, (v2 y y2).1, h3, h4⟩
  rw [hvar, m2]
  simp only [bind, Except.bind]
  rw [d1, y2]

theorem digits53_double {a b : ℤ} (ha : -1022 ≤ a) (hb : b ≤ 1022) {x : ℚ} (hd : double x = .fin x) (h : Moderate a b x) : digits53 x = .fin x := by
  obtain ⟨e1, e2, -⟩ := moderate_round ha hb h
  rw [e2, ← e1, hd]

/-- C137: `quantile` of up to `2^51` doubles with weights 0 or between `2^-300` and `2^300`, for `q` 0 or between `2^-300` and 1: it finds a
value of the data. Up to `2 n` roundings, at most the fraction `q` of the weight lies below this value, and at least `q` at or below it. -/
theorem quantile_double (data w : List ℚ) (idx : List ℕ) (q : ℚ) (hlen : w.length = data.length) (hne : data ≠ [])
    (hm : ModerateDoubles (-300) 300 w) (hw : ∀ a ∈ w, 0 ≤ a) (hn : data.length ≤ 2 ^ 51) (hidx : IsArgsort data idx)
    (h0 : 0 ≤ q) (h1 : q ≤ 1) (hq : Moderate (-300) 0 q) :
    ∃ x, quantileF double data w idx q = .ok x ∧ x ∈ data ∧
      (1 - (2 * data.length : ℕ) * (1 / 2 ^ 53)) * weightOf data w (fun y => decide (y < x)) ≤ q * w.sum ∧
      (1 - (2 * data.length : ℕ) * (1 / 2 ^ 53)) * (q * w.sum) ≤ weightOf data w (fun y => decide (y ≤ x)) := by
  obtain ⟨x, x1, x2⟩ := quantile_rounded digits53_accurate digits53_format (by norm_num) data w idx q hlen hne hw
    (fun a ha => digits53_double (by norm_num) (by norm_num) (hm a ha).1 (hm a ha).2) hidx h0 h1
  refine ⟨x, ?_, x2⟩
  rw [← x1]
  letI : Inhabited ℚ := ⟨0⟩
  have hmem : ∀ i ∈ idx, i < w.length := fun i hi => by rw [hlen]; simpa using hidx.1.subset hi
  have hws := mapM_at w idx hmem
  generalize hl : (idx.map fun i => w.getD i default) = l at hws
  have hlw : ∀ a ∈ l, a ∈ w := by
    intro a ha
    rw [← hl] at ha
    obtain ⟨i, hi, rfl⟩ := List.mem_map.1 ha
    rw [List.getD_eq_getElem _ _ (hmem i hi)]
    exact List.getElem_mem _
  have hll : l.length = data.length := by rw [← hl, List.length_map, hidx.1.length_eq, List.length_range]
  have p1 : ∀ a ∈ l, 0 ≤ a := fun a ha => hw a (hlw a ha)
  have p2 : ∀ a ∈ l, double a = .fin a := fun a ha => (hm a (hlw a ha)).1
  have p3 : ∀ a ∈ l, digits53 a = .fin a := fun a ha => digits53_double (by norm_num) (by norm_num) (hm a (hlw a ha)).1 (hm a (hlw a ha)).2
  have hn' : (l.length : ℚ) ≤ 2 ^ 51 := by rw [hll]; exact_mod_cast hn
  have p4 : (l.length : ℚ) * (1 / 2 ^ 53) ≤ 1 / 4 := by linarith
  have hsum : l.sum ≤ 2 ^ (351 : ℤ) := by
    have h2 : l.sum ≤ l.length • (2 : ℚ) ^ (300 : ℤ) := List.sum_le_card_nsmul _ _ fun a ha =>
      (le_abs_self a).trans (moderate_upper (hm a (hlw a ha)).2)
    rw [nsmul_eq_mul] at h2
    rw [show (351 : ℤ) = 51 + 300 by norm_num, zpow_add₀ (by norm_num)]
    exact h2.trans (mul_le_mul_of_nonneg_right (by exact_mod_cast hn') (two_zpow_pos _).le)
  have p5 : l.sum < 2 ^ 1021 := by
    refine lt_of_le_of_lt hsum ?_
    have : (2 : ℚ) ^ (351 : ℤ) < 2 ^ (1021 : ℤ) := zpow_lt_zpow_right₀ (by norm_num) (by norm_num)
    exact_mod_cast this
  obtain ⟨c1, c2⟩ := cumsum_agree p1 p2 p3 (p4.trans (by norm_num)) p5
  unfold quantileF
  rw [if_neg (by rw [not_or, not_lt, not_lt]; exact ⟨h0, h1⟩), if_neg (by rw [not_or, not_lt, not_lt]; exact ⟨h0, h1⟩)]
  simp only [hws, bind, Except.bind]
  rw [c1]
  cases hg : (cumsumF digits53 l).getLast? with
  | none => rfl
  | some a =>
    obtain ⟨y, rfl, hy, hys⟩ := cumsum_last_double p1 p3 p4 hg
    have hs0 : 0 ≤ l.sum := List.sum_nonneg p1
    have hmod : Moderate (-301) 352 y := by
      have hup := (c2 y hy).2
      by_cases hz : l.sum = 0
      · left
        rw [hz] at hys
        simpa using abs_nonpos_iff.1 (by simpa using hys)
      right
      constructor
      · obtain ⟨b, hb, hb0⟩ : ∃ b ∈ l, b ≠ 0 := by
          by_contra hcon
          push_neg at hcon
          exact hz (List.sum_eq_zero hcon)
        have hb1 : (2 : ℚ) ^ (-300 : ℤ) ≤ b := by
          rcases (hm b (hlw b hb)).2 with h | ⟨h, -⟩
          · exact absurd h hb0
          · rwa [abs_of_nonneg (p1 b hb)] at h
        have hb2 := List.single_le_sum p1 b hb
        have e : (2 : ℚ) ^ (-300 : ℤ) = 2 ^ (-301 : ℤ) * 2 := by rw [← zpow_add_one₀ (by norm_num)]; norm_num
        rw [e] at hb1
        have hys' := (abs_le.1 hys).1
        generalize (2 : ℚ) ^ (-301 : ℤ) = B at *
        have := le_abs_self y
        clear hsum p5
        linarith
      · refine hup.trans ?_
        rw [show (352 : ℤ) = 351 + 1 by norm_num, zpow_add_one₀ (by norm_num)]
        generalize (2 : ℚ) ^ (351 : ℤ) = B at *
        clear p5
        linarith
    obtain ⟨g1, g2, -⟩ := moderate_round (by norm_num) (by norm_num) (moderate_mul hmod hq)
    have g1' : Dbl.mul double (.fin y) (.fin q) = Dbl.mul digits53 (.fin y) (.fin q) := g1.trans g2.symm
    simp only [g1']

/-! ### Cases -/

example := mean_double [tenth, -3, 5 / 2] [1, 2, 1 / 2] threeAdds (by rfl) (by decide +kernel) (by decide +kernel) (by decide +kernel)
  (by decide +kernel) (by decide) (show threeAdds.leaves.Perm (List.range 3) by decide) (by norm_num [threeAdds, SumTree.depth])
example := var_double [tenth, -3, 5 / 2] [1, 2, 1 / 2] threeAdds (by rfl) (by decide +kernel) (by decide +kernel) (by decide +kernel)
  (by decide +kernel) (by decide) (show threeAdds.leaves.Perm (List.range 3) by decide) (by norm_num [threeAdds, SumTree.depth])
example := quantile_double [5, tenth, -3] [tenth, 1, tenth] [2, 1, 0] (1 / 2) (by rfl) (by decide)
  (by decide +kernel) (by decide +kernel) (by decide)
  (show IsArgsort ([5, tenth, -3] : List ℚ) [2, 1, 0] from
    ⟨by decide, by
      refine List.Pairwise.cons ?_ (List.Pairwise.cons ?_ (List.Pairwise.cons (by simp) List.Pairwise.nil)) <;>
      · intro j hj a b ha hb
        simp only [List.mem_cons, List.not_mem_nil, or_false] at hj
        rcases hj with rfl | rfl <;> (cases ha; cases hb; decide +kernel)⟩) (by norm_num) (by norm_num) (by decide +kernel)

/-- C137: the limits are needed. With smaller values, the variance of different values is 0 and the mean of positive values is 0; with larger ones
the variance is infinite. -/
theorem statistics_double_limits :
    varF double threeAdds [1 / 2 ^ 600, 0, 0] [1, 1, 1] = .ok (.fin 0) ∧
    meanF double threeAdds [1 / 2 ^ 600, 1 / 2 ^ 600, 1 / 2 ^ 600] [1 / 2 ^ 600, 1 / 2 ^ 600, 1 / 2 ^ 600] = .ok (.fin 0) ∧
    varF double threeAdds [2 ^ 600, 0, 0] [1, 1, 1] = .ok (.inf false) := by
  decide +kernel

end Postpic.Props
