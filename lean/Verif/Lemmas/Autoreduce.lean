import Mathlib.Algebra.BigOperators.Intervals
import Verif.Spec.Autoreduce
import Verif.Lemmas.FieldResolution

/-!
# Lemmas: reducing the resolution until no axis is too long
-/

set_option autoImplicit false
set_option linter.unusedSectionVars false

namespace Postpic.Fields

open Postpic Postpic.Axes Postpic.Spec

theorem halvings_le {m n : ℕ} (h : n ≤ m) : halvings m n = 0 := by
  unfold halvings
  rw [Nat.find_eq_zero]
  simpa using h

theorem halvings_succ {m n : ℕ} (h : m < n) : halvings m n = halvings m (n / 2) + 1 := by
  have hpos : halvings m n ≠ 0 := by
    unfold halvings
    rw [ne_eq, Nat.find_eq_zero]
    simp
    omega
  have hdiv : ∀ k, n / 2 / 2 ^ k = n / 2 ^ (k + 1) := fun k => by rw [Nat.div_div_eq_div_mul, pow_succ, mul_comm]
  obtain ⟨k, hk⟩ := Nat.exists_eq_succ_of_ne_zero hpos
  rw [hk]
  have e : halvings m (n / 2) = k := by
    unfold halvings at hk ⊢
    rw [Nat.find_eq_iff] at hk ⊢
    obtain ⟨h1, h2⟩ := hk
    refine ⟨by rw [hdiv]; exact h1, fun j hj => ?_⟩
    rw [hdiv]
    exact h2 (j + 1) (by omega)
  rw [e]

theorem halvings_spec (m n : ℕ) : n / 2 ^ halvings m n ≤ m := by
  unfold halvings
  exact Nat.find_spec (p := fun k => n / 2 ^ k ≤ m) _

theorem halvings_least {m n k : ℕ} (h : k < halvings m n) : m < n / 2 ^ k := by
  unfold halvings at h
  exact not_le.1 (Nat.find_min (p := fun k => n / 2 ^ k ≤ m) _ h)

section
variable {K V : Type} [_root_.Field K] [LinearOrder K] [IsStrictOrderedRing K] [AddCommGroup V]
  [Module K V]

theorem joined_refl (ax : Axis K) : JoinedAxis 0 ax ax :=
  ⟨by simp, by simp, by simp, rfl, rfl⟩

theorem joined_trans {k l : ℕ} {a b c : Axis K} (h : JoinedAxis k a b) (h' : JoinedAxis l b c) : JoinedAxis (l + k) a c := by
  refine ⟨?_, ?_, ?_, h'.name.trans h.name, h'.unit.trans h.unit⟩
  · rw [h'.len, h.len, Nat.div_div_eq_div_mul, ← pow_add, add_comm]
  · intro i hi
    have hb : 2 ^ l * i ≤ b.len := by
      rw [h'.len] at hi
      have := Nat.mul_le_of_le_div _ _ _ hi
      rwa [mul_comm]
    rw [h'.nodes i hi, h.nodes _ hb, ← mul_assoc, ← pow_add, add_comm]
  · intro e s he
    have := h'.even _ _ (h.even _ _ he)
    rwa [← mul_assoc, ← pow_add] at this

theorem axisHalf_joined (spl : Splines K) {ax ax' : Axis K} (hv : ValidAxis ax.gridNode ax.grid ax.extent)
    (h : ax.halfResolution spl = .ok ax') : JoinedAxis 1 ax ax' := by
  obtain ⟨e, h1, h2, h3⟩ := mkAxis_wf spl ax.name ax.unit (wf_half hv.wf)
  unfold Axis.halfResolution at h
  rw [h1] at h
  obtain rfl := Except.ok.inj h
  have hlen : (List.zipWith (fun x y : K => 1 / 2 * (x + y)) (evens ax.grid.dropLast) (evens ax.grid.tail)).length = ax.len / 2 := by
    simp only [Axis.len, List.length_zipWith, evens_length, List.length_dropLast, List.length_tail]
    omega
  refine ⟨by simpa [Axis.len] using hlen, ?_, ?_, rfl, rfl⟩
  · intro i _
    simp [evens_get]
  · intro e0 s he
    obtain ⟨g1, g2, -⟩ := even_iff.1 he
    have hn : evens ax.gridNode = ap e0 (2 * s) (ax.len / 2 + 1) := by
      apply ap_ext
      · rw [evens_length, g1, ap_length]
        omega
      · intro i hi
        rw [evens_get, g1, ap_get _ _ _ _ (by omega)]
        push_cast
        congr 1
        ring
    rw [even_iff]
    rw [pow_one]
    have hl : (Axis.len (⟨ax.name, ax.unit, evens ax.gridNode,
        List.zipWith (fun x y : K => 1 / 2 * (x + y)) (evens ax.grid.dropLast) (evens ax.grid.tail), e⟩ : Axis K)) = ax.len / 2 := hlen
    refine ⟨by rw [hl]; exact hn, ?_, ?_⟩
    · rw [hl]
      apply ap_ext hlen
      intro i hi
      have e1 : ax.grid[2 * i]? = some (e0 + s / 2 + (2 * i : ℕ) * s) := by rw [g2, ap_get _ _ _ _ (by omega)]
      have e2 : ax.grid[2 * i + 1]? = some (e0 + s / 2 + (2 * i + 1 : ℕ) * s) := by rw [g2, ap_get _ _ _ _ (by omega)]
      have e3 : ax.grid.dropLast[2 * i]? = some (e0 + s / 2 + (2 * i : ℕ) * s) := by
        rw [List.getElem?_dropLast, if_pos (by unfold Axis.len at hi; omega), e1]
      simp only [List.getElem?_zipWith, evens_get, List.getElem?_tail, e2, e3]
      push_cast
      congr 1
      field_simp
      ring
    · rw [hl]
      rw [hn] at h2 h3
      rw [ap_head] at h2
      rw [ap_last] at h3
      exact Prod.ext (Option.some.inj h2).symm (Option.some.inj h3).symm

theorem blockMean_zero (d : ℕ) (g : List ℕ → V) : blockMean K d 0 g = g := by
  funext idx
  have : (fun i : ℕ => i) = id := rfl
  simp [blockMean, this]

theorem blockMean_one (d : ℕ) (g : List ℕ → V) : blockMean K d 1 g =
    fun idx => (1 / 2 : K) • (g (idx.modify d fun k => 2 * k) + g (idx.modify d fun k => 2 * k + 1)) := by
  funext idx
  simp [blockMean, Finset.sum_range_succ]

theorem modify_modify' {α : Type} (l : List α) (d : ℕ) (f g : α → α) : (l.modify d f).modify d g = l.modify d fun x => g (f x) := by
  apply List.ext_getElem?
  intro i
  simp only [List.getElem?_modify]
  split_ifs <;> cases l[i]? <;> rfl

theorem blockMean_succ (d k : ℕ) (g : List ℕ → V) : blockMean K d k (blockMean K d 1 g) = blockMean K d (k + 1) g := by
  funext idx
  rw [blockMean_one]
  simp only [blockMean, modify_modify', ← Finset.smul_sum, smul_smul]
  congr 1
  · rw [pow_succ]
    field_simp
  · rw [pow_succ, mul_comm (2 ^ k) 2, sum_pairs]
    apply Finset.sum_congr rfl
    intro o _
    congr 3
    · funext i
      ring
    · funext i
      ring

theorem halveLoop_values (spl : Splines K) {m : ℕ} (hm : 1 ≤ m) {a : ℕ} (ha2 : a ≤ 2)
    (fuel : ℕ) {f : Field K V} (hf : f.Sound) {ax : Axis K} (hax : f.axes[a]? = some ax)
    (hfuel : ax.len < fuel) :
    ∃ r ax', halveLoop spl m a fuel f = some (.ok r) ∧ r.Sound ∧ r.axes = f.axes.set a ax' ∧
      JoinedAxis (halvings m ax.len) ax ax' ∧ r.matrix.at' = blockMean K a (halvings m ax.len) f.matrix.at' ∧
      r.ats = f.ats ∧ r.name = f.name ∧ r.unit = f.unit := by
  induction fuel generalizing f ax with
  | zero => omega
  | succ fuel ih =>
    have hal := (List.getElem?_eq_some_iff.1 hax).1
    unfold halveLoop
    rw [hax]
    simp only
    by_cases h : (m : ℤ) < ax.len
    · rw [if_pos h]
      obtain ⟨r, ax', h1, h2, h3, h4, h5, _, _, _, _, h8, h9, h10, _, h12⟩ := half_sound spl hf ha2 hax (by omega)
      rw [h1]
      have hax' : r.axes[a]? = some ax' := by rw [h3, List.getElem?_set_self hal]
      obtain ⟨r', ax2, g1, g2, g3, g4, g5, g6, g7, g8⟩ := ih h2 hax' (by omega)
      have hh : halvings m ax.len = halvings m ax'.len + 1 := by rw [h5]; exact halvings_succ (by omega)
      refine ⟨r', ax2, g1, g2, ?_, ?_, ?_, g6.trans h10, g7.trans h8, g8.trans h9⟩
      · rw [g3, h3, List.set_set]
      · rw [hh]
        exact joined_trans (axisHalf_joined spl (hf.valid ax (List.mem_of_getElem? hax)) h4) g4
      · rw [g5, h12, hh, ← blockMean_succ, ← blockMean_one]
    · rw [if_neg h]
      have hz : halvings m ax.len = 0 := halvings_le (by omega)
      refine ⟨f, ax, rfl, hf, ?_, ?_, ?_, rfl, rfl, rfl⟩
      · apply List.ext_getElem?
        intro d
        rw [List.getElem?_set]
        by_cases hd : a = d
        · subst hd
          rw [if_pos rfl, if_pos hal, hax]
        · rw [if_neg hd]
      · rw [hz]
        exact joined_refl ax
      · rw [hz, blockMean_zero]

theorem axis_shape {f : Field K V} (hf : f.Sound) {d : ℕ} {ax : Axis K} (h : f.axes[d]? = some ax) : f.shape[d]? = some ax.len := by
  rw [← hf.ok.lengths, List.getElem?_map, h]
  rfl

theorem reduceLoop_values (spl : Splines K) {m : ℕ} (hm : 1 ≤ m) (fuel : ℕ) {L : List ℕ} (hL : ∀ i ∈ L, i ≤ 2) (hnd : L.Nodup)
    {f : Field K V} (hf : f.Sound) (hLn : ∀ i ∈ L, i < f.axes.length) (hfuel : ∀ i ∈ L, ∀ ax, f.axes[i]? = some ax → ax.len < fuel)
    (k : ℕ → ℕ) (hk : ∀ i ∈ L, ∀ ax, f.axes[i]? = some ax → k i = halvings m ax.len) :
    ∃ r, reduceLoop spl m fuel L f = some (.ok r) ∧ r.Sound ∧ r.axes.length = f.axes.length ∧
      (∀ (d : ℕ) (ax : Axis K), f.axes[d]? = some ax → ∃ ax', r.axes[d]? = some ax' ∧ JoinedAxis (if d ∈ L then k d else 0) ax ax') ∧
      r.matrix.at' = L.foldl (fun g d => blockMean K d (k d) g) f.matrix.at' ∧
      r.ats = f.ats ∧ r.name = f.name ∧ r.unit = f.unit := by
  induction L generalizing f with
  | nil =>
    refine ⟨f, rfl, hf, rfl, ?_, rfl, rfl, rfl, rfl⟩
    intro d ax h
    exact ⟨ax, h, by simpa using joined_refl ax⟩
  | cons a L ih =>
    have haf := hLn a (by simp)
    rw [List.nodup_cons] at hnd
    have hax : f.axes[a]? = some f.axes[a] := List.getElem?_eq_getElem haf
    obtain ⟨r, ax', h1, h2, h3, h4, h5, h6, h7, h8⟩ := halveLoop_values spl hm (hL a (by simp)) fuel hf hax (hfuel a (by simp) _ hax)
    have hka := hk a (by simp) _ hax
    have hoth : ∀ i ∈ L, r.axes[i]? = f.axes[i]? := by
      intro i hi
      rw [h3, List.getElem?_set_ne]
      rintro rfl
      exact hnd.1 hi
    have hlen : r.axes.length = f.axes.length := by rw [h3, List.length_set]
    obtain ⟨q, g1, g2, g3, g4, g5, g6, g7, g8⟩ := ih (fun i hi => hL i (by simp [hi])) hnd.2 h2
      (fun i hi => by rw [hlen]; exact hLn i (by simp [hi]))
      (fun i hi ax h => hfuel i (by simp [hi]) ax (by rw [← hoth i hi]; exact h))
      (fun i hi ax h => hk i (by simp [hi]) ax (by rw [← hoth i hi]; exact h))
    refine ⟨q, ?_, g2, g3.trans hlen, ?_, ?_, g6.trans h6, g7.trans h7, g8.trans h8⟩
    · unfold reduceLoop
      rw [h1]
      exact g1
    · intro d ax hd
      by_cases hda : d = a
      · subst hda
        rw [hax] at hd
        obtain rfl := Option.some.inj hd
        obtain ⟨ax2, e1, e2⟩ := g4 d ax' (by rw [h3, List.getElem?_set_self haf])
        rw [if_neg hnd.1] at e2
        refine ⟨ax2, e1, ?_⟩
        rw [if_pos (by simp), hka]
        have := joined_trans h4 e2
        rwa [zero_add] at this
      · obtain ⟨ax2, e1, e2⟩ := g4 d ax (by rw [h3, List.getElem?_set_ne (fun h => hda h.symm)]; exact hd)
        refine ⟨ax2, e1, ?_⟩
        simpa [hda] using e2
    · rw [g5, h5, List.foldl_cons, hka]

theorem autoreduce_reduced (spl : Splines K) {m : ℕ} (hm : 1 ≤ m) (fuel : ℕ) {f : Field K V} (hf : f.Sound)
    (h3 : f.shape.length ≤ 3) (hfuel : ∀ n ∈ f.shape, n < fuel) :
    ∃ r, f.autoreduce spl m fuel = some (.ok r) ∧ r.Sound ∧ Reduced m f r := by
  have hl := ok_axes_length hf.ok
  obtain ⟨r, h1, h2, h4, h5, h6, h7, h8, h9⟩ := reduceLoop_values spl hm fuel (L := List.range f.axes.length)
    (by intro i hi; rw [List.mem_range] at hi; omega) List.nodup_range hf (by intro i hi; exact List.mem_range.1 hi)
    (fun i _ ax h => hfuel _ (List.mem_of_getElem? (axis_shape hf h)))
    (fun d => halvings m (f.shape.getD d 0))
    (fun i _ ax h => by rw [List.getD_eq_getElem?_getD, axis_shape hf h]; rfl)
  have hjoin : ∀ (d : ℕ) (ax : Axis K), f.axes[d]? = some ax → ∃ ax', r.axes[d]? = some ax' ∧ JoinedAxis (halvings m ax.len) ax ax' := by
    intro d ax h
    obtain ⟨ax', e1, e2⟩ := h5 d ax h
    rw [if_pos (List.mem_range.2 (List.getElem?_eq_some_iff.1 h).1), List.getD_eq_getElem?_getD, axis_shape hf h] at e2
    exact ⟨ax', e1, e2⟩
  refine ⟨r, h1, h2, ⟨?_, h4, hjoin, by rw [h6, hl], h7, h8, h9⟩⟩
  have hr := ok_axes_length h2.ok
  apply List.ext_getElem?
  intro d
  rw [List.getElem?_map]
  by_cases hd : d < f.axes.length
  · have hax : f.axes[d]? = some f.axes[d] := List.getElem?_eq_getElem hd
    obtain ⟨ax', e1, e2⟩ := hjoin d _ hax
    rw [axis_shape h2 e1, axis_shape hf hax, e2.len]
    rfl
  · rw [List.getElem?_eq_none (by omega), List.getElem?_eq_none (by omega)]
    rfl

end

end Postpic.Fields
