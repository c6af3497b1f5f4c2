import Verif.Lemmas.FftInverse

/-!
# Lemmas: names of transformed axes, shifted grids
-/

set_option autoImplicit false

namespace Postpic.Fields

open Postpic Postpic.Axes Postpic.Spec

noncomputable section

/-! ### Names and units -/

theorem lstrip_append (p : String) (chars : List Char) (s : String) (hp : ∀ c ∈ p.toList, c ∈ chars)
    (hs : ∀ c, s.toList.head? = some c → c ∉ chars) : lstrip (p ++ s) chars = s := by
  unfold lstrip
  rw [String.toList_append, List.dropWhile_append_of_pos (by simpa using hp)]
  have : s.toList.dropWhile (fun c => decide (c ∈ chars)) = s.toList := by
    cases hsl : s.toList with
    | nil => rfl
    | cons c l =>
      rw [hsl] at hs
      rw [List.dropWhile_cons_of_neg]
      simpa using hs c rfl
  rw [this, String.ofList_toList]

theorem name_twice {state : Bool} {name : String} (h : ConjugableName state name) :
    conjugateName (!state) (conjugateName state name) = name := by
  have key : ∀ s : String, s.toList.head? ≠ some 'k' → lstrip ("k" ++ s) ['k'] = s := by
    intro s hs
    apply lstrip_append
    · simp
    · intro c hc
      rintro hk
      simp only [List.mem_singleton] at hk
      subst hk
      exact hs hc
  have kw : ∀ s : String, "k" ++ s ≠ "w" := by
    intro s hs
    have := congrArg String.toList hs
    rw [String.toList_append] at this
    simp at this
  cases state with
  | false =>
    simp only [conjugateName, Bool.not_false, if_true, Bool.false_eq_true, if_false]
    by_cases ht : name = "t"
    · subst ht; rfl
    · rw [if_neg ht, if_neg (kw name)]
      exact key name h
  | true =>
    simp only [conjugateName, Bool.not_true, if_true, Bool.false_eq_true, if_false]
    rcases h with rfl | ⟨s, h1, h2, rfl⟩
    · rfl
    · rw [if_neg (kw s), key s h1, if_neg h2]

theorem unit_twice {state : Bool} {unit : String} (h : ConjugableUnit state unit) :
    conjugateUnit (!state) (conjugateUnit state unit) = unit := by
  have key : ∀ s : String, s.toList.head? ≠ some '1' → s.toList.head? ≠ some '/' →
      lstrip ("1/" ++ s) ['1', '/'] = s := by
    intro s h1 h2
    apply lstrip_append
    · intro c hc
      have : ("1/" : String).toList = ['1', '/'] := by decide
      rw [this] at hc
      exact hc
    · intro c hc hk
      simp only [List.mem_cons, List.not_mem_nil, or_false] at hk
      rcases hk with rfl | rfl
      · exact h1 hc
      · exact h2 hc
  cases state with
  | false =>
    simp only [conjugateUnit, Bool.not_false, if_true, Bool.false_eq_true, if_false]
    exact key unit h.1 h.2
  | true =>
    obtain ⟨u, h1, h2, rfl⟩ := h
    simp only [conjugateUnit, Bool.not_true, if_true, Bool.false_eq_true, if_false]
    rw [key u h1 h2]

theorem even_unique {ax ax' : Axis ℝ} {e0 h : ℝ} (h1 : EvenAxis ax e0 h) (h2 : EvenAxis ax' e0 h)
    (hl : ax'.len = ax.len) (hn : ax'.name = ax.name) (hu : ax'.unit = ax.unit) : ax' = ax := by
  obtain ⟨a1, a2, a3⟩ := even_iff.1 h1
  obtain ⟨b1, b2, b3⟩ := even_iff.1 h2
  rw [hl] at b1 b2 b3
  rw [← a1] at b1
  rw [← a2] at b2
  rw [← a3] at b3
  cases ax
  cases ax'
  simp only at hn hu b1 b2 b3
  subst hn hu b1 b2 b3
  rfl

/-! ### Order of the axes -/

theorem fold_perm (A : ℕ → (List ℕ → ℂ) → List ℕ → ℂ)
    (h : ∀ d e, d ≠ e → ∀ g, A d (A e g) = A e (A d g)) {l l' : List ℕ} (hl : l.Perm l')
    (g : List ℕ → ℂ) : l.foldl (fun g d => A d g) g = l'.foldl (fun g d => A d g) g := by
  have : RightCommutative (fun (g : List ℕ → ℂ) d => A d g) := ⟨fun g d e => by
    by_cases hde : d = e
    · subst hde; rfl
    · exact h e d (Ne.symm hde) g⟩
  exact hl.foldl_eq g

theorem order_perm {L M : List ℕ} (hM : M.Nodup) (h : ∀ d, d ∈ M ↔ d ∈ L) : (order L).Perm M :=
  (List.perm_ext_iff_of_nodup (order_nodup L) hM).2 fun d => by rw [mem_order, h]

/-! ### Origins -/

theorem addOrigins_eq (x σ : ℕ → ℝ) (l : List ℕ) (hl : l.Nodup) (tao : List (Option ℝ))
    (h : ∀ d ∈ l, tao[d]? = some (some (x d))) :
    ∃ tao', addOrigins (l.map fun (d : ℕ) => ((d : ℤ), σ d)) tao = .ok tao' ∧ tao'.length = tao.length ∧
      (∀ d ∈ l, tao'[d]? = some (some (x d + σ d))) ∧ ∀ d, d ∉ l → tao'[d]? = tao[d]? := by
  induction l generalizing tao with
  | nil => exact ⟨tao, rfl, rfl, by simp, fun _ _ => rfl⟩
  | cons a l ih =>
    obtain ⟨hal, hl⟩ := List.nodup_cons.1 hl
    have ha := h a (by simp)
    have hlt := (List.getElem?_eq_some_iff.1 ha).1
    obtain ⟨tao', h1, h2, h3, h4⟩ := ih hl (tao.set a (some (x a + σ a))) (by
      intro d hd
      rw [List.getElem?_set_ne (by rintro rfl; exact hal hd)]
      exact h d (by simp [hd]))
    refine ⟨tao', ?_, by rw [h2, List.length_set], ?_, ?_⟩
    · simp only [List.map_cons, addOrigins, pyGet_nat ha, bind, Except.bind,
        pySet_of _ (pyIdx_nat hlt)]
      exact h1
    · intro d hd
      rcases List.mem_cons.1 hd with rfl | hd
      · rw [h4 d hal, List.getElem?_set_self hlt]
      · exact h3 d hd
    · intro d hd
      rw [List.mem_cons, not_or] at hd
      rw [h4 d hd.2, List.getElem?_set_ne (Ne.symm hd.1)]

/-! ### Shifting by whole cells -/

theorem exp_cells (s : ℝ) (hs : s = 1 ∨ s = -1) (k0 h dk : ℝ) (n : ℕ) (q t : ℤ)
    (hdk : dk * h * n = 2 * Real.pi) (hk : k0 = q * dk) :
    Complex.exp (-s * Complex.I * (k0 * h : ℝ) * (n : ℂ) * (t : ℤ)) = 1 := by
  have hdkc : (dk * h * n : ℂ) = 2 * Real.pi := by exact_mod_cast hdk
  rw [Complex.exp_eq_one_iff]
  rcases hs with rfl | rfl
  · refine ⟨-(q * t), ?_⟩
    rw [hk]
    push_cast
    linear_combination (-(q * t) * Complex.I) * hdkc
  · refine ⟨q * t, ?_⟩
    rw [hk]
    push_cast
    linear_combination ((q * t) * Complex.I) * hdkc

theorem rolled_get (shape L : List ℕ) (q : ℕ → ℤ) (idx : List ℕ) (d : ℕ) :
    (rolled shape L q idx)[d]? = (idx[d]?).map fun (i : ℕ) =>
      if d ∈ L then (((i : ℤ) + q d) % (shape.getD d 1 : ℕ)).toNat else i := by
  unfold rolled
  rw [List.getElem?_map, List.getElem?_zipIdx]
  cases idx[d]? <;> simp

theorem fold_rolled {shape : List ℕ} (q : ℕ → ℤ) (l : List ℕ) (hl : l.Nodup)
    (hn : ∀ d ∈ l, ∃ n, 0 < n ∧ shape[d]? = some n) (g : List ℕ → ℂ) (idx : List ℕ)
    (hidx : InBounds shape idx) :
    l.foldl (fun g d => fun idx => g (idx.set d (((idx.getD d 0 : ℤ) + q d) % (shape.getD d 1 : ℕ)).toNat)) g idx =
      g (rolled shape l q idx) := by
  induction l generalizing g idx with
  | nil =>
    have : rolled shape [] q idx = idx := by
      apply List.ext_getElem?
      intro d
      rw [rolled_get]
      simp
    rw [this]
    rfl
  | cons a l ih =>
    obtain ⟨hal, hl⟩ := List.nodup_cons.1 hl
    obtain ⟨n, hn0, ha⟩ := hn a (by simp)
    rw [List.foldl_cons, ih hl (fun d hd => hn d (by simp [hd])) _ idx hidx]
    congr 1
    apply List.ext_getElem?
    intro d
    have hlt : a < idx.length := by rw [hidx.1]; exact (List.getElem?_eq_some_iff.1 ha).1
    rw [List.getElem?_set, rolled_get, rolled_get]
    have hrl : (rolled shape l q idx).length = idx.length := by simp [rolled]
    by_cases c1 : a = d
    · subst c1
      rw [if_pos rfl, if_pos (by omega), List.getElem?_eq_getElem hlt, List.getD_eq_getElem?_getD,
        rolled_get, List.getElem?_eq_getElem hlt]
      simp [hal]
    · rw [if_neg c1]
      have : d ∈ a :: l ↔ d ∈ l := by
        rw [List.mem_cons]
        exact ⟨fun h => h.resolve_left (Ne.symm c1), Or.inr⟩
      simp only [this]

theorem fold_back_cells {shape : List ℕ} (l : List ℕ) (hl : l.Nodup) (n : ℕ → ℕ) (h dk x k : ℕ → ℝ) (s : ℝ)
    (hs : s = 1 ∨ s = -1) (q m : ℕ → ℤ)
    (hn : ∀ d ∈ l, shape[d]? = some (n d) ∧ 0 < n d ∧ dk d * h d * n d = 2 * Real.pi ∧ k d = m d * dk d)
    (g : List ℕ → ℂ) (idx : List ℕ) (hidx : InBounds shape idx) :
    l.foldl (fun g d => fourierAlong (dk d / Real.sqrt (2 * Real.pi)) (-s) (ap (k d) (dk d) (n d))
      (ap (x d + q d * h d) (h d) (n d)) d g) (l.foldl (fun g d => fourierAlong (h d / Real.sqrt (2 * Real.pi)) s
        (ap (x d) (h d) (n d)) (ap (k d) (dk d) (n d)) d g) g) idx = g (rolled shape l q idx) := by
  rw [fold_pair (shape := shape)
    (fun d g => fourierAlong (h d / Real.sqrt (2 * Real.pi)) s (ap (x d) (h d) (n d)) (ap (k d) (dk d) (n d)) d g)
    (fun d g => fourierAlong (dk d / Real.sqrt (2 * Real.pi)) (-s) (ap (k d) (dk d) (n d))
      (ap (x d + q d * h d) (h d) (n d)) d g)
    (fun d g idx => g (idx.set d (((idx.getD d 0 : ℤ) + q d) % (shape.getD d 1 : ℕ)).toNat)) l hl
    (fun d e hde g => fourierAlong_comm _ _ _ _ _ _ _ _ _ _ hde g) ?_ ?_ ?_ g idx hidx]
  · exact fold_rolled q l hl (fun d hd => ⟨n d, (hn d hd).2.1, (hn d hd).1⟩) g idx hidx
  · intro d hd g idx hidx
    obtain ⟨h1, h2, h3, h4⟩ := hn d hd
    rw [fourierAlong_back h1 h2 _ _ _ _ _ _ hs h3 g idx hidx, exp_cells s hs _ _ _ _ _ _ h3 h4, one_mul,
      List.getD_eq_getElem?_getD, List.getD_eq_getElem?_getD, h1]
    rfl
  · intro d hd g g' hg idx hidx
    exact fourierAlong_congr (hn d hd).1 _ _ _ _ (ap_length _ _ _) hg idx hidx
  · intro d hd g g' hg idx hidx
    exact fourierAlong_congr (hn d hd).1 _ _ _ _ (ap_length _ _ _) hg idx hidx

end

end Postpic.Fields
