import Verif.Lemmas.Fft

/-!
# Lemmas: inverse transforms, Parseval, shifts
-/

set_option autoImplicit false

namespace Postpic.Fields

open Postpic Postpic.Axes Postpic.Spec

noncomputable section

theorem exp_int (j : ℤ) (n : ℕ) (hn : 0 < n) :
    Complex.exp (2 * Real.pi * Complex.I * j / n) = 1 ↔ (n : ℤ) ∣ j := by
  have hnc : (n : ℂ) ≠ 0 := by exact_mod_cast hn.ne'
  rw [Complex.exp_eq_one_iff]
  constructor
  · rintro ⟨t, ht⟩
    refine ⟨t, ?_⟩
    have hpi : (2 * Real.pi * Complex.I : ℂ) ≠ 0 := Complex.two_pi_I_ne_zero
    field_simp at ht
    have : (j : ℂ) = n * t := by
      have h2 : (2 * Real.pi * Complex.I : ℂ) * j = (2 * Real.pi * Complex.I : ℂ) * (n * t) := by
        linear_combination (Real.pi * Complex.I * 2) * ht
      exact mul_left_cancel₀ hpi h2
    exact_mod_cast this
  · rintro ⟨t, rfl⟩
    refine ⟨t, ?_⟩
    push_cast
    field_simp

theorem geom_exp (n : ℕ) (hn : 0 < n) (j : ℤ) :
    ∑ m ∈ Finset.range n, Complex.exp (2 * Real.pi * Complex.I * j * m / n) =
      if (n : ℤ) ∣ j then (n : ℂ) else 0 := by
  have e : ∀ m : ℕ, Complex.exp (2 * Real.pi * Complex.I * j * m / n) =
      Complex.exp (2 * Real.pi * Complex.I * j / n) ^ m := by
    intro m
    rw [← Complex.exp_nat_mul]
    congr 1
    ring
  simp only [e]
  split_ifs with hj
  · rw [(exp_int j n hn).2 hj]
    simp
  · have hne : Complex.exp (2 * Real.pi * Complex.I * j / n) ≠ 1 := fun h => hj ((exp_int j n hn).1 h)
    rw [geom_sum_eq hne]
    have : Complex.exp (2 * Real.pi * Complex.I * j / n) ^ n = 1 := by
      rw [← Complex.exp_nat_mul]
      have hnc : (n : ℂ) ≠ 0 := by exact_mod_cast hn.ne'
      have : (n : ℂ) * (2 * Real.pi * Complex.I * j / n) = j * (2 * Real.pi * Complex.I) := by
        field_simp
      rw [this]
      exact Complex.exp_int_mul_two_pi_mul_I j
    rw [this]
    simp

theorem fourierAlong_comm (c s : ℝ) (xs ks : List ℝ) (d : ℕ) (c' s' : ℝ) (xs' ks' : List ℝ) (e : ℕ)
    (hde : d ≠ e) (g : List ℕ → ℂ) :
    fourierAlong c s xs ks d (fourierAlong c' s' xs' ks' e g) =
      fourierAlong c' s' xs' ks' e (fourierAlong c s xs ks d g) := by
  funext idx
  simp only [fourierAlong, getD_set_ne _ _ _ _ hde, getD_set_ne _ _ _ _ hde.symm, Finset.mul_sum,
    Finset.sum_mul]
  rw [Finset.sum_comm]
  apply Finset.sum_congr rfl
  intro a _
  apply Finset.sum_congr rfl
  intro b _
  rw [List.set_comm _ _ hde]
  ring

theorem fourierAlong_congr {shape : List ℕ} {d n : ℕ} (hn : shape[d]? = some n) (c s : ℝ) (xs ks : List ℝ)
    (hx : xs.length = n) {g g' : List ℕ → ℂ} (hg : ∀ idx, InBounds shape idx → g idx = g' idx)
    (idx : List ℕ) (hidx : InBounds shape idx) :
    fourierAlong c s xs ks d g idx = fourierAlong c s xs ks d g' idx := by
  unfold fourierAlong
  congr 1
  apply Finset.sum_congr rfl
  intro j hj
  rw [hg _ (inBounds_set hidx hn (by simpa [hx] using hj))]

/-- Transforming and transforming back to a grid moved by `q` cells. -/
theorem fourierAlong_back {shape : List ℕ} {d n : ℕ} (hn : shape[d]? = some n) (hn0 : 0 < n)
    (x0 h k0 dk s : ℝ) (q : ℤ) (hs : s = 1 ∨ s = -1) (hdk : dk * h * n = 2 * Real.pi)
    (g : List ℕ → ℂ) (idx : List ℕ) (hidx : InBounds shape idx) :
    fourierAlong (dk / Real.sqrt (2 * Real.pi)) (-s) (ap k0 dk n) (ap (x0 + q * h) h n) d
        (fourierAlong (h / Real.sqrt (2 * Real.pi)) s (ap x0 h n) (ap k0 dk n) d g) idx =
      Complex.exp (-s * Complex.I * (k0 * h : ℝ) * (n : ℂ) * (((idx.getD d 0 : ℤ) + q) / n : ℤ)) *
        g (idx.set d (((idx.getD d 0 : ℤ) + q) % n).toNat) := by
  obtain ⟨hil, hin⟩ := inBounds_getD hidx hn
  set a := idx.getD d 0
  have hnz : (n : ℤ) ≠ 0 := by exact_mod_cast hn0.ne'
  set j0 := (((a : ℤ) + q) % n).toNat with hj0
  have hmod : 0 ≤ ((a : ℤ) + q) % n := Int.emod_nonneg _ hnz
  have hmodlt : ((a : ℤ) + q) % n < n := Int.emod_lt_of_pos _ (by exact_mod_cast hn0)
  have hj0n : j0 < n := by omega
  have hj0z : (j0 : ℤ) = (a + q) % n := by omega
  have hdiv := Int.emod_add_mul_ediv ((a : ℤ) + q) n
  set t := ((a : ℤ) + q) / n
  have hnc : (n : ℂ) ≠ 0 := by exact_mod_cast hn0.ne'
  have hdkc : (dk * h * n : ℂ) = 2 * Real.pi := by exact_mod_cast hdk
  have h2pi : (0 : ℝ) < 2 * Real.pi := by positivity
  have hsq : (Real.sqrt (2 * Real.pi) : ℂ) * Real.sqrt (2 * Real.pi) = 2 * Real.pi := by
    rw [← Complex.ofReal_mul, Real.mul_self_sqrt h2pi.le]
    push_cast
    rfl
  have hsq0 : (Real.sqrt (2 * Real.pi) : ℂ) ≠ 0 := by
    exact_mod_cast (Real.sqrt_pos.2 h2pi).ne'
  -- the sum over the other grid
  have hker : ∀ j < n, ∑ m ∈ Finset.range n,
      Complex.exp (s * Complex.I * ((k0 + m * dk : ℝ) : ℂ) * ((x0 + j * h : ℝ) : ℂ)) *
        Complex.exp ((-s : ℝ) * Complex.I * ((x0 + q * h + a * h : ℝ) : ℂ) * ((k0 + m * dk : ℝ) : ℂ)) =
      if j = j0 then n * Complex.exp (-s * Complex.I * (k0 * h : ℝ) * (n : ℂ) * (t : ℤ)) else 0 := by
    intro j hj
    obtain ⟨e, he, hes⟩ : ∃ e : ℤ, (e : ℂ) = s ∧ (e = 1 ∨ e = -1) := by
      rcases hs with rfl | rfl
      · exact ⟨1, by simp, Or.inl rfl⟩
      · exact ⟨-1, by simp, Or.inr rfl⟩
    have h1 : ∀ m : ℕ, Complex.exp (s * Complex.I * ((k0 + m * dk : ℝ) : ℂ) * ((x0 + j * h : ℝ) : ℂ)) *
        Complex.exp ((-s : ℝ) * Complex.I * ((x0 + q * h + a * h : ℝ) : ℂ) * ((k0 + m * dk : ℝ) : ℂ)) =
        Complex.exp (s * Complex.I * (k0 * h : ℝ) * ((j : ℂ) - a - q)) *
          Complex.exp (2 * Real.pi * Complex.I * (e * (j - a - q) : ℤ) * m / n) := by
      intro m
      rw [← Complex.exp_add, ← Complex.exp_add]
      congr 1
      rw [← hdkc]
      push_cast
      rw [he]
      field_simp
      ring
    simp only [h1, ← Finset.mul_sum]
    rw [geom_exp n hn0]
    have hiff : ((n : ℤ) ∣ e * (j - a - q)) ↔ j = j0 := by
      have : ((n : ℤ) ∣ e * (j - a - q)) ↔ ((n : ℤ) ∣ (j - a - q)) := by
        rcases hes with rfl | rfl
        · simp
        · rw [neg_one_mul, dvd_neg]
      rw [this]
      constructor
      · rintro ⟨u, hu⟩
        have : ((a : ℤ) + q) % n = j := by
          have e1 : (a : ℤ) + q = j + n * (-u) := by linarith
          rw [e1, Int.add_mul_emod_self_left]
          exact Int.emod_eq_of_lt (by omega) (by omega)
        omega
      · rintro rfl
        refine ⟨-t, ?_⟩
        have := hdiv
        linarith
    by_cases hjj : j = j0
    · rw [if_pos (hiff.2 hjj), if_pos hjj, mul_comm]
      congr 2
      have : (j : ℂ) - a - q = -(n * t) := by
        have h3 : (j : ℤ) - a - q = -(n * t) := by rw [hjj]; linarith
        exact_mod_cast h3
      rw [this]
      ring
    · rw [if_neg (fun h => hjj (hiff.1 h)), if_neg hjj, mul_zero]
  simp only [fourierAlong, ap_length]
  rw [ap_getD _ _ _ _ hin]
  have h2 : ∀ m ∈ Finset.range n, (((h / Real.sqrt (2 * Real.pi) : ℝ) : ℂ) * ∑ j ∈ Finset.range n,
      g ((idx.set d m).set d j) * Complex.exp (s * Complex.I *
        ((ap k0 dk n).getD ((idx.set d m).getD d 0) 0 : ℝ) * ((ap x0 h n).getD j 0 : ℝ))) *
      Complex.exp ((-s : ℝ) * Complex.I * ((x0 + q * h + a * h : ℝ) : ℂ) * ((ap k0 dk n).getD m 0 : ℝ)) =
      ∑ j ∈ Finset.range n, ((h / Real.sqrt (2 * Real.pi) : ℝ) : ℂ) * (g (idx.set d j) *
        (Complex.exp (s * Complex.I * ((k0 + m * dk : ℝ) : ℂ) * ((x0 + j * h : ℝ) : ℂ)) *
        Complex.exp ((-s : ℝ) * Complex.I * ((x0 + q * h + a * h : ℝ) : ℂ) * ((k0 + m * dk : ℝ) : ℂ)))) := by
    intro m hm
    have hm : m < n := by simpa using hm
    rw [getD_set_self _ _ _ hil, ap_getD _ _ _ _ hm, Finset.mul_sum, Finset.sum_mul]
    apply Finset.sum_congr rfl
    intro j hj
    have hj : j < n := by simpa using hj
    rw [List.set_set, ap_getD _ _ _ _ hj]
    ring
  rw [Finset.sum_congr rfl h2, Finset.sum_comm]
  have h3 : ∀ j ∈ Finset.range n, ∑ m ∈ Finset.range n, ((h / Real.sqrt (2 * Real.pi) : ℝ) : ℂ) *
      (g (idx.set d j) *
        (Complex.exp (s * Complex.I * ((k0 + m * dk : ℝ) : ℂ) * ((x0 + j * h : ℝ) : ℂ)) *
        Complex.exp ((-s : ℝ) * Complex.I * ((x0 + q * h + a * h : ℝ) : ℂ) * ((k0 + m * dk : ℝ) : ℂ)))) =
      if j = j0 then ((h / Real.sqrt (2 * Real.pi) : ℝ) : ℂ) * (g (idx.set d j) *
        (n * Complex.exp (-s * Complex.I * (k0 * h : ℝ) * (n : ℂ) * (t : ℤ)))) else 0 := by
    intro j hj
    have hj : j < n := by simpa using hj
    rw [← Finset.mul_sum, ← Finset.mul_sum, hker j hj]
    split_ifs <;> simp
  rw [Finset.sum_congr rfl h3, Finset.sum_ite_eq' (Finset.range n) j0, if_pos (by simpa using hj0n)]
  have h4 : ((dk / Real.sqrt (2 * Real.pi) : ℝ) : ℂ) * (((h / Real.sqrt (2 * Real.pi) : ℝ) : ℂ) * n) = 1 := by
    have h2pic : (2 * Real.pi : ℂ) ≠ 0 := by exact_mod_cast h2pi.ne'
    push_cast
    have : (dk : ℂ) / Real.sqrt (2 * Real.pi) * (h / Real.sqrt (2 * Real.pi) * n) =
        (dk * h * n) / (Real.sqrt (2 * Real.pi) * Real.sqrt (2 * Real.pi)) := by
      field_simp
    rw [this, hsq, hdkc, div_self h2pic]
  linear_combination (Complex.exp (-s * Complex.I * (k0 * h : ℝ) * (n : ℂ) * (t : ℤ)) *
    g (idx.set d j0)) * h4

theorem set_getD {idx : List ℕ} {d : ℕ} (h : d < idx.length) : idx.set d (idx.getD d 0) = idx := by
  apply List.ext_getElem?
  intro e
  rw [List.getElem?_set]
  split_ifs with h1
  · subst h1
    rw [List.getD_eq_getElem?_getD, List.getElem?_eq_getElem h]
    rfl
  · rfl

/-- Transforming and transforming back. -/
theorem fourierAlong_inverse {shape : List ℕ} {d n : ℕ} (hn : shape[d]? = some n) (hn0 : 0 < n)
    (x0 h k0 dk s : ℝ) (hs : s = 1 ∨ s = -1) (hdk : dk * h * n = 2 * Real.pi)
    (g : List ℕ → ℂ) (idx : List ℕ) (hidx : InBounds shape idx) :
    fourierAlong (dk / Real.sqrt (2 * Real.pi)) (-s) (ap k0 dk n) (ap x0 h n) d
        (fourierAlong (h / Real.sqrt (2 * Real.pi)) s (ap x0 h n) (ap k0 dk n) d g) idx = g idx := by
  have := fourierAlong_back hn hn0 x0 h k0 dk s 0 hs hdk g idx hidx
  obtain ⟨hil, hin⟩ := inBounds_getD hidx hn
  have e1 : ((idx.getD d 0 : ℤ) + 0) / n = 0 := by
    rw [add_zero]
    exact Int.ediv_eq_zero_of_lt (by omega) (by exact_mod_cast hin)
  have e2 : (((idx.getD d 0 : ℤ) + 0) % n).toNat = idx.getD d 0 := by
    rw [add_zero, Int.emod_eq_of_lt (by omega) (by exact_mod_cast hin)]
    simp
  rw [e1, e2, set_getD hil] at this
  simpa using this

theorem fold_comm (A : ℕ → (List ℕ → ℂ) → List ℕ → ℂ) (B : (List ℕ → ℂ) → List ℕ → ℂ) (l : List ℕ)
    (h : ∀ d ∈ l, ∀ g, B (A d g) = A d (B g)) (g : List ℕ → ℂ) :
    B (l.foldl (fun g d => A d g) g) = l.foldl (fun g d => A d g) (B g) := by
  induction l generalizing g with
  | nil => rfl
  | cons d l ih =>
    rw [List.foldl_cons, List.foldl_cons, ih (fun e he => h e (by simp [he])), h d (by simp)]

/-- Two runs over the same axes can be done axis by axis. -/
theorem fold_pair {shape : List ℕ} (A B C : ℕ → (List ℕ → ℂ) → List ℕ → ℂ) (l : List ℕ) (hl : l.Nodup)
    (hcomm : ∀ d e, d ≠ e → ∀ g, B d (A e g) = A e (B d g))
    (hBA : ∀ d ∈ l, ∀ g idx, InBounds shape idx → B d (A d g) idx = C d g idx)
    (hA : ∀ d ∈ l, ∀ g g' : List ℕ → ℂ, (∀ idx, InBounds shape idx → g idx = g' idx) →
      ∀ idx, InBounds shape idx → A d g idx = A d g' idx)
    (hB : ∀ d ∈ l, ∀ g g' : List ℕ → ℂ, (∀ idx, InBounds shape idx → g idx = g' idx) →
      ∀ idx, InBounds shape idx → B d g idx = B d g' idx)
    (g : List ℕ → ℂ) (idx : List ℕ) (hidx : InBounds shape idx) :
    l.foldl (fun g d => B d g) (l.foldl (fun g d => A d g) g) idx =
      l.foldl (fun g d => C d g) g idx := by
  induction l generalizing g idx with
  | nil => rfl
  | cons d l ih =>
    obtain ⟨hdl, hl⟩ := List.nodup_cons.1 hl
    simp only [List.foldl_cons]
    rw [fold_comm A (B d) l (fun e he g => hcomm d e (by rintro rfl; exact hdl he) g)]
    rw [← ih hl (fun e he => hBA e (by simp [he])) (fun e he => hA e (by simp [he]))
      (fun e he => hB e (by simp [he])) _ idx hidx]
    refine foldl_congr_on l (fun g d => B d g) (fun g d => B d g) (fun e he => hB e (by simp [he])) _ _ ?_
      idx hidx
    exact foldl_congr_on l (fun g d => A d g) (fun g d => A d g) (fun e he => hA e (by simp [he])) _ _
      fun idx hidx => hBA d (by simp) g idx hidx

theorem fold_id (l : List ℕ) (g : List ℕ → ℂ) : l.foldl (fun g (_ : ℕ) => g) g = g := by
  induction l with
  | nil => rfl
  | cons d l ih => exact ih

/-! ### Transforming twice -/

variable {f : Field ℝ ℂ}

theorem Sound.withTao (hf : f.Sound) {tao : List (Option ℝ)} (h : tao.length = f.tao.length) :
    ({ f with tao := tao } : Field ℝ ℂ).Sound :=
  ⟨⟨hf.ok.lengths, hf.ok.states, by show tao.length = _; rw [h]; exact hf.ok.origins⟩, hf.valid,
    hf.nonempty⟩

theorem expSign_not (state : Bool) (signs : String) : expSign (!state) signs = -expSign state signs := by
  unfold expSign
  cases state <;> simp <;> split_ifs <;> simp_all

theorem expSign_cases (state : Bool) (signs : String) :
    expSign state signs = 1 ∨ expSign state signs = -1 := by
  unfold expSign
  split_ifs <;> simp

/-- What `fft` needs about the axes. -/
theorem ready (hf : f.Sound) {L : List ℕ} {state : Bool} {e0 h : ℕ → ℝ} (ht : Transformable f L state e0 h) :
    ∃ (n : ℕ → ℕ) (k0 : ℕ → ℝ),
      (∀ d ∈ L, f.shape[d]? = some (n d) ∧ 2 ≤ n d ∧ 0 < 2 * Real.pi / (n d * h d) ∧
        2 * Real.pi / (n d * h d) * h d * n d = 2 * Real.pi ∧
        2 * Real.pi / (n d * (2 * Real.pi / (n d * h d))) = h d) ∧
      (∀ d ∈ L, ∀ o, f.tao[d]? = some o → k0 d = firstK o (n d) (h d)) ∧
      (∀ d ∈ L, d ≤ 2 ∧ f.ats[d]? = some (some state) ∧ ∃ ax o, f.axes[d]? = some ax ∧
        f.tao[d]? = some o ∧ Lin ax (e0 d + h d / 2) (h d) ∧ n d = ax.len ∧ k0 d = firstK o ax.len (h d)) := by
  have hlen := ok_axes_length hf.ok
  have htao : ∀ d ∈ L, ∃ o, f.tao[d]? = some o := by
    intro d hd
    obtain ⟨ax, h1, _⟩ := ht.axis d hd
    have := (List.getElem?_eq_some_iff.1 h1).1
    exact ⟨_, List.getElem?_eq_getElem (by rw [hf.ok.origins, ← hlen]; exact this)⟩
  refine ⟨fun d => f.shape.getD d 0, fun d => firstK ((f.tao[d]?).getD none) (f.shape.getD d 0) (h d), ?_, ?_, ?_⟩
  · intro d hd
    obtain ⟨ax, h1, h2⟩ := ht.axis d hd
    have hs : f.shape[d]? = some ax.len := by rw [← hf.ok.lengths, List.getElem?_map, h1]; rfl
    have h3 := ht.two d hd _ hs
    have hg : f.shape.getD d 0 = ax.len := by rw [List.getD_eq_getElem?_getD, hs]; rfl
    have hh := ht.pos d hd
    have hn : (0 : ℝ) < ax.len := by exact_mod_cast (by omega : 0 < ax.len)
    simp only [hg]
    refine ⟨hs, h3, by positivity, ?_, ?_⟩
    · field_simp
    · have := Real.pi_pos
      field_simp
  · intro d hd o ho
    simp only [ho, Option.getD_some]
  · intro d hd
    obtain ⟨ax, h1, h2⟩ := ht.axis d hd
    obtain ⟨o, ho⟩ := htao d hd
    have hs : f.shape[d]? = some ax.len := by rw [← hf.ok.lengths, List.getElem?_map, h1]; rfl
    have h3 := ht.two d hd _ hs
    have hg : f.shape.getD d 0 = ax.len := by rw [List.getD_eq_getElem?_getD, hs]; rfl
    refine ⟨ht.number d hd, ht.state d hd, ax, o, h1, ho, Lin.of_even h2 (ht.pos d hd) (by omega), hg, ?_⟩
    simp only [ho, Option.getD_some, hg]

/-- The transform and, after changes of the stored origins, the transform back. -/
theorem fft_again {spl : Splines ℝ} (hspl : ExactOnEven spl) (hf : f.Sound) {L : List ℕ} {state : Bool}
    {e0 h : ℕ → ℝ} (ht : Transformable f L state e0 h) {signs : String}
    (hs : signs = "spatial" ∨ signs = "temporal") (old : Bool) :
    ∃ (F : Field ℝ ℂ) (n : ℕ → ℕ) (k0 : ℕ → ℝ), f.fft spl (some (L.map Int.ofNat)) signs old = .ok F ∧
      F.Sound ∧ F.shape = f.shape ∧ F.name = f.name ∧ F.unit = f.unit ∧
      (∀ d ∈ L, F.tao[d]? = some (some (e0 d + h d / 2)) ∧ F.ats[d]? = some (some !state)) ∧
      (∀ d, d ∉ L → F.axes[d]? = f.axes[d]? ∧ F.ats[d]? = f.ats[d]? ∧ F.tao[d]? = f.tao[d]?) ∧
      (∀ d ∈ L, f.shape[d]? = some (n d) ∧ 2 ≤ n d ∧ 0 < 2 * Real.pi / (n d * h d) ∧
        2 * Real.pi / (n d * h d) * h d * n d = 2 * Real.pi ∧
        2 * Real.pi / (n d * (2 * Real.pi / (n d * h d))) = h d) ∧
      (∀ d ∈ L, ∀ o, f.tao[d]? = some o → k0 d = firstK o (n d) (h d)) ∧
      Transformable F L (!state) (fun d => k0 d - 2 * Real.pi / (n d * h d) / 2)
        (fun d => 2 * Real.pi / (n d * h d)) ∧
      (∀ d ∈ L, ∀ ax, f.axes[d]? = some ax → ∃ ax', F.axes[d]? = some ax' ∧
        ax'.name = conjugateName state ax.name ∧ ax'.unit = conjugateUnit state ax.unit ∧ ax'.len = ax.len) ∧
      (∀ idx, InBounds f.shape idx → F.matrix.at' idx =
        (order L).foldl (fun g d => fourierAlong (h d / Real.sqrt (2 * Real.pi)) (expSign state signs)
          (ap (if old && !state then 0 else e0 d + h d / 2) (h d) (n d))
          (ap (if old && state then 0 else k0 d) (2 * Real.pi / (n d * h d)) (n d)) d g)
          f.matrix.at' idx) ∧
      ∀ (σ : ℕ → ℝ) (tao : List (Option ℝ)), tao.length = F.tao.length →
        (∀ d ∈ L, tao[d]? = some (some (e0 d + h d / 2 + σ d))) →
        (∀ d, d ∉ L → tao[d]? = F.tao[d]?) →
        ∃ r, ({ F with tao := tao } : Field ℝ ℂ).fft spl (some (L.map Int.ofNat)) signs old = .ok r ∧ r.Sound ∧
          r.name = f.name ∧ r.unit = f.unit ∧ r.shape = f.shape ∧ r.ats = f.ats ∧
          (∀ d, d ∉ L → r.axes[d]? = f.axes[d]? ∧ r.tao[d]? = f.tao[d]?) ∧
          (∀ d ∈ L, r.tao[d]? = some (some (k0 d))) ∧
          (∀ d ∈ L, ∀ ax, f.axes[d]? = some ax → ∃ ax', r.axes[d]? = some ax' ∧
            ax'.name = conjugateName (!state) (conjugateName state ax.name) ∧
            ax'.unit = conjugateUnit (!state) (conjugateUnit state ax.unit) ∧
            ax'.len = ax.len ∧ EvenAxis ax' (e0 d + σ d) (h d)) ∧
          ∀ idx, InBounds f.shape idx → r.matrix.at' idx =
            (order L).foldl (fun g d => fourierAlong (2 * Real.pi / (n d * h d) / Real.sqrt (2 * Real.pi))
              (-expSign state signs) (ap (if old && state then 0 else k0 d) (2 * Real.pi / (n d * h d)) (n d))
              (ap (if old && !state then 0 else e0 d + h d / 2 + σ d) (h d) (n d)) d g) F.matrix.at' idx := by
  obtain ⟨n, k0, hn, hk0, hready⟩ := ready hf ht
  obtain ⟨F, F1, F2, F3, F4, F5, F6, F7, F8⟩ := fft_sound hspl hf ht.some_dim hready hs old
  have hlin : ∀ d ∈ L, ∃ ax ax', f.axes[d]? = some ax ∧ F.axes[d]? = some ax' ∧ ax'.len = n d ∧ ax.len = n d ∧
      ax'.name = conjugateName state ax.name ∧ ax'.unit = conjugateUnit state ax.unit ∧
      Lin ax' (k0 d) (2 * Real.pi / (n d * h d)) ∧
      EvenAxis ax' (k0 d - 2 * Real.pi / (n d * h d) / 2) (2 * Real.pi / (n d * h d)) ∧
      F.ats[d]? = some (some !state) ∧ F.tao[d]? = some (some (e0 d + h d / 2)) := by
    intro d hd
    obtain ⟨_, _, ax, o, a1, _, _, a4, _⟩ := hready d hd
    obtain ⟨ax', b1, b2, b3, b4, b5, b6, b7, b8, b9⟩ := F7 d hd ax a1
    have h2 := (hn d hd).2.1
    rw [if_neg (by omega)] at b6
    exact ⟨ax, ax', a1, b1, b4, a4.symm, b2, b3, b6, b7 h2, b8, b9⟩
  refine ⟨F, n, k0, F1, F2, F5, F3, F4, ?_, F6, hn, hk0, ?_, ?_, F8, ?_⟩
  · intro d hd
    obtain ⟨ax, ax', _, _, _, _, _, _, _, _, c1, c2⟩ := hlin d hd
    exact ⟨c2, c1⟩
  · refine ⟨⟨ht.some_dim, ht.number, ?_, fun d hd => (hn d hd).2.2.1, ?_⟩, ?_⟩
    · intro d hd
      obtain ⟨ax, ax', _, _, _, _, _, _, _, _, c1, c2⟩ := hlin d hd
      exact c1
    · intro d hd
      obtain ⟨ax, ax', _, c2, c3, _, _, _, _, c8, _, _⟩ := hlin d hd
      exact ⟨ax', c2, c8⟩
    · intro d hd m hm
      rw [F5, (hn d hd).1] at hm
      obtain rfl := Option.some.inj hm
      exact (hn d hd).2.1
  · intro d hd ax hax
    obtain ⟨ax2, ax', c1, c2, c3, c4, c5, c6, _⟩ := hlin d hd
    rw [c1] at hax
    obtain rfl := Option.some.inj hax
    exact ⟨ax', c2, c5, c6, by rw [c3, c4]⟩
  · intro σ tao htl htao htao'
    have hG := Sound.withTao F2 htl
    obtain ⟨r, R1, R2, R3, R4, R5, R6, R7, R8⟩ := fft_sound (f := { F with tao := tao }) hspl hG (L := L)
      ht.some_dim (x0 := k0) (h := fun d => 2 * Real.pi / (n d * h d))
      (k0 := fun d => e0 d + h d / 2 + σ d) (n := n) (state := !state) (by
        intro d hd
        obtain ⟨ax, ax', _, c2, c3, _, _, _, c7, c8, c9, _⟩ := hlin d hd
        exact ⟨ht.number d hd, c9, ax', some (e0 d + h d / 2 + σ d), c2, htao d hd, c7, c3.symm, rfl⟩)
      hs old
    refine ⟨r, R1, R2, R3.trans F3, R4.trans F4, R5.trans F5, ?_, ?_, ?_, ?_, ?_⟩
    · apply List.ext_getElem?
      intro d
      by_cases hd : d ∈ L
      · obtain ⟨ax, ax', c1, c2, _⟩ := hlin d hd
        obtain ⟨ax'', b1, b2, b3, b4, b5, b6, b7, b8, b9⟩ := R7 d hd ax' c2
        rw [b8, ht.state d hd, Bool.not_not]
      · rw [(R6 d hd).2.1]
        exact (F6 d hd).2.1
    · intro d hd
      refine ⟨(R6 d hd).1.trans (F6 d hd).1, ?_⟩
      rw [(R6 d hd).2.2, ← (F6 d hd).2.2]
      exact htao' d hd
    · intro d hd
      obtain ⟨ax, ax', c1, c2, _⟩ := hlin d hd
      obtain ⟨ax'', b1, b2, b3, b4, b5, b6, b7, b8, b9⟩ := R7 d hd ax' c2
      exact b9
    · intro d hd ax hax
      obtain ⟨ax2, ax', c1, c2, c3, c4, c5, c6, _⟩ := hlin d hd
      rw [c1] at hax
      obtain rfl := Option.some.inj hax
      obtain ⟨ax'', b1, b2, b3, b4, b5, b6, b7, b8, b9⟩ := R7 d hd ax' c2
      refine ⟨ax'', b1, by rw [b2, c5], by rw [b3, c6], by rw [b4, c4], ?_⟩
      have := b7 (hn d hd).2.1
      rw [(hn d hd).2.2.2.2] at this
      convert this using 1
      ring
    · intro idx hidx
      rw [R8 idx (by show InBounds F.shape idx; rw [F5]; exact hidx)]
      refine foldl_congr_on (shape := f.shape) (order L) _ _ ?_ _ _ (fun _ _ => rfl) idx hidx
      intro d hd g g' hg idx hidx
      have hd' := mem_order.1 hd
      obtain ⟨a1, a2, a3, a4, a5⟩ := hn d hd'
      rw [a5, expSign_not, Bool.not_not]
      exact fourierAlong_congr a1 _ _ _ _ (ap_length _ _ _) hg idx hidx

/-! ### The values after both transforms -/

theorem fold_inverse {shape : List ℕ} (l : List ℕ) (hl : l.Nodup) (n : ℕ → ℕ) (h dk x k : ℕ → ℝ) (s : ℝ)
    (hs : s = 1 ∨ s = -1)
    (hn : ∀ d ∈ l, shape[d]? = some (n d) ∧ 0 < n d ∧ dk d * h d * n d = 2 * Real.pi)
    (g : List ℕ → ℂ) (idx : List ℕ) (hidx : InBounds shape idx) :
    l.foldl (fun g d => fourierAlong (dk d / Real.sqrt (2 * Real.pi)) (-s) (ap (k d) (dk d) (n d))
      (ap (x d) (h d) (n d)) d g) (l.foldl (fun g d => fourierAlong (h d / Real.sqrt (2 * Real.pi)) s
        (ap (x d) (h d) (n d)) (ap (k d) (dk d) (n d)) d g) g) idx = g idx := by
  rw [fold_pair (shape := shape)
    (fun d g => fourierAlong (h d / Real.sqrt (2 * Real.pi)) s (ap (x d) (h d) (n d)) (ap (k d) (dk d) (n d)) d g)
    (fun d g => fourierAlong (dk d / Real.sqrt (2 * Real.pi)) (-s) (ap (k d) (dk d) (n d)) (ap (x d) (h d) (n d)) d g)
    (fun _ g => g) l hl
    (fun d e hde g => fourierAlong_comm _ _ _ _ _ _ _ _ _ _ hde g) ?_ ?_ ?_ g idx hidx, fold_id]
  · intro d hd g idx hidx
    obtain ⟨h1, h2, h3⟩ := hn d hd
    exact fourierAlong_inverse h1 h2 _ _ _ _ _ hs h3 g idx hidx
  · intro d hd g g' hg idx hidx
    exact fourierAlong_congr (hn d hd).1 _ _ _ _ (ap_length _ _ _) hg idx hidx
  · intro d hd g g' hg idx hidx
    exact fourierAlong_congr (hn d hd).1 _ _ _ _ (ap_length _ _ _) hg idx hidx

/-! ### Parseval -/

theorem parseval_axis {shape : List ℕ} {d n : ℕ} (hn : shape[d]? = some n) (hn0 : 0 < n)
    (x0 h k0 dk s : ℝ) (hs : s = 1 ∨ s = -1) (hdk : dk * h * n = 2 * Real.pi)
    (g : List ℕ → ℂ) (idx : List ℕ) (hidx : InBounds shape idx) :
    ∑ m ∈ Finset.range n, dk * ‖fourierAlong (h / Real.sqrt (2 * Real.pi)) s (ap x0 h n) (ap k0 dk n) d g
      (idx.set d m)‖ ^ 2 = ∑ j ∈ Finset.range n, h * ‖g (idx.set d j)‖ ^ 2 := by
  obtain ⟨hil, hin⟩ := inBounds_getD hidx hn
  have h2pi : (0 : ℝ) < 2 * Real.pi := by positivity
  have hsq0 : (Real.sqrt (2 * Real.pi) : ℂ) ≠ 0 := by
    exact_mod_cast (Real.sqrt_pos.2 h2pi).ne'
  have hinv := fourierAlong_inverse hn hn0 x0 h k0 dk s hs hdk g
  set F := fourierAlong (h / Real.sqrt (2 * Real.pi)) s (ap x0 h n) (ap k0 dk n) d g with hF
  have hc : ∀ m < n, (starRingEnd ℂ) (F (idx.set d m)) = (h / Real.sqrt (2 * Real.pi) : ℝ) *
      ∑ j ∈ Finset.range n, (starRingEnd ℂ) (g (idx.set d j)) *
        Complex.exp ((-s : ℝ) * Complex.I * ((x0 + j * h : ℝ) : ℂ) * ((k0 + m * dk : ℝ) : ℂ)) := by
    intro m hm
    rw [hF]
    simp only [fourierAlong, map_mul, map_sum, Complex.conj_ofReal, ap_length, getD_set_self _ _ _ hil,
      List.set_set]
    congr 1
    apply Finset.sum_congr rfl
    intro j hj
    have hj : j < n := by simpa using hj
    rw [ap_getD _ _ _ _ hm, ap_getD _ _ _ _ hj, ← Complex.exp_conj]
    congr 2
    simp only [map_mul, Complex.conj_ofReal, Complex.conj_I]
    push_cast
    ring
  have hb : ∀ j < n, g (idx.set d j) = (dk / Real.sqrt (2 * Real.pi) : ℝ) * ∑ m ∈ Finset.range n,
      F (idx.set d m) * Complex.exp ((-s : ℝ) * Complex.I * ((x0 + j * h : ℝ) : ℂ) * ((k0 + m * dk : ℝ) : ℂ)) := by
    intro j hj
    rw [← hinv (idx.set d j) (inBounds_set hidx hn hj)]
    unfold fourierAlong
    simp only [ap_length, getD_set_self _ _ _ hil, List.set_set]
    congr 1
    apply Finset.sum_congr rfl
    intro m hm
    have hm : m < n := by simpa using hm
    rw [ap_getD _ _ _ _ hm, ap_getD _ _ _ _ hj]
  have key : ((∑ m ∈ Finset.range n, dk * ‖F (idx.set d m)‖ ^ 2 : ℝ) : ℂ) =
      ((∑ j ∈ Finset.range n, h * ‖g (idx.set d j)‖ ^ 2 : ℝ) : ℂ) := by
    push_cast
    have e1 : ∀ m ∈ Finset.range n, (dk : ℂ) * (‖F (idx.set d m)‖ : ℂ) ^ 2 = ∑ j ∈ Finset.range n,
        (dk * (h / Real.sqrt (2 * Real.pi) : ℝ)) * ((starRingEnd ℂ) (g (idx.set d j)) * (F (idx.set d m) *
          Complex.exp ((-s : ℝ) * Complex.I * ((x0 + j * h : ℝ) : ℂ) * ((k0 + m * dk : ℝ) : ℂ)))) := by
      intro m hm
      rw [← Complex.mul_conj', hc m (by simpa using hm), Finset.mul_sum, Finset.mul_sum, Finset.mul_sum]
      apply Finset.sum_congr rfl
      intro j _
      ring
    rw [Finset.sum_congr rfl e1, Finset.sum_comm]
    apply Finset.sum_congr rfl
    intro j hj
    have hj : j < n := by simpa using hj
    rw [← Finset.mul_sum, ← Finset.mul_sum, ← Complex.mul_conj']
    conv_rhs => rw [hb j hj]
    rw [map_mul, Complex.conj_ofReal]
    conv_lhs => rw [hb j hj, map_mul, Complex.conj_ofReal]
    push_cast
    field_simp
  exact_mod_cast key

theorem insertIdx_set (j : List ℕ) (a i m : ℕ) : (j.insertIdx a i).set a m = j.insertIdx a m := by
  induction a generalizing j with
  | zero => simp
  | succ a ih =>
    cases j with
    | nil => simp
    | cons x j => simp [ih]

theorem flag_split {N a : ℕ} {dims : List ℕ} (ha : a ∈ dims) (haN : a < N) :
    flags N dims = (flags (N - 1) ((dims.filter (· ≠ a)).map (shiftDown a))).insertIdx a true := by
  rw [← flags_insert haN (by simp)]
  apply flags_congr
  intro d
  by_cases hd : d = a
  · simp [hd, ha]
  · simp [hd]

theorem parseval_step {shape : List ℕ} {bs : List (List ℝ)} (hbs : bs.map List.length = shape) {a n : ℕ}
    (hn : shape[a]? = some n) (hn0 : 0 < n) {dims : List ℕ} (ha : a ∈ dims)
    (x0 h k0 dk s : ℝ) (hs : s = 1 ∨ s = -1) (hdk : dk * h * n = 2 * Real.pi)
    (hb : bs[a]? = some (List.replicate n h)) (g : List ℕ → ℂ) (idx : List ℕ)
    (hidx : InBounds (unflagged (flags shape.length dims) shape) idx) :
    integral (bs.set a (List.replicate n dk)) (flags shape.length dims) (fun j => ‖fourierAlong
        (h / Real.sqrt (2 * Real.pi)) s (ap x0 h n) (ap k0 dk n) a g j‖ ^ 2) idx =
      integral bs (flags shape.length dims) (fun j => ‖g j‖ ^ 2) idx := by
  have haN : a < shape.length := (List.getElem?_eq_some_iff.1 hn).1
  have hbl : bs.length = shape.length := by rw [← hbs, List.length_map]
  rw [flag_split ha haN] at hidx ⊢
  set sel := flags (shape.length - 1) ((dims.filter (· ≠ a)).map (shiftDown a)) with hsel
  have hsl : sel.length = shape.length - 1 := flags_length _ _
  have hun := unflagged_insert (sel := sel) (l := shape) haN (by omega)
  rw [hun] at hidx
  have hcount : idx.length = sel.count false := by
    rw [hidx.1]
    apply unflagged_count
    rw [List.length_eraseIdx_of_lt haN, hsl]
  rw [integral_insert _ (by rw [List.length_set]; omega) (by omega) hcount,
    integral_insert _ (by omega) (by omega) hcount, List.eraseIdx_set_eq]
  have hg1 : (bs.set a (List.replicate n dk)).getD a [] = List.replicate n dk := by
    rw [List.getD_eq_getElem?_getD, List.getElem?_set_self (by omega)]
    rfl
  have hg2 : bs.getD a [] = List.replicate n h := by
    rw [List.getD_eq_getElem?_getD, hb]
    rfl
  rw [hg1, hg2]
  have hes : (bs.eraseIdx a).map List.length = shape.eraseIdx a := by rw [← hbs, List.eraseIdx_map]
  apply integral_congr
  · rw [List.length_eraseIdx_of_lt (by omega), hsl, hbl]
  · intro j hj
    rw [hes] at hj
    have hjl : j.length = shape.length - 1 := by rw [hj.1, List.length_eraseIdx_of_lt haN]
    have hin : InBounds shape (j.insertIdx a 0) := by
      refine ⟨by rw [List.length_insertIdx_of_le_length (by omega)]; omega, ?_⟩
      intro d i m hi hm
      rw [List.getElem?_insertIdx] at hi
      split_ifs at hi with c1 c2 c3
      · exact hj.2 d i m hi (by rw [List.getElem?_eraseIdx, if_pos c1]; exact hm)
      · obtain rfl := Option.some.inj hi
        subst c2
        rw [hn] at hm
        obtain rfl := Option.some.inj hm
        exact hn0
      · exact hj.2 (d - 1) i m hi (by
          rw [List.getElem?_eraseIdx, if_neg (by omega), show d - 1 + 1 = d by omega]; exact hm)
    have := parseval_axis hn hn0 x0 h k0 dk s hs hdk g _ hin
    simp only [insertIdx_set] at this
    simp only [List.length_replicate, smul_eq_mul]
    refine Eq.trans ?_ (this.trans ?_)
    · apply Finset.sum_congr rfl
      intro i hi
      have hi : i < n := by simpa using hi
      simp [List.getD_eq_getElem?_getD, hi]
    · apply Finset.sum_congr rfl
      intro i hi
      have hi : i < n := by simpa using hi
      simp [List.getD_eq_getElem?_getD, hi]
  · rw [hes]
    exact hidx

theorem parseval_fold {shape : List ℕ} {dims : List ℕ} (l : List ℕ) (hl : l.Nodup)
    (hld : ∀ d ∈ l, d ∈ dims) (n : ℕ → ℕ) (h dk x k : ℕ → ℝ) (s : ℝ)
    (hs : s = 1 ∨ s = -1)
    (hn : ∀ d ∈ l, shape[d]? = some (n d) ∧ 0 < n d ∧ dk d * h d * n d = 2 * Real.pi)
    (bs : List (List ℝ)) (hbs : bs.map List.length = shape)
    (hb : ∀ d ∈ l, bs[d]? = some (List.replicate (n d) (h d)))
    (g : List ℕ → ℂ) (idx : List ℕ) (hidx : InBounds (unflagged (flags shape.length dims) shape) idx) :
    integral (l.foldl (fun b d => b.set d (List.replicate (n d) (dk d))) bs) (flags shape.length dims)
      (fun j => ‖l.foldl (fun g d => fourierAlong (h d / Real.sqrt (2 * Real.pi)) s
        (ap (x d) (h d) (n d)) (ap (k d) (dk d) (n d)) d g) g j‖ ^ 2) idx =
      integral bs (flags shape.length dims) (fun j => ‖g j‖ ^ 2) idx := by
  induction l generalizing bs g with
  | nil => rfl
  | cons a l ih =>
    obtain ⟨hal, hl⟩ := List.nodup_cons.1 hl
    obtain ⟨h1, h2, h3⟩ := hn a (by simp)
    simp only [List.foldl_cons]
    rw [ih hl (fun d hd => hld d (by simp [hd])) (fun d hd => hn d (by simp [hd])) (bs.set a _) ?_ ?_ _]
    · exact parseval_step hbs h1 h2 (hld a (by simp)) _ _ _ _ _ hs h3 (hb a (by simp)) g idx hidx
    · rw [List.map_set, hbs, List.length_replicate]
      apply List.ext_getElem?
      intro d
      rw [List.getElem?_set]
      split_ifs with c1 c2
      · subst c1; exact h1.symm
      · subst c1; exact absurd (List.getElem?_eq_some_iff.1 h1).1 c2
      · rfl
    · intro d hd
      rw [List.getElem?_set_ne (by rintro rfl; exact hal hd)]
      exact hb d (by simp [hd])

theorem even_cellSizes {ax : Axis ℝ} (hv : ValidAxis ax.gridNode ax.grid ax.extent) {e0 h : ℝ}
    (he : EvenAxis ax e0 h) : cellSizes ax = List.replicate ax.len h := by
  have hl := cellSizes_length hv
  apply List.ext_getElem?
  intro i
  by_cases hi : i < ax.len
  · have := even_cells he hi
    rw [List.getD_eq_getElem?_getD, List.getElem?_eq_getElem (by omega)] at this
    rw [List.getElem?_eq_getElem (by omega), List.getElem?_replicate, if_pos hi]
    simpa using this
  · rw [List.getElem?_eq_none (by omega), List.getElem?_eq_none (by simp; omega)]

end

end Postpic.Fields
