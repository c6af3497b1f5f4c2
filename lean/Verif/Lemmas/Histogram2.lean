import Verif.Lemmas.Histogram

/-! # Closed forms of the deposition loops -/

set_option linter.unusedSectionVars false
set_option linter.unusedTactic false

set_option autoImplicit false

namespace Postpic.Histogram

open Postpic Postpic.Spec

variable {K : Type*} [Field K] [LinearOrder K] [IsStrictOrderedRing K] [FloorRing K]

theorem wsum_scale (ws : List (ℤ × K)) (w : K) (k : ℤ) :
    wsum (ws.map fun c => (c.1, c.2 * w)) k = wsum ws k * w := by
  induction ws with
  | nil => simp
  | cons c ws ih =>
    simp only [List.map_cons, wsum_cons, ih]; split <;> ring

theorem wsum_prod {ι κ : Type*} [DecidableEq ι] [DecidableEq κ] (cx : List (ι × K))
    (cy : List (κ × K)) (w : K) (i : ι) (j : κ) :
    wsum (cx.flatMap fun a => cy.map fun b => ((a.1, b.1), a.2 * b.2 * w)) (i, j)
      = wsum cx i * wsum cy j * w := by
  induction cx with
  | nil => simp
  | cons a cx ih =>
    rw [List.flatMap_cons, wsum_append, ih, wsum_cons]
    have : wsum (cy.map fun b => ((a.1, b.1), a.2 * b.2 * w)) (i, j)
        = (if a.1 = i then a.2 else 0) * wsum cy j * w := by
      clear ih
      induction cy with
      | nil => simp
      | cons b cy ih =>
        simp only [List.map_cons, wsum_cons, ih, Prod.mk.injEq]
        by_cases h1 : a.1 = i <;> by_cases h2 : b.1 = j <;> (simp [h1, h2]; try ring)
    rw [this]; ring

theorem wsum_prod3 {ι κ μ : Type*} [DecidableEq ι] [DecidableEq κ] [DecidableEq μ]
    (cx : List (ι × K)) (cy : List (κ × K)) (cz : List (μ × K)) (w : K) (i : ι) (j : κ) (k : μ) :
    wsum (cx.flatMap fun a => cy.flatMap fun b => cz.map fun c =>
        ((a.1, b.1, c.1), a.2 * b.2 * c.2 * w)) (i, j, k)
      = wsum cx i * wsum cy j * wsum cz k * w := by
  induction cx with
  | nil => simp
  | cons a cx ih =>
    rw [List.flatMap_cons, wsum_append, ih, wsum_cons]
    have : wsum (cy.flatMap fun b => cz.map fun c =>
          ((a.1, b.1, c.1), a.2 * b.2 * c.2 * w)) (i, j, k)
        = (if a.1 = i then a.2 else 0) * wsum cy j * wsum cz k * w := by
      have h := wsum_prod cy cz (a.2 * w) j k
      by_cases h1 : a.1 = i
      · rw [if_pos h1, show a.2 * wsum cy j * wsum cz k * w
            = wsum cy j * wsum cz k * (a.2 * w) by ring, ← h]
        simp only [wsum, List.flatMap, List.map_flatten, List.map_map]
        congr 2
        apply List.map_congr_left; intro b _
        simp only [Function.comp, List.map_map]
        apply List.map_congr_left; intro c _
        simp only [Function.comp, h1, Prod.mk.injEq, true_and]
        split <;> ring
      · rw [if_neg h1]
        have : ∀ l : List ((ι × κ × μ) × K), (∀ c ∈ l, c.1.1 = a.1) → wsum l (i, j, k) = 0 := by
          intro l hl
          induction l with
          | nil => simp
          | cons c l ih =>
            rw [wsum_cons, ih (fun c hc => hl c (by simp [hc])), if_neg]
            · simp
            · intro hc; apply h1; rw [← hl c (by simp), hc]
        rw [this]
        · ring
        · simp only [List.mem_flatMap, List.mem_map, forall_exists_index, and_imp]
          rintro c b _ d _ rfl; rfl
    rw [this]; ring

/-! ### loops whose writes do not fail -/

theorem foldlM_addAt_error {ι : Type*} [DecidableEq ι] (inb : ι → Bool) (ws : List (ι × K))
    (m : ι → K) (h : ∃ w ∈ ws, inb w.1 = false) :
    ws.foldlM (addAt inb) m = (.error .undefinedBehaviour : Res (ι → K)) := by
  induction ws generalizing m with
  | nil => simp at h
  | cons w ws ih =>
    rw [List.foldlM_cons]
    by_cases hw : inb w.1 = true
    · have : ∃ v ∈ ws, inb v.1 = false := by
        obtain ⟨v, hv, hv'⟩ := h
        rcases List.mem_cons.1 hv with rfl | hv
        · rw [hw] at hv'; cases hv'
        · exact ⟨v, hv, hv'⟩
      simp only [addAt, hw, if_true, bind, Except.bind]
      exact ih _ this
    · simp [addAt, hw, bind, Except.bind]

/-- Closed form of the loop. -/
theorem loop_pure {ι α : Type*} [DecidableEq ι] (inb : ι → Bool) (c : α → List (ι × K))
    (ps : List α) :
    loop inb (fun p => (.ok (c p) : Res _)) ps =
      if ∀ p ∈ ps, ∀ w ∈ c p, inb w.1 = true then
        (.ok fun k => (ps.map fun p => wsum (c p) k).sum : Res (ι → K))
      else .error .undefinedBehaviour := by
  split
  · next h => exact loop_ok inb _ ps c (fun _ _ => rfl) h
  · next h =>
    push Not at h
    obtain ⟨p, hp, w, hw, hin⟩ := h
    unfold loop
    generalize (fun _ => (0 : K)) = m
    induction ps generalizing m with
    | nil => simp at hp
    | cons q ps ih =>
      rw [List.foldlM_cons]
      simp only [bind, Except.bind] at ih ⊢
      by_cases hq : ∀ w ∈ c q, inb w.1 = true
      · rw [foldlM_addAt inb _ _ hq]
        simp only
        apply ih
        rcases List.mem_cons.1 hp with rfl | hp
        · exact absurd (hq w hw) (by simpa using hin)
        · exact hp
      · push Not at hq
        rw [foldlM_addAt_error inb _ _ (by simpa using hq)]

theorem zip_eq_map_zipIdx {α β : Type*} (l : List α) (w : List β) (d : β)
    (h : l.length ≤ w.length) :
    l.zip w = l.zipIdx.map fun p => (p.1, w.getD p.2 d) := by
  apply List.ext_getElem
  · simp; omega
  · intro i h1 h2
    simp only [List.length_zip] at h1
    have : i < w.length := by omega
    simp [List.getD, this]

theorem weightAt_eq {n i : ℕ} {weights : Option (List K)} (h : n ≤ (weightsOf n weights).length)
    (hi : i < n) : weightAt weights i = .ok ((weightsOf n weights).getD i 0) := by
  cases weights with
  | none => simp [weightAt, weightsOf, hi, List.getD]
  | some l =>
    simp only [weightsOf] at h
    have : i < l.length := by omega
    simp [weightAt, weightsOf, List.getD, this]

theorem loop_congr {ι α : Type*} [DecidableEq ι] (inb : ι → Bool)
    (act act' : α → Res (List (ι × K))) (ps : List α) (h : ∀ p ∈ ps, act p = act' p) :
    loop inb act ps = loop inb act' ps := by
  unfold loop
  generalize (fun _ => (0 : K)) = m
  induction ps generalizing m with
  | nil => rfl
  | cons p ps ih =>
    rw [List.foldlM_cons, List.foldlM_cons, h p (by simp)]
    congr 1
    funext m'
    exact ih (fun q hq => h q (by simp [hq])) m'

theorem loop_map {ι α β : Type*} [DecidableEq ι] (inb : ι → Bool)
    (act : β → Res (List (ι × K))) (f : α → β) (ps : List α) :
    loop inb act (ps.map f) = loop inb (fun p => act (f p)) ps := by
  unfold loop
  rw [List.foldlM_map]

/-- Loop over numbered particles reading `weights[i]` = loop over particles with weights. -/
theorem loop_zip {ι : Type} {α : Type*} [DecidableEq ι] (inb : ι → Bool) (data : List α)
    (weights : Option (List K)) (guard : α → Bool) (c : α → K → List (ι × K))
    (h : data.length ≤ (weightsOf data.length weights).length) :
    loop inb (fun di : α × ℕ => if guard di.1 then do
        let w ← weightAt weights di.2
        return c di.1 w
      else return []) data.zipIdx
    = loop inb (fun p : α × K => (.ok (if guard p.1 then c p.1 p.2 else []) : Res _))
        (data.zip (weightsOf data.length weights)) := by
  rw [zip_eq_map_zipIdx _ _ 0 h, loop_map]
  apply loop_congr
  intro p hp
  have hlt : p.2 < data.length := by simpa using List.snd_lt_of_mem_zipIdx hp
  rw [weightAt_eq h hlt]
  split_ifs <;> rfl

/-! ### closed forms of the histograms -/

/-- Writes of a particle with position and weight `p` (1D). -/
def c1 (s : Shape) (bins : ℕ) (r : K × K) (p : K × K) : List (ℤ × K) :=
  if guard1 s bins (scaled r bins p.1) then
    (cells s (scaled r bins p.1)).map fun c => (c.1, c.2 * p.2) else []

/-- Writes of a particle (2D). -/
def c2 (s : Shape) (xb yb : ℕ) (rx ry : K × K) (p : (K × K) × K) : List ((ℤ × ℤ) × K) :=
  if guard2 s xb yb (scaled rx xb p.1.1) (scaled ry yb p.1.2) then
    (cells s (scaled rx xb p.1.1)).flatMap fun cx => (cells s (scaled ry yb p.1.2)).map fun cy =>
      ((cx.1, cy.1), cx.2 * cy.2 * p.2) else []

/-- Writes of a particle (3D). -/
def c3 (s : Shape) (xb yb zb : ℕ) (rx ry rz : K × K) (p : (K × K × K) × K) :
    List ((ℤ × ℤ × ℤ) × K) :=
  if guard3 s xb yb zb (scaled rx xb p.1.1) (scaled ry yb p.1.2.1) (scaled rz zb p.1.2.2) then
    (cells s (scaled rx xb p.1.1)).flatMap fun cx =>
      (cells s (scaled ry yb p.1.2.1)).flatMap fun cy =>
        (cells s (scaled rz zb p.1.2.2)).map fun cz =>
          ((cx.1, cy.1, cz.1), cx.2 * cy.2 * cz.2 * p.2) else []

theorem fixRange_of_proper {spacing : K → K} {r : K × K} (h : Proper spacing r) :
    fixRange spacing r = r := by
  unfold fixRange; rw [if_neg (not_lt.2 h.2)]

theorem invSpacing_of_proper {spacing : K → K} {r : K × K} (h : Proper spacing r) (n : ℕ) :
    invSpacing r n = .ok (1 / (r.2 - r.1) * n) := by
  unfold invSpacing; rw [if_neg]
  intro h'; exact h.1 (sub_eq_zero.1 h').symm

theorem scaled_eq (r : K × K) (n : ℕ) (d : K) :
    (d - r.1) * (1 / (r.2 - r.1) * n) = scaled r n d := by
  unfold scaled; ring

theorem histogram_closed (spacing : K → K) (s : Shape) (data : List K) (r : K × K) (bins : ℕ)
    (weights : Option (List K)) (hr : Proper spacing r)
    (hw : data.length ≤ (weightsOf data.length weights).length) :
    histogram spacing s data r bins weights =
      if ∀ p ∈ data.zip (weightsOf data.length weights), ∀ w ∈ c1 s bins r p,
          inRange (bins + 2 * supp s) w.1 = true then
        .ok (grid1 bins fun i => ((data.zip (weightsOf data.length weights)).map fun p =>
          wsum (c1 s bins r p) ((supp s : ℤ) + i)).sum, binEdges r bins)
      else .error .undefinedBehaviour := by
  have hl := loop_zip (inRange (bins + 2 * supp s)) data weights
    (fun d => guard1 s bins (scaled r bins d))
    (fun d w => (cells s (scaled r bins d)).map fun c => (c.1, c.2 * w)) hw
  have hp := loop_pure (inRange (bins + 2 * supp s)) (c1 s bins r)
    (data.zip (weightsOf data.length weights))
  have h := hl.trans hp
  clear hl hp
  have e : act1 s bins r.1 (1 / (r.2 - r.1) * bins) weights = _ :=
    funext fun di : K × ℕ => show act1 s bins r.1 (1 / (r.2 - r.1) * bins) weights di = _ by
      unfold act1; rw [scaled_eq]
  simp only [histogram, fixRange_of_proper hr, invSpacing_of_proper hr, bind, Except.bind] at h e ⊢
  rw [e, h]
  by_cases hc : ∀ p ∈ data.zip (weightsOf data.length weights), ∀ w ∈ c1 s bins r p,
          inRange (bins + 2 * supp s) w.1 = true
  · rw [if_pos hc, if_pos hc]; rfl
  · rw [if_neg hc, if_neg hc]

theorem histogram2d_closed (spacing : K → K) (s : Shape) (datax datay : List K) (rx ry : K × K)
    (xb yb : ℕ) (weights : Option (List K)) (hlen : datax.length = datay.length)
    (hrx : Proper spacing rx) (hry : Proper spacing ry)
    (hw : datax.length ≤ (weightsOf datax.length weights).length) :
    histogram2d spacing s datax datay rx ry xb yb weights =
      if ∀ p ∈ (datax.zip datay).zip (weightsOf datax.length weights), ∀ w ∈ c2 s xb yb rx ry p,
          (inRange (xb + 2 * supp s) w.1.1 && inRange (yb + 2 * supp s) w.1.2) = true then
        .ok (grid2 xb yb fun i j =>
          (((datax.zip datay).zip (weightsOf datax.length weights)).map fun p =>
            wsum (c2 s xb yb rx ry p) ((supp s : ℤ) + i, (supp s : ℤ) + j)).sum,
          binEdges rx xb, binEdges ry yb)
      else .error .undefinedBehaviour := by
  have hz : (datax.zip datay).length = datax.length := by simp [← hlen]
  have hl := loop_zip (fun ij : ℤ × ℤ => inRange (xb + 2 * supp s) ij.1 &&
      inRange (yb + 2 * supp s) ij.2) (datax.zip datay) weights
    (fun d => guard2 s xb yb (scaled rx xb d.1) (scaled ry yb d.2))
    (fun d w => (cells s (scaled rx xb d.1)).flatMap fun cx =>
      (cells s (scaled ry yb d.2)).map fun cy => ((cx.1, cy.1), cx.2 * cy.2 * w))
    (by rw [hz]; exact hw)
  rw [hz] at hl
  have hp := loop_pure (fun ij : ℤ × ℤ => inRange (xb + 2 * supp s) ij.1 &&
      inRange (yb + 2 * supp s) ij.2) (c2 s xb yb rx ry)
    ((datax.zip datay).zip (weightsOf datax.length weights))
  have h := hl.trans hp
  clear hl hp
  have e : act2 s xb yb rx.1 (1 / (rx.2 - rx.1) * xb) ry.1 (1 / (ry.2 - ry.1) * yb) weights = _ :=
    funext fun di : (K × K) × ℕ => show act2 s xb yb rx.1 (1 / (rx.2 - rx.1) * xb) ry.1
        (1 / (ry.2 - ry.1) * yb) weights di = _ by
      unfold act2; rw [scaled_eq, scaled_eq]
  unfold histogram2d
  rw [if_neg (by simp [hlen])]
  simp only [fixRange_of_proper hrx, fixRange_of_proper hry,
    invSpacing_of_proper hrx, invSpacing_of_proper hry]
  simp only [bind, Except.bind, pure, Except.pure] at h e ⊢
  rw [e, h]
  by_cases hc : ∀ p ∈ (datax.zip datay).zip (weightsOf datax.length weights),
      ∀ w ∈ c2 s xb yb rx ry p,
        (inRange (xb + 2 * supp s) w.1.1 && inRange (yb + 2 * supp s) w.1.2) = true
  · rw [if_pos hc, if_pos hc]; rfl
  · rw [if_neg hc, if_neg hc]

theorem histogram3d_closed (spacing : K → K) (s : Shape) (datax datay dataz : List K)
    (rx ry rz : K × K) (xb yb zb : ℕ) (weights : Option (List K))
    (hlen : datax.length = datay.length) (hlen' : datax.length = dataz.length)
    (hrx : Proper spacing rx) (hry : Proper spacing ry) (hrz : Proper spacing rz)
    (hw : datax.length ≤ (weightsOf datax.length weights).length) :
    histogram3d spacing s datax datay dataz rx ry rz xb yb zb weights =
      if ∀ p ∈ (datax.zip (datay.zip dataz)).zip (weightsOf datax.length weights),
          ∀ w ∈ c3 s xb yb zb rx ry rz p,
          (inRange (xb + 2 * supp s) w.1.1 && (inRange (yb + 2 * supp s) w.1.2.1 &&
            inRange (zb + 2 * supp s) w.1.2.2)) = true then
        .ok (grid3 xb yb zb fun i j k =>
          (((datax.zip (datay.zip dataz)).zip (weightsOf datax.length weights)).map fun p =>
            wsum (c3 s xb yb zb rx ry rz p)
              ((supp s : ℤ) + i, (supp s : ℤ) + j, (supp s : ℤ) + k)).sum,
          binEdges rx xb, binEdges ry yb, binEdges rz zb)
      else .error .undefinedBehaviour := by
  have hz : (datax.zip (datay.zip dataz)).length = datax.length := by simp [← hlen, ← hlen']
  have hl := loop_zip (fun ij : ℤ × ℤ × ℤ => inRange (xb + 2 * supp s) ij.1 &&
      (inRange (yb + 2 * supp s) ij.2.1 && inRange (zb + 2 * supp s) ij.2.2))
    (datax.zip (datay.zip dataz)) weights
    (fun d => guard3 s xb yb zb (scaled rx xb d.1) (scaled ry yb d.2.1) (scaled rz zb d.2.2))
    (fun d w => (cells s (scaled rx xb d.1)).flatMap fun cx =>
      (cells s (scaled ry yb d.2.1)).flatMap fun cy => (cells s (scaled rz zb d.2.2)).map fun cz =>
        ((cx.1, cy.1, cz.1), cx.2 * cy.2 * cz.2 * w))
    (by rw [hz]; exact hw)
  rw [hz] at hl
  have hp := loop_pure (fun ij : ℤ × ℤ × ℤ => inRange (xb + 2 * supp s) ij.1 &&
      (inRange (yb + 2 * supp s) ij.2.1 && inRange (zb + 2 * supp s) ij.2.2))
    (c3 s xb yb zb rx ry rz)
    ((datax.zip (datay.zip dataz)).zip (weightsOf datax.length weights))
  have h := hl.trans hp
  clear hl hp
  have e : act3 s xb yb zb rx.1 (1 / (rx.2 - rx.1) * xb) ry.1 (1 / (ry.2 - ry.1) * yb)
      rz.1 (1 / (rz.2 - rz.1) * zb) weights = _ :=
    funext fun di : (K × K × K) × ℕ => show act3 s xb yb zb rx.1 (1 / (rx.2 - rx.1) * xb) ry.1
        (1 / (ry.2 - ry.1) * yb) rz.1 (1 / (rz.2 - rz.1) * zb) weights di = _ by
      unfold act3; rw [scaled_eq, scaled_eq, scaled_eq]
  unfold histogram3d
  rw [if_neg (by simp [hlen]), if_neg (by simp [hlen'])]
  simp only [fixRange_of_proper hrx, fixRange_of_proper hry, fixRange_of_proper hrz,
    invSpacing_of_proper hrx, invSpacing_of_proper hry, invSpacing_of_proper hrz]
  simp only [bind, Except.bind, pure, Except.pure] at h e ⊢
  rw [e, h]
  by_cases hc : ∀ p ∈ (datax.zip (datay.zip dataz)).zip (weightsOf datax.length weights),
          ∀ w ∈ c3 s xb yb zb rx ry rz p,
          (inRange (xb + 2 * supp s) w.1.1 && (inRange (yb + 2 * supp s) w.1.2.1 &&
            inRange (zb + 2 * supp s) w.1.2.2)) = true
  · rw [if_pos hc, if_pos hc]; rfl
  · rw [if_neg hc, if_neg hc]

end Postpic.Histogram
