import Verif.Lemmas.Kspace

/-!
# Lemmas on the propagation of fields in vacuum
-/

set_option autoImplicit false

namespace Postpic.Spec

open Postpic Postpic.Axes Postpic.Fields

noncomputable section

variable {f K P : Field ℝ ℂ} {shape : List ℕ} {x0 h : ℕ → ℝ} {a : PropagateArgs}

theorem norm2_pos {u : List ℝ} (hu : ∃ x ∈ u, x ≠ 0) : 0 < norm2 u := by
  obtain ⟨x, hx, h0⟩ := hu
  unfold norm2 square
  apply Real.sqrt_pos.2
  have h1 : x ^ 2 ≤ (u.map (· ^ 2)).sum :=
    List.single_le_sum (fun y hy => by
      obtain ⟨z, _, rfl⟩ := List.mem_map.1 hy
      positivity) _ (List.mem_map_of_mem hx)
  have : 0 < x ^ 2 := by positivity
  linarith

/-- Sums over the components. -/
theorem sum_three {u v : List ℝ} (hlen : u.length = v.length) (h3 : u.length ≤ 3) :
    ((u.zip v).map fun p => p.1 * p.2).sum =
      u.getD 0 0 * v.getD 0 0 + u.getD 1 0 * v.getD 1 0 + u.getD 2 0 * v.getD 2 0 := by
  match u, v with
  | [], [] => simp
  | [a], [b] => simp
  | [a, b], [c, d] => simp
  | [a, b, c], [d, e, f] => simp; ring
  | _ :: _ :: _ :: _ :: _, _ => simp at h3; omega
  | [], _ :: _ => simp at hlen
  | [_], [] => simp at hlen
  | [_], _ :: _ :: _ => simp at hlen
  | [_, _], [] => simp at hlen
  | [_, _], [_] => simp at hlen
  | [_, _], _ :: _ :: _ :: _ => simp at hlen
  | [_, _, _], [] => simp at hlen
  | [_, _, _], [_] => simp at hlen
  | [_, _, _], [_, _] => simp at hlen
  | [_, _, _], _ :: _ :: _ :: _ :: _ => simp at hlen

theorem square_three {u : List ℝ} (h3 : u.length ≤ 3) :
    square u = u.getD 0 0 ^ 2 + u.getD 1 0 ^ 2 + u.getD 2 0 ^ 2 := by
  have := sum_three (u := u) (v := u) rfl h3
  have hz : ∀ l : List ℝ, l.map (· ^ 2) = (l.zip l).map fun p => p.1 * p.2 := by
    intro l
    induction l with
    | nil => rfl
    | cons x l ih => rw [List.zip_cons_cons, List.map_cons, List.map_cons, ih, pow_two]
  unfold square
  rw [hz, this]
  ring

theorem mesh_getD (hg : OnGrid f shape true x0 h) {idx : List ℕ} (hidx : InBounds shape idx) (d : Fin 3) :
    (meshAt f.axes idx).getD d 0 = waveVector f idx d := by
  rw [meshAt_eq hg hidx]
  by_cases hd : d.val < shape.length
  · rw [List.getD_eq_getElem?_getD, List.getElem?_map, List.getElem?_range hd]
    rfl
  · rw [waveVector_zero hg idx d (by omega), List.getD_eq_default]
    simp
    omega

theorem expIwt_eq (hg : OnGrid f shape true x0 h) {idx : List ℕ} (hidx : InBounds shape idx) (dt : ℝ) :
    expIwt f.axes dt idx = vacuumPhase (waveVector f idx) dt := by
  unfold expIwt vacuumPhase
  rw [square_mesh hg hidx]
  congr 1
  push_cast
  ring

theorem vacuumPhase_add (k : Fin 3 → ℝ) (s t : ℝ) : vacuumPhase k (s + t) = vacuumPhase k s * vacuumPhase k t := by
  unfold vacuumPhase
  rw [← Complex.exp_add]
  congr 1
  push_cast
  ring

theorem vacuumPhase_zero (k : Fin 3 → ℝ) : vacuumPhase k 0 = 1 := by
  simp [vacuumPhase]

theorem vacuumPhase_norm (k : Fin 3 → ℝ) (t : ℝ) : ‖vacuumPhase k t‖ = 1 := by
  unfold vacuumPhase
  rw [Complex.norm_exp]
  simp

theorem windowShift_add (a : PropagateArgs) (s t : ℝ) (d : ℕ) :
    windowShift a (s + t) d = windowShift a s d + windowShift a t d := by
  unfold windowShift
  split_ifs
  · ring
  · simp

theorem windowShift_zero (a : PropagateArgs) (d : ℕ) : windowShift a 0 d = 0 := by
  simp [windowShift]

/-! ### The grid after replacing data and origins -/

theorem OnGrid.withData (hg : OnGrid f shape true x0 h) (m : List ℕ → ℂ) : OnGrid (f.withData m) shape true x0 h :=
  ⟨⟨hg.sound.ok, hg.sound.valid, hg.sound.nonempty⟩, hg.size, hg.some_dim, hg.three, hg.two, hg.pos, hg.states, by simp,
    hg.frequency⟩

theorem OnGrid.withTao (hg : OnGrid f shape true x0 h) {tao : List (Option ℝ)} {y0 : ℕ → ℝ}
    (hl : tao.length = f.tao.length) (ht : ∀ d < shape.length, tao[d]? = some (some (y0 d))) :
    OnGrid { f with tao := tao } shape true y0 h := by
  refine ⟨Sound.withTao hg.sound hl, hg.size, hg.some_dim, hg.three, hg.two, hg.pos, hg.states, by simp, ?_⟩
  intro _ d n hn
  exact ⟨ht d (List.getElem?_eq_some_iff.1 hn).1, (hg.frequency rfl d n hn).2⟩

/-- The direction as the code uses it. -/
def unitVector (a : PropagateArgs) : Option (List ℝ) := a.movingWindowVect.map fun v => v.map (· / norm2 v)

open Classical in
/-- The window of the generator. -/
def windowOf (a : PropagateArgs) : Option (List ℝ) := if moves a then some ((unitVector a).getD []) else none

open Classical in
/-- The preparations for a field in the frequency domain. -/
theorem prepare_frequency (spl : Splines ℝ) (hg : OnGrid f shape true x0 h) (ha : PropagateOk a shape.length) :
    ∃ P, prepare spl f a = .ok ⟨P, false, windowOf a⟩ ∧ P.axes = f.axes ∧ P.name = f.name ∧ P.unit = f.unit ∧
      OnGrid P shape true x0 h ∧ ∀ idx, InBounds shape idx →
        P.matrix.at' idx = if Removed a (waveVector f idx) then 0 else f.matrix.at' idx := by
  obtain ⟨dt, vect, mw, rm, yz⟩ := a
  obtain ⟨hdir, hneed⟩ := ha
  simp only at hdir hneed
  cases vect with
  | none =>
    obtain ⟨n1, n2⟩ := hneed rfl
    have hrm : rm.getD false = false := by
      cases rm with
      | none => rfl
      | some b => cases b <;> simp_all
    have hmw : mw.getD false = false := by
      cases mw with
      | none => rfl
      | some b => cases b <;> simp_all
    have hw : windowOf ⟨dt, none, mw, rm, yz⟩ = none := by
      unfold windowOf
      rw [if_neg]
      simp [moves, n2]
    have hr : ∀ k, ¬ Removed ⟨dt, none, mw, rm, yz⟩ k := by
      intro k hk
      have := hk.1
      simp [removes, n1] at this
    refine ⟨f, ?_, rfl, rfl, rfl, hg, ?_⟩
    · unfold prepare
      simp only [hg.collective, bind, Except.bind, pure, Except.pure, Option.isSome_none, hrm, hmw, hw]
      rfl
    · intro idx _
      rw [if_neg (hr _)]
  | some u =>
    obtain ⟨hul, hu0⟩ := hdir u rfl
    have hpos := norm2_pos hu0
    have hdims : ¬ ((u.length : ℤ) ≠ f.dims) := by
      rw [dims_sound hg.sound, hg.size, hul]
      simp
    have hw : windowOf ⟨dt, some u, mw, rm, yz⟩ = if mw.getD true then some (u.map (· / norm2 u)) else none := by
      unfold windowOf moves
      cases mw with
      | none => simp [unitVector]
      | some b => cases b <;> simp [unitVector]
    have hr : removes ⟨dt, some u, mw, rm, yz⟩ ↔ rm.getD true = true := by
      unfold removes
      cases rm with
      | none => simp
      | some b => cases b <;> simp
    have hsum : ∀ idx, InBounds shape idx →
        (((u.map (· / norm2 u)).zip (meshAt f.axes idx)).map fun p => p.1 * p.2).sum =
          (u.getD 0 0 * waveVector f idx 0 + u.getD 1 0 * waveVector f idx 1 + u.getD 2 0 * waveVector f idx 2) / norm2 u := by
      intro idx hidx
      have hml : (meshAt f.axes idx).length = shape.length := by rw [meshAt_eq hg hidx]; simp
      have hg' : ∀ d, (u.map (· / norm2 u)).getD d 0 = u.getD d 0 / norm2 u := by
        intro d
        rw [List.getD_eq_getElem?_getD, List.getElem?_map, List.getD_eq_getElem?_getD]
        cases u[d]? <;> simp
      rw [sum_three (by rw [List.length_map, hml, hul]) (by rw [List.length_map, hul]; exact hg.three), hg', hg', hg']
      have m0 := mesh_getD hg hidx 0
      have m1 := mesh_getD hg hidx 1
      have m2 := mesh_getD hg hidx 2
      simp only [Fin.val_zero, Fin.val_one, Fin.val_two] at m0 m1 m2
      rw [m0, m1, m2]
      ring
    by_cases hrm : rm.getD true = true
    · refine ⟨f.withData fun idx => if (((u.map (· / norm2 u)).zip (meshAt f.axes idx)).map fun p => p.1 * p.2).sum < 0 then 0
        else f.matrix.at' idx, ?_, rfl, rfl, rfl, hg.withData _, ?_⟩
      · unfold prepare
        simp only [hg.collective, bind, Except.bind, pure, Except.pure, if_true, if_neg hdims, if_neg hpos.ne',
          Option.isSome_some, hrm, hw]
        rfl
      · intro idx hidx
        show (if _ then _ else _) = _
        rw [hsum idx hidx]
        have hiff : (u.getD 0 0 * waveVector f idx 0 + u.getD 1 0 * waveVector f idx 1 + u.getD 2 0 * waveVector f idx 2) /
            norm2 u < 0 ↔ Removed ⟨dt, some u, mw, rm, yz⟩ (waveVector f idx) := by
          rw [div_lt_iff₀ hpos, zero_mul]
          unfold Removed
          rw [hr]
          simp [hrm, direction]
        by_cases hk : Removed ⟨dt, some u, mw, rm, yz⟩ (waveVector f idx)
        · rw [if_pos (hiff.2 hk), if_pos hk]
        · rw [if_neg (fun h => hk (hiff.1 h)), if_neg hk]
    · refine ⟨f, ?_, rfl, rfl, rfl, hg, ?_⟩
      · have hrm' : rm.getD true = false := by simpa using hrm
        unfold prepare
        simp only [hg.collective, bind, Except.bind, pure, Except.pure, if_true, if_neg hdims, if_neg hpos.ne',
          Option.isSome_some, hrm', hw]
        rfl
      · intro idx _
        rw [if_neg]
        intro hk
        exact hrm (hr.1 hk.1)

/-- One step of the loop. -/
theorem step_ok (hg : OnGrid K shape true x0 h) (ha : PropagateOk a shape.length) (doFft : Bool) (dt : ℝ) :
    ∃ P, propagateStep dt ⟨K, doFft, windowOf a⟩ = .ok ⟨P, doFft, windowOf a⟩ ∧ P.axes = K.axes ∧ P.name = K.name ∧
      P.unit = K.unit ∧ OnGrid P shape true (fun d => x0 d + windowShift a dt d) h ∧
      ∀ idx, InBounds shape idx → P.matrix.at' idx = K.matrix.at' idx * vacuumPhase (waveVector K idx) dt := by
  unfold propagateStep
  by_cases hm : moves a
  · have hw : windowOf a = some ((unitVector a).getD []) := by unfold windowOf; rw [if_pos hm]
    obtain ⟨u, hu⟩ : ∃ u, a.movingWindowVect = some u := by
      cases hv : a.movingWindowVect with
      | some u => exact ⟨u, rfl⟩
      | none =>
        have := (ha.needed hv).2
        rcases hm with hm | hm
        · exact absurd hm this
        · exact absurd hv hm.2
    obtain ⟨hul, hu0⟩ := ha.direction u hu
    have huv : unitVector a = some (u.map (· / norm2 u)) := by unfold unitVector; rw [hu]; rfl
    have hdirs : ∀ d, direction a d = u.getD d 0 := by intro d; unfold direction; rw [hu]; rfl
    have hn : norm2 u = Real.sqrt (direction a 0 ^ 2 + direction a 1 ^ 2 + direction a 2 ^ 2) := by
      unfold norm2
      rw [square_three (by rw [hul]; exact hg.three), hdirs, hdirs, hdirs]
    have hlist : ((u.map (· / norm2 u)).zipIdx.map fun (q : ℝ × ℕ) => ((q.2 : ℤ), lightSpeed * dt * q.1)) =
        (List.range shape.length).map fun (d : ℕ) => ((d : ℤ), windowShift a dt d) := by
      apply List.ext_getElem
      · simp [hul]
      · intro i h1 h2
        have hi : i < u.length := by simpa using h1
        have : windowShift a dt i = lightSpeed * dt * (u[i] / norm2 u) := by
          unfold windowShift
          rw [if_pos hm, ← hn, hdirs, List.getD_eq_getElem _ _ hi]
          ring
        simp [this]
    obtain ⟨tao, t1, t2, t3, t4⟩ := addOrigins_eq x0 (windowShift a dt) (List.range shape.length) List.nodup_range K.tao (by
      intro d hd
      exact (hg.frequency rfl d _ (hg.points (List.mem_range.1 hd)).1).1)
    have hwd := hg.withData fun idx => K.matrix.at' idx * expIwt K.axes dt idx
    refine ⟨{ K.withData fun idx => K.matrix.at' idx * expIwt K.axes dt idx with tao := tao }, ?_, rfl, rfl, rfl, ?_, ?_⟩
    · simp only [hw, huv, Option.getD_some, hlist, bind, Except.bind]
      have : (K.withData fun idx => K.matrix.at' idx * expIwt K.axes dt idx).tao = K.tao := rfl
      rw [this, t1]
      rfl
    · exact hwd.withTao t2 fun d hd => t3 d (List.mem_range.2 hd)
    · intro idx hidx
      show K.matrix.at' idx * expIwt K.axes dt idx = _
      rw [expIwt_eq hg hidx]
  · have hw : windowOf a = none := by unfold windowOf; rw [if_neg hm]
    refine ⟨K.withData fun idx => K.matrix.at' idx * expIwt K.axes dt idx, ?_, rfl, rfl, rfl, ?_, ?_⟩
    · rw [hw]
      rfl
    · have : (fun d => x0 d + windowShift a dt d) = x0 := by
        funext d
        simp [windowShift, hm]
      rw [this]
      exact hg.withData _
    · intro idx hidx
      show K.matrix.at' idx * expIwt K.axes dt idx = _
      rw [expIwt_eq hg hidx]

/-- The transform back to the spatial domain. -/
theorem OnGrid.fftBack {spl : Splines ℝ} (hspl : ExactOnEven spl) (hg : OnGrid f shape true x0 h) :
    ∃ r, f.fft spl none "spatial" false = .ok r ∧ OnGrid r shape false x0 h := by
  obtain ⟨e0, s, ht, _, hs⟩ := hg.transformable
  have hs := hs rfl
  obtain ⟨F, n, k0, F1, F2, F3, F4, F5, F6, F7, F8, F9, F10, F11, F12, F13⟩ :=
    fft_again hspl hg.sound ht (Or.inl rfl) false (signs := "spatial")
  have hnone : f.fft spl none "spatial" false = .ok F := by
    rw [← F1]
    unfold Field.fft
    rw [Option.getD_none, Option.getD_some, hg.rangeDims]
  have hn : ∀ d < shape.length, n d = shape.getD d 0 := by
    intro d hd
    have := (F8 d (List.mem_range.2 hd)).1
    rw [hg.size, (hg.points hd).1] at this
    exact (Option.some.inj this).symm
  refine ⟨F, hnone, ⟨F2, F3.trans hg.size, hg.some_dim, hg.three, hg.two, hg.pos, ?_, ?_, by simp⟩⟩
  · intro d hd
    exact (F6 d (List.mem_range.2 hd)).2
  · intro _ d hd
    have hd' := List.mem_range.2 hd
    obtain ⟨ax, h1, h2⟩ := F10.axis d hd'
    have hk := F9 d hd' _ (hg.frequency rfl d _ (hg.points hd).1).1
    have hk : k0 d = x0 d := hk
    have h5 : 2 * Real.pi / (n d * s d) = h d := by
      rw [hs d hd, hn d hd]
      have := Real.pi_pos
      have hh := hg.pos d hd
      have : (0 : ℝ) < (shape.getD d 0 : ℕ) := by
        exact_mod_cast (by have := (hg.points hd).2; omega : 0 < shape.getD d 0)
      field_simp
    simp only [h5, hk] at h2
    exact ⟨ax, h1, h2⟩

theorem fft_none {spl : Splines ℝ} {state : Bool} (hg : OnGrid f shape state x0 h) :
    f.fft spl none "spatial" false = f.fft spl (some ((List.range shape.length).map Int.ofNat)) "spatial" false := by
  unfold Field.fft
  rw [Option.getD_none, Option.getD_some, hg.rangeDims]

/-- The transform only depends on the values inside of the array. -/
theorem fft_congr {spl : Splines ℝ} (hspl : ExactOnEven spl) {state : Bool} {g : Field ℝ ℂ} (hf : OnGrid f shape state x0 h)
    (hg : OnGrid g shape state x0 h) (hsame : SameField g f) :
    ∃ r r', f.fft spl none "spatial" false = .ok r ∧ g.fft spl none "spatial" false = .ok r' ∧ SameField r' r := by
  obtain ⟨⟨_, hm⟩, haxes, hats, htao, hname, hunit⟩ := hsame
  have hm : ∀ idx, InBounds shape idx → g.matrix.at' idx = f.matrix.at' idx := fun idx hidx =>
    hm idx (by rw [show g.matrix.shape = shape from hg.size]; exact hidx)
  obtain ⟨e0, s, ht, _⟩ := hf.transformable
  obtain ⟨n, k0, hn, hk0, hready⟩ := ready hf.sound ht
  obtain ⟨F, F1, F2, F3, F4, F5, F6, F7, F8⟩ := fft_sound hspl hf.sound ht.some_dim hready (Or.inl rfl) false
    (signs := "spatial")
  have hready' : ∀ d ∈ List.range shape.length, d ≤ 2 ∧ g.ats[d]? = some (some state) ∧ ∃ ax o, g.axes[d]? = some ax ∧
      g.tao[d]? = some o ∧ Lin ax (e0 d + s d / 2) (s d) ∧ n d = ax.len ∧ k0 d = firstK o ax.len (s d) := by
    intro d hd
    obtain ⟨a1, _, a3⟩ := hready d hd
    rw [haxes, htao]
    exact ⟨a1, hg.states d (List.mem_range.1 hd), a3⟩
  obtain ⟨G, G1, G2, G3, G4, G5, G6, G7, G8⟩ := fft_sound hspl hg.sound ht.some_dim hready' (Or.inl rfl) false
    (signs := "spatial")
  have key : ∀ d : ℕ, G.axes[d]? = F.axes[d]? ∧ G.ats[d]? = F.ats[d]? ∧ G.tao[d]? = F.tao[d]? := by
    intro d
    by_cases hd : d ∈ List.range shape.length
    · obtain ⟨_, _, ax, _, hax, _⟩ := hready d hd
      obtain ⟨ax1, b1, b2, b3, b4, b5, b6, b7, b8, b9⟩ := F7 d hd ax hax
      obtain ⟨ax2, c1, c2, c3, c4, c5, c6, c7, c8, c9⟩ := G7 d hd ax (by rw [haxes]; exact hax)
      have h2 := (hn d hd).2.1
      rw [b1, c1, even_unique (b7 h2) (c7 h2) (by rw [b4, c4]) (by rw [b2, c2]) (by rw [b3, c3]), b8, c8, b9, c9]
      exact ⟨rfl, rfl, rfl⟩
    · rw [(F6 d hd).1, (G6 d hd).1, haxes, (F6 d hd).2.1, (G6 d hd).2.1, hats, (F6 d hd).2.2, (G6 d hd).2.2, htao]
      exact ⟨rfl, rfl, rfl⟩
  refine ⟨F, G, (fft_none hf).trans F1, (fft_none hg).trans G1, ⟨⟨?_, ?_⟩, List.ext_getElem? fun d => (key d).1,
    List.ext_getElem? fun d => (key d).2.1, List.ext_getElem? fun d => (key d).2.2, by rw [F3, G3, hname], by rw [F4, G4, hunit]⟩⟩
  · exact (G5.trans hg.size).trans (F5.trans hf.size).symm
  · intro idx hidx
    have hidx : InBounds shape idx := (G5.trans hg.size) ▸ hidx
    rw [F8 idx (by rw [hf.size]; exact hidx), G8 idx (by rw [hg.size]; exact hidx)]
    refine foldl_congr_on (shape := shape) _ _ _ ?_ _ _ hm idx hidx
    intro d hd u v huv idx hidx
    have hd' := mem_order.1 hd
    have := (hn d hd').1
    rw [hf.size] at this
    exact fourierAlong_congr this _ _ _ _ (ap_length _ _ _) huv idx hidx

/-- Two fields with the same spatial grid in the frequency domain. -/
theorem OnGrid.same {g : Field ℝ ℂ} (hf : OnGrid f shape true x0 h) (hg : OnGrid g shape true x0 h) (haxes : g.axes = f.axes)
    (hm : ∀ idx, InBounds shape idx → g.matrix.at' idx = f.matrix.at' idx) (hname : g.name = f.name) (hunit : g.unit = f.unit) :
    SameField g f := by
  have hl : ∀ {f : Field ℝ ℂ}, OnGrid f shape true x0 h → f.ats.length = shape.length ∧ f.tao.length = shape.length := by
    intro f hf
    exact ⟨by rw [hf.sound.ok.states, hf.size], by rw [hf.sound.ok.origins, hf.size]⟩
  refine ⟨⟨hg.size.trans hf.size.symm, fun idx hidx => hm idx (hg.size ▸ hidx)⟩, haxes, ?_, ?_, hname, hunit⟩
  · apply List.ext_getElem?
    intro d
    by_cases hd : d < shape.length
    · rw [hf.states d hd, hg.states d hd]
    · rw [List.getElem?_eq_none (by rw [(hl hg).1]; omega), List.getElem?_eq_none (by rw [(hl hf).1]; omega)]
  · apply List.ext_getElem?
    intro d
    by_cases hd : d < shape.length
    · rw [(hf.frequency rfl d _ (hf.points hd).1).1, (hg.frequency rfl d _ (hf.points hd).1).1]
    · rw [List.getElem?_eq_none (by rw [(hl hg).2]; omega), List.getElem?_eq_none (by rw [(hl hf).2]; omega)]

theorem conjugable_frequency {name : String} (hn : ConjugableName false name) : ConjugableName true (conjugateName false name) := by
  unfold conjugateName ConjugableName
  by_cases ht : name = "t"
  · left
    simp [ht]
  · right
    exact ⟨name, hn, ht, by simp [ht]⟩

theorem conjugable_unit_frequency {unit : String} (hn : ConjugableUnit false unit) :
    ConjugableUnit true (conjugateUnit false unit) :=
  ⟨unit, hn.1, hn.2, rfl⟩

/-- The loop. -/
theorem loop_ok {spl : Splines ℝ} (hspl : ExactOnEven spl) (ha : PropagateOk a shape.length) (doFft : Bool) (dt : ℝ)
    (n : ℕ) : ∀ {K : Field ℝ ℂ} {x0 : ℕ → ℝ}, OnGrid K shape true x0 h →
    ∃ l, propagateLoop spl dt n ⟨K, doFft, windowOf a⟩ = .ok l ∧ l.length = n ∧
      ∀ m < n, ∃ P g, l[m]? = some g ∧ P.axes = K.axes ∧ P.name = K.name ∧ P.unit = K.unit ∧
        OnGrid P shape true (fun d => x0 d + windowShift a ((m + 1) * dt) d) h ∧
        (∀ idx, InBounds shape idx →
          P.matrix.at' idx = K.matrix.at' idx * vacuumPhase (waveVector K idx) ((m + 1) * dt)) ∧
        (if doFft then P.fft spl none "spatial" false else .ok P) = .ok g := by
  induction n with
  | zero => intro K x0 _; exact ⟨[], rfl, rfl, by simp⟩
  | succ n ih =>
    intro K x0 hg
    obtain ⟨P, p1, p2, p3, p4, p5, p6⟩ := step_ok hg ha doFft dt
    obtain ⟨l, l1, l2, l3⟩ := ih p5
    obtain ⟨g, hgout⟩ : ∃ g, (⟨P, doFft, windowOf a⟩ : Propagation).output spl = .ok g := by
      unfold Propagation.output
      cases doFft with
      | false => exact ⟨P, rfl⟩
      | true =>
        obtain ⟨r, r1, _⟩ := p5.fftBack hspl
        exact ⟨r, r1⟩
    refine ⟨g :: l, ?_, by simp [l2], ?_⟩
    · simp only [propagateLoop, p1, bind, Except.bind, hgout, l1, pure, Except.pure]
    · intro m hm
      have hwv : ∀ idx, waveVector P idx = waveVector K idx := by
        intro idx
        unfold waveVector gridAlong
        rw [p2]
      rcases m with _ | m
      · refine ⟨P, g, rfl, p2, p3, p4, ?_, ?_, hgout⟩
        · simpa using p5
        · intro idx hidx
          simpa using p6 idx hidx
      · obtain ⟨Q, g', q1, q2, q3, q4, q5, q6, q7⟩ := l3 m (by omega)
        refine ⟨Q, g', by simpa using q1, q2.trans p2, q3.trans p3, q4.trans p4, ?_, ?_, q7⟩
        · have : (fun d => x0 d + windowShift a (((m + 1 : ℕ) + 1 : ℝ) * dt) d) =
              fun d => x0 d + windowShift a dt d + windowShift a ((m + 1) * dt) d := by
            funext d
            rw [add_assoc, ← windowShift_add]
            congr 2
            push_cast
            ring
          rw [this]
          exact q5
        · intro idx hidx
          rw [q6 idx hidx, p6 idx hidx, hwv, mul_assoc, ← vacuumPhase_add]
          congr 2
          push_cast
          ring

end

end Postpic.Spec
