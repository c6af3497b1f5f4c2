import Verif.Lemmas.Propagate
import Verif.Props.Kspace

/-!
# Propagation of fields in vacuum
-/

set_option autoImplicit false

namespace Postpic.Props

open Postpic Postpic.Axes Postpic.Fields Postpic.Spec

noncomputable section

/-! ## C41: `kspace_propagate` -/

theorem check_window {a : PropagateArgs} {N : ℕ} (ha : PropagateOk a N) : checkWindow a = .ok () := by
  unfold checkWindow
  rw [if_neg]
  rintro ⟨h1, h2⟩
  exact (ha.needed (by simpa using h2)).2 h1

theorem prepared_evolved {a : PropagateArgs} {f P : Field ℝ ℂ} {shape : List ℕ} {x0 h : ℕ → ℝ} {Q : Field ℝ ℂ} {t : ℝ}
    (p2 : P.axes = f.axes) (p3 : P.name = f.name) (p4 : P.unit = f.unit)
    (p6 : ∀ idx, InBounds shape idx → (¬ Removed a (waveVector f idx) → P.matrix.at' idx = f.matrix.at' idx) ∧
      (Removed a (waveVector f idx) → P.matrix.at' idx = 0))
    (q2 : Q.axes = P.axes) (q3 : Q.name = P.name) (q4 : Q.unit = P.unit)
    (q5 : OnGrid Q shape true (fun d => x0 d + windowShift a t d) h)
    (q6 : ∀ idx, InBounds shape idx → Q.matrix.at' idx = P.matrix.at' idx * vacuumPhase (waveVector P idx) t) :
    Evolved a f Q shape x0 h t := by
  have hwv : ∀ idx, waveVector P idx = waveVector f idx := by
    intro idx
    unfold waveVector gridAlong
    rw [p2]
  refine ⟨q2.trans p2, q5, ?_, ?_, q3.trans p3, q4.trans p4⟩
  · intro idx hidx hr
    rw [q6 idx hidx, (p6 idx hidx).1 hr, hwv]
  · intro idx hidx hr
    rw [q6 idx hidx, (p6 idx hidx).2 hr, zero_mul]

theorem propagation_runs {spl : Splines ℝ} (hspl : ExactOnEven spl) {a : PropagateArgs} {shape : List ℕ} {x0 h : ℕ → ℝ}
    {f K P : Field ℝ ℂ} {doFft : Bool} (ha : PropagateOk a shape.length) (hp : prepare spl f a = .ok ⟨P, doFft, windowOf a⟩)
    (p2 : P.axes = K.axes) (p3 : P.name = K.name) (p4 : P.unit = K.unit) (p5 : OnGrid P shape true x0 h)
    (p6 : ∀ idx, InBounds shape idx → (¬ Removed a (waveVector K idx) → P.matrix.at' idx = K.matrix.at' idx) ∧
      (Removed a (waveVector K idx) → P.matrix.at' idx = 0)) (n : ℕ) :
    ∃ l, propagate spl f n a = .ok l ∧ l.length = n ∧
      ∀ m < n, ∃ Q g, l[m]? = some g ∧
        Evolved a K Q shape x0 h ((m + if a.yieldZerothStep then 0 else 1) * a.dt) ∧
        (if doFft then Q.fft spl none "spatial" false else .ok Q) = .ok g := by
  rcases n with _ | n
  · exact ⟨[], rfl, rfl, by simp⟩
  cases hz : a.yieldZerothStep with
  | false =>
    obtain ⟨l, l1, l2, l3⟩ := loop_ok hspl ha doFft a.dt (n + 1) p5
    refine ⟨l, ?_, l2, ?_⟩
    · unfold propagate
      simp only [hp, bind, Except.bind, hz, check_window ha, l1, Bool.false_eq_true, if_false]
    · intro m hm
      obtain ⟨Q, g, q1, q2, q3, q4, q5, q6, q7⟩ := l3 m hm
      refine ⟨Q, g, q1, ?_, q7⟩
      simp only [Bool.false_eq_true, if_false]
      exact prepared_evolved p2 p3 p4 p6 q2 q3 q4 q5 q6
  | true =>
    obtain ⟨l, l1, l2, l3⟩ := loop_ok hspl ha doFft a.dt n p5
    obtain ⟨z, hz0⟩ : ∃ z, (if doFft then P.fft spl none "spatial" false else .ok P) = .ok z := by
      cases doFft with
      | false => exact ⟨P, rfl⟩
      | true =>
        obtain ⟨r, r1, _⟩ := p5.fftBack hspl
        exact ⟨r, r1⟩
    have hout : (⟨P, doFft, windowOf a⟩ : Propagation).output spl = .ok z := hz0
    have hzero : Evolved a K P shape x0 h 0 := by
      refine prepared_evolved (P := P) p2 p3 p4 p6 rfl rfl rfl ?_ ?_
      · have : (fun d => x0 d + windowShift a 0 d) = x0 := by
          funext d
          rw [windowShift_zero, add_zero]
        rw [this]
        exact p5
      · intro idx _
        rw [vacuumPhase_zero, mul_one]
    refine ⟨z :: l, ?_, by simp [l2], ?_⟩
    · unfold propagate
      simp only [hp, bind, Except.bind, hz, if_true, hout, pure, Except.pure]
      by_cases hn : n = 0
      · subst hn
        have : l = [] := List.eq_nil_of_length_eq_zero l2
        simp [this]
      · simp only [if_neg hn, check_window ha, l1]
    · intro m hm
      rcases m with _ | m
      · refine ⟨P, z, rfl, ?_, hz0⟩
        simpa using hzero
      · obtain ⟨Q, g, q1, q2, q3, q4, q5, q6, q7⟩ := l3 m (by omega)
        refine ⟨Q, g, by simpa using q1, ?_, q7⟩
        have : (((m + 1 : ℕ) : ℝ) + if true = true then 0 else 1) * a.dt = (m + 1) * a.dt := by
          push_cast
          simp
        rw [this]
        exact prepared_evolved p2 p3 p4 p6 q2 q3 q4 q5 q6

/-- C41: propagating a field in the frequency domain: the result number `m` (counted from 0; from 1 without
`yield_zeroth_step`) is the field at the time `m dt`: each wave is multiplied with `exp(-iω m dt)`, `ω = c|k|`, waves which run
against the given direction are removed, and the remembered spatial grid has moved with the window. Partial: evenly spaced
grids with at least two points and a remembered spatial grid (see `propagate_origin_violated`). -/
theorem propagate_frequency_partial (spl : Splines ℝ) (hspl : ExactOnEven spl) (f : Field ℝ ℂ) (shape : List ℕ)
    (x0 h : ℕ → ℝ) (hg : OnGrid f shape true x0 h) (a : PropagateArgs) (ha : PropagateOk a shape.length) (n : ℕ) :
    ∃ l, propagate spl f n a = .ok l ∧ l.length = n ∧
      ∀ m < n, ∃ g, l[m]? = some g ∧ Evolved a f g shape x0 h ((m + if a.yieldZerothStep then 0 else 1) * a.dt) := by
  obtain ⟨P, p1, p2, p3, p4, p5, p6⟩ := prepare_frequency spl hg ha
  obtain ⟨l, l1, l2, l3⟩ := propagation_runs hspl ha p1 p2 p3 p4 p5
    (fun idx hidx => ⟨fun hr => by rw [p6 idx hidx, if_neg hr], fun hr => by rw [p6 idx hidx, if_pos hr]⟩) n
  refine ⟨l, l1, l2, fun m hm => ?_⟩
  obtain ⟨Q, g, q1, q2, q3⟩ := l3 m hm
  obtain rfl : Q = g := Except.ok.inj q3
  exact ⟨Q, q1, q2⟩

theorem prepare_spatial {spl : Splines ℝ} {a : PropagateArgs} {f F P : Field ℝ ℂ} {shape : List ℕ} {x0 h : ℕ → ℝ}
    {w : Option (List ℝ)} (hg : OnGrid f shape false x0 h) (hF : f.fft spl none "spatial" false = .ok F)
    (hgF : OnGrid F shape true x0 h) (hp : prepare spl F a = .ok ⟨P, false, w⟩) : prepare spl f a = .ok ⟨P, true, w⟩ := by
  unfold prepare at hp ⊢
  simp only [hg.collective, hgF.collective, bind, Except.bind, pure, Except.pure, Bool.false_eq_true, if_false, if_true,
    hF] at hp ⊢
  cases hv : a.movingWindowVect <;> simp only [hv] at hp ⊢ <;> split_ifs at hp ⊢ <;>
    first
    | (simp only [Except.ok.injEq, Propagation.mk.injEq] at hp
       obtain ⟨rfl, _, rfl⟩ := hp
       rfl)
    | (simp only [throw, throwThe, MonadExceptOf.throw] at hp
       cases hp)

/-- C41: propagating a field in the spatial domain: its transform is propagated and transformed back; the axes of the result have
moved with the window. Partial: as above. -/
theorem propagate_spatial_partial (spl : Splines ℝ) (hspl : ExactOnEven spl) (f : Field ℝ ℂ) (shape : List ℕ)
    (x0 h : ℕ → ℝ) (hg : OnGrid f shape false x0 h) (a : PropagateArgs) (ha : PropagateOk a shape.length) (n : ℕ) :
    ∃ F l, f.fft spl none "spatial" false = .ok F ∧ OnGrid F shape true x0 h ∧ propagate spl f n a = .ok l ∧ l.length = n ∧
      ∀ m < n, ∃ P g, l[m]? = some g ∧ Evolved a F P shape x0 h ((m + if a.yieldZerothStep then 0 else 1) * a.dt) ∧
        P.fft spl none "spatial" false = .ok g ∧
        OnGrid g shape false (fun d => x0 d + windowShift a ((m + if a.yieldZerothStep then 0 else 1) * a.dt) d) h := by
  obtain ⟨F, F1, F2, F3, F4⟩ := hg.fft hspl
  have hF := (fft_none hg).trans F1
  obtain ⟨P, p1, p2, p3, p4, p5, p6⟩ := prepare_frequency spl F2 ha
  obtain ⟨l, l1, l2, l3⟩ := propagation_runs hspl ha (prepare_spatial hg hF F2 p1) p2 p3 p4 p5
    (fun idx hidx => ⟨fun hr => by rw [p6 idx hidx, if_neg hr], fun hr => by rw [p6 idx hidx, if_pos hr]⟩) n
  refine ⟨F, l, hF, F2, l1, l2, fun m hm => ?_⟩
  obtain ⟨Q, g, q1, q2, q3⟩ := l3 m hm
  have q3 : Q.fft spl none "spatial" false = .ok g := q3
  obtain ⟨r, r1, r2⟩ := q2.grid.fftBack hspl
  rw [q3] at r1
  obtain rfl := Except.ok.inj r1
  exact ⟨Q, g, q1, q2, q3, r2⟩

/-- One step is the head of the list. -/
theorem propagate_single (spl : Splines ℝ) (hspl : ExactOnEven spl) (f : Field ℝ ℂ) (shape : List ℕ)
    (x0 h : ℕ → ℝ) (hg : OnGrid f shape true x0 h) (a : PropagateArgs) (ha : PropagateOk a shape.length)
    (hz : a.yieldZerothStep = false) : ∃ g, propagate spl f 1 a = .ok [g] ∧ Evolved a f g shape x0 h a.dt := by
  obtain ⟨l, l1, l2, l3⟩ := propagate_frequency_partial spl hspl f shape x0 h hg a ha 1
  obtain ⟨g, g1, g2⟩ := l3 0 (by omega)
  obtain ⟨b, rfl⟩ := List.length_eq_one_iff.1 l2
  simp only [List.getElem?_cons_zero, Option.some.injEq] at g1
  subst g1
  rw [hz] at g2
  refine ⟨b, l1, ?_⟩
  simpa using g2

theorem evolved_dt {a : PropagateArgs} {u : ℝ} {f g : Field ℝ ℂ} {shape : List ℕ} {x0 h : ℕ → ℝ} {t : ℝ}
    (e : Evolved { a with dt := u } f g shape x0 h t) : Evolved a f g shape x0 h t :=
  ⟨e.axes, e.grid, e.kept, e.removed, e.name, e.unit⟩

theorem evolved_twice {a : PropagateArgs} {f g1 g2 g3 : Field ℝ ℂ} {shape : List ℕ} {x0 h : ℕ → ℝ} {s t : ℝ}
    (e1 : Evolved a f g1 shape x0 h s) {G1 : Field ℝ ℂ} (hG : SameField G1 g1)
    (e2 : Evolved a G1 g2 shape (fun d => x0 d + windowShift a s d) h t)
    (e3 : Evolved a f g3 shape x0 h (s + t)) : SameField g2 g3 := by
  have hwv : ∀ idx, waveVector G1 idx = waveVector f idx := by
    intro idx
    unfold waveVector gridAlong
    rw [hG.axes, e1.axes]
  have hx : (fun d => x0 d + windowShift a s d + windowShift a t d) = fun d => x0 d + windowShift a (s + t) d := by
    funext d
    rw [windowShift_add, add_assoc]
  have hgrid := e2.grid
  rw [hx] at hgrid
  refine e3.grid.same hgrid (by rw [e2.axes, hG.axes, e1.axes, e3.axes]) ?_
    (by rw [e2.name, hG.name, e1.name, e3.name]) (by rw [e2.unit, hG.unit, e1.unit, e3.unit])
  intro idx hidx
  have hm : G1.matrix.at' idx = g1.matrix.at' idx := hG.data.2 idx (by
    rw [hG.data.1, show g1.matrix.shape = shape from e1.grid.size]; exact hidx)
  by_cases hr : Removed a (waveVector f idx)
  · rw [e3.removed idx hidx hr, e2.removed idx hidx (by rw [hwv]; exact hr)]
  · rw [e3.kept idx hidx hr, e2.kept idx hidx (by rw [hwv]; exact hr), hm, e1.kept idx hidx hr, hwv, vacuumPhase_add,
      mul_assoc]

/-- C41: propagating by `s` and the result by `t` is the same as propagating by `s + t`, also with a moving window and with
removed waves. Partial: as above. -/
theorem propagate_twice_partial (spl : Splines ℝ) (hspl : ExactOnEven spl) (f : Field ℝ ℂ) (shape : List ℕ)
    (x0 h : ℕ → ℝ) (hg : OnGrid f shape true x0 h) (a : PropagateArgs) (ha : PropagateOk a shape.length)
    (hz : a.yieldZerothStep = false) (s t : ℝ) :
    ∃ g1 g2 g3, propagate spl f 1 { a with dt := s } = .ok [g1] ∧ propagate spl g1 1 { a with dt := t } = .ok [g2] ∧
      propagate spl f 1 { a with dt := s + t } = .ok [g3] ∧ SameField g2 g3 := by
  have hok : ∀ u, PropagateOk { a with dt := u } shape.length := fun u => ⟨ha.direction, ha.needed⟩
  obtain ⟨g1, h1, e1⟩ := propagate_single spl hspl f shape x0 h hg { a with dt := s } (hok s) hz
  obtain ⟨g2, h2, e2⟩ := propagate_single spl hspl g1 shape _ h e1.grid { a with dt := t } (hok t) hz
  obtain ⟨g3, h3, e3⟩ := propagate_single spl hspl f shape x0 h hg { a with dt := s + t } (hok (s + t)) hz
  have e1 : Evolved a f g1 shape x0 h s := evolved_dt e1
  have e2 : Evolved a g1 g2 shape (fun d => x0 d + windowShift a s d) h t := evolved_dt e2
  have e3 : Evolved a f g3 shape x0 h (s + t) := evolved_dt e3
  exact ⟨g1, g2, g3, h1, h2, h3, evolved_twice e1 ⟨⟨rfl, fun _ _ => rfl⟩, rfl, rfl, rfl, rfl, rfl⟩ e2 e3⟩

/-- C41: propagating by 0 without removing waves changes nothing. Partial: as above. -/
theorem propagate_zero_partial (spl : Splines ℝ) (hspl : ExactOnEven spl) (f : Field ℝ ℂ) (shape : List ℕ)
    (x0 h : ℕ → ℝ) (hg : OnGrid f shape true x0 h) (a : PropagateArgs) (ha : PropagateOk a shape.length)
    (hz : a.yieldZerothStep = false) (hdt : a.dt = 0) (hr : ¬ removes a) :
    ∃ g, propagate spl f 1 a = .ok [g] ∧ SameField g f := by
  obtain ⟨g, h1, e⟩ := propagate_single spl hspl f shape x0 h hg a ha hz
  rw [hdt] at e
  have hgrid := e.grid
  have hx : (fun d => x0 d + windowShift a 0 d) = x0 := by
    funext d
    rw [windowShift_zero, add_zero]
  rw [hx] at hgrid
  refine ⟨g, h1, hg.same hgrid e.axes ?_ e.name e.unit⟩
  intro idx hidx
  rw [e.kept idx hidx fun hk => hr hk.1, vacuumPhase_zero, mul_one]

/-- C41: the modulus of the amplitude of every wave stays as it was, apart from the removed ones. Partial: as above. -/
theorem propagate_modulus_partial (spl : Splines ℝ) (hspl : ExactOnEven spl) (f : Field ℝ ℂ) (shape : List ℕ)
    (x0 h : ℕ → ℝ) (hg : OnGrid f shape true x0 h) (a : PropagateArgs) (ha : PropagateOk a shape.length) (n : ℕ) :
    ∃ l, propagate spl f n a = .ok l ∧ l.length = n ∧ ∀ g ∈ l, ∀ idx, InBounds shape idx →
      (¬ Removed a (waveVector f idx) → ‖g.matrix.at' idx‖ = ‖f.matrix.at' idx‖) ∧
      (Removed a (waveVector f idx) → g.matrix.at' idx = 0) := by
  obtain ⟨l, l1, l2, l3⟩ := propagate_frequency_partial spl hspl f shape x0 h hg a ha n
  refine ⟨l, l1, l2, ?_⟩
  intro g hgl idx hidx
  obtain ⟨m, hm, hmg⟩ := List.getElem_of_mem hgl
  obtain ⟨g', g1, g2⟩ := l3 m (by omega)
  rw [List.getElem?_eq_getElem hm, hmg] at g1
  obtain rfl := Option.some.inj g1
  exact ⟨fun hr => by rw [g2.kept idx hidx hr, norm_mul, vacuumPhase_norm, mul_one], g2.removed idx hidx⟩

/-! ### Fields in the spatial domain -/

theorem propagate_single_spatial (spl : Splines ℝ) (hspl : ExactOnEven spl) (f : Field ℝ ℂ) (shape : List ℕ)
    (x0 h : ℕ → ℝ) (hg : OnGrid f shape false x0 h) (a : PropagateArgs) (ha : PropagateOk a shape.length)
    (hz : a.yieldZerothStep = false) :
    ∃ F P g, f.fft spl none "spatial" false = .ok F ∧ OnGrid F shape true x0 h ∧ propagate spl f 1 a = .ok [g] ∧
      Evolved a F P shape x0 h a.dt ∧ P.fft spl none "spatial" false = .ok g ∧
      OnGrid g shape false (fun d => x0 d + windowShift a a.dt d) h := by
  obtain ⟨F, l, hF, hgF, l1, l2, l3⟩ := propagate_spatial_partial spl hspl f shape x0 h hg a ha 1
  obtain ⟨P, g, g1, g2, g3, g4⟩ := l3 0 (by omega)
  obtain ⟨b, rfl⟩ := List.length_eq_one_iff.1 l2
  simp only [List.getElem?_cons_zero, Option.some.injEq] at g1
  subst g1
  rw [hz] at g2 g4
  exact ⟨F, P, b, hF, hgF, l1, by simpa using g2, g3, by simpa using g4⟩

/-- Names and units which do not start with `k`, `1` or `/`. -/
def PlainNames (f : Field ℝ ℂ) : Prop :=
  ∀ ax ∈ f.axes, ConjugableName false ax.name ∧ ConjugableUnit false ax.unit

/-- The names after the transform are found again after transforming back and forth. -/
theorem names_frequency {spl : Splines ℝ} (hspl : ExactOnEven spl) {f F : Field ℝ ℂ} {shape : List ℕ} {x0 h : ℕ → ℝ}
    (hg : OnGrid f shape false x0 h) (hF : f.fft spl none "spatial" false = .ok F) (hn : PlainNames f) :
    ∀ d ∈ List.range shape.length, ∀ ax, F.axes[d]? = some ax → ConjugableName true ax.name ∧ ConjugableUnit true ax.unit := by
  intro d hd ax hax
  obtain ⟨e0, s, ht, _⟩ := hg.transformable
  obtain ⟨F', n, k0, F1, F2, F3, F4, F5, F6, F7, F8, F9, F10, F11, F12, F13⟩ :=
    fft_again hspl hg.sound ht (Or.inl rfl) false (signs := "spatial")
  rw [← fft_none hg, hF] at F1
  obtain rfl := Except.ok.inj F1
  obtain ⟨ax0, h1, _⟩ := ht.axis d hd
  obtain ⟨ax', c1, c2, c3, _⟩ := F11 d hd ax0 h1
  rw [hax] at c1
  obtain rfl := Option.some.inj c1
  obtain ⟨n1, n2⟩ := hn ax0 (List.mem_of_getElem? h1)
  rw [c2, c3]
  exact ⟨conjugable_frequency n1, conjugable_unit_frequency n2⟩

/-- Transforming to the spatial domain and back. -/
theorem back_and_forth {spl : Splines ℝ} (hspl : ExactOnEven spl) {P g : Field ℝ ℂ} {shape : List ℕ} {x0 h : ℕ → ℝ}
    (hg : OnGrid P shape true x0 h) (hP : P.fft spl none "spatial" false = .ok g) (hgg : OnGrid g shape false x0 h)
    (hn : ∀ d ∈ List.range shape.length, ∀ ax, P.axes[d]? = some ax → ConjugableName true ax.name ∧ ConjugableUnit true ax.unit) :
    ∃ G, g.fft spl none "spatial" false = .ok G ∧ OnGrid G shape true x0 h ∧ SameField G P := by
  obtain ⟨e0, s, ht, _⟩ := hg.transformable
  obtain ⟨F, r, F1, r1, r2, r3, r4, r5, r6⟩ := fft_roundtrip_partial spl hspl P hg.sound _ _ e0 s ht "spatial" (Or.inl rfl) false hn
  rw [← fft_none hg, hP] at F1
  obtain rfl := Except.ok.inj F1
  obtain ⟨G, G1, G2, G3, G4⟩ := hgg.fft hspl
  rw [r1] at G1
  obtain rfl := Except.ok.inj G1
  refine ⟨r, (fft_none hgg).trans r1, G2, hg.same G2 r3 ?_ r5 r6⟩
  intro idx hidx
  exact r2.2 idx (by rw [show r.matrix.shape = shape from G2.size]; exact hidx)

/-- C41: also for fields in the spatial domain, propagating by `s` and the result by `t` is the same as propagating by `s + t`.
Partial: as above, and names and units of the axes do not start with `k`, `1` or `/`. -/
theorem propagate_twice_spatial_partial (spl : Splines ℝ) (hspl : ExactOnEven spl) (f : Field ℝ ℂ) (shape : List ℕ)
    (x0 h : ℕ → ℝ) (hg : OnGrid f shape false x0 h) (hn : PlainNames f) (a : PropagateArgs)
    (ha : PropagateOk a shape.length) (hz : a.yieldZerothStep = false) (s t : ℝ) :
    ∃ g1 g2 g3, propagate spl f 1 { a with dt := s } = .ok [g1] ∧ propagate spl g1 1 { a with dt := t } = .ok [g2] ∧
      propagate spl f 1 { a with dt := s + t } = .ok [g3] ∧ SameField g2 g3 := by
  have hok : ∀ u, PropagateOk { a with dt := u } shape.length := fun u => ⟨ha.direction, ha.needed⟩
  obtain ⟨F, P1, g1, hF, hgF, h1, e1, f1, k1⟩ := propagate_single_spatial spl hspl f shape x0 h hg { a with dt := s } (hok s) hz
  obtain ⟨G1, P2, g2, hG, hgG, h2, e2, f2, k2⟩ :=
    propagate_single_spatial spl hspl g1 shape _ h k1 { a with dt := t } (hok t) hz
  obtain ⟨F', P3, g3, hF', hgF', h3, e3, f3, k3⟩ :=
    propagate_single_spatial spl hspl f shape x0 h hg { a with dt := s + t } (hok (s + t)) hz
  rw [hF] at hF'
  obtain rfl := Except.ok.inj hF'
  have hnames := names_frequency hspl hg hF hn
  rw [← e1.axes] at hnames
  obtain ⟨G, b1, b2, b3⟩ := back_and_forth hspl e1.grid f1 k1 hnames
  rw [hG] at b1
  obtain rfl := Except.ok.inj b1
  have e1 : Evolved a F P1 shape x0 h s := evolved_dt e1
  have e2 : Evolved a G1 P2 shape (fun d => x0 d + windowShift a s d) h t := evolved_dt e2
  have e3 : Evolved a F P3 shape x0 h (s + t) := evolved_dt e3
  have hsame := evolved_twice e1 b3 e2 e3
  have hgrid := e2.grid
  have hx : (fun d => x0 d + windowShift a s d + windowShift a t d) = fun d => x0 d + windowShift a (s + t) d := by
    funext d
    rw [windowShift_add, add_assoc]
  rw [hx] at hgrid
  obtain ⟨r, r', c1, c2, c3⟩ := fft_congr hspl e3.grid hgrid hsame
  rw [f3] at c1
  rw [f2] at c2
  obtain rfl := Except.ok.inj c1
  obtain rfl := Except.ok.inj c2
  exact ⟨g1, g2, g3, h1, h2, h3, c3⟩

/-- C41: propagating a field in the spatial domain by 0 without removing waves gives back its data and its axes. Partial: as
above. -/
theorem propagate_zero_spatial_partial (spl : Splines ℝ) (hspl : ExactOnEven spl) (f : Field ℝ ℂ) (shape : List ℕ)
    (x0 h : ℕ → ℝ) (hg : OnGrid f shape false x0 h) (hn : PlainNames f) (a : PropagateArgs)
    (ha : PropagateOk a shape.length) (hz : a.yieldZerothStep = false) (hdt : a.dt = 0) (hr : ¬ removes a) :
    ∃ g, propagate spl f 1 a = .ok [g] ∧ g.matrix.Eqv f.matrix ∧ g.axes = f.axes ∧ g.ats = f.ats ∧ g.name = f.name ∧
      g.unit = f.unit := by
  obtain ⟨F, P, g, hF, hgF, h1, e, f1, k1⟩ := propagate_single_spatial spl hspl f shape x0 h hg a ha hz
  rw [hdt] at e
  have hgrid := e.grid
  have hx : (fun d => x0 d + windowShift a 0 d) = x0 := by
    funext d
    rw [windowShift_zero, add_zero]
  rw [hx] at hgrid
  have hsame : SameField P F := by
    refine hgF.same hgrid e.axes ?_ e.name e.unit
    intro idx hidx
    rw [e.kept idx hidx fun hk => hr hk.1, vacuumPhase_zero, mul_one]
  obtain ⟨r, r', c1, c2, c3⟩ := fft_congr hspl hgF hgrid hsame
  rw [f1] at c2
  obtain rfl := Except.ok.inj c2
  obtain ⟨e0, s, ht, _⟩ := hg.transformable
  obtain ⟨F', q, F1, q1, q2, q3, q4, q5, q6⟩ := fft_roundtrip_partial spl hspl f hg.sound _ _ e0 s ht "spatial" (Or.inl rfl) false
    (fun d _ ax hax => hn ax (List.mem_of_getElem? hax))
  rw [← fft_none hg, hF] at F1
  obtain rfl := Except.ok.inj F1
  rw [← fft_none hgF, c1] at q1
  obtain rfl := Except.ok.inj q1
  exact ⟨g, h1, ⟨c3.data.1.trans q2.1, fun idx hidx => (c3.data.2 idx hidx).trans (q2.2 idx (c3.data.1 ▸ hidx))⟩, c3.axes.trans q3, c3.states.trans q4, c3.name.trans q5, c3.unit.trans q6⟩

/-- The integral of the squared modulus over the whole box, each value weighted with the size of its cell. -/
def energy (f : Field ℝ ℂ) : ℝ :=
  integral (f.axes.map cellSizes) (List.replicate f.shape.length true) (fun j => ‖f.matrix.at' j‖ ^ 2) []

theorem all_flags (N : ℕ) : flags N (List.range N) = List.replicate N true := by
  unfold flags
  apply List.ext_getElem
  · simp
  · intro i h1 h2
    have : i < N := by simpa using h1
    simp [this]

theorem none_unflagged (shape : List ℕ) : unflagged (List.replicate shape.length true) shape = [] := by
  induction shape with
  | nil => rfl
  | cons n l ih => rw [List.length_cons, List.replicate_succ]; simpa [unflagged] using ih

theorem energy_fft {spl : Splines ℝ} (hspl : ExactOnEven spl) {f F : Field ℝ ℂ} {shape : List ℕ} {state : Bool}
    {x0 h : ℕ → ℝ} (hg : OnGrid f shape state x0 h) (hF : f.fft spl none "spatial" false = .ok F) (hs : F.shape = shape) :
    energy F = energy f := by
  obtain ⟨e0, s, ht, _⟩ := hg.transformable
  obtain ⟨F', F1, F2⟩ := fft_parseval_partial spl hspl f hg.sound _ _ e0 s ht "spatial" (Or.inl rfl) false
    (List.range shape.length) (fun d hd => hd)
  rw [← fft_none hg, hF] at F1
  obtain rfl := Except.ok.inj F1
  have := F2 [] (by rw [hg.size, all_flags, none_unflagged]; exact ⟨rfl, by simp⟩)
  rw [hg.size, all_flags] at this
  unfold energy
  rw [hs, hg.size]
  exact this

/-- C41: the energy in the box of a field in the spatial domain stays as it was, if no waves are removed. Partial: as above. -/
theorem propagate_energy_partial (spl : Splines ℝ) (hspl : ExactOnEven spl) (f : Field ℝ ℂ) (shape : List ℕ)
    (x0 h : ℕ → ℝ) (hg : OnGrid f shape false x0 h) (a : PropagateArgs) (ha : PropagateOk a shape.length)
    (hr : ¬ removes a) (n : ℕ) :
    ∃ l, propagate spl f n a = .ok l ∧ l.length = n ∧ ∀ g ∈ l, energy g = energy f := by
  obtain ⟨F, l, hF, hgF, l1, l2, l3⟩ := propagate_spatial_partial spl hspl f shape x0 h hg a ha n
  refine ⟨l, l1, l2, ?_⟩
  intro g hgl
  obtain ⟨m, hm, hmg⟩ := List.getElem_of_mem hgl
  obtain ⟨P, g', g1, g2, g3, g4⟩ := l3 m (by omega)
  rw [List.getElem?_eq_getElem hm, hmg] at g1
  obtain rfl := Option.some.inj g1
  rw [energy_fft hspl g2.grid g3 g4.size, ← energy_fft hspl hg hF hgF.size]
  unfold energy
  rw [g2.axes, show P.shape = shape from g2.grid.size, show F.shape = shape from hgF.size]
  have hcells : (F.axes.map cellSizes).map List.length = shape := by
    rw [← hgF.size, ← hgF.sound.ok.lengths, List.map_map]
    apply List.map_congr_left
    intro ax hax
    exact cellSizes_length (hgF.sound.valid ax hax)
  apply integral_congr
  · rw [List.length_replicate, ← hcells, List.length_map]
  · intro j hj
    rw [hcells] at hj
    rw [g2.kept j hj fun hk => hr hk.1, norm_mul, vacuumPhase_norm, mul_one]
  · rw [hcells, none_unflagged]
    exact ⟨rfl, by simp⟩

/-! ### Examples -/

/-- The arguments for a window which moves along `(3, 4)`. -/
def windowArgs (t : ℝ) : PropagateArgs := { dt := t, movingWindowVect := some [3, 4] }

theorem windowArgs_ok (t : ℝ) : PropagateOk (windowArgs t) 2 := by
  refine ⟨?_, by simp [windowArgs]⟩
  intro u hu
  obtain rfl := Option.some.inj hu
  exact ⟨rfl, 3, by simp, by norm_num⟩

theorem plain_ok (t : ℝ) (N : ℕ) : PropagateOk { dt := t } N :=
  ⟨by simp, by simp⟩

/-- After the time `5 / c` the window has moved by 3 and 4. -/
example : windowShift (windowArgs 1) (5 / lightSpeed) 0 = 3 ∧ windowShift (windowArgs 1) (5 / lightSpeed) 1 = 4 := by
  have h5 : Real.sqrt 25 = 5 := by
    rw [show (25 : ℝ) = 5 ^ 2 by norm_num]
    exact Real.sqrt_sq (by norm_num)
  have hm : moves (windowArgs 1) := Or.inr ⟨rfl, by simp [windowArgs]⟩
  have hc : lightSpeed ≠ 0 := by norm_num [lightSpeed]
  have hn : direction (windowArgs 1) 0 ^ 2 + direction (windowArgs 1) 1 ^ 2 + direction (windowArgs 1) 2 ^ 2 = 25 := by
    norm_num [direction, windowArgs]
  unfold windowShift
  rw [if_pos hm, if_pos hm, hn, h5]
  simp only [direction, windowArgs]
  constructor <;> field_simp <;> norm_num

example (v : ℂ) := propagate_frequency_partial lineSplines lineSplines_exact (fieldFreq v) _ _ _ (fieldFreq_grid v)
  { dt := 1, movingWindowVect := some [-2], yieldZerothStep := true }
  ⟨fun u hu => by obtain rfl := Option.some.inj hu; exact ⟨rfl, -2, by simp, by norm_num⟩, by simp⟩ 7

/-- The wave of `fieldFreq` at `k = 1` is removed if the window moves to the left, and kept otherwise. -/
example : Removed { dt := 1, movingWindowVect := some [-2] } ![1, 0, 0] ∧
    ¬ Removed { dt := 1, movingWindowVect := some [2] } ![1, 0, 0] ∧
    ¬ Removed { dt := 1, movingWindowVect := some [-2], removeAntipropagating := some false } ![1, 0, 0] := by
  refine ⟨⟨Or.inr ⟨rfl, by simp⟩, by norm_num [direction]⟩, ?_, ?_⟩
  · intro h
    have := h.2
    norm_num [direction] at this
  · intro h
    have := h.1
    simp [removes] at this

example := propagate_twice_partial lineSplines lineSplines_exact (fieldFreq 1) _ _ _ (fieldFreq_grid 1)
  { dt := 0, movingWindowVect := some [-2] }
  ⟨fun u hu => by obtain rfl := Option.some.inj hu; exact ⟨rfl, -2, by simp, by norm_num⟩, by simp⟩ rfl 1 (-3)

example := propagate_zero_partial lineSplines lineSplines_exact (fieldFreq 1) _ _ _ (fieldFreq_grid 1) { dt := 0 }
  (plain_ok 0 1) rfl rfl (by simp [removes])

theorem field32At_names (a b : ℝ) : PlainNames (field32At a b) := by
  intro ax hax
  simp only [field32At, List.mem_cons, List.not_mem_nil, or_false] at hax
  rcases hax with rfl | rfl <;> simp [ConjugableName, ConjugableUnit, evenAxisOf]

example := propagate_spatial_partial lineSplines lineSplines_exact (field32At 0 0) _ _ _ (field32At_grid 0 0)
  (windowArgs 1) (windowArgs_ok 1) 5

example := propagate_twice_spatial_partial lineSplines lineSplines_exact (field32At 0 0) _ _ _ (field32At_grid 0 0)
  (field32At_names 0 0) (windowArgs 1) (windowArgs_ok 1) rfl 1 2

example := propagate_zero_spatial_partial lineSplines lineSplines_exact (field32At 0 0) _ _ _ (field32At_grid 0 0)
  (field32At_names 0 0) { dt := 0 } (plain_ok 0 2) rfl rfl (by simp [removes])

example := propagate_energy_partial lineSplines lineSplines_exact (field32At 0 0) _ _ _ (field32At_grid 0 0)
  { dt := 1 } (plain_ok 1 2) (by simp [removes]) 3

/-! ### Refused arguments -/

/-- C41: a direction with the wrong number of components is refused. -/
theorem propagate_wrong_length (spl : Splines ℝ) (f : Field ℝ ℂ) (shape : List ℕ)
    (x0 h : ℕ → ℝ) (hg : OnGrid f shape true x0 h) (a : PropagateArgs) (v : List ℝ) (hv : a.movingWindowVect = some v)
    (hl : v.length ≠ shape.length) (n : ℕ) : propagate spl f (n + 1) a = .error .valueError := by
  have hd : (v.length : ℤ) ≠ f.dims := by
    rw [dims_sound hg.sound, hg.size]
    exact_mod_cast hl
  have : prepare spl f a = .error .valueError := by
    unfold prepare
    simp only [hg.collective, bind, Except.bind, pure, Except.pure, if_true, hv, if_pos hd]
    rfl
  unfold propagate
  simp only [this, bind, Except.bind]

/-- C41: removing waves or moving the window without a direction is refused. -/
theorem propagate_no_direction (spl : Splines ℝ) (hspl : ExactOnEven spl) (f : Field ℝ ℂ) (shape : List ℕ)
    (x0 h : ℕ → ℝ) (hg : OnGrid f shape true x0 h) (a : PropagateArgs) (hv : a.movingWindowVect = none)
    (hr : a.removeAntipropagating = some true ∨ a.moveWindow = some true) (hz : a.yieldZerothStep = false) (n : ℕ) :
    propagate spl f (n + 1) a = .error .valueError := by
  unfold propagate
  by_cases hrm : a.removeAntipropagating.getD false = true
  · have : prepare spl f a = .error .valueError := by
      unfold prepare
      simp only [hg.collective, bind, Except.bind, pure, Except.pure, if_true, hv, Option.isSome_none, hrm]
      rfl
    simp only [this, bind, Except.bind]
  · have hm : a.moveWindow = some true := by
      rcases hr with hr | hr
      · rw [hr] at hrm
        simp at hrm
      · exact hr
    have hrm : a.removeAntipropagating.getD false = false := by simpa using hrm
    have : prepare spl f a = .ok ⟨f, false, some []⟩ := by
      unfold prepare
      simp only [hg.collective, bind, Except.bind, pure, Except.pure, if_true, hv, Option.isSome_none, hrm, hm]
      rfl
    have hc : checkWindow a = .error .valueError := by
      unfold checkWindow
      rw [if_pos ⟨hm, by rw [hv]; rfl⟩]
    simp only [this, bind, Except.bind, hz, Bool.false_eq_true, if_false, hc]

example := propagate_wrong_length lineSplines (fieldFreq 1) _ _ _ (fieldFreq_grid 1) { dt := 1, movingWindowVect := some [1, 0] }
  [1, 0] rfl (by simp) 0

example := propagate_no_direction lineSplines lineSplines_exact (fieldFreq 1) _ _ _ (fieldFreq_grid 1)
  { dt := 1, moveWindow := some true } rfl (Or.inr rfl) rfl 0

/-- C41: a field with some dimensions in the spatial and some in the frequency domain is refused. -/
theorem propagate_mixed (spl : Splines ℝ) (f : Field ℝ ℂ) (hf : f.Sound) (a : PropagateArgs) (n d e : ℕ)
    (hd : f.ats[d]? = some (some true)) (he : f.ats[e]? = some (some false)) :
    propagate spl f (n + 1) a = .error .valueError := by
  have hall : ∀ (b : Bool) (l : List ℕ), (∀ i ∈ l, i < f.ats.length) → (∃ i ∈ l, f.ats[i]? ≠ some (some b)) →
      allState f.ats b (l.map Int.ofNat) = .ok false := by
    intro b l hl hex
    induction l with
    | nil => simp at hex
    | cons i l ih =>
      have hi := hl i (by simp)
      have hget : pyGet f.ats (Int.ofNat i) = .ok f.ats[i] := pyGet_nat (List.getElem?_eq_getElem hi)
      simp only [List.map_cons, allState, hget, bind, Except.bind]
      by_cases hb : f.ats[i] = some b
      · rw [if_pos hb]
        apply ih (fun j hj => hl j (by simp [hj]))
        obtain ⟨j, hj, hne⟩ := hex
        rcases List.mem_cons.1 hj with rfl | hj
        · exact absurd (by rw [List.getElem?_eq_getElem hi, hb]) hne
        · exact ⟨j, hj, hne⟩
      · rw [if_neg hb]
        rfl
  have hN : ∀ i < f.ats.length, i ∈ List.range f.shape.length := by
    intro i hi
    rw [hf.ok.states] at hi
    exact List.mem_range.2 hi
  have hlt : ∀ i ∈ List.range f.shape.length, i < f.ats.length := by
    intro i hi
    rw [hf.ok.states]
    exact List.mem_range.1 hi
  have hdims : f.rangeDims = (List.range f.shape.length).map Int.ofNat := by
    unfold Field.rangeDims
    rw [dims_sound hf]
    rfl
  have hcs : collectiveState f.ats f.rangeDims = .ok none := by
    unfold collectiveState
    rw [hdims, hall true _ hlt ⟨e, hN e (List.getElem?_eq_some_iff.1 he).1, by rw [he]; simp⟩,
      hall false _ hlt ⟨d, hN d (List.getElem?_eq_some_iff.1 hd).1, by rw [hd]; simp⟩]
    rfl
  have : prepare spl f a = .error .valueError := by
    unfold prepare
    simp only [hcs, bind, Except.bind]
    rfl
  unfold propagate
  simp only [this, bind, Except.bind]

/-- `field32At` with the second dimension marked as transformed. -/
def fieldMixedStates : Field ℝ ℂ := { field32At 0 0 with ats := [some false, some true] }

example : propagate lineSplines fieldMixedStates 1 { dt := 1 } = .error .valueError :=
  propagate_mixed lineSplines fieldMixedStates
    ⟨⟨(field32At_grid 0 0).sound.ok.lengths, rfl, rfl⟩, (field32At_grid 0 0).sound.valid, (field32At_grid 0 0).sound.nonempty⟩
    _ 0 1 0 rfl rfl

/-- C41 violated: a field in the frequency domain which does not remember where its spatial grid starts (as a field made by
hand) cannot be propagated in a moving window. -/
theorem propagate_origin_violated :
    propagate lineSplines { fieldFreq 1 with tao := [none] } 1 { dt := 1, movingWindowVect := some [1] } =
      .error .typeError := by
  have hg := fieldFreq_grid 1
  have hd : ¬ ((([1] : List ℝ).length : ℤ) ≠ (fieldFreq 1).dims) := by
    rw [dims_sound hg.sound, hg.size]
    simp
  have hn : norm2 [1] ≠ 0 := (norm2_pos ⟨1, by simp, by norm_num⟩).ne'
  unfold propagate prepare
  have hrd : ({ fieldFreq 1 with tao := [none] } : Field ℝ ℂ).rangeDims = (fieldFreq 1).rangeDims := rfl
  have hdm : ({ fieldFreq 1 with tao := [none] } : Field ℝ ℂ).dims = (fieldFreq 1).dims := rfl
  simp only [hrd, hdm, bind, Except.bind, pure, Except.pure, if_true, if_neg hd, if_neg hn, Option.isSome_some,
    Option.getD_none, checkWindow, Option.isNone_some, Bool.false_eq_true, and_false, if_false]
  rfl

end

end Postpic.Props
