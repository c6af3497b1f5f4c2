import Verif.Model.DumpKspace
import Verif.Props.EpochLike
import Verif.Props.KspaceExtent

/-!
# Waves in a dump
-/

set_option autoImplicit false

namespace Postpic.Props

open Postpic Postpic.Axes Postpic.Fields Postpic.Spec

noncomputable section

/-! ## C72: the methods `kspace_Ex` ... `kspace_Bz` of a dump -/

/-- The components of `E` and `B` of a dump: fields in the spatial domain with the same numbers and distances of points, whose grids
are less than two cells apart. -/
structure DumpComponents (d : KspaceDump) (f : Bool → Fin 3 → Field ℝ ℂ) (shape : List ℕ) (x0 : Bool → Fin 3 → ℕ → ℝ) (h : ℕ → ℝ) :
    Prop where
  read : ∀ e j, d.field e j = .ok (f e j)
  grid : ∀ e j, OnGrid (f e j) shape false (x0 e j) h
  near : ∀ e j e' j', ∀ a < shape.length, |x0 e j a - x0 e' j' a| < 2 * h a

theorem addField_true {key : String} {m : Res (Field ℝ ℂ)} {g : Field ℝ ℂ} (hm : m = .ok g) (l : List (String × Field ℝ ℂ)) :
    addField true key m l = .ok (l ++ [(key, g)]) := by
  subst hm; rfl

theorem addField_false (key : String) (m : Res (Field ℝ ℂ)) (l : List (String × Field ℝ ℂ)) :
    addField false key m l = .ok l := rfl

/-- The dictionary contains what is needed. -/
theorem components_input {d : KspaceDump} {f : Bool → Fin 3 → Field ℝ ℂ} {shape : List ℕ} {x0 : Bool → Fin 3 → ℕ → ℝ} {h : ℕ → ℝ}
    (hd : DumpComponents d f shape x0 h) (electric : Bool) (p : Fin 3) :
    ∃ fields, d.fields electric p = .ok (componentName electric p, fields) ∧
      KspaceInput fields electric p .fourier shape (f electric p) (f (!electric)) false (fun _ => false) (x0 electric p) h
        (x0 (!electric)) ∧
      ∀ q ∈ fields, ∃ s a b, OnGrid q.2 shape s a b := by
  have hdims : ∀ e j, (f e j).dims = shape.length := by
    intro e j
    have hz : ¬ 0 ∈ (f e j).shape := by
      rw [(hd.grid e j).size]
      intro h0
      have := (hd.grid e j).two 0 h0
      omega
    rw [Field.dims, if_neg hz, (hd.grid e j).size]
  suffices hs : ∃ fields, d.fields electric p = .ok (componentName electric p, fields) ∧
      fields.lookup (componentName electric p) = some (f electric p) ∧
      (∀ j, Needed shape.length p j → fields.lookup (componentName (!electric) j) = some (f (!electric) j)) ∧
      ∀ q ∈ fields, ∃ e j, q.2 = f e j by
    obtain ⟨fields, h1, h2, h3, h4⟩ := hs
    refine ⟨fields, h1, ⟨h2, hd.grid _ _, h3, fun j _ => hd.grid _ _, fun j _ a ha => hd.near _ _ _ _ a ha⟩, ?_⟩
    intro q hq
    obtain ⟨e, j, hj⟩ := h4 q hq
    exact ⟨_, _, _, hj ▸ hd.grid e j⟩
  have h3 := (hd.grid true 0).three
  have h1 : 0 < shape.length := List.length_pos_iff.2 (hd.grid true 0).some_dim
  unfold KspaceDump.fields
  generalize shape.length = N at *
  have hN : N = 1 ∨ N = 2 ∨ N = 3 := by omega
  cases electric <;> fin_cases p <;> rcases hN with rfl | rfl | rfl <;>
    simp only [hd.read, hdims, bind, Except.bind] <;>
    refine ⟨_, rfl, rfl, ?_, ?_⟩ <;>
    first
    | (intro j hj
       fin_cases j <;> first | rfl | exact absurd hj (by unfold Needed; decide))
    | (intro q hq
       simp only [List.cons_append, List.nil_append, List.mem_cons, List.not_mem_nil, or_false] at hq
       rcases hq with rfl | rfl | rfl <;> exact ⟨_, _, rfl⟩)
    | (intro q hq
       simp only [List.cons_append, List.nil_append, List.mem_cons, List.not_mem_nil, or_false] at hq
       rcases hq with rfl | rfl <;> exact ⟨_, _, rfl⟩)
    | (intro q hq
       simp only [List.cons_append, List.nil_append, List.mem_cons, List.not_mem_nil, or_false] at hq
       rcases hq with rfl <;> exact ⟨_, _, rfl⟩)

/-- The name of the dump is the name of a file of the code EPOCH, in upper or lower case. -/
def LooksLikeEpoch (name : String) : Prop := ∃ stem : List Char, name.toList.map Char.toLower = stem ++ ['.', 's', 'd', 'f']

theorem endsSdf_iff (name : String) : endsSdf name = true ↔ LooksLikeEpoch name := by
  unfold endsSdf LooksLikeEpoch
  rw [List.isSuffixOf_iff_suffix]
  constructor
  · rintro ⟨t, ht⟩
    exact ⟨t, ht.symm⟩
  · rintro ⟨t, ht⟩
    exact ⟨t, ht.symm⟩

/-- `alignment` selects the assumption that all fields are known at the time of the dump. -/
def SameTime (kw : KspaceKw) (name : String) : Prop :=
  kw.alignment = "default" ∨ kw.alignment = "auto" ∧ ¬ LooksLikeEpoch name

/-- `alignment` selects the assumption that one of the fields (`"E"` or `"B"`) is the mean of two half steps. -/
def HalfSteps (kw : KspaceKw) (name : String) (averaged : String) : Prop :=
  averaged = "B" ∧ (kw.alignment = "epoch" ∨ kw.alignment = "auto" ∧ LooksLikeEpoch name) ∨
    averaged = "E" ∧ kw.alignment = "epoch-final"

theorem alignment_same {d : KspaceDump} {kw : KspaceKw} (h : SameTime kw d.name) : d.alignment kw = .ok "default" := by
  unfold KspaceDump.alignment
  rcases h with h | ⟨h, hn⟩
  · rw [h]; rfl
  · rw [h, if_pos (by decide), if_pos rfl, if_neg (by rwa [endsSdf_iff])]

theorem alignment_half {d : KspaceDump} {kw : KspaceKw} {averaged : String} (h : HalfSteps kw d.name averaged) :
    (averaged = "E" ∨ averaged = "B") ∧
    ∃ al, d.alignment kw = .ok al ∧ al ≠ "default" ∧ (if al = "epoch" then "B" else "E") = averaged := by
  unfold KspaceDump.alignment
  rcases h with ⟨rfl, h⟩ | ⟨rfl, h⟩
  · refine ⟨Or.inr rfl, "epoch", ?_, by decide, rfl⟩
    rcases h with h | ⟨h, hn⟩
    · rw [h]; rfl
    · rw [h, if_pos (by decide), if_pos rfl, if_pos ((endsSdf_iff _).2 hn)]
  · refine ⟨Or.inl rfl, "epoch-final", ?_, by decide, rfl⟩
    rw [h]; rfl

/-- C72: with `alignment='default'`, and for dumps which do not look like those of EPOCH, `kspace_Ex()` ... `kspace_Bz()` give twice
the amplitude of the waves along their wave vector and 0 for the waves against it, for every simulation in one, two or three
dimensions and every component; the grids of the components may be staggered. Partial: see `KspaceDump`; the grids have to be less than
two cells apart. -/
theorem kspace_method_default_partial (spl : Splines ℝ) (hspl : ExactOnEven spl)
    (lin : Field ℝ ℂ → List ℝ → Res (Field ℝ ℂ)) (d : KspaceDump) (f : Bool → Fin 3 → Field ℝ ℂ) (shape : List ℕ)
    (x0 : Bool → Fin 3 → ℕ → ℝ) (h : ℕ → ℝ) (hd : DumpComponents d f shape x0 h) (kw : KspaceKw)
    (hkw : SameTime kw d.name) (hex : kw.extent = none) (electric : Bool) (p : Fin 3) :
    ∃ (F : Bool → Fin 3 → Field ℝ ℂ) (r : Field ℝ ℂ),
      (∀ e j, (f e j).ensureTransformState spl (.all true) = .ok (F e j)) ∧
      d.kspace spl lin electric p kw = .ok r ∧ r.axes = (F electric p).axes ∧
      (∀ idx, InBounds shape idx → r.matrix.at' idx = (F electric p).matrix.at' idx +
          crossFactor electric ((kw.omega.getD omegaFree) ((List.ofFn (waveVector (F electric p) idx)).take shape.length))
            (waveVector (F electric p) idx) * cross (waveVector (F electric p) idx) (fun j => (F (!electric) j).matrix.at' idx) p) ∧
      ∀ idx, InBounds shape idx → ∀ (E B : Fin 3 → ℂ) (w : ℝ),
        (kw.omega.getD omegaFree) ((List.ofFn (waveVector (F electric p) idx)).take shape.length) = some w → w ≠ 0 →
        waveVector (F electric p) idx ≠ 0 →
        (∀ j, (F true j).matrix.at' idx = E j) → (∀ j, (F false j).matrix.at' idx = B j) →
        (PlaneWave 1 (waveVector (F electric p) idx) w E B → r.matrix.at' idx = 2 * if electric then E p else B p) ∧
        (PlaneWave (-1) (waveVector (F electric p) idx) w E B → r.matrix.at' idx = 0) := by
  obtain ⟨fields, h1, h2, h3⟩ := components_input hd electric p
  have hF : ∀ e j, ∃ F, (f e j).ensureTransformState spl (.all true) = .ok F := fun e j =>
    let ⟨F, hF, _⟩ := (hd.grid e j).ensure hspl
    ⟨F, hF⟩
  choose F hF using hF
  obtain ⟨F', G, r, after, e1, e2, e3, e4⟩ := kspace_plane_wave_partial spl hspl lin (kw.omega.getD omegaFree) fields electric p .fourier
    shape _ _ _ _ _ _ _ h2
  obtain ⟨F'', G', r', after', g1, g2, g3, g4, _, _, _, _, _, g5, _⟩ := kspace_value_partial spl hspl lin (kw.omega.getD omegaFree) fields electric p .fourier
    shape _ _ _ _ _ _ _ h2
  have hF' : F' = F electric p := Except.ok.inj (e1.symm.trans (hF electric p))
  have hF'' : F'' = F electric p := Except.ok.inj (g1.symm.trans (hF electric p))
  have hr : r' = r := congrArg Prod.fst (Except.ok.inj (g3.symm.trans e3))
  subst hF' hr
  have hG : ∀ j, Needed shape.length p j → G j = F (!electric) j := fun j hj =>
    Except.ok.inj ((e2 j hj).symm.trans (hF (!electric) j))
  have hG' : ∀ j, Needed shape.length p j → G' j = F (!electric) j := fun j hj =>
    Except.ok.inj ((g2 j hj).symm.trans (hF (!electric) j))
  subst hF''
  refine ⟨F, r', hF, ?_, g4, fun idx hidx => g5 idx hidx _ fun j hj => by rw [hG' j hj], ?_⟩
  · unfold KspaceDump.kspace
    rw [h1, alignment_same hkw]
    simp only [bind, Except.bind]
    rw [if_pos trivial, hex]
    simp only [kspaceIn, e3]
    rfl
  · intro idx hidx E B w hw hw0 hk hE hB
    have hm : (F electric p).matrix.at' idx = if electric then E p else B p := by
      cases electric
      · exact hB p
      · exact hE p
    rw [← hm]
    refine e4 idx hidx E B w hw hw0 hk hm ?_
    intro j hj
    rw [hG j hj]
    cases electric
    · exact hE j
    · exact hB j

/-- C72: with `alignment='epoch'` or `'epoch-final'`, and for dumps which look like those of EPOCH, `kspace_Ex()` ... `kspace_Bz()`
undo the mean over two half steps of the length `time/timestep` of `B` or `E`, and then give twice the amplitude of the waves along
their wave vector and 0 for those against it. Partial: the vacuum dispersion relation (`solver` is not `'yee'`, see
`epoch_dispersion_violated`), and not the dump of the time step 0, see `kspace_first_dump_violated`. -/
theorem kspace_method_epoch_partial (spl : Splines ℝ) (hspl : ExactOnEven spl)
    (lin : Field ℝ ℂ → List ℝ → Res (Field ℝ ℂ)) (d : KspaceDump) (f : Bool → Fin 3 → Field ℝ ℂ) (shape : List ℕ)
    (x0 : Bool → Fin 3 → ℕ → ℝ) (h : ℕ → ℝ) (hd : DumpComponents d f shape x0 h) (kw : KspaceKw) (averaged : String)
    (hkw : HalfSteps kw d.name averaged) (ht : d.timestep ≠ 0) (hs : kw.solver ≠ some "yee") (ho : kw.omega = none)
    (hex : kw.extent = none) (electric : Bool) (p : Fin 3) :
    ∃ (F : Bool → Fin 3 → Field ℝ ℂ) (r : Field ℝ ℂ),
      (∀ e j, (f e j).ensureTransformState spl (.all true) = .ok (F e j)) ∧
      d.kspace spl lin electric p kw = .ok r ∧ r.axes = (F electric p).axes ∧
      ∀ idx, InBounds shape idx → ∀ (E B : Fin 3 → ℂ) (w : ℝ), w = vacuumFrequency (waveVector (F electric p) idx) →
        waveVector (F electric p) idx ≠ 0 → |w * (d.time / d.timestep)| < Real.pi →
        (∀ j, (F true j).matrix.at' idx = dumped averaged true (d.time / d.timestep) w (E j)) →
        (∀ j, (F false j).matrix.at' idx = dumped averaged false (d.time / d.timestep) w (B j)) →
        (PlaneWave 1 (waveVector (F electric p) idx) w E B → r.matrix.at' idx = 2 * if electric then E p else B p) ∧
        (PlaneWave (-1) (waveVector (F electric p) idx) w E B → r.matrix.at' idx = 0) := by
  obtain ⟨fields, h1, h2, h3⟩ := components_input hd electric p
  obtain ⟨hal, al, a1, a2, a3⟩ := alignment_half hkw
  have hF : ∀ e j, ∃ F, (f e j).ensureTransformState spl (.all true) = .ok F := fun e j =>
    let ⟨F, hF, _⟩ := (hd.grid e j).ensure hspl
    ⟨F, hF⟩
  choose F hF using hF
  obtain ⟨F', G, r, after, e1, e2, e3, e4⟩ := epoch_plane_wave_partial spl hspl lin fields electric p (d.time / d.timestep) averaged hal
    shape _ _ _ _ _ _ _ h2 h3
  obtain ⟨F'', G', r', after', g1, g2, g3, g4, _⟩ := epoch_value_partial spl hspl lin omegaFree fields electric p (d.time / d.timestep)
    averaged hal shape _ _ _ _ _ _ _ h2 h3
  have hF' : F' = F electric p := Except.ok.inj (e1.symm.trans (hF electric p))
  have hF'' : F'' = F electric p := Except.ok.inj (g1.symm.trans (hF electric p))
  have hr : r' = r := congrArg Prod.fst (Except.ok.inj (g3.symm.trans e3))
  subst hF' hr
  have hG : ∀ j, Needed shape.length p j → G j = F (!electric) j := fun j hj =>
    Except.ok.inj ((e2 j hj).symm.trans (hF (!electric) j))
  refine ⟨F, r', hF, ?_, by rw [g4, hF''], ?_⟩
  · unfold KspaceDump.kspace KspaceDump.dt KspaceDump.omega
    rw [h1, a1, ho]
    simp only [bind, Except.bind]
    rw [if_neg a2, if_neg ht, a3]
    simp only [if_neg hs, hex, kspaceEpochLikeIn, e3]
    rfl
  · intro idx hidx E B w hw hk hdt hE hB
    refine e4 idx hidx E B w hw hk hdt ?_ ?_
    · cases electric
      · exact hB p
      · exact hE p
    · intro j hj
      rw [hG j hj]
      cases electric
      · exact hE j
      · exact hB j

/-- The dictionary of a dump whose components are replaced by their parts. -/
theorem components_mapped {d : KspaceDump} {f : Bool → Fin 3 → Field ℝ ℂ} {shape : List ℕ} {x0 : Bool → Fin 3 → ℕ → ℝ} {h : ℕ → ℝ}
    (hd : DumpComponents d f shape x0 h) (φ : Field ℝ ℂ → Field ℝ ℂ) (hφ : ∀ e j, (φ (f e j)).dims = (f e j).dims) (electric : Bool)
    (p : Fin 3) (fields : List (String × Field ℝ ℂ)) (hf : d.fields electric p = .ok (componentName electric p, fields)) :
    ({ d with field := fun e j => .ok (φ (f e j)) } : KspaceDump).fields electric p =
      .ok (componentName electric p, fields.map fun q => (q.1, φ q.2)) := by
  have hstep : ∀ (c : Bool) (key : String) (e : Bool) (j : Fin 3) (l m : List (String × Field ℝ ℂ)),
      addField c key (.ok (f e j)) l = .ok m →
      addField c key (.ok (φ (f e j))) (l.map fun q => (q.1, φ q.2)) = .ok (m.map fun q => (q.1, φ q.2)) := by
    intro c key e j l m hm
    cases c with
    | false =>
      obtain rfl := Except.ok.inj hm
      rfl
    | true =>
      obtain rfl := Except.ok.inj hm
      show Except.ok _ = Except.ok _
      rw [List.map_append]
      rfl
  have hok : ∀ (c : Bool) (key : String) (e : Bool) (j : Fin 3) (l : List (String × Field ℝ ℂ)),
      ∃ m, addField c key (.ok (f e j)) l = .ok m := by
    intro c key e j l
    cases c with
    | false => exact ⟨_, rfl⟩
    | true => exact ⟨_, rfl⟩
  have key : ∀ (c c' : Bool) (k0 k k' : String) (e : Bool) (j0 j j' : Fin 3) (name : String),
      (do
        let l ← addField c k (.ok (f (!e) j)) [(k0, f e j0)]
        let m ← addField c' k' (.ok (f (!e) j')) l
        return (name, m) : Res (String × List (String × Field ℝ ℂ))) = .ok (name, fields) →
      (do
        let l ← addField c k (.ok (φ (f (!e) j))) [(k0, φ (f e j0))]
        let m ← addField c' k' (.ok (φ (f (!e) j'))) l
        return (name, m) : Res (String × List (String × Field ℝ ℂ))) = .ok (name, fields.map fun q => (q.1, φ q.2)) := by
    intro c c' k0 k k' e j0 j j' name hfl
    obtain ⟨l, hl⟩ := hok c k (!e) j [(k0, f e j0)]
    obtain ⟨m, hm⟩ := hok c' k' (!e) j' l
    simp only [hl, hm, bind, Except.bind] at hfl
    obtain rfl : m = fields := congrArg Prod.snd (Except.ok.inj hfl)
    have hl' := hstep _ _ _ _ _ _ hl
    have hm' := hstep _ _ _ _ _ _ hm
    simp only [List.map_cons, List.map_nil] at hl'
    simp only [hl', hm', bind, Except.bind]
    rfl
  unfold KspaceDump.fields at hf ⊢
  cases electric <;> fin_cases p <;> simp only [hd.read] at hf <;> dsimp only [bind, Except.bind] at hf ⊢ <;>
    simp only [hφ]
  · exact key _ _ _ _ _ false _ _ _ _ hf
  · exact key true _ "By" "Ez" "Ex" false 1 2 0 _ hf
  · exact key true _ "Bz" "Ey" "Ex" false 2 1 0 _ hf
  · exact key _ _ _ _ _ true _ _ _ _ hf
  · exact key true _ "Ey" "Bz" "Bx" true 1 2 0 _ hf
  · exact key true _ "Ez" "By" "Bx" true 2 1 0 _ hf

/-- C72: with `extent` the result of `kspace_Ex()` ... `kspace_Bz()` is the one of a dump whose components are cut: `n a` points from the
number `lo a` on, which are exactly the points of the component between the limits along the dimension `a`. To this dump all other theorems of C72
apply. Partial: as there, at least two points remain along each dimension, one of the two limits is inside of the box. -/
theorem kspace_method_extent_partial (spl : Splines ℝ) (hspl : ExactOnEven spl)
    (lin : Field ℝ ℂ → List ℝ → Res (Field ℝ ℂ)) (d : KspaceDump) (f : Bool → Fin 3 → Field ℝ ℂ) (shape : List ℕ)
    (x0 : Bool → Fin 3 → ℕ → ℝ) (h : ℕ → ℝ) (hd : DumpComponents d f shape x0 h) (kw : KspaceKw) (electric : Bool) (p : Fin 3)
    (ext : List ℝ) (hex : kw.extent = some ext) (he : ExtentFits ext shape (x0 electric p) h) :
    ∃ (lo n : List ℕ) (g : Bool → Fin 3 → Field ℝ ℂ), lo.length = shape.length ∧ n.length = shape.length ∧
      PointsWithin ext shape lo n (x0 electric p) h ∧ (∀ e j, PartOf (f e j) (g e j) lo) ∧
      DumpComponents { d with field := fun e j => .ok (g e j) } g n (fun e j a => x0 e j a + lo.getD a 0 * h a) h ∧
      d.kspace spl lin electric p kw =
        ({ d with field := fun e j => .ok (g e j) } : KspaceDump).kspace spl lin electric p { kw with extent := none } := by
  obtain ⟨fields, h1, h2, h3⟩ := components_input hd electric p
  obtain ⟨lo, n, φ, a1, a2, a3, a4, a5⟩ := applyExtent_ok hspl h2.present h2.mainGrid h3 he
  have hpart : ∀ e j, PartOf (f e j) (φ (f e j)) lo ∧
      OnGrid (φ (f e j)) n false (fun a => x0 e j a + lo.getD a 0 * h a) h := by
    intro e j
    obtain ⟨S, _, _, s3, s4, s5⟩ := a5 _ _ _ _ (hd.grid e j)
    obtain rfl := s3 rfl
    exact ⟨s4, s5⟩
  have hdims : ∀ (g : Field ℝ ℂ) (sh : List ℕ) (a b : ℕ → ℝ), OnGrid g sh false a b → g.dims = sh.length := by
    intro g sh a b hg
    have hz : ¬ 0 ∈ g.shape := by
      rw [hg.size]
      intro h0
      have := hg.two 0 h0
      omega
    rw [Field.dims, if_neg hz, hg.size]
  refine ⟨lo, n, fun e j => φ (f e j), a1, a2, a3, fun e j => (hpart e j).1, ⟨fun _ _ => rfl, fun e j => (hpart e j).2, ?_⟩, ?_⟩
  · intro e j e' j' a ha
    rw [a2] at ha
    have := hd.near e j e' j' a ha
    show |x0 e j a + lo.getD a 0 * h a - (x0 e' j' a + lo.getD a 0 * h a)| < _
    rwa [add_sub_add_right_eq_sub]
  · have hf' := components_mapped hd φ (fun e j => by
      rw [hdims _ _ _ _ (hpart e j).2, hdims _ _ _ _ (hd.grid e j), a2]) electric p fields h1
    have hne := componentName_ne electric p
    have hal : ({ d with field := fun e j => .ok (φ (f e j)) } : KspaceDump).alignment { kw with extent := none } = d.alignment kw := rfl
    have hdt : ({ d with field := fun e j => .ok (φ (f e j)) } : KspaceDump).dt = d.dt := rfl
    have hom : ∀ t, ({ d with field := fun e j => .ok (φ (f e j)) } : KspaceDump).omega { kw with extent := none } t = d.omega kw t :=
      fun _ => rfl
    unfold KspaceDump.kspace
    rw [h1, hf', hal]
    simp only [bind, Except.bind]
    cases d.alignment kw with
    | error _ => rfl
    | ok al =>
      simp only [hex, hdt]
      by_cases hdef : al = "default"
      · simp only [if_pos hdef, kspaceIn, if_neg hne, a4, bind, Except.bind]
        cases Fields.kspace spl lin (componentName electric p) (fields.map fun q => (q.1, φ q.2)) .fourier (kw.omega.getD omegaFree) with
        | error _ => rfl
        | ok q => rfl
      · simp only [if_neg hdef]
        cases d.dt with
        | error _ => rfl
        | ok t =>
          simp only [hom]
          cases d.omega kw t with
          | error _ => rfl
          | ok w =>
            simp only [kspaceEpochLikeIn, parse_component, h2.present, a4, bind, Except.bind, Option.isNone_some]
            cases kspaceEpochLike spl lin (componentName electric p) (fields.map fun q => (q.1, φ q.2)) t w
              (if al = "epoch" then "B" else "E") with
            | error _ => rfl
            | ok q => rfl

/-- C72: other values of `alignment` are refused. -/
theorem kspace_method_alignment (spl : Splines ℝ) (lin : Field ℝ ℂ → List ℝ → Res (Field ℝ ℂ)) (d : KspaceDump)
    (f : Bool → Fin 3 → Field ℝ ℂ) (shape : List ℕ)
    (x0 : Bool → Fin 3 → ℕ → ℝ) (h : ℕ → ℝ) (hd : DumpComponents d f shape x0 h) (kw : KspaceKw)
    (hkw : kw.alignment ∉ ["auto", "default", "epoch", "epoch-final"]) (electric : Bool) (p : Fin 3) :
    d.kspace spl lin electric p kw = .error .valueError := by
  obtain ⟨fields, h1, _⟩ := components_input hd electric p
  unfold KspaceDump.kspace KspaceDump.alignment
  rw [h1, if_neg hkw]
  rfl

/-- C72: a method reads its own component and those of the other field which it needs, no others: the result of two dumps which
agree in these is the same, e.g. if a dump does not contain the others. -/
theorem kspace_method_needs (spl : Splines ℝ) (lin : Field ℝ ℂ → List ℝ → Res (Field ℝ ℂ)) (d d' : KspaceDump) (kw : KspaceKw)
    (hn : d.name = d'.name) (ht : d.time = d'.time) (hs : d.timestep = d'.timestep) (hD : d.simdimensions = d'.simdimensions)
    (hg : d.simgridspacing = d'.simgridspacing) (electric : Bool) (p : Fin 3) (main : Field ℝ ℂ) (N : ℕ)
    (hmain : d.field electric p = .ok main) (hmain' : d'.field electric p = .ok main) (hN : main.dims = N) (h1 : 1 ≤ N)
    (hother : ∀ j, Needed N p j → d.field (!electric) j = d'.field (!electric) j) :
    d.kspace spl lin electric p kw = d'.kspace spl lin electric p kw := by
  have hf : d.fields electric p = d'.fields electric p := by
    unfold KspaceDump.fields
    have hcond : ∀ (b c : Bool) (key : String) (j : Fin 3) (l : List (String × Field ℝ ℂ)), b = (!electric) → (c = true → Needed N p j) →
        addField c key (d.field b j) l = addField c key (d'.field b j) l := by
      intro b c key j l hb hc
      subst hb
      cases c with
      | false => rfl
      | true => rw [hother j (hc rfl)]
    have n0 : ∀ (q j m : Fin 3), j ≠ q → m ≠ q → m ≠ j → m.val < N → Needed N q j :=
      fun q j m a b c e => ⟨a, m, b, c, e⟩
    cases electric <;> fin_cases p <;> simp only [Fin.zero_eta, Fin.mk_one, Fin.reduceFinMk] at * <;>
      simp only [hmain, hmain', hN, bind, Except.bind]
    · rw [hcond true _ _ 2 _ rfl (fun h => n0 0 2 1 (by decide) (by decide) (by decide) (by simp at h; simp; omega))]
      cases addField (decide (2 ≤ (N : ℤ))) "Ez" (d'.field true 2) [("Bx", main)] with
      | error _ => rfl
      | ok l => simp only []; rw [hcond true _ _ 1 _ rfl (fun h => n0 0 1 2 (by decide) (by decide) (by decide) (by simp at h; simp; omega))]
    · rw [hcond true _ _ 2 _ rfl (fun h => n0 1 2 0 (by decide) (by decide) (by decide) (by simp; omega))]
      cases addField true "Ez" (d'.field true 2) [("By", main)] with
      | error _ => rfl
      | ok l => simp only []; rw [hcond true _ _ 0 _ rfl (fun h => n0 1 0 2 (by decide) (by decide) (by decide) (by simp at h; simp; omega))]
    · rw [hcond true _ _ 1 _ rfl (fun h => n0 2 1 0 (by decide) (by decide) (by decide) (by simp; omega))]
      cases addField true "Ey" (d'.field true 1) [("Bz", main)] with
      | error _ => rfl
      | ok l => simp only []; rw [hcond true _ _ 0 _ rfl (fun h => n0 2 0 1 (by decide) (by decide) (by decide) (by simp at h; simp; omega))]
    · rw [hcond false _ _ 2 _ rfl (fun h => n0 0 2 1 (by decide) (by decide) (by decide) (by simp at h; simp; omega))]
      cases addField (decide (2 ≤ (N : ℤ))) "Bz" (d'.field false 2) [("Ex", main)] with
      | error _ => rfl
      | ok l => simp only []; rw [hcond false _ _ 1 _ rfl (fun h => n0 0 1 2 (by decide) (by decide) (by decide) (by simp at h; simp; omega))]
    · rw [hcond false _ _ 2 _ rfl (fun h => n0 1 2 0 (by decide) (by decide) (by decide) (by simp; omega))]
      cases addField true "Bz" (d'.field false 2) [("Ey", main)] with
      | error _ => rfl
      | ok l => simp only []; rw [hcond false _ _ 0 _ rfl (fun h => n0 1 0 2 (by decide) (by decide) (by decide) (by simp at h; simp; omega))]
    · rw [hcond false _ _ 1 _ rfl (fun h => n0 2 1 0 (by decide) (by decide) (by decide) (by simp; omega))]
      cases addField true "By" (d'.field false 1) [("Ez", main)] with
      | error _ => rfl
      | ok l => simp only []; rw [hcond false _ _ 0 _ rfl (fun h => n0 2 0 1 (by decide) (by decide) (by decide) (by simp at h; simp; omega))]
  have ha : d.alignment kw = d'.alignment kw := by unfold KspaceDump.alignment; rw [hn]
  have hdt : d.dt = d'.dt := by unfold KspaceDump.dt; rw [ht, hs]
  have ho : ∀ dt, d.omega kw dt = d'.omega kw dt := by intro dt; unfold KspaceDump.omega; rw [hD, hg]
  unfold KspaceDump.kspace
  simp only [hf, ha, hdt, ho]

/-- C72: with half steps and `solver='yee'` the frequencies are those of the Yee scheme of the simulation: the result is that with the
dispersion relation for the distances of the grid of the simulation and its time step (time of the dump divided by the number of steps). -/
theorem kspace_method_solver (spl : Splines ℝ) (lin : Field ℝ ℂ → List ℝ → Res (Field ℝ ℂ)) (d : KspaceDump) (kw : KspaceKw)
    (averaged : String) (hkw : HalfSteps kw d.name averaged) (hsol : kw.solver = some "yee") (hom : kw.omega = none)
    (hstep : d.timestep ≠ 0) (dx : List ℝ) (hlen : dx.length = d.simdimensions)
    (hdx : ∀ i : ℕ, ∀ a, dx[i]? = some a → d.simgridspacing i = .ok a) (electric : Bool) (p : Fin 3) :
    d.kspace spl lin electric p kw =
      d.kspace spl lin electric p { kw with omega := some (omegaYee dx (d.time / d.timestep)) } := by
  obtain ⟨_, al, a1, a2, _⟩ := alignment_half hkw
  have hm : (List.range d.simdimensions).mapM d.simgridspacing = .ok dx := by
    apply mapM_of_forall2
    rw [List.forall₂_iff_get]
    refine ⟨by simp [hlen], ?_⟩
    intro i h1 h2
    simp only [List.get_eq_getElem, List.getElem_range]
    exact hdx i _ (List.getElem?_eq_getElem h2)
  have a1' : d.alignment { kw with omega := some (omegaYee dx (d.time / d.timestep)) } = .ok al := a1
  have hdt : d.dt = .ok (d.time / d.timestep) := by unfold KspaceDump.dt; rw [if_neg hstep]
  have ho : d.omega kw (d.time / d.timestep) = .ok (omegaYee dx (d.time / d.timestep)) := by
    unfold KspaceDump.omega
    rw [hom]
    simp only [hsol, if_true, hm]
    rfl
  have ho' : d.omega { kw with omega := some (omegaYee dx (d.time / d.timestep)) } (d.time / d.timestep) =
      .ok (omegaYee dx (d.time / d.timestep)) := rfl
  unfold KspaceDump.kspace
  simp only [a1, a1', hdt, bind, Except.bind, if_neg a2, ho, ho']

/-- The sum of the dispersion relation of the Yee scheme. -/
def yeeSum (dx k : List ℝ) : ℝ := ((k.zip dx).map fun p => (Real.sin (p.1 * p.2 / 2) / p.2) ^ 2).sum

theorem yeeSum_nonneg (dx k : List ℝ) : 0 ≤ yeeSum dx k := by
  apply List.sum_nonneg
  intro x hx
  obtain ⟨p, _, rfl⟩ := List.mem_map.1 hx
  positivity

/-- C72: with `solver='yee'` the frequency which is used is the one of the numerical scheme: it solves
`(sin(ω dt/2)/(c dt))² = Σ (sin(k_i dx_i/2)/dx_i)²` with `0 ≤ ω ≤ π/dt`, and there is no frequency exactly if this has no solution. -/
theorem yee_dispersion (dx k : List ℝ) (dt : ℝ) (hdt : 0 < dt) :
    (∀ w, omegaYee dx dt k = some w →
      (Real.sin (w * dt / 2) / (lightSpeed * dt)) ^ 2 = yeeSum dx k ∧ 0 ≤ w ∧ w ≤ Real.pi / dt) ∧
    (omegaYee dx dt k = none ↔ ∀ w : ℝ, (Real.sin (w * dt / 2) / (lightSpeed * dt)) ^ 2 ≠ yeeSum dx k) := by
  have hc : (0 : ℝ) < lightSpeed := by unfold lightSpeed; norm_num
  have hn := yeeSum_nonneg dx k
  have hs0 : 0 ≤ lightSpeed * dt * Real.sqrt (yeeSum dx k) := by positivity
  have hdef : omegaYee dx dt k = if 1 < |lightSpeed * dt * Real.sqrt (yeeSum dx k)| then none else
    some (2 * Real.arcsin (lightSpeed * dt * Real.sqrt (yeeSum dx k)) / dt) := rfl
  rw [hdef, abs_of_nonneg hs0]
  have hsol : ∀ w, ¬ 1 < lightSpeed * dt * Real.sqrt (yeeSum dx k) →
      2 * Real.arcsin (lightSpeed * dt * Real.sqrt (yeeSum dx k)) / dt = w →
      (Real.sin (w * dt / 2) / (lightSpeed * dt)) ^ 2 = yeeSum dx k ∧ 0 ≤ w ∧ w ≤ Real.pi / dt := by
    rintro w h1 rfl
    have h2 : 2 * Real.arcsin (lightSpeed * dt * Real.sqrt (yeeSum dx k)) / dt * dt / 2 =
        Real.arcsin (lightSpeed * dt * Real.sqrt (yeeSum dx k)) := by field_simp
    refine ⟨?_, ?_, ?_⟩
    · rw [h2, Real.sin_arcsin (by linarith) (not_lt.1 h1), mul_div_assoc, mul_comm (lightSpeed * dt), div_mul_cancel₀ _ (by positivity),
        Real.sq_sqrt hn]
    · have := Real.arcsin_nonneg.2 hs0
      positivity
    · have := Real.arcsin_le_pi_div_two (lightSpeed * dt * Real.sqrt (yeeSum dx k))
      apply div_le_div_of_nonneg_right _ hdt.le
      linarith
  constructor
  · intro w
    split_ifs with h1
    · simp
    · intro hw
      exact hsol w h1 (Option.some.inj hw)
  · split_ifs with h1
    · refine ⟨fun _ w hw => ?_, fun _ => rfl⟩
      rw [← hw, Real.sqrt_sq_eq_abs, abs_div, abs_of_pos (by positivity : 0 < lightSpeed * dt), mul_comm, div_mul_cancel₀ _ (by positivity)] at h1
      exact absurd (Real.abs_sin_le_one (w * dt / 2)) (not_le.2 h1)
    · refine ⟨fun h => by simp at h, fun h => absurd (hsol _ h1 rfl).1 (h _)⟩

example : omegaYee [Real.pi] halfCell [1] = some (2 * lightSpeed / 3) := yee_frequency

/-! ### Examples and violations -/

/-- A one-dimensional field with the points 0 and `π` and the values `a` and `b`. -/
def twoPoints (a b : ℂ) : Field ℝ ℂ :=
  ⟨"E", "V/m", ⟨[2], fun idx => if idx = [0] then a else b⟩, [evenAxisOf "x" "m" (-(Real.pi / 2)) Real.pi 2], [some false], [none]⟩

theorem twoPoints_grid (a b : ℂ) : OnGrid (twoPoints a b) [2] false (fun _ => 0) (fun _ => Real.pi) := by
  refine ⟨⟨⟨?_, rfl, rfl⟩, ?_, by simp [twoPoints, Field.shape]⟩, rfl, by simp, by simp, by simp, fun _ _ => Real.pi_pos, ?_, ?_,
    by simp⟩
  · simp [twoPoints, Axis.len, evenAxisOf, ap_length, Field.shape]
  · intro ax hax
    simp only [twoPoints, List.mem_cons, List.not_mem_nil, or_false] at hax
    subst hax
    exact evenAxisOf_valid _ _ _ _ Real.pi_pos _
  · intro d hd
    have : d = 0 := by simpa using hd
    subst this
    rfl
  · intro _ d hd
    have : d = 0 := by simpa using hd
    subst this
    refine ⟨_, rfl, ?_⟩
    rw [zero_sub]
    exact evenAxisOf_even _ _ _ _ _

/-- Its Fourier transform at the wave vector -1. -/
theorem twoPoints_fft (a b : ℂ) (F : Field ℝ ℂ) (hF : (twoPoints a b).ensureTransformState lineSplines (.all true) = .ok F) :
    waveVector F [0] = ![-1, 0, 0] ∧ F.matrix.at' [0] = (Real.pi / Real.sqrt (2 * Real.pi) : ℝ) * (a - b) := by
  have hpi := Real.pi_pos
  have hdims : EvenDims (twoPoints a b) [0] false (fun _ => -(Real.pi / 2)) (fun _ => Real.pi) := by
    refine ⟨by simp, by simp, ?_, fun _ _ => hpi, ?_⟩
    · intro d hd
      obtain rfl : d = 0 := by simpa using hd
      rfl
    · intro d hd
      obtain rfl : d = 0 := by simpa using hd
      exact ⟨_, rfl, evenAxisOf_even _ _ _ _ _⟩
  obtain ⟨F', h1, h2, h3, h4, h5, h6, h7⟩ := fft_value_partial lineSplines lineSplines_exact (twoPoints a b) (twoPoints_grid a b).sound
    [0] false _ _ hdims "spatial" (Or.inl rfl)
  have hFF : F = F' := by
    have : (twoPoints a b).ensureTransformState lineSplines (.all true) = (twoPoints a b).fft lineSplines (some [0]) "spatial" false := rfl
    rw [this] at hF
    exact Except.ok.inj (hF.symm.trans h1)
  subst hFF
  have hk := h4 0 (by simp) 2 rfl rfl
  have hx : gridAlong (twoPoints a b) 0 = [0, Real.pi] := by
    simp [gridAlong, twoPoints, evenAxisOf, ap, List.range_succ]
  have hk' : gridAlong F 0 = [-1, 0] := by
    rw [hk]
    simp [List.range_succ]
  have hd : ∀ d, d ≠ 0 → gridAlong F d = [] := by
    intro d hd
    have h := (h7 d (by simpa using hd)).1
    have hn : (twoPoints a b).axes[d]? = none := List.getElem?_eq_none (by simp [twoPoints]; omega)
    rw [gridAlong, h, hn]
    rfl
  constructor
  · funext d
    fin_cases d
    · simp [waveVector, hk']
    · simp [waveVector, hd]
    · simp [waveVector, hd]
  · rw [h3 [0] (by simp) (by simp) [0] freq_index, List.foldl_cons, List.foldl_nil, hx, hk']
    have he : Complex.exp (-Complex.I * (-1 : ℝ) * (Real.pi : ℝ)) = -1 := by
      rw [← Complex.exp_pi_mul_I]
      congr 1
      push_cast
      ring
    simp only [fourierAlong, List.length_cons, List.length_nil, Finset.sum_range_succ, Finset.sum_range_zero]
    have hs : (exponentSign false "spatial" : ℝ) = -1 := rfl
    simp [hs, twoPoints] at he ⊢
    rw [he]
    left
    ring

/-- A one-dimensional dump with `Ey` and `Bz`. -/
def waveDump (name : String) (timestep : ℕ) (a b : ℂ) : KspaceDump where
  name := name
  time := Real.pi / lightSpeed / 3
  timestep := timestep
  simdimensions := 1
  simgridspacing _ := .ok Real.pi
  field e j := .ok (twoPoints (if e then (if j = 1 then a else 0) else if j = 2 then b else 0) 0)

theorem waveDump_components (name : String) (timestep : ℕ) (a b : ℂ) : DumpComponents (waveDump name timestep a b)
    (fun e j => twoPoints (if e then (if j = 1 then a else 0) else if j = 2 then b else 0) 0) [2] (fun _ _ _ => 0) (fun _ => Real.pi) := by
  refine ⟨fun _ _ => rfl, ?_, ?_⟩
  · intro e j
    exact twoPoints_grid _ _
  · intro e j e' j' a _
    have := Real.pi_pos
    simp only [sub_self, abs_zero]
    positivity

example := kspace_method_default_partial lineSplines lineSplines_exact (fun f _ => .ok f) _ _ _ _ _
  (waveDump_components "simulation_1.h5" 1 1 1) {} (Or.inr ⟨rfl, by rw [← endsSdf_iff]; decide⟩) rfl true 1

example := kspace_method_epoch_partial lineSplines lineSplines_exact (fun f _ => .ok f) _ _ _ _ _
  (waveDump_components "0001.SDF" 1 1 1) {} "B" (Or.inl ⟨rfl, Or.inr ⟨rfl, by rw [← endsSdf_iff]; decide⟩⟩) (by decide) (by decide) rfl
  rfl true 1

/-- A dump in two dimensions, of which the last two of three points along `x` are used. -/
example := kspace_method_extent_partial lineSplines lineSplines_exact (fun f _ => .ok f)
  { waveDump "0001.sdf" 1 1 1 with field := fun e _ => .ok (field32At (if e then 0 else 1) 0) } (fun e _ => field32At (if e then 0 else 1) 0)
  [3, 2] (fun e _ d => if d = 0 then (if e then 0 else 1) + 1 else 0 + 1 / 4) (fun d => if d = 0 then 2 else 1 / 2)
  ⟨fun _ _ => rfl, fun _ _ => field32At_grid _ _, by
    intro e j e' j' a _
    by_cases ha : a = 0 <;> cases e <;> cases e' <;> simp [ha] <;> norm_num⟩
  { extent := some [2, 6, 0, 1] } true 0 _ rfl fits32

example := kspace_method_solver lineSplines (fun f _ => .ok f) (waveDump "0001.SDF" 1 1 1) { solver := some "yee" } "B"
  (Or.inl ⟨rfl, Or.inr ⟨rfl, by rw [← endsSdf_iff]; decide⟩⟩) rfl rfl (by decide) [Real.pi] rfl
  (by intro i a h; rcases i with _ | i <;> simp at h; subst h; rfl) true 1

/-- In one dimension `kspace_By()` does not read `Ex`. -/
example := kspace_method_needs lineSplines (fun f _ => .ok f) (waveDump "0001.SDF" 1 1 1)
  { waveDump "0001.SDF" 1 1 1 with
    field := fun e j => if e = true ∧ j = 0 then .error .keyError else (waveDump "0001.SDF" 1 1 1).field e j } {} rfl rfl rfl rfl rfl
  false 1 _ 1 rfl rfl (by decide) (le_refl 1) (by
    intro j hj
    fin_cases j
    · exact absurd hj (by unfold Needed; decide)
    · rfl
    · rfl)

/-- C72 violated: the dump of the time step 0. The length of a time step is the time of the dump divided by its number, here 0/0, and
nothing else is tried: the result of `kspace_Ex()` ... `kspace_Bz()` consists of `nan` for the first dump of EPOCH. -/
theorem kspace_first_dump_violated (spl : Splines ℝ) (lin : Field ℝ ℂ → List ℝ → Res (Field ℝ ℂ)) (d : KspaceDump)
    (f : Bool → Fin 3 → Field ℝ ℂ) (shape : List ℕ) (x0 : Bool → Fin 3 → ℕ → ℝ) (h : ℕ → ℝ) (hd : DumpComponents d f shape x0 h)
    (hn : LooksLikeEpoch d.name) (ht : d.timestep = 0) (electric : Bool) (p : Fin 3) :
    d.kspace spl lin electric p {} = .error .undefinedBehaviour := by
  obtain ⟨fields, h1, _⟩ := components_input hd electric p
  obtain ⟨_, al, a1, a2, _⟩ := alignment_half (kw := {}) (d := d) (Or.inl ⟨rfl, Or.inr ⟨rfl, hn⟩⟩)
  unfold KspaceDump.kspace KspaceDump.dt
  rw [h1, a1]
  simp only [bind, Except.bind]
  rw [if_neg a2, if_pos ht]

example := kspace_first_dump_violated lineSplines (fun f _ => .ok f) _ _ _ _ _ (waveDump_components "0000.sdf" 0 1 1)
  (by rw [← endsSdf_iff]; decide) rfl true 1

/-- C72 violated: the result depends on the name of the dump. Two dumps with the same fields, time and time step, one of them called
`0001.sdf` (the file of a run of EPOCH), the other one renamed: the values of `kspace_Ey()` at the same wave vector differ. -/
theorem kspace_name_violated : ∃ (d : KspaceDump) (r r' : Field ℝ ℂ), d.name = "0001.sdf" ∧
    d.kspace lineSplines (fun f _ => .ok f) true 1 {} = .ok r ∧
    ({ d with name := "run" } : KspaceDump).kspace lineSplines (fun f _ => .ok f) true 1 {} = .ok r' ∧ r.axes = r'.axes ∧
    r.matrix.at' [0] ≠ r'.matrix.at' [0] := by
  have hpi := Real.pi_pos
  have hc : (0 : ℝ) < lightSpeed := by unfold lightSpeed; norm_num
  have hcc : (lightSpeed : ℂ) ≠ 0 := by exact_mod_cast hc.ne'
  let dt : ℝ := Real.pi / lightSpeed / 3
  have hdt : |lightSpeed * dt| < Real.pi := by
    have : lightSpeed * dt = Real.pi / 3 := by simp only [dt]; field_simp
    rw [this, abs_of_pos (by positivity)]
    linarith
  let m : ℂ := halfStepMean dt lightSpeed 1
  let b : ℂ := -m / lightSpeed
  obtain ⟨F, r, h1, h2, h3, h4⟩ := kspace_method_epoch_partial lineSplines lineSplines_exact (fun f _ => .ok f) _ _ _ _ _
    (waveDump_components "0001.sdf" 1 1 b) {} "B" (Or.inl ⟨rfl, Or.inr ⟨rfl, by rw [← endsSdf_iff]; decide⟩⟩) (by decide) (by decide) rfl
    rfl true 1
  obtain ⟨F', r', g1, g2, g3, g4, _⟩ := kspace_method_default_partial lineSplines lineSplines_exact (fun f _ => .ok f) _ _ _ _ _
    (waveDump_components "run" 1 1 b) {} (Or.inr ⟨rfl, by rw [← endsSdf_iff]; decide⟩) rfl true 1
  have hFF : F' = F := by
    funext e j
    exact Except.ok.inj ((g1 e j).symm.trans (h1 e j))
  subst hFF
  refine ⟨waveDump "0001.sdf" 1 1 b, r, r', rfl, h2, g2, h3.trans g3.symm, ?_⟩
  set s : ℝ := Real.pi / Real.sqrt (2 * Real.pi) with hs
  have hs0 : (s : ℂ) ≠ 0 := by
    have : 0 < s := by rw [hs]; positivity
    exact_mod_cast this.ne'
  have hk : ∀ e j, waveVector (F' e j) [0] = ![-1, 0, 0] := fun e j => (twoPoints_fft _ _ _ (h1 e j)).1
  have hv : ∀ e j, (F' e j).matrix.at' [0] = s * ((if e then (if j = 1 then 1 else 0) else if j = 2 then b else 0) - 0) :=
    fun e j => (twoPoints_fft _ _ _ (h1 e j)).2
  have hne : (![-1, 0, 0] : Fin 3 → ℝ) ≠ 0 := fun h => by simpa using congrFun h 0
  have hlin : ∀ A, halfStepMean dt lightSpeed A = A * m := by
    intro A
    simp only [m, halfStepMean, waveAt]
    ring
  have htime : (waveDump "0001.sdf" 1 1 b).time / (waveDump "0001.sdf" 1 1 b).timestep = dt := by
    simp [waveDump, dt]
  have hfast := h4 [0] freq_index ![0, s, 0] ![0, 0, -s / lightSpeed] lightSpeed (by
    rw [hk]
    simp [vacuumFrequency]) (by rw [hk]; exact hne) (by rw [htime]; exact hdt) (by
      intro j
      rw [hv]
      fin_cases j <;> simp [dumped]) (by
      intro j
      rw [hv, htime]
      have hd : ∀ A, dumped "B" false dt lightSpeed A = A * m := fun A => (if_pos rfl).trans (hlin A)
      rw [hd]
      fin_cases j
      · simp
      · simp
      · simp [b]
        ring)
  have hr : r.matrix.at' [0] = 2 * s := by
    refine (hfast.1 ?_).trans (by simp)
    rw [hk]
    constructor
    · funext d
      fin_cases d <;> simp [cross, cross_apply]
      field_simp
    · simp
  have hr' : r'.matrix.at' [0] = s + s * m := by
    rw [g4 [0] freq_index, hv, hk]
    simp only [Option.getD_none]
    simp [hv, crossFactor, cross, cross_apply, hne, omegaFree, square, b]
    field_simp
  have hm : m = (Real.sqrt 3 / 2 : ℝ) := by
    have h := dumped_div hdt "B" false 1
    have hcos : meanFactor dt lightSpeed = Real.sqrt 3 / 2 := by
      have : lightSpeed * dt / 2 = Real.pi / 6 := by simp only [dt]; field_simp; norm_num
      rw [meanFactor, this, Real.cos_pi_div_six, abs_of_nonneg (by positivity)]
    have hcor : correction "B" false dt lightSpeed = Real.sqrt 3 / 2 := (if_pos rfl).trans hcos
    have hd : dumped "B" false dt lightSpeed 1 = m := if_pos rfl
    rw [hcor, hd] at h
    have h0 : ((Real.sqrt 3 / 2 : ℝ) : ℂ) ≠ 0 := by
      have : (0 : ℝ) < Real.sqrt 3 / 2 := by positivity
      exact_mod_cast this.ne'
    exact (div_eq_one_iff_eq h0).1 h
  rw [hr, hr']
  intro h
  have h1 : m = 1 := by
    have : (s : ℂ) * (m - 1) = 0 := by linear_combination -h
    rcases mul_eq_zero.1 this with h0 | h0
    · exact absurd h0 hs0
    · linear_combination h0
  rw [hm] at h1
  have h2 : Real.sqrt 3 / 2 = 1 := by exact_mod_cast h1
  have h3 : Real.sqrt 3 ^ 2 = 3 := Real.sq_sqrt (by norm_num)
  nlinarith

end

end Postpic.Props
