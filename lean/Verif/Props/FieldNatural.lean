import Verif.Lemmas.FieldNatural
import Verif.Props.FieldMoves

/-!
# Selecting and rearranging commute with arithmetic (C114)
-/

set_option linter.unusedSectionVars false

set_option autoImplicit false

namespace Postpic.Props

open Postpic Postpic.Axes Postpic.Fields Postpic.Spec

variable {K V W : Type} [_root_.Field K] [LinearOrder K]

/-- C114: a function applied to every sample may be applied before or after: the result is the same field, or the same exception. -/
theorem rearrange_each (spl : Splines K) (u : V → W) (ops : List (Rearrangement K)) (f : Fields.Field K V) :
    rearrange spl ops (each u f) = Except.map (each u) (rearrange spl ops f) :=
  rearrange_mapped spl id id u ops f

/-- C114: nothing but the samples is used: if two fields on the same axes have related samples, so have the results, or both methods raise the
same exception. -/
theorem rearrange_related (spl : Splines K) (ops : List (Rearrangement K)) (R : V → W → Prop) {f : Fields.Field K V} {h : Fields.Field K W}
    (hf : AxesDescribe f.shape (f.axes.map Axis.len) f.ats.length f.tao.length) (hh : SameAxes f h)
    (hR : ∀ idx, InBounds f.shape idx → R (f.matrix.at' idx) (h.matrix.at' idx)) :
    BothGive (fun f' h' => SameAxes f' h' ∧ (f'.name = f.name ∧ f'.unit = f.unit) ∧ (h'.name = h.name ∧ h'.unit = h.unit) ∧
      AxesDescribe f'.shape (f'.axes.map Axis.len) f'.ats.length f'.tao.length ∧
      ∀ idx, InBounds f'.shape idx → R (f'.matrix.at' idx) (h'.matrix.at' idx)) (rearrange spl ops f) (rearrange spl ops h) := by
  have hp : placesOf h = placesOf f := by
    unfold placesOf
    rw [hh.shape, hh.axes, hh.ats, hh.tao]
  have e1 : rearrange spl ops f = _ := (congrArg _ (eq_mapped_places f)).trans (rearrange_mapped spl _ _ _ ops (placesOf f))
  have e2 : rearrange spl ops h = _ := (congrArg _ (eq_mapped_places h)).trans (rearrange_mapped spl _ _ _ ops (placesOf h))
  rw [hp] at e2
  cases hr : rearrange spl ops (placesOf f) with
  | error e =>
    rw [hr] at e1 e2
    rw [e1, e2]
    exact rfl
  | ok r =>
    rw [hr] at e1 e2
    have hpl : Places f.matrix.shape r := rearrange_places (f := placesOf f) hf (fun _ hi => hi) hr
    have hok : r.Ok := rearrange_Ok (f := placesOf f) hf hr
    rw [e1, e2]
    exact ⟨⟨rfl, rfl, rfl, rfl⟩, ⟨rfl, rfl⟩, ⟨rfl, rfl⟩, hok, fun idx hi => hR _ (hpl idx hi)⟩

/-- C114: selecting and rearranging can be done before or after an operation on two fields with the same axes: the result is the same field, and
so are the exceptions. -/
theorem rearrange_binary (spl : Splines K) (ops : List (Rearrangement K)) (g : V → V → V) {f h r : Fields.Field K V}
    (hf : AxesDescribe f.shape (f.axes.map Axis.len) f.ats.length f.tao.length) (hh : SameAxes f h) (h3 : f.shape.length ≤ 3)
    (hr : f.binary g h = .ok r) :
    match rearrange spl ops r with
    | .error e => rearrange spl ops f = .error e ∧ rearrange spl ops h = .error e
    | .ok r' => ∃ f' h', rearrange spl ops f = .ok f' ∧ rearrange spl ops h = .ok h' ∧
        (r'.shape.length ≤ 3 → ∃ q, f'.binary g h' = .ok q ∧ r'.Same q) := by
  obtain ⟨q, hq, hn, hu, hs, hd⟩ := binary_same g hf hh h3
  rw [hr] at hq
  cases hq
  let P : Fields.Field K (V × V) := ⟨"", "", ⟨f.matrix.shape, fun idx => (f.matrix.at' idx, h.matrix.at' idx)⟩, f.axes, f.ats, f.tao⟩
  have ha : ∀ {x : Fields.Field K V}, SameAxes f x → AxesDescribe x.shape (x.axes.map Axis.len) x.ats.length x.tao.length := by
    intro x hx
    unfold Field.shape
    rw [hx.shape, hx.axes, hx.ats, hx.tao]
    exact hf
  have hP : ∀ {x : Fields.Field K V}, SameAxes f x → SameAxes x P := fun hx =>
    ⟨hx.shape.symm, hx.axes.symm, hx.ats.symm, hx.tao.symm⟩
  have R1 := rearrange_related spl ops (fun (v : V) (w : V × V) => v = g w.1 w.2) (f := r) (h := P) (ha hs) (hP hs) fun idx hi => by
    unfold Field.shape at hi
    rw [hs.shape] at hi
    exact hd idx hi
  have R2 := rearrange_related spl ops (fun (v : V) (w : V × V) => v = w.1) (f := f) (h := P) hf (hP ⟨rfl, rfl, rfl, rfl⟩) fun idx hi => rfl
  have R3 := rearrange_related spl ops (fun (v : V) (w : V × V) => v = w.2) (f := h) (h := P) (ha hh) (hP hh) fun idx hi => rfl
  cases hp : rearrange spl ops P with
  | error e =>
    rw [hp] at R1 R2 R3
    cases h1 : rearrange spl ops r with
    | ok a => rw [h1] at R1; exact R1.elim
    | error e1 =>
    cases h2 : rearrange spl ops f with
    | ok a => rw [h2] at R2; exact R2.elim
    | error e2 =>
    cases h3 : rearrange spl ops h with
    | ok a => rw [h3] at R3; exact R3.elim
    | error e3 =>
    rw [h1] at R1; rw [h2] at R2; rw [h3] at R3
    have R1 : e1 = e := R1
    have R2 : e2 = e := R2
    have R3 : e3 = e := R3
    subst R1 R2 R3
    exact ⟨rfl, rfl⟩
  | ok p =>
    rw [hp] at R1 R2 R3
    cases h1 : rearrange spl ops r with
    | error a => rw [h1] at R1; exact R1.elim
    | ok r' =>
    cases h2 : rearrange spl ops f with
    | error a => rw [h2] at R2; exact R2.elim
    | ok f' =>
    cases h3 : rearrange spl ops h with
    | error a => rw [h3] at R3; exact R3.elim
    | ok h' =>
    rw [h1] at R1; rw [h2] at R2; rw [h3] at R3
    obtain ⟨s1, ⟨n1, u1⟩, -, k1, v1⟩ := R1
    obtain ⟨s2, ⟨n2, u2⟩, -, k2, v2⟩ := R2
    obtain ⟨s3, ⟨n3, u3⟩, -, k3, v3⟩ := R3
    refine ⟨f', h', rfl, rfl, fun hl => ?_⟩
    have es : r'.matrix.shape = f'.matrix.shape := s1.shape.symm.trans s2.shape
    obtain ⟨q, hq, hn', hu', hs', hd'⟩ := binary_same g (f := f') (h := h') k2
      ⟨s3.shape.symm.trans s2.shape, s3.axes.symm.trans s2.axes, s3.ats.symm.trans s2.ats, s3.tao.symm.trans s2.tao⟩
      (by unfold Field.shape; rw [← es]; exact hl)
    refine ⟨q, hq, ⟨hs'.shape.trans es.symm, fun idx hi => ?_⟩, ?_, ?_, ?_, ?_, ?_⟩
    · rw [hs'.shape] at hi
      have e1 := v1 idx (by unfold Field.shape; rw [es]; exact hi)
      have e2 := v2 idx hi
      have e3 := v3 idx (by unfold Field.shape; rw [s3.shape.symm.trans s2.shape]; exact hi)
      rw [hd' idx hi, e2, e3, e1]
    · rw [hs'.axes, ← s2.axes, s1.axes]
    · rw [hn', n2, n1, hn]
    · rw [hu', u2, u1, hu]
    · rw [hs'.ats, ← s2.ats, s1.ats]
    · rw [hs'.tao, ← s2.tao, s1.tao]

/-- C114: the same for operations with numbers. -/
theorem rearrange_number (spl : Splines K) (ops : List (Rearrangement K)) (g : V → V → V) (c : V) {f r : Fields.Field K V}
    (hf : AxesDescribe f.shape (f.axes.map Axis.len) f.ats.length f.tao.length) (h3 : f.shape.length ≤ 3)
    (hr : f.binaryNumber g c = .ok r) :
    match rearrange spl ops f with
    | .error e => rearrange spl ops r = .error e
    | .ok f' => ∃ r', rearrange spl ops r = .ok r' ∧ (f'.shape.length ≤ 3 → f'.binaryNumber g c = .ok r') := by
  have e : r = each (fun v => g v c) f := by
    have := mkField_of_eq (m := ⟨f.shape, fun idx => g (f.matrix.at' idx) c⟩) (name := f.name) (unit := f.unit) (ats := f.ats) (tao := f.tao)
      hf.lengths h3
    unfold Field.binaryNumber at hr
    rw [this] at hr
    cases hr
    rfl
  rw [e, rearrange_each]
  cases h : rearrange spl ops f with
  | error a => rfl
  | ok f' =>
    have k := rearrange_Ok hf h
    exact ⟨_, rfl, fun hl => mkField_of_eq k.lengths hl⟩

/-- `field43[2:4, :]`, rotated, the last column without its first entry, with a dimension added. -/
def someMoves : List (Rearrangement ℚ) :=
  [.getitem [.slice ⟨some 2, some 4, false⟩, .slice ⟨none, none, false⟩], .rot90 1 0 1, .getitem [.slice ⟨some 1, none, false⟩, .int (-1)], .atleastNd 2]

example : AxesDescribe field43.shape (field43.axes.map Axis.len) field43.ats.length field43.tao.length ∧ field43.shape.length ≤ 3 ∧
    SameAxes field43 { field43 with name := "Ey", matrix := ⟨[4, 3], fun idx => (idx.getD 0 0 : ℚ)⟩ } ∧
    ((rearrange midSplines someMoves field43).map fun f => (f.shape, values f, f.axes.map (·.extent))) =
      .ok ([2, 1], [301, 300], [(4, 0), (-(1 / 2), 1 / 2)]) ∧
    (((field43.binary (· + ·) { field43 with name := "Ey", matrix := ⟨[4, 3], fun idx => (idx.getD 0 0 : ℚ)⟩ }) >>= rearrange midSplines someMoves).map
      fun f => (f.name, f.shape, values f)) = .ok (field43.name, [2, 1], [304, 303]) := by
  refine ⟨⟨by decide +kernel, by decide +kernel, by decide +kernel⟩, by decide +kernel, ⟨by decide +kernel, rfl, rfl, rfl⟩, ?_, ?_⟩
  · decide +kernel
  · decide +kernel

end Postpic.Props
