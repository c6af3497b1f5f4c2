import Verif.Lemmas.Operators
import Verif.Props.FieldBroadcast
import Verif.Props.FieldReduce

/-!
# Operators and numpy functions applied to fields
-/

set_option autoImplicit false
set_option linter.unusedSectionVars false

namespace Postpic.Props

open Postpic Postpic.Axes Postpic.Fields Postpic.Spec

section
variable {K V : Type} [_root_.Field K] [LinearOrder K]

theorem num_documented {N : Ufuncs V} {M : Scalar V} (hN : Documented N M) (op : NumOp) :
    op.ufunc N = M.num op := by
  funext a b
  cases op <;> simp only [NumOp.ufunc, Scalar.num]
  · rw [hN.add]
  · rw [hN.subtract]
  · rw [hN.multiply]
  · rw [hN.true_divide]
  · rw [hN.floor_divide]
  · rw [hN.remainder]
  · rw [hN.power]
  · rw [hN.left_shift]
  · rw [hN.right_shift]
  · rw [hN.bitwise_and]
  · rw [hN.bitwise_xor]
  · rw [hN.bitwise_or]

theorem cmp_documented {N : Ufuncs V} {M : Scalar V} (hN : Documented N M) (op : CmpOp) :
    op.ufunc N = M.cmp op := by
  funext a b
  cases op <;> simp only [CmpOp.ufunc, Scalar.cmp]
  · rw [hN.less]
  · rw [hN.less_equal]
  · rw [hN.equal]
  · rw [hN.not_equal]
  · rw [hN.greater]
  · rw [hN.greater_equal]

theorem cmp_mirror (M : Scalar V) (op : CmpOp) (a b : V) : M.cmp op.mirror a b = M.cmp op b a := by
  cases op <;> simp only [Scalar.cmp, CmpOp.mirror]
  · rw [M.gt_lt]
  · rw [M.ge_le]
  · rw [M.eq_comm]
  · rw [M.ne_comm]
  · rw [← M.gt_lt]
  · rw [← M.ge_le]

/-- Accepted by one function of numpy, accepted by all, with the same axes. -/
theorem call_uniform {g : V → V → V} (g' : V → V → V) {x y : Operand K V} {r : Field K V}
    (h : ufuncCall g x y = .ok r) :
    ∃ r', ufuncCall g' x y = .ok r' ∧ r'.axes = r.axes ∧ r'.ats = r.ats ∧ r'.tao = r.tao := by
  have main : ∀ (f : Field K V) (l : Lists K) (m : Arr V), ufuncData g x y = .ok m → mkResult f m l = .ok r →
      ∃ m' r', ufuncData g' x y = .ok m' ∧ mkResult f m' l = .ok r' ∧ r'.axes = r.axes ∧ r'.ats = r.ats ∧
        r'.tao = r.tao := by
    intro f l m hm hr
    obtain ⟨a, b, ha, hb, hm⟩ := ufuncData_ok hm
    have hB := (binary_data hm).1
    obtain ⟨m', e, es⟩ : ∃ m', Arr.binary g' a b = .ok m' ∧ m'.shape = m.shape := ⟨_, binary_of hB, rfl⟩
    obtain ⟨h3, h4, -⟩ := mkResult_ok hr
    refine ⟨m', ⟨f.name, f.unit, m', r.axes, l.ats, l.tao⟩, ?_, ?_, rfl, by rw [h3], by rw [h3]⟩
    · unfold ufuncData
      rw [ha, hb]
      exact e
    · unfold mkResult at hr ⊢
      rw [es]
      by_cases h1 : l.axes.length < m.shape.length
      · rw [if_pos h1] at hr; cases hr
      · rw [if_neg h1] at hr ⊢
        obtain ⟨axs, h5, h6⟩ := bind_ok hr
        simp only [h5]
        cases h6
        rfl
  unfold ufuncCall at h ⊢
  by_cases hh : (!x.handled || !y.handled) = true
  · rw [if_pos hh] at h; cases h
  · rw [if_neg hh] at h ⊢
    split at h
    · obtain ⟨l, h0, h⟩ := bind_ok h
      obtain ⟨m, h1, h⟩ := bind_ok h
      obtain ⟨m', r', h2, h3, h4⟩ := main _ _ _ h1 h
      simp only [h0, h2]
      exact ⟨r', h3, h4⟩
    · obtain ⟨l, h0, h⟩ := bind_ok h
      obtain ⟨m, h1, h⟩ := bind_ok h
      obtain ⟨m', r', h2, h3, h4⟩ := main _ _ _ h1 h
      simp only [h0, h2]
      exact ⟨r', h3, h4⟩
    · cases h

/-- C89: what an operator returns is the operator applied entry by entry, in the order in which the operands are
written, also if the field stands on the right; the axes describe the result. -/
theorem operator_entries {N : Ufuncs V} {M : Scalar V} (hN : Documented N M) (op : NumOp) (x y : Operand K V)
    (r : Field K V) (h : numOp N op x y = .ok r) :
    EntryByEntry (M.num op) x y r ∧ r.axes.map Axis.len = r.shape := by
  unfold numOp at h
  rw [← num_documented hN op]
  split at h
  · exact ufuncCall_ok h
  · exact ufuncCall_ok h
  · exact ufuncCall_ok h
  · cases h

/-- C89: the same for comparisons. -/
theorem comparison_entries {N : Ufuncs V} {M : Scalar V} (hN : Documented N M) (op : CmpOp) (x y : Operand K V)
    (r : Field K V) (h : cmpOp N op x y = .ok r) :
    EntryByEntry (M.cmp op) x y r ∧ r.axes.map Axis.len = r.shape := by
  unfold cmpOp at h
  split at h
  · rw [cmp_documented hN] at h
    exact ufuncCall_ok h
  · rw [cmp_documented hN] at h
    exact ufuncCall_ok h
  · rename_i f hx _
    rw [cmp_documented hN] at h
    obtain ⟨⟨⟨s, t, hs, ht, hB⟩, hv, ⟨f', hf', hl⟩⟩, hax⟩ := ufuncCall_ok h
    refine ⟨⟨⟨t, s, ht, hs, broadcast_comm hB⟩, ?_, ?_⟩, hax⟩
    · intro idx hidx
      obtain ⟨a, b, ha, hb, e⟩ := hv idx hidx
      exact ⟨b, a, hb, ha, by rw [e, cmp_mirror]⟩
    · cases hf' with
      | left => exact ⟨f, .right _ _ hx, hl⟩
      | right _ _ h0 => exact absurd rfl (h0 f)
  · cases h

/-- An operand which does not stretch the field: a number, or an array with a shape that is broadcast to that of the
field. -/
inductive Plain (f : Field K V) : Operand K V → Prop where
  | number (c : V) : Plain f (.number c)
  | array (a : Arr V) : Broadcast f.shape a.shape f.shape → Plain f (.array a)

theorem plain_call (g : V → V → V) (f : Field K V)
    (hf : AxesDescribe f.shape (f.axes.map Axis.len) f.ats.length f.tao.length) (hf3 : f.shape.length ≤ 3)
    (x : Operand K V) (hx : Plain f x) :
    (∃ r, ufuncCall g (.field f) x = .ok r ∧ r.axes = f.axes ∧ r.ats = f.ats ∧ r.tao = f.tao ∧ r.shape = f.shape) ∧
    (∃ r, ufuncCall g x (.field f) = .ok r ∧ r.axes = f.axes ∧ r.ats = f.ats ∧ r.tao = f.tao ∧ r.shape = f.shape) := by
  have hl := ok_axes_length hf
  have lists : f.binaryLists x = .ok ⟨f.axes.map some, f.ats, f.tao⟩ := by
    cases hx with
    | number c => rfl
    | array a hB =>
      have := hB.1
      rw [binaryLists_array hf, if_neg (by omega)]
  obtain ⟨b, hd, hB⟩ : ∃ b, x.data = some b ∧ Broadcast f.shape b.shape f.shape := by
    cases hx with
    | number c => exact ⟨_, rfl, broadcast_nil_right _⟩
    | array a hB => exact ⟨a, rfl, hB⟩
  have hh : x.handled = true := by cases hx <;> rfl
  have d1 : ∃ m, ufuncData g (.field f) x = .ok m ∧ m.shape = f.shape := by
    unfold ufuncData
    rw [hd]
    exact ⟨_, binary_of hB, rfl⟩
  have d2 : ∃ m, ufuncData g x (.field f) = .ok m ∧ m.shape = f.shape := by
    unfold ufuncData
    rw [hd]
    exact ⟨_, binary_of (broadcast_comm hB), rfl⟩
  have fin : ∀ m : Arr V, m.shape = f.shape → ∃ r, mkResult f m ⟨f.axes.map some, f.ats, f.tao⟩ = .ok r ∧
      r.axes = f.axes ∧ r.ats = f.ats ∧ r.tao = f.tao ∧ r.shape = f.shape := by
    intro m hm
    rw [mkResult_some]
    exact ⟨_, mkField_of_eq (by rw [hm]; exact hf.lengths) (by rw [hm]; exact hf3), rfl, rfl, rfl, hm⟩
  constructor
  · obtain ⟨m, h1, h2⟩ := d1
    obtain ⟨r, h3, h4⟩ := fin m h2
    refine ⟨r, ?_, h4⟩
    unfold ufuncCall
    simp only [handled_field, hh, lists, h1, bind, Except.bind, Bool.not_true, Bool.or_self,
      Bool.false_eq_true, if_false, h3]
  · obtain ⟨m, h1, h2⟩ := d2
    obtain ⟨r, h3, h4⟩ := fin m h2
    refine ⟨r, ?_, h4⟩
    unfold ufuncCall
    cases hx with
    | number c =>
      simp only [Operand.handled, lists, h1, bind, Except.bind, Bool.not_true, Bool.or_self,
        Bool.false_eq_true, if_false, h3]
    | array a hB =>
      simp only [Operand.handled, lists, h1, bind, Except.bind, Bool.not_true, Bool.or_self,
        Bool.false_eq_true, if_false, h3]

/-- C89: operators are accepted for fields which numpy can broadcast, and for numbers and arrays which do not stretch
the field; in the latter case the axes are those of the field. Partial: up to three dimensions; arrays which stretch the
field are refused (`broadcast_array_stretch_violated`). -/
theorem operator_accepts_partial (N : Ufuncs V) (op : NumOp) (f h : Field K V)
    (hf : AxesDescribe f.shape (f.axes.map Axis.len) f.ats.length f.tao.length)
    (hh : AxesDescribe h.shape (h.axes.map Axis.len) h.ats.length h.tao.length)
    (hf3 : f.shape.length ≤ 3) (hh3 : h.shape.length ≤ 3) :
    ((∃ r, numOp N op (.field f) (.field h) = .ok r) ↔ ∃ s, Broadcast f.shape h.shape s) ∧
    ∀ x, Plain f x →
      (∃ r, numOp N op (.field f) x = .ok r ∧ r.axes = f.axes ∧ r.ats = f.ats ∧ r.tao = f.tao) ∧
      (∃ r, numOp N op x (.field f) = .ok r ∧ r.axes = f.axes ∧ r.ats = f.ats ∧ r.tao = f.tao) := by
  constructor
  · simp only [numOp, ufuncCall_fields]
    exact broadcast_accepts_partial _ f h hf hh hf3 hh3
  · intro x hx
    obtain ⟨⟨r, h1, h2, h3, h4, -⟩, ⟨r', h1', h2', h3', h4', -⟩⟩ := plain_call (op.ufunc N) f hf hf3 x hx
    refine ⟨⟨r, h1, h2, h3, h4⟩, ⟨r', ?_, h2', h3', h4'⟩⟩
    cases hx <;> exact h1'

/-- C89: the same for comparisons. -/
theorem comparison_accepts_partial (N : Ufuncs V) (op : CmpOp) (f h : Field K V)
    (hf : AxesDescribe f.shape (f.axes.map Axis.len) f.ats.length f.tao.length)
    (hh : AxesDescribe h.shape (h.axes.map Axis.len) h.ats.length h.tao.length)
    (hf3 : f.shape.length ≤ 3) (hh3 : h.shape.length ≤ 3) :
    ((∃ r, cmpOp N op (.field f) (.field h) = .ok r) ↔ ∃ s, Broadcast f.shape h.shape s) ∧
    ∀ x, Plain f x →
      (∃ r, cmpOp N op (.field f) x = .ok r ∧ r.axes = f.axes ∧ r.ats = f.ats ∧ r.tao = f.tao) ∧
      (∃ r, cmpOp N op x (.field f) = .ok r ∧ r.axes = f.axes ∧ r.ats = f.ats ∧ r.tao = f.tao) := by
  constructor
  · simp only [cmpOp, ufuncCall_fields]
    exact broadcast_accepts_partial _ f h hf hh hf3 hh3
  · intro x hx
    obtain ⟨⟨r, h1, h2, h3, h4, -⟩, ⟨r', h1', h2', h3', h4', -⟩⟩ := plain_call (op.ufunc N) f hf hf3 x hx
    obtain ⟨⟨r'', h1'', h2'', h3'', h4'', -⟩, -⟩ := plain_call (op.mirror.ufunc N) f hf hf3 x hx
    refine ⟨⟨r, h1, h2, h3, h4⟩, ?_⟩
    cases hx with
    | number c => exact ⟨r'', h1'', h2'', h3'', h4''⟩
    | array a hB => exact ⟨r', h1', h2', h3', h4'⟩

/-- C89: two fields: every axis of the result is the axis of an operand which is not stretched there (so all statements
of C23 hold for the operators). -/
theorem operator_axes (N : Ufuncs V) (op : NumOp) (f h r : Field K V)
    (hf : AxesDescribe f.shape (f.axes.map Axis.len) f.ats.length f.tao.length)
    (hh : AxesDescribe h.shape (h.axes.map Axis.len) h.ats.length h.tao.length)
    (hr : numOp N op (.field f) (.field h) = .ok r) (k : ℕ) (ax : Axis K) (hax : r.axes.reverse[k]? = some ax) :
    (f.axes.reverse[k]? = some ax ∨ h.axes.reverse[k]? = some ax) ∧
      (f.axes.reverse[k]? ≠ some ax → alignedLength f.shape k = 1) := by
  simp only [numOp, ufuncCall_fields] at hr
  exact (broadcast_result _ f h r hf hh hr).2.2 k ax hax

/-- C89: operands which are neither fields nor arrays nor numbers are refused on both sides, also in comparisons. -/
theorem operator_refuses_other (N : Ufuncs V) (op : NumOp) (c : CmpOp) (f : Field K V) :
    numOp N op (.field f) .other = .error .typeError ∧ numOp N op .other (.field f) = .error .typeError ∧
    cmpOp N c (.field f) .other = .error .typeError ∧ cmpOp N c .other (.field f) = .error .typeError ∧
    inplaceOp N op f .other = .error .typeError :=
  ⟨rfl, rfl, rfl, rfl, rfl⟩

/-- C89: unary operators keep everything but the values. -/
theorem unary_entries {N : Ufuncs V} {M : Scalar V} (hN : Documented N M) (op : UnOp) (f : Field K V)
    (hf : AxesDescribe f.shape (f.axes.map Axis.len) f.ats.length f.tao.length) (hf3 : f.shape.length ≤ 3) :
    ∃ r, unOp N op f = .ok r ∧ f.SameRest r ∧ r.axes = f.axes ∧ r.shape = f.shape ∧
      ∀ idx, r.matrix.at' idx = M.un op (f.matrix.at' idx) := by
  refine ⟨⟨f.name, f.unit, ⟨f.shape, fun idx => op.ufunc N (f.matrix.at' idx)⟩, f.axes, f.ats, f.tao⟩, ?_,
    ⟨rfl, rfl, rfl, rfl⟩, rfl, rfl, ?_⟩
  · unfold unOp ufuncCall1
    rw [mkResult_some]
    exact mkField_of_eq hf.lengths hf3
  · intro idx
    cases op <;> simp only [UnOp.ufunc, Scalar.un]
    · rw [hN.negative]
    · rw [hN.positive]
    · rw [hN.absolute]
    · rw [hN.invert]

/-- C89: `divmod` is accepted exactly if `//` is, and gives the results of `//` and `%` with the same axes. -/
theorem divmod_entries {N : Ufuncs V} {M : Scalar V} (hN : Documented N M) (x y : Operand K V) :
    ((∃ p, divmodOp N x y = .ok p) ↔ ∃ r, numOp N .floordiv x y = .ok r) ∧
    ∀ p, divmodOp N x y = .ok p → EntryByEntry M.floordiv x y p.1 ∧ EntryByEntry M.mod x y p.2 ∧
      p.1.axes = p.2.axes ∧ p.1.ats = p.2.ats ∧ p.1.tao = p.2.tao := by
  have e : divmodOp N x y = (match x, y with
      | .field f, y => ufuncCallPair N.divmod (.field f) y
      | x, .field f => ufuncCallPair N.divmod x (.field f)
      | _, _ => .error .undefinedBehaviour) := rfl
  have e1 : (fun a b => (N.divmod a b).1) = N.floor_divide := by
    funext a b; rw [hN.divmod, hN.floor_divide]
  have e2 : (fun a b => (N.divmod a b).2) = N.remainder := by
    funext a b; rw [hN.divmod, hN.remainder]
  have pair : ∀ x y : Operand K V, ((∃ p, ufuncCallPair N.divmod x y = .ok p) ↔
        ∃ r, ufuncCall N.floor_divide x y = .ok r) ∧
      ∀ p, ufuncCallPair N.divmod x y = .ok p → EntryByEntry M.floordiv x y p.1 ∧ EntryByEntry M.mod x y p.2 ∧
        p.1.axes = p.2.axes ∧ p.1.ats = p.2.ats ∧ p.1.tao = p.2.tao := by
    intro x y
    unfold ufuncCallPair
    rw [e1, e2]
    constructor
    · constructor
      · rintro ⟨p, hp⟩
        obtain ⟨r, hr, -⟩ := bind_ok hp
        exact ⟨r, hr⟩
      · rintro ⟨r, hr⟩
        obtain ⟨s, hs, -⟩ := call_uniform N.remainder hr
        exact ⟨(r, s), by rw [hr, hs]; rfl⟩
    · intro p hp
      obtain ⟨r, hr, hp⟩ := bind_ok hp
      obtain ⟨s, hs, hp⟩ := bind_ok hp
      cases hp
      obtain ⟨s', hs', h1, h2, h3⟩ := call_uniform N.remainder hr
      rw [hs] at hs'
      cases hs'
      refine ⟨?_, ?_, h1.symm, h2.symm, h3.symm⟩
      · rw [← hN.floor_divide]; exact (ufuncCall_ok hr).1
      · rw [← hN.remainder]; exact (ufuncCall_ok hs).1
  cases x with
  | field f => exact pair (.field f) y
  | array a =>
    cases y with
    | field f => exact pair (.array a) (.field f)
    | _ => exact ⟨by simp [divmodOp, numOp], fun p hp => by cases hp⟩
  | number c =>
    cases y with
    | field f => exact pair (.number c) (.field f)
    | _ => exact ⟨by simp [divmodOp, numOp], fun p hp => by cases hp⟩
  | other =>
    cases y with
    | field f => exact pair .other (.field f)
    | _ => exact ⟨by simp [divmodOp, numOp], fun p hp => by cases hp⟩

/-! ### In place -/

/-- C90: `f op= y` is accepted exactly if `y` does not stretch `f`, in any number of dimensions. -/
theorem inplace_accepts (N : Ufuncs V) (op : NumOp) (f : Field K V) (y : Operand K V) :
    (∃ r, inplaceOp N op f y = .ok r) ↔ ∃ t, HasShape y t ∧ Broadcast f.shape t f.shape := by
  unfold inplaceOp ufuncInplace
  constructor
  · rintro ⟨r, hr⟩
    split_ifs at hr
    obtain ⟨m, hm, hr⟩ := bind_ok hr
    obtain ⟨a, b, ha, hb, hm⟩ := ufuncData_ok hm
    cases ha
    have hB := (binary_data hm).1
    by_cases hs : m.shape = f.shape
    · exact ⟨_, data_shape hb, by rw [hs] at hB; exact hB⟩
    · rw [if_neg hs] at hr; cases hr
  · rintro ⟨t, ht, hB⟩
    have key : ∀ b : Arr V, y.data = some b → b.shape = t → y.handled = true →
        ∃ r, (if (!y.handled) = true then Except.error Err.typeError else do
          let m ← ufuncData (op.ufunc N) (.field f) y
          if m.shape = f.shape then return { f with matrix := m } else throw Err.valueError : Res (Field K V)) =
            .ok r := by
      intro b hb ht hh
      subst ht
      rw [ufuncData_of (a := f.matrix) rfl hb, binary_of (s := f.shape) hB, hh]
      simp only [bind, Except.bind, Bool.not_true, Bool.false_eq_true, if_false, if_true]
      exact ⟨_, rfl⟩
    cases ht with
    | field h => exact key _ rfl rfl rfl
    | array a => exact key _ rfl rfl rfl
    | number c => exact key _ rfl rfl rfl

/-- C90: the field keeps name, unit, axes, domains and origins; its values are those of `f op y`. -/
theorem inplace_result {N : Ufuncs V} {M : Scalar V} (hN : Documented N M) (op : NumOp) (f r : Field K V)
    (y : Operand K V) (h : inplaceOp N op f y = .ok r) :
    f.SameRest r ∧ r.axes = f.axes ∧ r.shape = f.shape ∧ EntryByEntry (M.num op) (.field f) y r := by
  unfold inplaceOp ufuncInplace at h
  rw [num_documented hN] at h
  split_ifs at h
  obtain ⟨m, hm, h⟩ := bind_ok h
  obtain ⟨a, b, ha, hb, hm⟩ := ufuncData_ok hm
  cases ha
  obtain ⟨hB, hv⟩ := binary_data hm
  by_cases hs : m.shape = f.shape
  · rw [if_pos hs] at h
    cases h
    refine ⟨⟨rfl, rfl, rfl, rfl⟩, rfl, hs, ⟨_, _, .field f, data_shape hb, hB⟩, ?_, ⟨f, .left _ _, rfl, rfl⟩⟩
    intro idx hidx
    have hl : idx.length = m.shape.length := hidx.1
    have h1 := hB.1
    exact ⟨_, _, .field f _ _ (bindex_spec (by omega)), data_entry hb (by omega), hv idx⟩
  · rw [if_neg hs] at h; cases h

/-- C90: if `f op y` has the shape of `f`, then `f op= y` is accepted and leaves `f` with the data, the name, the unit
and the axes of `f op y`. Partial: domains and origins can differ (`inplace_states_violated`). -/
theorem inplace_as_operator_partial (N : Ufuncs V) (op : NumOp) (f r : Field K V) (y : Operand K V)
    (hf : AxesDescribe f.shape (f.axes.map Axis.len) f.ats.length f.tao.length)
    (hy : ∀ h, y = .field h → AxesDescribe h.shape (h.axes.map Axis.len) h.ats.length h.tao.length)
    (h : numOp N op (.field f) y = .ok r) (hs : r.shape = f.shape) :
    inplaceOp N op f y = .ok { f with matrix := r.matrix } ∧ r.name = f.name ∧ r.unit = f.unit ∧ r.axes = f.axes := by
  have h0 : ufuncCall (op.ufunc N) (.field f) y = .ok r := h
  have h' := h0
  unfold ufuncCall at h'
  by_cases hh : y.handled = true
  swap
  · simp [hh, handled_field] at h'
  rw [if_neg (by simp [hh, handled_field])] at h'
  obtain ⟨l, hl, h'⟩ := bind_ok h'
  obtain ⟨m, hm, h'⟩ := bind_ok h'
  obtain ⟨h3, h4, h5⟩ := mkResult_ok h'
  have em : r.matrix = m := by rw [h3]
  refine ⟨?_, by rw [h3], by rw [h3], ?_⟩
  · unfold inplaceOp ufuncInplace
    rw [if_neg (by simp [hh]), hm]
    simp only [bind, Except.bind]
    rw [if_pos (by rw [← em]; exact hs), em]
    rfl
  · have inj : Function.Injective (List.map (some : Axis K → Option (Axis K))) :=
      List.map_injective_iff.2 (Option.some_injective _)
    apply inj
    rw [← h4]
    cases y with
    | number c => cases hl; rfl
    | array a =>
      rw [binaryLists_array hf] at hl
      cases hl
      obtain ⟨x, b, hx, hb, hm⟩ := ufuncData_ok hm
      cases hx
      cases hb
      have h1 := (binary_data hm).1.1
      have h2 := ok_axes_length hf
      have h6 : m.shape.length = f.shape.length := by rw [← em]; exact congrArg List.length hs
      have h7 : f.matrix.shape.length = f.shape.length := rfl
      rw [if_neg (by omega)]
    | other => cases hh
    | field g =>
      rw [ufuncCall_fields] at h0
      obtain ⟨hB, -, hax⟩ := broadcast_result _ f g r hf (hy g rfl) h0
      rw [h4]
      congr 1
      have hlr : r.axes.length = f.axes.length := by
        have e1 := ok_axes_length hf
        have e2 := congrArg List.length h5
        rw [List.length_map, ← em] at e2
        have e3 : r.matrix.shape.length = f.shape.length := congrArg List.length hs
        omega
      rw [← List.reverse_inj]
      obtain ⟨mm, hmm, hr⟩ := bind_ok h0
      obtain ⟨aa, haa, hr⟩ := bind_ok hr
      obtain ⟨rfl, -⟩ := mkField_ok hr
      apply List.ext_getElem?
      intro k
      simp only [List.map_reverse, List.reverse_reverse]
      have key := binaryMetaRev_axis hmm k
      rw [List.getElem?_map, key]
      have em' : ∀ (q : Field K V), AxesDescribe q.shape (q.axes.map Axis.len) q.ats.length q.tao.length →
          q.axes.reverse[k]? = (q.metas.reverse[k]?).map (fun m => m.1) := by
        intro q hq
        rw [← List.getElem?_map, List.map_reverse]
        unfold Field.metas
        rw [List.map_fst_zip]
        have h1 := ok_axes_length hq
        have h2 := hq.states
        have h3 := hq.origins
        rw [List.length_zip]
        omega
      have el : ∀ (q : Field K V) (_ : AxesDescribe q.shape (q.axes.map Axis.len) q.ats.length q.tao.length) x,
          q.metas.reverse[k]? = some x → alignedLength q.shape k = x.1.len := by
        intro q hq x hx
        unfold alignedLength
        have h1 : q.shape.reverse[k]? = some x.1.len := by
          rw [← metas_lens hq, ← List.map_reverse, List.getElem?_map, hx]
          rfl
        rw [List.getD_eq_getElem?_getD, h1]
        rfl
      have hBk := hB.2 k
      rw [hs] at hBk
      rw [em' f hf]
      cases hfk : f.metas.reverse[k]? with
      | none =>
        cases hgk : g.metas.reverse[k]? with
        | none => rfl
        | some y =>
          exfalso
          have n1 : f.metas.reverse.length ≤ k := List.getElem?_eq_none_iff.1 hfk
          have n2 : k < g.metas.reverse.length := (List.getElem?_eq_some_iff.1 hgk).1
          have n3 : f.metas.length = f.shape.length := by rw [← metas_lens hf, List.length_map]
          have n4 : g.metas.length = g.shape.length := by rw [← metas_lens (hy g rfl), List.length_map]
          have n5 := hB.1
          rw [hs] at n5
          simp only [List.length_reverse] at n1 n2
          omega
      | some x =>
        cases hgk : g.metas.reverse[k]? with
        | none => rfl
        | some y =>
          simp only [Option.map_some]
          rw [if_pos]
          have a1 := el f hf x hfk
          have a2 := el g (hy g rfl) y hgk
          rw [a1, a2] at hBk
          omega

/-! ### Methods of ufuncs -/

section
variable [IsStrictOrderedRing K]

/-- C91: `ufunc.reduce` with a list of different axes, or one axis, does what the method of the field does (see C49); the
default is the first axis. -/
theorem ufunc_reduce_method (spl : Splines K) (red : List V → V) (f : Field K V) (l : List ℤ) (hl : l.Nodup) :
    ((∃ r, ufuncReduce red f (.these l) false = .ok r) ↔ ∃ r, f.reduce spl red (some l) false = .ok r) ∧
    (∀ r, ufuncReduce red f (.these l) false = .ok r → f.reduce spl red (some l) false = .ok r) ∧
    ufuncReduce red f .absent false = ufuncReduce red f (.these [0]) false := by
  have e : ∀ r, ufuncReduce red f (.these l) false = .ok r ↔ f.reduce spl red (some l) false = .ok r := by
    intro r
    unfold ufuncReduce Field.reduce
    simp only [ReduceAxis.list, ReduceAxis.numpy, List.dedup_eq_self.2 hl, Option.getD_some, Bool.false_eq_true, if_false]
    cases delAll f.axes (sortDesc l) with
    | error e => simp [bind, Except.bind]
    | ok axs =>
      cases delAll f.ats (sortDesc l) with
      | error e => cases delAll f.tao (sortDesc l) <;> simp [bind, Except.bind]
      | ok ats =>
        cases delAll f.tao (sortDesc l) with
        | error e => simp [bind, Except.bind]
        | ok tao =>
          cases normAxes f.shape.length (some l) with
          | error e => simp [bind, Except.bind]
          | ok sel => simp only [bind, Except.bind, mkResult_some]
  exact ⟨⟨fun ⟨r, hr⟩ => ⟨r, (e r).1 hr⟩, fun ⟨r, hr⟩ => ⟨r, (e r).2 hr⟩⟩, fun r => (e r).1, rfl⟩

/-- C91: with `axis=None` everything is reduced, as by the method. -/
theorem ufunc_reduce_all (spl : Splines K) (red : List V → V) (f : Field K V) (hf : f.Sound) :
    ∃ r, ufuncReduce red f .all false = .ok r ∧ f.reduce spl red none false = .ok r := by
  obtain ⟨r, hr, -⟩ := reduce_all spl red f hf
  refine ⟨r, ?_, hr⟩
  have hd : f.rangeDims = (List.range f.axes.length).map Int.ofNat := by
    unfold Field.rangeDims
    rw [dims_sound hf, Int.toNat_natCast, ok_axes_length hf.ok]
  have hn : ((List.range f.axes.length).map Int.ofNat).dedup = (List.range f.axes.length).map Int.ofNat := by
    rw [List.dedup_eq_self]
    exact List.nodup_range.map Int.ofNat_injective
  unfold Field.reduce at hr
  simp only [Option.getD_none, hd, Bool.false_eq_true, if_false] at hr
  obtain ⟨axs, h1, hr⟩ := bind_ok hr
  obtain ⟨tao, h2, hr⟩ := bind_ok hr
  obtain ⟨ats, h3, hr⟩ := bind_ok hr
  obtain ⟨sel, h4, hr⟩ := bind_ok hr
  unfold ufuncReduce
  simp only [ReduceAxis.list, ReduceAxis.numpy, hn, h1, h2, h3, h4, bind, Except.bind, Bool.false_eq_true, if_false,
    mkResult_some]
  exact hr

/-- C91 fails for `keepdims`: every field refuses it, although the methods of fields and numpy accept it. -/
theorem ufunc_reduce_keepdims_violated (red : List V → V) (f : Field K V) (hf : f.Sound) (l : List ℕ) (hl : l.Nodup)
    (h0 : l ≠ []) (hb : ∀ i ∈ l, i < f.shape.length) :
    ufuncReduce red f (.these (l.map Int.ofNat)) true = .error .valueError := by
  have hn : (l.map Int.ofNat).dedup = l.map Int.ofNat := by
    rw [List.dedup_eq_self]
    exact hl.map Int.ofNat_injective
  have la := ok_axes_length hf.ok
  have ls := hf.ok.states
  have lo := hf.ok.origins
  have hnorm : normAxes f.shape.length (some (l.map Int.ofNat)) = .ok (flags f.shape.length l) := by
    rw [normAxes_of (p := l) _ hl]
    rw [List.forall₂_map_left_iff, List.forall₂_same]
    intro i hi
    exact pyIdx_nat (hb i hi)
  unfold ufuncReduce
  simp only [ReduceAxis.list, ReduceAxis.numpy, hn, hnorm]
  rw [delAll_nat hl (by rw [la]; exact hb), delAll_nat hl (by rw [ls]; exact hb), delAll_nat hl (by rw [lo]; exact hb)]
  simp only [bind, Except.bind, if_true]
  unfold mkResult
  rw [if_pos]
  have hlen := delAll_length (delAll_nat (l := f.axes) hl (by rw [la]; exact hb))
  have hpos : 0 < l.length := List.length_pos_iff.2 h0
  have hsd : (sortDesc (l.map Int.ofNat)).length = l.length := by
    unfold sortDesc
    rw [List.length_reverse, List.length_insertionSort, List.length_map]
  rw [hsd] at hlen
  have hf' : (flags f.shape.length l).length = f.shape.length := flags_length _ _
  show (List.map some (unflagged (flags f.axes.length l) f.axes)).length <
    (List.zipWith (fun s n => if s = true then 1 else n) (flags f.shape.length l) f.matrix.shape).length
  rw [List.length_map, List.length_zipWith, hf']
  have : f.matrix.shape.length = f.shape.length := rfl
  omega

end

/-- C91: `ufunc.outer` of fields and numbers: the dimensions, axes, domains and origins of the first are followed by
those of the second. Partial: up to three dimensions altogether; plain arrays are refused
(`ufunc_outer_array_violated`). -/
theorem ufunc_outer_partial (g : V → V → V) (f h : Field K V) (c : V)
    (hf : AxesDescribe f.shape (f.axes.map Axis.len) f.ats.length f.tao.length)
    (hh : AxesDescribe h.shape (h.axes.map Axis.len) h.ats.length h.tao.length)
    (h3 : f.shape.length + h.shape.length ≤ 3) :
    (∃ r, ufuncOuter g (.field f) (.field h) = .ok r ∧ r.name = f.name ∧ r.unit = f.unit ∧
      r.shape = f.shape ++ h.shape ∧ r.axes = f.axes ++ h.axes ∧ r.ats = f.ats ++ h.ats ∧ r.tao = f.tao ++ h.tao ∧
      ∀ i j, InBounds f.shape i → InBounds h.shape j → r.matrix.at' (i ++ j) = g (f.matrix.at' i) (h.matrix.at' j)) ∧
    (∃ r, ufuncOuter g (.field f) (.number c) = .ok r ∧ f.SameRest r ∧ r.axes = f.axes ∧ r.shape = f.shape ∧
      ∀ i, InBounds f.shape i → r.matrix.at' i = g (f.matrix.at' i) c) ∧
    (∃ r, ufuncOuter g (.number c) (.field f) = .ok r ∧ f.SameRest r ∧ r.axes = f.axes ∧ r.shape = f.shape ∧
      ∀ i, InBounds f.shape i → r.matrix.at' i = g c (f.matrix.at' i)) := by
  have take_eq : ∀ (s i : List ℕ), InBounds s i → i.take s.length = i := by
    intro s i hi
    exact List.take_of_length_le (by rw [hi.1])
  refine ⟨⟨⟨f.name, f.unit, Arr.outer g f.matrix h.matrix, f.axes ++ h.axes, f.ats ++ h.ats, f.tao ++ h.tao⟩, ?_, rfl,
    rfl, rfl, rfl, rfl, rfl, ?_⟩,
    ⟨⟨f.name, f.unit, Arr.outer g f.matrix ⟨[], fun _ => c⟩, f.axes, f.ats, f.tao⟩, ?_, ⟨rfl, rfl, rfl, rfl⟩, rfl,
      ?_, ?_⟩,
    ⟨⟨f.name, f.unit, Arr.outer g ⟨[], fun _ => c⟩ f.matrix, f.axes, f.ats, f.tao⟩, ?_, ⟨rfl, rfl, rfl, rfl⟩, rfl,
      ?_, ?_⟩⟩
  · have : ufuncOuter g (.field f) (.field h) = mkResult f (Arr.outer g f.matrix h.matrix)
        ⟨f.axes.map some ++ h.axes.map some, f.ats ++ h.ats, f.tao ++ h.tao⟩ := rfl
    rw [this, ← List.map_append, mkResult_some]
    refine mkField_of_eq ?_ ?_
    · rw [List.map_append, hf.lengths, hh.lengths]; rfl
    · show (f.shape ++ h.shape).length ≤ 3
      rw [List.length_append]; exact h3
  · intro i j hi hj
    have h1 : i.length = f.matrix.shape.length := hi.1
    simp only [Arr.outer]
    rw [← h1, List.take_left, List.drop_left]
  · have : ufuncOuter g (.field f) (.number c) = mkResult f (Arr.outer g f.matrix ⟨[], fun _ => c⟩)
        ⟨f.axes.map some ++ [], f.ats ++ [], f.tao ++ []⟩ := rfl
    rw [this, List.append_nil, List.append_nil, List.append_nil, mkResult_some]
    refine mkField_of_eq ?_ ?_
    · rw [hf.lengths]; exact (List.append_nil _).symm
    · show (f.shape ++ []).length ≤ 3
      rw [List.append_nil]; omega
  · exact List.append_nil _
  · intro i hi
    simp only [Arr.outer]
    rw [take_eq f.matrix.shape i hi]
  · have : ufuncOuter g (.number c) (.field f) = mkResult f (Arr.outer g ⟨[], fun _ => c⟩ f.matrix)
        ⟨f.axes.map some, f.ats, f.tao⟩ := rfl
    rw [this, mkResult_some]
    refine mkField_of_eq hf.lengths ?_
    show f.shape.length ≤ 3
    omega
  · rfl
  · intro i hi
    rfl

/-- C91 fails for plain arrays: every field refuses them in `ufunc.outer`, in both orders, although numpy's rules give a
result and the code intends to give them axes from 0 to 1. -/
theorem ufunc_outer_array_violated (g : V → V → V) (f : Field K V) (a : Arr V) (ha : a.shape ≠ []) :
    ufuncOuter g (.field f) (.array a) = .error .attributeError ∧
    ufuncOuter g (.array a) (.field f) = .error .attributeError := by
  constructor <;> simp [ufuncOuter, Operand.handled, outerLists, ha, bind, Except.bind]

/-- C92: a numpy function which keeps the shape and the positions gives a field with the same axes; a result with
another number of dimensions is returned as a plain array; if a field is returned, its axes have the lengths of its
data. Partial: see `wrap_lengths_violated` and `wrap_positions_violated`. -/
theorem wrap_partial (f : Field K V) (a : Arr V)
    (hf : AxesDescribe f.shape (f.axes.map Axis.len) f.ats.length f.tao.length) (hf3 : f.shape.length ≤ 3) :
    (a.shape = f.shape → arrayWrap f a = .ok (.field { f with matrix := a })) ∧
    (a.shape.length ≠ f.shape.length → arrayWrap f a = .ok (.array a)) ∧
    (∀ r, arrayWrap f a = .ok (.field r) → r = { f with matrix := a } ∧ r.axes.map Axis.len = a.shape) := by
  have hl := ok_axes_length hf
  refine ⟨fun h => ?_, fun h => ?_, fun r h => ?_⟩
  · unfold arrayWrap
    rw [if_pos (by rw [h, hl]), mkResult_some, mkField_of_eq (by rw [h]; exact hf.lengths) (by rw [h]; exact hf3)]
    rfl
  · unfold arrayWrap
    rw [if_neg (by rw [hl]; exact h)]
  · unfold arrayWrap at h
    split_ifs at h
    · rw [mkResult_some] at h
      obtain ⟨r', h1, h⟩ := bind_ok h
      cases h
      obtain ⟨h2, h3⟩ := mkField_ok h1
      rw [h2]
      exact ⟨rfl, h3⟩
    · cases h

end

/-! ### Examples -/

/-- The operators of python for rational numbers; those for integers only are given some meaning. -/
def ratScalar : Scalar ℚ where
  lt a b := if a < b then 1 else 0
  le a b := if a ≤ b then 1 else 0
  eq a b := if a = b then 1 else 0
  ne a b := if a = b then 0 else 1
  gt a b := if b < a then 1 else 0
  ge a b := if b ≤ a then 1 else 0
  add := (· + ·)
  sub := (· - ·)
  mul := (· * ·)
  truediv := (· / ·)
  floordiv a b := (⌊a / b⌋ : ℤ)
  mod a b := a - b * (⌊a / b⌋ : ℤ)
  pow a b := a ^ b.num
  lshift a b := a * 2 ^ b.num
  rshift a b := a / 2 ^ b.num
  and := min
  xor a b := |a - b|
  or := max
  neg a := -a
  pos a := a
  abs a := |a|
  invert a := -a - 1
  gt_lt _ _ := rfl
  ge_le _ _ := rfl
  eq_comm a b := by simp only [_root_.eq_comm]
  ne_comm a b := by simp only [_root_.eq_comm]

/-- numpy for rational numbers. -/
def ratUfuncs : Ufuncs ℚ where
  less a b := if a < b then 1 else 0
  less_equal a b := if a ≤ b then 1 else 0
  equal a b := if a = b then 1 else 0
  not_equal a b := if a = b then 0 else 1
  greater a b := if b < a then 1 else 0
  greater_equal a b := if b ≤ a then 1 else 0
  add := (· + ·)
  subtract := (· - ·)
  multiply := (· * ·)
  true_divide := (· / ·)
  floor_divide a b := (⌊a / b⌋ : ℤ)
  remainder a b := a - b * (⌊a / b⌋ : ℤ)
  divmod a b := ((⌊a / b⌋ : ℤ), a - b * (⌊a / b⌋ : ℤ))
  power a b := a ^ b.num
  left_shift a b := a * 2 ^ b.num
  right_shift a b := a / 2 ^ b.num
  bitwise_and := min
  bitwise_xor a b := |a - b|
  bitwise_or := max
  negative a := -a
  positive a := a
  absolute a := |a|
  invert a := -a - 1

theorem rat_documented : Documented ratUfuncs ratScalar := by
  constructor <;> first | rfl | (intro a b; rfl)

/-- The values of a result, row by row. -/
def rows4 (r : Res (Field ℚ ℚ)) : Res (List ℚ) := r.map fun f => (List.range 4).map fun i => f.matrix.at' [i]

/-- `1 - f`, `1 < f` and `divmod(7, f + 1)`. -/
example : rows4 (numOp ratUfuncs .sub (.number 1) (.field field4)) = .ok [1, 0, -1, -2] := by decide +kernel
example : rows4 (cmpOp ratUfuncs .lt (.number 1) (.field field4)) = .ok [0, 0, 1, 1] := by decide +kernel
example : rows4 (numOp ratUfuncs .sub (.array ⟨[4], fun i => 10 * (i.getD 0 0)⟩) (.field field4)) = .ok [0, 9, 18, 27] := by
  decide +kernel
example : (rows4 (do return (← divmodOp ratUfuncs (.number 7) (.field { field4 with matrix := ⟨[4], fun i => 1 + i.getD 0 0⟩ })).2)) =
    .ok [0, 1, 1, 3] := by
  decide +kernel

/-- The hypotheses of the acceptance theorems. -/
example : AxesDescribe field43.shape (field43.axes.map Axis.len) field43.ats.length field43.tao.length ∧
    AxesDescribe field13.shape (field13.axes.map Axis.len) field13.ats.length field13.tao.length ∧
    Plain field43 (.array ⟨[3], fun _ => 1⟩) :=
  ⟨⟨by decide +kernel, rfl, rfl⟩, ⟨by decide +kernel, rfl, rfl⟩, .array _ ((bshape_iff _ _ _).1 (by decide))⟩

/-- `f += row` changes the values; `row += f` is refused. -/
example : (inplaceOp ratUfuncs .add field43 (.field field13)).map fieldLens = .ok ([4, 3], [4, 3], 2, 2) := by
  decide +kernel
example : (inplaceOp ratUfuncs .add field13 (.field field43)).map fieldLens = .error .valueError := by
  decide +kernel

/-! ### Violations -/

/-- A field which remembers where its axis began before a transform. -/
def fieldOrigin : Field ℚ ℚ := { field4 with tao := [some 5] }

/-- C90 fails for the origins: `f + h` remembers the origin of `h`, `f += h` does not. -/
theorem inplace_states_violated :
    (numOp ratUfuncs .add (.field field4) (.field fieldOrigin)).map (·.tao) = .ok [some 5] ∧
    (inplaceOp ratUfuncs .add field4 (.field fieldOrigin)).map (·.tao) = .ok [none] := by
  constructor <;> decide +kernel

/-- What was returned: lengths of the axes and values for a field with one dimension. -/
def wrapped1 (r : Res (Wrapped ℚ ℚ)) : Res (Option (List ℚ × List ℚ)) :=
  r.map fun w => match w with
    | .field f => some (f.axes.flatMap Axis.grid, (List.range (f.shape.headD 0)).map fun i => f.matrix.at' [i])
    | .array _ => none

/-- C92 fails for functions which change lengths: `np.repeat(f, 2)` raises a ValueError. -/
theorem wrap_lengths_violated :
    wrapped1 (arrayWrap field4 ⟨[8], fun idx => field4.matrix.at' [idx.getD 0 0 / 2]⟩) = .error .valueError := by
  decide +kernel

/-- C92 fails for functions which move values: `np.take(f, [3, 2, 1, 0])` has the axis of `f`, although the value at
each position is that of another one. -/
theorem wrap_positions_violated :
    wrapped1 (arrayWrap field4 ⟨[4], fun idx => field4.matrix.at' [3 - idx.getD 0 0]⟩) =
      .ok (some (field4.axes.flatMap Axis.grid, [3, 2, 1, 0])) ∧
    (List.range 4).map (fun i => field4.matrix.at' [i]) = [0, 1, 2, 3] := by
  constructor <;> decide +kernel

/-- C91: `keepdims` is accepted by the method and refused by the ufunc. -/
example : (ufuncReduce List.sum field43 (.these [0]) true).map fieldLens = .error .valueError ∧
    (field43.reduce midSplines List.sum (some [0]) true).map fieldLens = .ok ([1, 3], [1, 3], 2, 2) := by
  constructor <;> decide +kernel

example : (ufuncReduce List.sum field43 .absent false).map fieldLens = .ok ([3], [3], 1, 1) := by decide +kernel

/-- C89 fails for arrays which stretch an axis of the field: numpy can broadcast them, but every operator is refused, on both
sides. -/
theorem operator_array_stretch_violated (N : Ufuncs ℚ) (op : NumOp) :
    Broadcast field13.shape [4, 3] [4, 3] ∧
      numOp N op (.field field13) (.array ⟨[4, 3], fun _ => 1⟩) = .error .valueError ∧
      numOp N op (.array ⟨[4, 3], fun _ => 1⟩) (.field field13) = .error .valueError :=
  ⟨(bshape_iff _ _ _).1 (by decide), rfl, rfl⟩

/-- C89 fails for fields with more than three dimensions: every operator raises a KeyError. -/
theorem operator_four_dimensions_violated {K V : Type} [_root_.Field K] [LinearOrder K] (N : Ufuncs V) (op : NumOp) (f : Field K V)
    (hf : 3 < f.shape.length) (h : AxesDescribe f.shape (f.axes.map Axis.len) f.ats.length f.tao.length) (v : V) :
    numOp N op (.field f) (.number v) = .error .keyError := by
  obtain ⟨name, unit, ⟨shape, at'⟩, axes, ats, tao⟩ := f
  have h1 : axes.map Axis.len = shape := h.lengths
  have h2 : 3 < axes.length := by
    have : 3 < shape.length := hf
    rwa [← h1, List.length_map] at this
  match axes, h1, h2 with
  | a :: b :: c :: d :: l, h1, _ =>
    subst h1
    have hb : ∀ t : List ℕ, bshape t [] = some t := fun t => by
      have : ∀ t : List ℕ, bshapeRev t [] = some t := fun t => by cases t <;> rfl
      simp [bshape, this]
    simp [numOp, ufuncCall, Operand.handled, Field.binaryLists, ufuncData, Operand.data, Arr.binary, hb, mkResult, checkOptAxes,
      checkAxisObj, bind, Except.bind]

example (N : Ufuncs ℚ) (op : NumOp) := operator_four_dimensions_violated N op
  (⟨"f", "", ⟨[4, 3, 1, 1], fun idx => idx.getD 0 0⟩, [uniformAxis 0 4 4, uniformAxis 0 6 3, uniformAxis 0 1 1, uniformAxis 0 1 1],
    [some false, some false, some false, some false], [none, none, none, none]⟩ : Field ℚ ℚ) (by decide)
  ⟨by decide +kernel, rfl, rfl⟩ 1

end Postpic.Props
