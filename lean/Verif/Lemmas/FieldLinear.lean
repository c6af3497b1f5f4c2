import Mathlib.Algebra.Module.Submodule.Basic
import Mathlib.Algebra.Module.Prod
import Verif.Lemmas.FieldNatural
import Verif.Lemmas.FieldNodes
import Verif.Lemmas.Calculus
import Verif.Lemmas.Fft
import Verif.Props.FieldNatural
import Verif.Spec.FieldLinear

/-!
# Lemmas about linear methods
-/

set_option linter.unusedSectionVars false
set_option autoImplicit false

namespace Postpic.Fields

open Postpic Postpic.Axes Postpic.Spec Postpic.Props

variable {K V W : Type} [_root_.Field K] [LinearOrder K] [IsStrictOrderedRing K]

theorem bothGive_bind {A B C D : Type} {R : C → D → Prop} {Q : A → B → Prop} {x : Res A} {y : Res B} {k : A → Res C} {l : B → Res D}
    (h : BothGive Q x y) (hk : ∀ a b, x = .ok a → y = .ok b → Q a b → BothGive R (k a) (l b)) : BothGive R (x >>= k) (y >>= l) := by
  cases x <;> cases y
  · exact h
  · exact h.elim
  · exact h.elim
  · exact hk _ _ rfl rfl h

theorem bothGive_same {A C D : Type} {R : C → D → Prop} {x : Res A} {k : A → Res C} {l : A → Res D}
    (hk : ∀ a, x = .ok a → BothGive R (k a) (l a)) : BothGive R (x >>= k) (x >>= l) := by
  cases x
  · exact rfl
  · exact hk _ rfl

theorem bothGive_if {C D : Type} {R : C → D → Prop} {p : Prop} [Decidable p] {x x' : Res C} {y y' : Res D}
    (h : p → BothGive R x y) (h' : ¬p → BothGive R x' y') : BothGive R (if p then x else x') (if p then y else y') := by
  by_cases hp : p
  · rw [if_pos hp, if_pos hp]; exact h hp
  · rw [if_neg hp, if_neg hp]; exact h' hp

/-- Two fields with the same axes and related values. -/
structure Rel (S : V → W → Prop) (f : Field K V) (f' : Field K W) : Prop where
  same : SameAxes f f'
  values : ∀ idx, InBounds f.matrix.shape idx → S (f.matrix.at' idx) (f'.matrix.at' idx)

theorem bothGive_mkField {S : V → W → Prop} {s : List ℕ} {a : List ℕ → V} {a' : List ℕ → W} {name name' unit unit' : String}
    {axes : List (Axis K)} {ats : List (Option Bool)} {tao : List (Option K)}
    (h : ∀ idx, InBounds s idx → S (a idx) (a' idx)) :
    BothGive (Rel S) (mkField ⟨s, a⟩ name unit axes ats tao) (mkField ⟨s, a'⟩ name' unit' axes ats tao) := by
  unfold mkField
  refine bothGive_if (fun _ => rfl) fun _ => bothGive_same fun _ _ => ?_
  exact ⟨⟨rfl, rfl, rfl, rfl⟩, h⟩

/-! ### Indices -/

theorem keep_nil {α : Type} (sel : List Bool) : keep sel ([] : List α) = [] := by
  cases sel with
  | nil => rfl
  | cons b sel => cases b <;> rfl

theorem fibre_inBounds : ∀ (s : List ℕ) (sel : List Bool) (idx j : List ℕ), sel.length = s.length → InBounds (keep sel s) idx →
    j ∈ fibre s sel idx → InBounds s j
  | [], sel, idx, j, hl, hi, hj => by
    cases sel with
    | nil =>
      simp only [fibre, List.mem_singleton] at hj
      subst hj
      exact ⟨rfl, by simp⟩
    | cons => simp at hl
  | n :: s, sel, idx, j, hl, hi, hj => by
    cases sel with
    | nil => simp at hl
    | cons b sel =>
      have hl' : sel.length = s.length := by simpa using hl
      cases b with
      | true =>
        simp only [fibre, List.mem_flatMap, List.mem_map, List.mem_range] at hj
        obtain ⟨k, hk, j', hj', rfl⟩ := hj
        exact inb_cons.2 ⟨hk, fibre_inBounds s sel idx j' hl' hi hj'⟩
      | false =>
        simp only [fibre, List.mem_map] at hj
        obtain ⟨j', hj', rfl⟩ := hj
        cases idx with
        | nil => simp [keep, InBounds] at hi
        | cons i idx =>
          obtain ⟨h1, h2⟩ := inb_cons.1 hi
          exact inb_cons.2 ⟨h1, fibre_inBounds s sel idx j' hl' h2 hj'⟩

theorem keep_inBounds : ∀ (s : List ℕ) (sel : List Bool) (idx : List ℕ), sel.length = s.length →
    InBounds (List.zipWith (fun b n => if b then 1 else n) sel s) idx → InBounds (keep sel s) (keep sel idx)
  | [], sel, idx, hl, hi => by
    cases sel with
    | nil => exact ⟨rfl, by simp [keep]⟩
    | cons => simp at hl
  | n :: s, sel, idx, hl, hi => by
    cases sel with
    | nil => simp at hl
    | cons b sel =>
      have hl' : sel.length = s.length := by simpa using hl
      cases idx with
      | nil => simp [InBounds, hl'] at hi
      | cons i idx =>
        obtain ⟨h1, h2⟩ := inb_cons.1 hi
        have := keep_inBounds s sel idx hl' h2
        cases b with
        | true => exact this
        | false => exact inb_cons.2 ⟨by simpa using h1, this⟩

theorem insertIdx_inBounds {s idx : List ℕ} {k j n : ℕ} (hn : s[k]? = some n) (hj : j < n) (hi : InBounds (s.eraseIdx k) idx) :
    InBounds s (idx.insertIdx k j) := by
  have hk : k < s.length := (List.getElem?_eq_some_iff.1 hn).1
  have hl : idx.length = s.length - 1 := by rw [hi.1, List.length_eraseIdx, if_pos hk]
  have hki : k ≤ idx.length := by omega
  refine ⟨by rw [List.length_insertIdx, if_pos hki]; omega, ?_⟩
  intro d i m h1 h2
  rw [List.getElem?_insertIdx] at h1
  split_ifs at h1 with c1 c2 c3
  · exact hi.2 d i m h1 (by rw [List.getElem?_eraseIdx, if_pos c1]; exact h2)
  · subst c2
    rw [hn] at h2
    cases h1; cases h2
    exact hj
  · refine hi.2 (d - 1) i m h1 ?_
    rw [List.getElem?_eraseIdx, if_neg (by omega), show d - 1 + 1 = d by omega]
    exact h2

theorem modify_inBounds {s t idx : List ℕ} {k : ℕ} {u : ℕ → ℕ} (hs : s.length = t.length) (ho : ∀ d, d ≠ k → s[d]? = t[d]?)
    (hk : ∀ i m n, s[k]? = some n → t[k]? = some m → i < n → u i < m) (hi : InBounds s idx) : InBounds t (idx.modify k u) := by
  refine ⟨by rw [List.length_modify, hi.1, hs], ?_⟩
  intro d i m h1 h2
  rw [List.getElem?_modify] at h1
  cases hj : idx[d]? with
  | none => simp [hj] at h1
  | some j =>
    rw [hj] at h1
    simp only [Option.map_eq_map, Option.map_some, Option.some.injEq] at h1
    have hd : d < s.length := by rw [← hi.1]; exact (List.getElem?_eq_some_iff.1 hj).1
    have hn := List.getElem?_eq_getElem hd
    have := hi.2 d j _ hj hn
    by_cases c : k = d
    · subst c
      rw [if_pos rfl] at h1
      subst h1
      exact hk j m _ hn h2 this
    · rw [if_neg c] at h1
      subst h1
      have e := ho d (fun h => c h.symm)
      rw [h2, hn] at e
      cases e
      exact this

/-! ### Reductions -/

/-- A reduction respects the relation. -/
def Keeps (S : V → W → Prop) (red : List V → V) (red' : List W → W) : Prop :=
  ∀ l l', List.Forall₂ S l l' → S (red l) (red' l')

theorem forall₂_map_of {α β γ : Type} {S : β → γ → Prop} (l : List α) (u : α → β) (v : α → γ) (h : ∀ a ∈ l, S (u a) (v a)) :
    List.Forall₂ S (l.map u) (l.map v) := by
  induction l with
  | nil => exact .nil
  | cons a l ih => exact .cons (h a (by simp)) (ih fun b hb => h b (by simp [hb]))

theorem normAxes_length {n : ℕ} {axis : Option (List ℤ)} {sel : List Bool} (h : normAxes n axis = .ok sel) : sel.length = n := by
  unfold normAxes at h
  cases axis with
  | none => simp at h; subst h; simp
  | some l =>
    obtain ⟨p, _, h⟩ := bind_ok h
    split_ifs at h
    simp [pure, Except.pure] at h; subst h; simp

theorem reduce_rel {S : V → W → Prop} {red : List V → V} {red' : List W → W} (hred : Keeps S red red') (spl : Splines K) {f : Field K V}
    {f' : Field K W} (h : Rel S f f') (axis : Option (List ℤ)) (kd : Bool) :
    BothGive (Rel S) (f.reduce spl red axis kd) (f'.reduce spl red' axis kd) := by
  obtain ⟨n, u, ⟨s, a⟩, ax, ats, tao⟩ := f
  obtain ⟨n', u', ⟨s', a'⟩, ax', ats', tao'⟩ := f'
  obtain ⟨⟨h1, h2, h3, h4⟩, hv⟩ := h
  simp only at h1 h2 h3 h4
  subst h1 h2 h3 h4
  unfold Field.reduce
  cases kd with
  | true =>
    simp only [if_true]
    refine bothGive_same fun axes _ => bothGive_same fun sel hsel => bothGive_mkField fun idx hi => ?_
    have hl := normAxes_length hsel
    refine hred _ _ (forall₂_map_of _ _ _ fun j hj => hv j ?_)
    exact fibre_inBounds _ _ _ _ hl (keep_inBounds _ _ _ hl hi) hj
  | false =>
    simp only [Bool.false_eq_true, if_false]
    refine bothGive_same fun axes _ => bothGive_same fun tao' _ => bothGive_same fun ats' _ => bothGive_same fun sel hsel => bothGive_mkField fun idx hi => ?_
    have hl := normAxes_length hsel
    exact hred _ _ (forall₂_map_of _ _ _ fun j hj => hv j (fibre_inBounds _ _ _ _ hl hi hj))

section
variable [AddCommGroup V] [Module K V] [AddCommGroup W] [Module K W]

/-- The relation of a submodule. -/
def inS (S : Submodule K (V × W)) (v : V) (w : W) : Prop := (v, w) ∈ S

variable {S : Submodule K (V × W)}

theorem inS_zero : inS S 0 0 := S.zero_mem

theorem inS_add {v v' : V} {w w' : W} (h : inS S v w) (h' : inS S v' w') : inS S (v + v') (w + w') := S.add_mem h h'

theorem inS_sub {v v' : V} {w w' : W} (h : inS S v w) (h' : inS S v' w') : inS S (v - v') (w - w') := S.sub_mem h h'

theorem inS_smul (c : K) {v : V} {w : W} (h : inS S v w) : inS S (c • v) (c • w) := S.smul_mem c h

theorem sum_keeps : Keeps (inS S) List.sum List.sum := by
  intro l l' h
  induction h with
  | nil => exact inS_zero
  | cons h _ ih =>
    rw [List.sum_cons, List.sum_cons]
    exact inS_add h ih

theorem mean_keeps : Keeps (inS S) (meanOf K) (meanOf K) := by
  intro l l' h
  unfold meanOf
  rw [h.length_eq]
  exact inS_smul _ (sum_keeps l l' h)

/-! ### Integration -/

theorem mulBoxes_rel {f o : Field K V} {f' o' : Field K W} (h : Rel (inS S) f f') (ho : Rel (inS S) o o') (i : ℤ) :
    BothGive (Rel (inS S)) (f.mulBoxes o i) (f'.mulBoxes o' i) := by
  obtain ⟨n, u, ⟨s, a⟩, ax, ats, tao⟩ := f
  obtain ⟨n', u', ⟨s', a'⟩, ax', ats', tao'⟩ := f'
  obtain ⟨⟨h1, h2, h3, h4⟩, hv⟩ := h
  simp only at h1 h2 h3 h4
  subst h1 h2 h3 h4
  obtain ⟨n1, u1, ⟨s1, a1⟩, ax1, ats1, tao1⟩ := o
  obtain ⟨n2, u2, ⟨s2, a2⟩, ax2, ats2, tao2⟩ := o'
  obtain ⟨⟨h1, h2, h3, h4⟩, -⟩ := ho
  simp only at h1 h2 h3 h4
  subst h1 h2 h3 h4
  unfold Field.mulBoxes Field.dims Field.shape
  refine bothGive_same fun axx _ => ?_
  simp only
  generalize (pyIdx (Int.toNat (if 0 ∈ s2 then -1 else (s2.length : ℤ))) i) = q
  cases q with
  | none => exact rfl
  | some k =>
    refine bothGive_if (fun _ => rfl) fun _ => ?_
    exact bothGive_mkField fun idx hi => inS_smul _ (hv idx hi)

theorem mulAllBoxes_rel {o : Field K V} {o' : Field K W} (ho : Rel (inS S) o o') (is : List ℤ) {f : Field K V} {f' : Field K W}
    (h : Rel (inS S) f f') : BothGive (Rel (inS S)) (mulAllBoxes o f is) (mulAllBoxes o' f' is) := by
  induction is generalizing f f' with
  | nil => exact h
  | cons i is ih => exact bothGive_bind (mulBoxes_rel h ho i) fun _ _ _ _ h => ih h

theorem integrateConstant_rel (spl : Splines K) {f : Field K V} {f' : Field K W} (h : Rel (inS S) f f') (axes : List ℤ) :
    BothGive (Rel (inS S)) (f.integrateConstant spl axes) (f'.integrateConstant spl axes) :=
  bothGive_bind (mulAllBoxes_rel h _ h) fun _ _ _ _ h => reduce_rel sum_keeps spl h _ _

theorem integrateStep_rel {f : Field K V} {f' : Field K W} (h : Rel (inS S) f f') (hf : f.Ok) (i : ℤ) :
    BothGive (Rel (inS S)) (f.integrateStep i) (f'.integrateStep i) := by
  obtain ⟨n, u, ⟨s, a⟩, ax, ats, tao⟩ := f
  obtain ⟨n', u', ⟨s', a'⟩, ax', ats', tao'⟩ := f'
  obtain ⟨⟨h1, h2, h3, h4⟩, hv⟩ := h
  simp only at h1 h2 h3 h4
  subst h1 h2 h3 h4
  unfold Field.integrateStep Field.dims Field.shape
  refine bothGive_same fun axx _ => ?_
  simp only
  generalize (pyIdx (Int.toNat (if 0 ∈ s' then -1 else (s'.length : ℤ))) i) = q
  cases q with
  | none => exact rfl
  | some k =>
    refine bothGive_if (fun _ => rfl) fun hk => bothGive_same fun axes _ => bothGive_same fun ats _ => bothGive_same fun tao _ => ?_
    refine ⟨⟨rfl, rfl, rfl, rfl⟩, fun idx hi => ?_⟩
    refine sum_keeps _ _ (forall₂_map_of _ _ _ fun j hj => inS_smul _ (hv _ ?_))
    exact insertIdx_inBounds (not_not.1 hk) (List.mem_range.1 hj) hi

theorem fastLoop_rel : ∀ (n : ℕ) (is : List ℤ), is.length = n → ∀ {f : Field K V} {f' : Field K W}, Rel (inS S) f f' → f.Ok →
    BothGive (Rel (inS S)) (fastLoop f is) (fastLoop f' is)
  | 0, is, hn, f, f', h, _ => by
    rw [List.length_eq_zero_iff] at hn
    subst hn
    rw [fastLoop, fastLoop]
    exact h
  | n + 1, is, hn, f, f', h, hf => by
    cases is with
    | nil => simp at hn
    | cons i is =>
      rw [fastLoop, fastLoop]
      refine bothGive_bind (integrateStep_rel h hf i) fun x y hx _ hxy => ?_
      exact fastLoop_rel n _ (by simpa using hn) hxy (integrateStep_Ok hf hx)

theorem integrateFast_rel {f : Field K V} {f' : Field K W} (h : Rel (inS S) f f') (hf : f.Ok) (axes : List ℤ) :
    BothGive (Rel (inS S)) (f.integrateFast axes) (f'.integrateFast axes) := by
  unfold Field.integrateFast Field.shape
  rw [h.same.shape]
  exact bothGive_same fun keys _ => fastLoop_rel _ _ rfl h hf

theorem basicSimpson_keeps : ∀ (x : List K) (y : List V) (y' : List W), List.Forall₂ (inS S) y y' → inS S (basicSimpson x y) (basicSimpson x y')
  | [], y, y', _ => by unfold basicSimpson; exact inS_zero
  | [_], y, y', _ => by unfold basicSimpson; exact inS_zero
  | [_, _], y, y', _ => by unfold basicSimpson; exact inS_zero
  | x0 :: x1 :: x2 :: xs, y, y', h => by
    cases h with
    | nil => unfold basicSimpson; exact inS_zero
    | cons h0 h =>
    cases h with
    | nil => unfold basicSimpson; exact inS_zero
    | cons h1 h =>
    cases h with
    | nil => unfold basicSimpson; exact inS_zero
    | cons h2 h =>
      unfold basicSimpson
      exact inS_add (inS_smul _ (inS_add (inS_add (inS_smul _ h0) (inS_smul _ h1)) (inS_smul _ h2)))
        (basicSimpson_keeps (x2 :: xs) _ _ (.cons h2 h))
  termination_by x => x.length

theorem trapezoid_keeps : ∀ (x : List K) (y : List V) (y' : List W), List.Forall₂ (inS S) y y' → inS S (trapezoid x y) (trapezoid x y')
  | [], y, y', _ => by unfold trapezoid; exact inS_zero
  | [_], y, y', _ => by unfold trapezoid; exact inS_zero
  | x0 :: x1 :: xs, y, y', h => by
    cases h with
    | nil => unfold trapezoid; exact inS_zero
    | cons h0 h =>
    cases h with
    | nil => unfold trapezoid; exact inS_zero
    | cons h1 h =>
      unfold trapezoid
      exact inS_add (inS_smul _ (inS_add h0 h1)) (trapezoid_keeps (x1 :: xs) _ _ (.cons h1 h))

theorem getD_keeps {y : List V} {y' : List W} (h : List.Forall₂ (inS S) y y') (i : ℕ) : inS S (y.getD i 0) (y'.getD i 0) := by
  induction h generalizing i with
  | nil => exact inS_zero
  | cons h _ ih =>
    cases i with
    | zero => exact h
    | succ i => exact ih i

theorem dropLast_keeps {y : List V} {y' : List W} (h : List.Forall₂ (inS S) y y') : List.Forall₂ (inS S) y.dropLast y'.dropLast := by
  rw [List.dropLast_eq_take, List.dropLast_eq_take, h.length_eq]
  exact List.forall₂_take _ h

theorem simpson_keeps (x : List K) (y : List V) (y' : List W) (h : List.Forall₂ (inS S) y y') : inS S (simpson x y) (simpson x y') := by
  unfold simpson
  rw [h.length_eq]
  simp only
  split_ifs
  · exact basicSimpson_keeps x y y' h
  · exact inS_smul _ (inS_add (getD_keeps h 1) (getD_keeps h 0))
  · refine inS_add (basicSimpson_keeps _ _ _ (dropLast_keeps h)) ?_
    unfold cartwright
    exact inS_sub (inS_add (inS_smul _ (getD_keeps h _)) (inS_smul _ (getD_keeps h _))) (inS_smul _ (getD_keeps h _))

theorem methodStep_rel {rule : List K → List V → V} {rule' : List K → List W → W}
    (hr : ∀ x y y', List.Forall₂ (inS S) y y' → inS S (rule x y) (rule' x y')) {f : Field K V} {f' : Field K W} (h : Rel (inS S) f f') (i : ℤ) :
    BothGive (Rel (inS S)) (f.methodStep rule i) (f'.methodStep rule' i) := by
  obtain ⟨n, u, ⟨s, a⟩, ax, ats, tao⟩ := f
  obtain ⟨n', u', ⟨s', a'⟩, ax', ats', tao'⟩ := f'
  obtain ⟨⟨h1, h2, h3, h4⟩, hv⟩ := h
  simp only at h1 h2 h3 h4
  subst h1 h2 h3 h4
  unfold Field.methodStep Field.shape
  refine bothGive_same fun axx _ => bothGive_same fun k _ => bothGive_if (fun _ => rfl) fun hk => bothGive_same fun axes _ =>
    bothGive_same fun ats _ => bothGive_same fun tao _ => ?_
  refine ⟨⟨rfl, rfl, rfl, rfl⟩, fun idx hi => ?_⟩
  refine hr _ _ _ (forall₂_map_of _ _ _ fun j hj => hv _ ?_)
  have hk := not_not.1 hk
  simp only at hk hj
  rw [List.getD_eq_getElem?_getD, hk] at hj
  exact insertIdx_inBounds hk (List.mem_range.1 hj) hi

theorem methodLoop_rel {rule : List K → List V → V} {rule' : List K → List W → W}
    (hr : ∀ x y y', List.Forall₂ (inS S) y y' → inS S (rule x y) (rule' x y')) (is : List ℤ) {f : Field K V} {f' : Field K W}
    (h : Rel (inS S) f f') : BothGive (Rel (inS S)) (methodLoop rule f is) (methodLoop rule' f' is) := by
  induction is generalizing f f' with
  | nil => exact h
  | cons i is ih => exact bothGive_bind (methodStep_rel hr h i) fun _ _ _ _ h => ih h

theorem integrateMethod_rel {rule : List K → List V → V} {rule' : List K → List W → W}
    (hr : ∀ x y y', List.Forall₂ (inS S) y y' → inS S (rule x y) (rule' x y')) {f : Field K V} {f' : Field K W} (h : Rel (inS S) f f')
    (axes : Option (List ℤ)) : BothGive (Rel (inS S)) (f.integrateMethod rule axes) (f'.integrateMethod rule' axes) := by
  unfold Field.integrateMethod
  rw [show f'.rangeDims = f.rangeDims by unfold Field.rangeDims Field.dims Field.shape; rw [h.same.shape]]
  exact methodLoop_rel hr _ h

/-! ### Resolution -/

theorem halfResolution_rel (spl : Splines K) {f : Field K V} {f' : Field K W} (h : Rel (inS S) f f') (axis : ℕ) :
    BothGive (Rel (inS S)) (f.halfResolution spl axis) (f'.halfResolution spl axis) := by
  obtain ⟨n, u, ⟨s, a⟩, ax, ats, tao⟩ := f
  obtain ⟨n', u', ⟨s', a'⟩, ax', ats', tao'⟩ := f'
  obtain ⟨⟨h1, h2, h3, h4⟩, hv⟩ := h
  simp only at h1 h2 h3 h4
  subst h1 h2 h3 h4
  unfold Field.halfResolution Field.shape
  refine bothGive_if (fun _ => rfl) fun _ => ?_
  simp only
  cases hn : s'[axis]? with
  | none => exact rfl
  | some m =>
  cases hx : ax'[axis]? with
  | none => exact rfl
  | some x =>
    refine bothGive_same fun x' _ => bothGive_same fun _ _ => ?_
    refine ⟨⟨rfl, rfl, rfl, rfl⟩, fun idx hi => ?_⟩
    have hl : axis < s'.length := (List.getElem?_eq_some_iff.1 hn).1
    have key : ∀ c, c < 2 → InBounds s' (idx.modify axis fun k => 2 * k + c) := by
      intro c hc
      refine modify_inBounds (s := s'.set axis (m / 2)) (by simp) (fun d hd => by rw [List.getElem?_set_ne (Ne.symm hd)]) ?_ hi
      intro i m1 m2 e1 e2 hlt
      rw [List.getElem?_set_self hl] at e1
      rw [hn] at e2
      cases e1; cases e2
      omega
    exact inS_smul _ (inS_add (hv _ (key 0 (by omega))) (hv _ (key 1 (by omega))))

/-- Related results of loops which may not end. -/
def BothEnd {A B : Type} (R : A → B → Prop) : Option (Res A) → Option (Res B) → Prop
  | some x, some y => BothGive R x y
  | none, none => True
  | _, _ => False

theorem halveLoop_rel (spl : Splines K) (m : ℤ) (i fuel : ℕ) {f : Field K V} {f' : Field K W} (h : Rel (inS S) f f') :
    BothEnd (Rel (inS S)) (halveLoop spl m i fuel f) (halveLoop spl m i fuel f') := by
  induction fuel generalizing f f' with
  | zero => exact trivial
  | succ fuel ih =>
    unfold halveLoop
    rw [h.same.axes]
    cases f.axes[i]? with
    | none => exact rfl
    | some ax =>
      simp only
      split_ifs
      · have := halfResolution_rel spl h i
        cases h1 : f.halfResolution spl i with
        | error e =>
          cases h2 : f'.halfResolution spl i with
          | error e' => rw [h1, h2] at this; exact this
          | ok r => rw [h1, h2] at this; exact this.elim
        | ok r =>
          cases h2 : f'.halfResolution spl i with
          | error e' => rw [h1, h2] at this; exact this.elim
          | ok r' => rw [h1, h2] at this; exact ih this
      · exact h

theorem reduceLoop_rel (spl : Splines K) (m : ℤ) (fuel : ℕ) (is : List ℕ) {f : Field K V} {f' : Field K W} (h : Rel (inS S) f f') :
    BothEnd (Rel (inS S)) (reduceLoop spl m fuel is f) (reduceLoop spl m fuel is f') := by
  induction is generalizing f f' with
  | nil => exact h
  | cons i is ih =>
    unfold reduceLoop
    have := halveLoop_rel spl m i fuel h
    revert this
    generalize halveLoop spl m i fuel f = x
    generalize halveLoop spl m i fuel f' = y
    intro this
    match x, y, this with
    | none, none, _ => exact trivial
    | some (.error e), some (.error e'), this => exact this
    | some (.ok r), some (.ok r'), this => exact ih this

theorem autoreduce_rel (spl : Splines K) (m : ℤ) (fuel : ℕ) {f : Field K V} {f' : Field K W} (h : Rel (inS S) f f') :
    BothEnd (Rel (inS S)) (f.autoreduce spl m fuel) (f'.autoreduce spl m fuel) := by
  unfold Field.autoreduce
  rw [h.same.axes]
  exact reduceLoop_rel spl m fuel _ h

/-! ### Derivatives -/

theorem gradientEven_keeps (d : K) {y : ℕ → V} {y' : ℕ → W} {n i : ℕ} (hn : 2 ≤ n) (hi : i < n) (h : ∀ j, j < n → inS S (y j) (y' j)) :
    inS S (gradientEven d y n i) (gradientEven d y' n i) := by
  unfold gradientEven
  split_ifs
  · exact inS_smul _ (inS_sub (h _ (by omega)) (h _ (by omega)))
  · exact inS_smul _ (inS_sub (h _ (by omega)) (h _ (by omega)))
  · exact inS_smul _ (inS_sub (h _ (by omega)) (h _ (by omega)))

theorem gradientUneven_keeps (d : List K) {y : ℕ → V} {y' : ℕ → W} {n i : ℕ} (hn : 2 ≤ n) (hi : i < n) (h : ∀ j, j < n → inS S (y j) (y' j)) :
    inS S (gradientUneven d y n i) (gradientUneven d y' n i) := by
  unfold gradientUneven
  split_ifs
  · exact inS_smul _ (inS_sub (h _ (by omega)) (h _ (by omega)))
  · exact inS_smul _ (inS_sub (h _ (by omega)) (h _ (by omega)))
  · exact inS_add (inS_add (inS_smul _ (h _ (by omega))) (inS_smul _ (h _ (by omega)))) (inS_smul _ (h _ (by omega)))

theorem derivative_rel {f : Field K V} {f' : Field K W} (h : Rel (inS S) f f') (axis : ℤ) :
    BothGive (Rel (inS S)) (f.derivative axis) (f'.derivative axis) := by
  obtain ⟨n, u, ⟨s, a⟩, ax, ats, tao⟩ := f
  obtain ⟨n', u', ⟨s', a'⟩, ax', ats', tao'⟩ := f'
  obtain ⟨⟨h1, h2, h3, h4⟩, hv⟩ := h
  simp only at h1 h2 h3 h4
  subst h1 h2 h3 h4
  unfold Field.derivative
  refine bothGive_same fun axx _ => ?_
  refine bothGive_bind (Q := fun (m : Arr V) (m' : Arr W) => m'.shape = m.shape ∧ ∀ idx, InBounds m.shape idx → inS S (m.at' idx) (m'.at' idx)) ?_ ?_
  · unfold Arr.gradient
    refine bothGive_same fun k _ => bothGive_if (fun _ => rfl) fun hk => bothGive_if (fun _ => rfl) fun hn => ?_
    refine ⟨rfl, fun idx hi => ?_⟩
    have hk := not_not.1 hk
    simp only at hk
    have hb := inBounds_getD (shape := s') hi hk
    have hj : ∀ j, j < axx.grid.length → inS S (a (idx.set k j)) (a' (idx.set k j)) := fun j hj => hv _ (inBounds_set hi hk hj)
    unfold gradientAt
    simp only
    split_ifs
    · exact gradientEven_keeps _ (by omega) hb.2 hj
    · exact gradientUneven_keeps _ (by omega) hb.2 hj
  · intro m m' _ _ hm
    obtain ⟨sm, am⟩ := m
    obtain ⟨sm', am'⟩ := m'
    obtain ⟨e, hm⟩ := hm
    simp only at e
    subst e
    refine bothGive_bind (Q := Rel (inS S)) ?_ ?_
    · unfold Field.replaceData
      refine bothGive_if (fun _ => rfl) fun _ => ⟨⟨rfl, rfl, rfl, rfl⟩, hm⟩
    · intro r r' _ _ hr
      exact ⟨⟨hr.same.shape, hr.same.axes, hr.same.ats, hr.same.tao⟩, hr.values⟩

theorem derivativeStagger_rel (spl : Splines K) {f : Field K V} {f' : Field K W} (h : Rel (inS S) f f') (axis : ℤ) :
    BothGive (Rel (inS S)) (f.derivativeStagger spl axis) (f'.derivativeStagger spl axis) := by
  obtain ⟨n, u, ⟨s, a⟩, ax, ats, tao⟩ := f
  obtain ⟨n', u', ⟨s', a'⟩, ax', ats', tao'⟩ := f'
  obtain ⟨⟨h1, h2, h3, h4⟩, hv⟩ := h
  simp only at h1 h2 h3 h4
  subst h1 h2 h3 h4
  unfold Field.derivativeStagger Field.dims Field.shape
  refine bothGive_same fun axx _ => bothGive_if (fun _ => rfl) fun _ => bothGive_same fun ax2 _ => bothGive_same fun axes _ => ?_
  simp only
  generalize (pyIdx (Int.toNat (if 0 ∈ s' then -1 else (s'.length : ℤ))) axis) = q
  cases q with
  | none => exact rfl
  | some k =>
    refine bothGive_same fun dx _ => bothGive_mkField fun idx hi => ?_
    have key : ∀ c, c < 2 → InBounds s' (idx.modify k fun i => i + c) := by
      intro c hc
      refine modify_inBounds (s := s'.modify k (· - 1)) (by simp) (fun d hd => by simp [List.getElem?_modify, Ne.symm hd]) ?_ hi
      intro i m1 m2 e1 e2 hlt
      simp [List.getElem?_modify, e2] at e1
      omega
    have k0 := key 0 (by omega)
    have : (fun i : ℕ => i + 0) = id := rfl
    rw [this, List.modify_id] at k0
    exact inS_smul _ (inS_sub (hv _ (key 1 (by omega))) (hv _ k0))

/-! ### Padding with zeros -/

theorem pad_inBounds : ∀ (w : List (ℕ × ℕ)) (s idx : List ℕ), w.length = s.length →
    InBounds (List.zipWith (fun n p => p.1 + n + p.2) s w) idx →
    (List.zip idx (List.zip w s)).all (fun q => decide (q.2.1.1 ≤ q.1 ∧ q.1 < q.2.1.1 + q.2.2)) = true →
    InBounds s (List.zipWith (fun i p => i - p.1) idx w)
  | [], [], idx, _, hi, _ => by
    have : idx = [] := by
      have := hi.1
      simpa using this
    subst this
    exact ⟨rfl, by simp⟩
  | p :: w, n :: s, idx, hl, hi, ha => by
    cases idx with
    | nil => simp [InBounds] at hi
    | cons i idx =>
      simp only [List.zip_cons_cons, List.all_cons, Bool.and_eq_true, decide_eq_true_eq] at ha
      obtain ⟨h1, h2⟩ := inb_cons.1 hi
      refine inb_cons.2 ⟨show i - p.1 < n by omega, pad_inBounds w s idx (by simpa using hl) h2 ha.2⟩

theorem pad_rel [FloorRing K] (spl : Splines K) {f : Field K V} {f' : Field K W} (h : Rel (inS S) f f') (hf : f.Ok)
    (w : List (PadWidth K × PadWidth K)) : BothGive (Rel (inS S)) (f.pad spl w 0) (f'.pad spl w 0) := by
  have hl := ok_axes_length hf
  have ho := hf.origins
  obtain ⟨n, u, ⟨s, a⟩, ax, ats, tao⟩ := f
  obtain ⟨n', u', ⟨s', a'⟩, ax', ats', tao'⟩ := f'
  obtain ⟨⟨h1, h2, h3, h4⟩, hv⟩ := h
  simp only [Field.shape] at h1 h2 h3 h4 hl ho
  subst h1 h2 h3 h4
  unfold Field.pad Field.dims Field.shape
  refine bothGive_if (fun _ => rfl) fun _ => bothGive_if (fun _ => rfl) fun hd => bothGive_same fun r hr => bothGive_if (fun _ => rfl) fun _ => ?_
  refine ⟨⟨rfl, rfl, rfl, rfl⟩, fun idx hi => ?_⟩
  have hlen := (mapM_ok hr).length_eq
  have hd := not_not.1 hd
  simp only at hd
  have hw : w.length = s'.length := by
    split_ifs at hd
    omega
  simp only [List.length_zip] at hlen
  simp only [Arr.pad] at hi ⊢
  split_ifs with hc
  · exact hv _ (pad_inBounds _ _ _ (by rw [List.length_map]; omega) hi hc)
  · exact inS_zero

/-! ### Sequences -/

theorem methodStep_Ok {rule : List K → List V → V} {f r : Field K V} {i : ℤ} (hf : f.Ok) (hr : f.methodStep rule i = .ok r) : r.Ok := by
  obtain ⟨ax, hax, hr⟩ := bind_ok hr
  obtain ⟨k, hk, hr⟩ := bind_ok hr
  have hk := axisIdx_ok hk
  split_ifs at hr with hs
  · simp [throw, throwThe, MonadExceptOf.throw, bind, Except.bind] at hr
  obtain ⟨axes, h1, hr⟩ := bind_ok hr
  obtain ⟨ats, h2, hr⟩ := bind_ok hr
  obtain ⟨tao, h3, hr⟩ := bind_ok hr
  simp [pure, Except.pure] at hr
  obtain ⟨k1, h6, rfl⟩ := pyDel_eq h1
  obtain ⟨k2, h7, rfl⟩ := pyDel_eq h2
  obtain ⟨k3, h8, rfl⟩ := pyDel_eq h3
  rw [ok_axes_length hf, hk] at h6
  rw [hf.states, hk] at h7
  rw [hf.origins, hk] at h8
  simp at h6 h7 h8
  subst h6 h7 h8 hr
  refine ⟨?_, ?_, ?_⟩
  · simp only [Field.shape]
    rw [← List.eraseIdx_map, hf.lengths]
    rfl
  · simp only [Field.shape] at *
    rw [List.length_eraseIdx, List.length_eraseIdx, hf.states]
    rfl
  · simp only [Field.shape] at *
    rw [List.length_eraseIdx, List.length_eraseIdx, hf.origins]
    rfl

theorem methodLoop_Ok {rule : List K → List V → V} {is : List ℤ} {f r : Field K V} (hf : f.Ok) (hr : methodLoop rule f is = .ok r) : r.Ok := by
  induction is generalizing f with
  | nil => simp [methodLoop] at hr; subst hr; exact hf
  | cons i is ih =>
    obtain ⟨x, hx, hr⟩ := bind_ok hr
    exact ih (methodStep_Ok hf hx) hr

theorem derivative_Ok {f r : Field K V} {axis : ℤ} (hf : f.Ok) (hr : f.derivative axis = .ok r) : r.Ok := by
  obtain ⟨ax, hax, hr⟩ := bind_ok hr
  obtain ⟨m, hm, hr⟩ := bind_ok hr
  obtain ⟨x, hx, hr⟩ := bind_ok hr
  simp [pure, Except.pure] at hr
  subst hr
  unfold Field.replaceData at hx
  split_ifs at hx with hs
  have hs := not_not.1 hs
  simp at hx
  subst hx
  unfold Field.Ok Field.shape
  simp only
  rw [hs]
  exact hf

theorem linear_Ok {spl : Splines K} {f r : Field K V} {m : LinearMethod K} (hf : f.Ok) (hr : LinearMethod.apply spl f m = .ok r) : r.Ok := by
  cases m with
  | move op => exact apply_Ok hf hr
  | sum axis kd => exact reduce_Ok hf hr
  | mean axis kd => exact reduce_Ok hf hr
  | integrateConstant axes => exact integrateConstant_Ok hf hr
  | integrateFast axes => exact integrateFast_Ok hf hr
  | simpson axes => exact methodLoop_Ok hf hr
  | trapezoid axes => exact methodLoop_Ok hf hr
  | halfResolution axis => exact halfResolution_Ok hf hr
  | autoreduce m fuel =>
    change (match f.autoreduce spl m fuel with
      | some r => r
      | none => .error .genericException) = _ at hr
    cases hx : f.autoreduce spl m fuel with
    | none => rw [hx] at hr; cases hr
    | some x =>
      rw [hx] at hr
      simp only at hr
      subst hr
      exact autoreduce_Ok hf hx
  | derivative axis => exact derivative_Ok hf hr
  | derivativeStagger axis => exact derivativeStagger_Ok hf hr

theorem bothGive_mono {A B : Type} {R Q : A → B → Prop} (h : ∀ a b, R a b → Q a b) {x : Res A} {y : Res B} (hx : BothGive R x y) :
    BothGive Q x y := by
  cases x <;> cases y
  · exact hx
  · exact hx.elim
  · exact hx.elim
  · exact h _ _ hx

theorem linear_rel (spl : Splines K) {f : Field K V} {f' : Field K W} (h : Rel (inS S) f f') (hf : f.Ok) (m : LinearMethod K) :
    BothGive (Rel (inS S)) (LinearMethod.apply spl f m) (LinearMethod.apply spl f' m) := by
  cases m with
  | move op =>
    have := rearrange_related spl [op] (inS S) hf h.same h.values
    have e : ∀ (U : Type) (x : Field K U), rearrange spl [op] x = Rearrangement.apply spl x op := by
      intro U x
      unfold rearrange rearrange
      exact bind_pure _
    rw [e, e] at this
    exact bothGive_mono (fun _ _ h => ⟨h.1, h.2.2.2.2⟩) this
  | sum axis kd => exact reduce_rel sum_keeps spl h axis kd
  | mean axis kd => exact reduce_rel mean_keeps spl h axis kd
  | integrateConstant axes => exact integrateConstant_rel spl h axes
  | integrateFast axes => exact integrateFast_rel h hf axes
  | simpson axes => exact integrateMethod_rel simpson_keeps h axes
  | trapezoid axes => exact integrateMethod_rel trapezoid_keeps h axes
  | halfResolution axis => exact halfResolution_rel spl h axis
  | autoreduce m fuel =>
    have := autoreduce_rel spl m fuel h
    change BothGive _ (match f.autoreduce spl m fuel with
      | some r => r
      | none => .error .genericException) (match f'.autoreduce spl m fuel with
      | some r => r
      | none => .error .genericException)
    revert this
    generalize f.autoreduce spl m fuel = x
    generalize f'.autoreduce spl m fuel = y
    intro this
    match x, y, this with
    | none, none, _ => exact rfl
    | some x, some y, this => exact this
  | derivative axis => exact derivative_rel h axis
  | derivativeStagger axis => exact derivativeStagger_rel spl h axis

theorem applyAll_rel (spl : Splines K) (ms : List (LinearMethod K)) {f : Field K V} {f' : Field K W} (h : Rel (inS S) f f') (hf : f.Ok) :
    BothGive (Rel (inS S)) (applyAll spl ms f) (applyAll spl ms f') := by
  induction ms generalizing f f' with
  | nil => exact h
  | cons m ms ih =>
    exact bothGive_bind (linear_rel spl h hf m) fun a b ha _ hab => ih hab (linear_Ok hf ha)

end

end Postpic.Fields
