import Mathlib.Tactic.Ring
import Mathlib.Tactic.Push
import Verif.Spec.DumpSpecies

/-!
# Lemmas on the particle data in the dumps
-/

set_option autoImplicit false
set_option linter.unusedSectionVars false

namespace Postpic.Readers

open Postpic Postpic.Particles Postpic.Species Postpic.Spec

variable {K : Type} [_root_.Field K] [LinearOrder K]

theorem float64_exact {n : ℤ} (h : n.natAbs < 2 ^ 53) : float64 n = n := by
  have he : Nat.log2 n.natAbs - 52 = 0 := by
    by_cases h0 : n.natAbs = 0
    · rw [h0]
      decide
    · have := (Nat.log2_lt h0).2 h
      omega
  unfold float64
  simp only [he, pow_zero, Nat.div_one, Nat.mod_one, mul_zero, mul_one]
  rw [if_neg (by omega)]
  exact Int.sign_mul_natAbs n

theorem toFloats_get (d : Nums K) (h : ∀ l, d = .ints l → ∀ n ∈ l, n.natAbs < 2 ^ 53) (i : ℕ) :
    d.toFloats[i]? = match d with
      | .ints l => (l[i]?).map fun n => (n : K)
      | .floats l => l[i]? := by
  cases d with
  | ints l =>
    simp only [Nums.toFloats, List.getElem?_map]
    cases hl : l[i]? with
    | none => rfl
    | some n => simp [float64_exact (h l rfl n (List.mem_of_getElem? hl))]
  | floats l => rfl

/-- What `data` returns is the stored value in SI units. -/
theorem h5Data_ok (f : H5File K) (key : String) (c : Component K) (hf : f key = some c) (u : K) (hu : c.unitSI = some u)
    (hs : SmallIntegers c) (N : ℕ) (hN : Describes c N) :
    ∃ e, h5Data f key = .ok e ∧ HasLength e N ∧ ∀ i, entryAt e i = (storedValue c i).map (· * u) := by
  obtain ⟨content, unitSI, mw, wp⟩ := c
  simp only at hu
  subst hu
  unfold h5Data
  rw [hf]
  simp only [orKeyError, bind, Except.bind, pure, Except.pure]
  cases content with
  | const v => exact ⟨_, rfl, trivial, fun i => rfl⟩
  | array d =>
    refine ⟨_, rfl, ?_, ?_⟩
    · simp only [HasLength, List.length_map]
      cases d with
      | ints l => simpa [Nums.toFloats, Describes] using hN
      | floats l => simpa [Nums.toFloats, Describes] using hN
    · intro i
      simp only [entryAt, List.getElem?_map, storedValue]
      rw [toFloats_get d (fun l hl => hs l (by rw [hl])) i]
      cases d <;> rfl

theorem addInPlace_ok (a b : Entry K) (N : ℕ) (ha : HasLength a N) (hb : HasLength b N) :
    ∃ e, addInPlace a b = .ok e ∧ HasLength e N ∧
      ∀ i < N, entryAt e i = (do return (← entryAt a i) + (← entryAt b i)) := by
  cases a with
  | scalar a =>
    cases b with
    | scalar b => exact ⟨_, rfl, trivial, fun i _ => rfl⟩
    | array m =>
      refine ⟨_, rfl, by simpa [HasLength] using hb, ?_⟩
      intro i _
      simp only [entryAt, List.getElem?_map]
      cases m[i]? <;> rfl
  | array l =>
    cases b with
    | scalar b =>
      refine ⟨_, rfl, by simpa [HasLength] using ha, ?_⟩
      intro i _
      simp only [entryAt, List.getElem?_map]
      cases l[i]? <;> rfl
    | array m =>
      simp only [HasLength] at ha hb
      by_cases h1 : ∃ b, m = [b]
      · obtain ⟨b, rfl⟩ := h1
        refine ⟨_, rfl, by simpa [HasLength] using ha, ?_⟩
        intro i hi
        have : i = 0 := by simp at hb; omega
        subst this
        simp only [entryAt, List.getElem?_map]
        cases l[0]? <;> rfl
      · refine ⟨.array (l.zipWith (· + ·) m), ?_, by simp [HasLength, ha, hb], ?_⟩
        · unfold addInPlace
          split
          · simp_all
          · simp_all
          · simp_all
          · next heq => exact absurd ⟨_, by injection heq⟩ h1
          · next h2 h3 =>
            injection h2 with h2
            injection h3 with h3
            subst h2 h3
            rw [if_pos (ha.trans hb.symm)]
        · intro i hi
          simp only [entryAt, List.getElem?_zipWith]
          rw [List.getElem?_eq_getElem (by omega : i < l.length), List.getElem?_eq_getElem (by omega : i < m.length)]
          rfl

/-- The number of a property in the tables. -/
theorem attribidentify_key (k : Key) (weights species p : String) (h : standardPath weights k = some p) :
    ∃ id, attribidentify (.str (keyName k)) = .ok id ∧
      h5Path weights species id = some ("particles/" ++ species ++ "/" ++ p) ∧
      h5Offset species id = (offsetPath k).map fun o => "particles/" ++ species ++ "/" ++ o := by
  have app : ∀ a b : String, a ++ ("/" ++ b) = a ++ "/" ++ b := fun a b => (String.append_assoc).symm
  cases k <;> simp only [standardPath, Option.some.injEq, reduceCtorEq] at h <;> subst h <;>
    refine ⟨_, rfl, ?_, ?_⟩ <;> simp only [h5Path, h5Offset, offsetPath, Option.map_some, Option.map_none, Option.some.injEq]
  all_goals
    rw [← app]
    rfl

theorem siValue_plain {c : Component K} {u : K} (hu : c.unitSI = some u) (hw : c.macroWeighted = false) (w : K) (i : ℕ) :
    siValue c w i = (storedValue c i).map (· * u) := by
  unfold siValue
  rw [hu, hw]
  cases storedValue c i <;> simp [bind, Option.bind]

end Postpic.Readers
