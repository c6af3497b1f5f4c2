import Verif.Model.PadArg

/-!
# Lemmas about the argument of `pad`
-/

set_option autoImplicit false
set_option linter.unusedSectionVars false

namespace Postpic.Fields

open Postpic Postpic.Axes

variable {K V : Type} [_root_.Field K] [LinearOrder K] [FloorRing K]

theorem pyRepeat_single {α : Type} (a : α) (n : ℕ) : pyRepeat [a] (n : ℤ) = List.replicate n a := by
  unfold pyRepeat
  rw [Int.toNat_natCast]
  induction n with
  | zero => rfl
  | succ n ih => rw [List.replicate_succ, List.flatten_cons, ih]; rfl

/-- The widths decide, not the form they are given in. -/
theorem padWith_eq (spl : Splines K) (f : Field K V) (arg : PadArg K) (c : V) (hne : f.axes ≠ [])
    (ws : List (PadWidth K × PadWidth K)) (h : (arg.repeated f.dims).2.mapM PadEntry.pair = .ok ws) :
    (f.padWith spl arg c).2 = f.pad spl ws c := by
  have hlen : ∀ (l : List (PadEntry K)) (ws : List (PadWidth K × PadWidth K)), l.mapM PadEntry.pair = .ok ws → l.length = ws.length := by
    intro l
    induction l with
    | nil => intro ws h; rw [List.mapM_nil] at h; cases h; rfl
    | cons a l ih =>
      intro ws h
      rw [List.mapM_cons] at h
      cases ha : a.pair with
      | error e => rw [ha] at h; cases h
      | ok w =>
        cases hl : l.mapM PadEntry.pair with
        | error e => rw [ha, hl] at h; cases h
        | ok w' => rw [ha, hl] at h; cases h; simp [ih _ hl]
  have hmap : ∀ (l : List (PadEntry K)) (ws : List (PadWidth K × PadWidth K)) (as : List (Axis K × Option K)),
      l.mapM PadEntry.pair = .ok ws →
      (as.zip l).mapM (fun q => do padAxis spl q.1.1 q.1.2 (← q.2.pair)) =
        (as.zip ws).mapM (fun q => padAxis spl q.1.1 q.1.2 q.2) := by
    intro l
    induction l with
    | nil => intro ws as h; rw [List.mapM_nil] at h; cases h; simp
    | cons a l ih =>
      intro ws as h
      rw [List.mapM_cons] at h
      cases ha : a.pair with
      | error e => rw [ha] at h; cases h
      | ok w =>
        cases hl : l.mapM PadEntry.pair with
        | error e => rw [ha, hl] at h; cases h
        | ok w' =>
          rw [ha, hl] at h; cases h
          cases as with
          | nil => simp
          | cons x as =>
            simp only [List.zip_cons_cons, List.mapM_cons]
            rw [ih _ as hl, ha]
            rfl
  unfold Field.padWith Field.pad
  rw [if_neg hne, if_neg hne]
  simp only [hlen _ _ h, hmap _ _ _ h]

end Postpic.Fields
