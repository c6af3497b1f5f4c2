import Verif.Lemmas.Decimal
import Verif.Props.TextImage

/-!
# csv files with doubles
-/

set_option autoImplicit false

namespace Postpic.Props

open Postpic Postpic.Axes Postpic.Fields Postpic.Io Postpic.Histogram Postpic.Spec

/-- C76: every double is printed by `'%.18e'`, the default of `np.savetxt`, in such a way that `float` reads the same double again, also
zero, the smallest subnormal numbers and the largest numbers. -/
theorem double_text_roundtrip (x : ℚ) (hd : double x = .fin x) : readDouble (printSci 18 x) = some x := readDouble_print 18 (by norm_num) hd

/-- The texts of doubles do not contain the delimiters of csv files. -/
theorem printSci_numbers (n : ℕ) (hn : 17 ≤ n) : PrintsNumbers (fun x => double x = .fin x) (printSci n) readDouble where
  read x hx := readDouble_print n hn hx
  nonempty x := by
    obtain ⟨m, k, h, -⟩ := printSci_text n x
    rw [h, sciText, showDigits_one]
    simp
  plain x := by
    obtain ⟨m, k, h, -⟩ := printSci_text n x
    rw [h]
    exact sciText_plain _ _ _ _

/-- C76: a field of doubles with two dimensions is exported to a csv file and imported with `delimiter=' '`: bit by bit the same numbers.
Partial: see `csv_roundtrip_partial`. -/
theorem csv_doubles_partial {spl : Splines ℚ} (hspl : ExactOnEven spl) (header : List (List Char)) (a : Arr ℚ) {n m : ℕ}
    (hs : a.shape = [n, m]) (hn : 2 ≤ n) (hm : 2 ≤ m) (ha : ∀ i j, i < n → j < m → double (a.at' [i, j]) = .fin (a.at' [i, j]))
    (filename : String) :
    ∃ lines f, exportCsv (printSci 18) header a = .ok lines ∧ importCsv spl readDouble filename ' ' lines = .ok f ∧ f.shape = [n, m] ∧
      ∀ i j, i < n → j < m → f.matrix.at' [i, j] = some (a.at' [i, j]) := by
  obtain ⟨lines, f, ax, ay, h1, h2, h3, h4, -⟩ :=
    csv_roundtrip_partial hspl (printSci_numbers 18 (by norm_num)) header a hs hn hm ha filename
  exact ⟨lines, f, h1, h2, h3, h4⟩

/-- C76: the same file cannot be imported with the default delimiter. -/
theorem csv_doubles_default_violated {spl : Splines ℚ} (hspl : ExactOnEven spl) (header : List (List Char)) (a : Arr ℚ)
    (hd : a.shape.length = 1 ∨ a.shape.length = 2) (h0 : 0 ∉ a.shape) (filename : String) :
    ∃ lines, exportCsv (printSci 18) header a = .ok lines ∧ importCsv spl readDouble filename (lines := lines) = .error .indexError :=
  csv_default_violated hspl (printSci_numbers 18 (by norm_num)) header a hd h0 filename

/-! ### Examples -/

/-- One third as a double. -/
def exThird : ℚ := 6004799503160661 / 2 ^ 54

theorem exThird_double : double exThird = .fin exThird := by decide +kernel

example : printSci 18 exThird = "3.333333333333333148e-01".toList := by decide +kernel

example := double_text_roundtrip exThird exThird_double

/-- The smallest double. -/
example : readDouble (printSci 18 (2 ^ (-1074 : ℤ))) = some (2 ^ (-1074 : ℤ)) :=
  double_text_roundtrip _ (double_exact 1 (-1074) (by norm_num) (by norm_num) (by norm_num) (by
    rw [abs_of_pos (two_zpow_pos _)]
    exact two_zpow_lt (by norm_num)))

/-- 16 digits are not enough: the sum of the doubles 0.1 and 0.2 is read as the double 0.3. -/
example : readDouble (printSci 15 (5404319552844596 / 2 ^ 54)) = some (5404319552844595 / 2 ^ 54) := by decide +kernel

example := csv_doubles_partial midSplines_even ["Data extent".toList] ⟨[2, 3], fun _ => exThird⟩ rfl (le_refl 2) (by decide)
  (fun _ _ _ _ => exThird_double) "/tmp/a.csv"

example := csv_doubles_default_violated midSplines_even ["Data extent".toList] ⟨[2, 3], fun _ => exThird⟩ (Or.inr rfl) (by decide) "/tmp/a.csv"

end Postpic.Props
