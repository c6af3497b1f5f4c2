import Mathlib.Data.List.Dedup
import Mathlib.Tactic.Ring
import Mathlib.Tactic.Linarith
import Verif.Spec.Series

/-!
# Lemmas about the order of names
-/

set_option autoImplicit false

namespace Postpic.Readers

open Postpic

/-- The number which digits read as. -/
abbrev val (ds : List Char) : ℕ := Nat.ofDigitChars 10 ds 0

theorem val_cons (c : Char) (ds : List Char) : val (c :: ds) = 10 ^ ds.length * (c.toNat - 48) + val ds := by
  unfold val
  rw [Nat.ofDigitChars_cons, Nat.ofDigitChars_eq_ofDigitChars_zero]
  simp

theorem digit_range {c : Char} (h : c.isDigit = true) : 48 ≤ c.toNat ∧ c.toNat ≤ 57 := by
  simp only [Char.isDigit, ge_iff_le, Bool.and_eq_true, decide_eq_true_eq] at h
  exact ⟨h.1, h.2⟩

theorem char_lt {a b : Char} : a < b ↔ a.toNat < b.toNat := Iff.rfl

theorem val_lt (ds : List Char) (h : ∀ c ∈ ds, c.isDigit = true) : val ds < 10 ^ ds.length := by
  induction ds with
  | nil => simp
  | cons c ds ih =>
    rw [val_cons, List.length_cons, pow_succ]
    have h1 := digit_range (h c (by simp))
    have h2 := ih fun x hx => h x (by simp [hx])
    have h3 : c.toNat - 48 ≤ 9 := by omega
    have h4 := Nat.mul_le_mul_left (10 ^ ds.length) h3
    omega

theorem lex_of_val_lt : ∀ (a b : List Char), a.length = b.length → (∀ c ∈ a, c.isDigit = true) → (∀ c ∈ b, c.isDigit = true) →
    val a < val b → ∀ post post' : List Char, a ++ post < b ++ post'
  | [], [], _, _, _, h, _, _ => by simp at h
  | [], _ :: _, h, _, _, _, _, _ => by simp at h
  | _ :: _, [], h, _, _, _, _, _ => by simp at h
  | x :: a, y :: b, hl, ha, hb, h, post, post' => by
    rw [List.cons_append, List.cons_append]
    have hl' : a.length = b.length := by simpa using hl
    have hx := digit_range (ha x (by simp))
    have hy := digit_range (hb y (by simp))
    have ha' : ∀ c ∈ a, c.isDigit = true := fun c hc => ha c (by simp [hc])
    have hb' : ∀ c ∈ b, c.isDigit = true := fun c hc => hb c (by simp [hc])
    have h1 := val_lt a ha'
    have h2 := val_lt b hb'
    rw [val_cons, val_cons, hl'] at h
    rw [hl'] at h1
    rw [List.cons_lt_cons_iff]
    rcases Nat.lt_trichotomy x.toNat y.toNat with hlt | heq | hgt
    · exact Or.inl (char_lt.2 hlt)
    · have hxy : x = y := Char.toNat_inj.1 heq
      refine Or.inr ⟨hxy, lex_of_val_lt a b hl' ha' hb' ?_ post post'⟩
      rw [heq] at h
      omega
    · exfalso
      have : y.toNat - 48 + 1 ≤ x.toNat - 48 := by omega
      have := Nat.mul_le_mul_left (10 ^ b.length) this
      rw [Nat.mul_add] at this
      omega

theorem prefix_lt (pre a b : List Char) (h : a < b) : pre ++ a < pre ++ b := by
  induction pre with
  | nil => exact h
  | cons x xs ih =>
    rw [List.cons_append, List.cons_append, List.cons_lt_cons_iff]
    exact Or.inr ⟨rfl, ih⟩

theorem numbered_lt {pre post : List Char} {w n m : ℕ} {a b : List Char} (ha : Spec.Numbered pre post w n a)
    (hb : Spec.Numbered pre post w m b) (h : n < m) : a < b := by
  obtain ⟨da, rfl, hla, hda, rfl⟩ := ha
  obtain ⟨db, rfl, hlb, hdb, rfl⟩ := hb
  exact prefix_lt _ _ _ (lex_of_val_lt da db (by omega) hda hdb h _ _)

theorem val_inj : ∀ (a b : List Char), a.length = b.length → (∀ c ∈ a, c.isDigit = true) → (∀ c ∈ b, c.isDigit = true) →
    val a = val b → a = b
  | [], [], _, _, _, _ => rfl
  | [], _ :: _, h, _, _, _ => by simp at h
  | _ :: _, [], h, _, _, _ => by simp at h
  | x :: a, y :: b, hl, ha, hb, h => by
    have hl' : a.length = b.length := by simpa using hl
    have hx := digit_range (ha x (by simp))
    have hy := digit_range (hb y (by simp))
    have ha' : ∀ c ∈ a, c.isDigit = true := fun c hc => ha c (by simp [hc])
    have hb' : ∀ c ∈ b, c.isDigit = true := fun c hc => hb c (by simp [hc])
    have h1 := val_lt a ha'
    have h2 := val_lt b hb'
    rw [val_cons, val_cons, hl'] at h
    rw [hl'] at h1
    rcases Nat.lt_trichotomy x.toNat y.toNat with hlt | heq | hgt
    · exfalso
      have : x.toNat - 48 + 1 ≤ y.toNat - 48 := by omega
      have := Nat.mul_le_mul_left (10 ^ b.length) this
      rw [Nat.mul_add] at this
      omega
    · rw [Char.toNat_inj.1 heq, val_inj a b hl' ha' hb' (by rw [heq] at h; omega)]
    · exfalso
      have : y.toNat - 48 + 1 ≤ x.toNat - 48 := by omega
      have := Nat.mul_le_mul_left (10 ^ b.length) this
      rw [Nat.mul_add] at this
      omega

theorem numbered_inj {pre post : List Char} {w n : ℕ} {a b : List Char} (ha : Spec.Numbered pre post w n a)
    (hb : Spec.Numbered pre post w n b) : a = b := by
  obtain ⟨da, rfl, hla, hda, hva⟩ := ha
  obtain ⟨db, rfl, hlb, hdb, hvb⟩ := hb
  rw [val_inj da db (by omega) hda hdb (by rw [val, val, hva, hvb])]

theorem sortNames_perm (l : List (List Char)) : (sortNames l).Perm l := List.perm_insertionSort _ _

theorem mem_sortNames {l : List (List Char)} {a : List Char} : a ∈ sortNames l ↔ a ∈ l := (sortNames_perm l).mem_iff

theorem sortNames_sorted (l : List (List Char)) : (sortNames l).Pairwise (· ≤ ·) := List.pairwise_insertionSort _ _

theorem sortNames_strict {l : List (List Char)} (h : l.Nodup) : (sortNames l).Pairwise (· < ·) := by
  have h1 := sortNames_sorted l
  have h2 : (sortNames l).Nodup := (sortNames_perm l).nodup_iff.2 h
  exact (h1.and h2).imp fun ⟨hle, hne⟩ => lt_of_le_of_ne hle hne

theorem sortNames_congr {l l' : List (List Char)} (h : l.Perm l') : sortNames l = sortNames l' := by
  refine List.Perm.eq_of_pairwise (le := (· ≤ ·)) (fun a b _ _ h1 h2 => le_antisymm h1 h2) (sortNames_sorted l) (sortNames_sorted l') ?_
  exact (sortNames_perm l).trans (h.trans (sortNames_perm l').symm)

/-- Sorting names with numbers of the same width sorts the numbers. -/
theorem sorted_numbers {pre post : List Char} {w : ℕ} {num : List Char → ℕ} {l : List (List Char)}
    (h : ∀ f ∈ l, Spec.Numbered pre post w (num f) f) (hd : l.Nodup) : (sortNames l).Pairwise fun a b => num a < num b := by
  refine (sortNames_strict hd).imp_of_mem ?_
  intro a b ha hb hab
  have ha' := h a (mem_sortNames.1 ha)
  have hb' := h b (mem_sortNames.1 hb)
  rcases Nat.lt_trichotomy (num a) (num b) with hlt | heq | hgt
  · exact hlt
  · rw [heq] at ha'
    rw [numbered_inj ha' hb'] at hab
    exact absurd hab (lt_irrefl _)
  · exact absurd (lt_trans hab (numbered_lt hb' ha' hgt)) (lt_irrefl _)

/-! ## Lines -/

theorem linesFrom_line (a : List Char) (ha : '\n' ∉ a) (acc rest : List Char) :
    linesFrom acc (a ++ '\n' :: rest) = (acc ++ a) :: linesFrom [] rest := by
  induction a generalizing acc with
  | nil => simp [linesFrom]
  | cons c cs ih =>
    have hc : c ≠ '\n' := fun h => ha (by simp [h])
    rw [List.cons_append, linesFrom, if_neg hc, ih (fun h => ha (by simp [h])), List.append_assoc]
    rfl

theorem linesFrom_last (a : List Char) (ha : '\n' ∉ a) (acc : List Char) :
    linesFrom acc a = if acc ++ a = [] then [] else [acc ++ a] := by
  induction a generalizing acc with
  | nil => simp [linesFrom]
  | cons c cs ih =>
    have hc : c ≠ '\n' := fun h => ha (by simp [h])
    rw [linesFrom, if_neg hc, ih (fun h => ha (by simp [h])), List.append_assoc]
    rfl

theorem linesFrom_all (names : List (List Char)) (h : ∀ a ∈ names, '\n' ∉ a) (rest : List Char) :
    linesFrom [] ((names.map (· ++ ['\n'])).flatten ++ rest) = names ++ linesFrom [] rest := by
  induction names with
  | nil => simp
  | cons a as ih =>
    rw [List.map_cons, List.flatten_cons, List.append_assoc, List.append_assoc, List.singleton_append,
      linesFrom_line a (h a (by simp)), ih (fun x hx => h x (by simp [hx]))]
    rfl

/-! ## Numbers as text -/

theorem val_format (w n : ℕ) : val (formatInt w n) = n := by
  unfold formatInt
  rw [if_neg (by omega), Int.natAbs_natCast]
  unfold val List.leftpad
  rw [Nat.ofDigitChars_append, Nat.ofDigitChars_replicate_zero, Nat.mul_zero]
  exact Nat.ofDigitChars_ten_toDigits

theorem format_digits (w n : ℕ) : ∀ c ∈ formatInt w n, c.isDigit = true := by
  intro c hc
  unfold formatInt at hc
  rw [if_neg (by omega), Int.natAbs_natCast] at hc
  unfold List.leftpad at hc
  rcases List.mem_append.1 hc with h | h
  · rw [(List.mem_replicate.1 h).2]
    decide
  · exact Nat.isDigit_of_mem_toDigits (by decide) (by decide) h

theorem format_length {w n : ℕ} (hw : 0 < w) (hn : n < 10 ^ w) : (formatInt w n).length = w := by
  unfold formatInt
  rw [if_neg (by omega), Int.natAbs_natCast, List.length_leftpad]
  have := (Nat.length_toDigits_le_iff (b := 10) (by decide) hw).2 hn
  omega

theorem format_zero (n : ℕ) : formatInt 0 n = Nat.toDigits 10 n := by
  unfold formatInt
  rw [if_neg (by omega), Int.natAbs_natCast]
  simp [List.leftpad]

theorem format_of_numbered {w n : ℕ} {a : List Char} (hw : 0 < w) (h : Spec.Numbered [] [] w n a) : formatInt w n = a := by
  obtain ⟨ds, rfl, hl, hd, hv⟩ := h
  have hn : n < 10 ^ w := by
    rw [← hv, ← hl]
    exact val_lt ds hd
  rw [List.nil_append, List.append_nil]
  refine val_inj _ _ ?_ (format_digits w n) hd ?_
  · rw [format_length hw hn, hl]
  · rw [val_format]
    exact hv.symm

theorem numbered_digits {w n : ℕ} {a : List Char} (h : Spec.Numbered [] [] w n a) :
    a.length = w ∧ (∀ c ∈ a, c.isDigit = true) ∧ val a = n := by
  obtain ⟨ds, rfl, hl, hd, hv⟩ := h
  simp only [List.nil_append, List.append_nil]
  exact ⟨hl, hd, hv⟩

theorem pyInt_numbered {w n : ℕ} {a : List Char} (hw : 0 < w) (h : Spec.Numbered [] [] w n a) : pyInt a = .ok (n : ℤ) := by
  obtain ⟨h1, h2, h3⟩ := numbered_digits h
  unfold pyInt
  have hc : a ≠ [] ∧ a.all Char.isDigit := by
    refine ⟨?_, by simpa using h2⟩
    rintro rfl
    simp at h1
    exact absurd h1 (by omega)
  rw [if_pos hc, ← h3]

theorem mem_iterations {D : Type} {h : H5 D} {a : List Char} : a ∈ h.iterations ↔ ∃ e ∈ h, e.iteration = a := by
  unfold H5.iterations
  rw [mem_sortNames, List.mem_dedup, List.mem_map]

theorem group_ok {D : Type} {h : H5 D} {name : List Char} (hm : ∃ e ∈ h, e.iteration = name) :
    ∃ l, h.group name = .ok l ∧ ∀ k v, (k, v) ∈ l ↔ Spec.InIteration h name k v := by
  refine ⟨_, if_pos (List.mem_map.2 hm), ?_⟩
  intro k v
  simp only [List.mem_map, List.mem_filter, decide_eq_true_eq, Prod.mk.injEq]
  constructor
  · rintro ⟨e, ⟨he, rfl⟩, rfl, rfl⟩
    exact he
  · intro he
    exact ⟨_, ⟨he, rfl⟩, rfl, rfl⟩

theorem mapM_ok {α β : Type} {f : α → Res β} {g : α → β} : ∀ {l : List α}, (∀ a ∈ l, f a = .ok (g a)) → l.mapM f = .ok (l.map g)
  | [], _ => rfl
  | a :: l, h => by
    rw [List.mapM_cons, h a (by simp), mapM_ok fun x hx => h x (by simp [hx])]
    rfl

theorem addEntries_ok {D : Type} : ∀ (f ih : H5 D), ((ih ++ f).map fun x => (x.iteration, x.key)).Nodup →
    addEntries ih f = (ih ++ f, none)
  | [], ih, _ => by simp [addEntries]
  | e :: es, ih, h => by
    rw [addEntries, if_neg, addEntries_ok es (ih ++ [e]) (by simpa using h)]
    · simp
    · intro hm
      rw [List.map_append, List.nodup_append] at h
      exact h.2.2 _ hm _ (by simp) rfl

theorem generateIndex_ok {D : Type} : ∀ (fs : List (H5 D)) (ih : H5 D), ((ih ++ fs.flatten).map fun x => (x.iteration, x.key)).Nodup →
    generateIndex ih (fs.map some) = (ih ++ fs.flatten, none)
  | [], ih, _ => by simp [generateIndex]
  | f :: fs, ih, h => by
    rw [List.flatten_cons, ← List.append_assoc] at h
    have h1 : ((ih ++ f).map fun x => (x.iteration, x.key)).Nodup := by
      rw [List.map_append] at h
      exact (List.nodup_append.1 h).1
    simp only [List.map_cons, generateIndex, addEntries_ok f ih h1]
    rw [generateIndex_ok fs (ih ++ f) h]
    simp

end Postpic.Readers
