import Verif.Spec.VtkBytes
import Verif.Lemmas.Io
import Verif.Lemmas.Series

/-!
# Lemmas about the bytes of a VTK file
-/

set_option autoImplicit false

namespace Postpic.Io

open Postpic Postpic.Spec

/-- A word of visible ascii characters. -/
def Word (w : List Char) : Prop := w ≠ [] ∧ ∀ c ∈ w, c.toNat < 128 ∧ isBlank c = false

theorem charOf_charByte (c : Char) (h : c.toNat < 128) : Char.ofNat (charByte c).toNat = c := by
  unfold charByte
  rw [UInt8.toNat_ofNat', Nat.mod_eq_of_lt (by omega), Char.ofNat_toNat]

theorem charByte_newline (c : Char) (h : c.toNat < 128) : charByte c = 10 ↔ c = '\n' := by
  constructor
  · intro e
    rw [← charOf_charByte c h, e]
    rfl
  · rintro rfl
    rfl

theorem nextLine_text (s : List Char) (r : Bytes) (h : ∀ c ∈ s, c.toNat < 128 ∧ c ≠ '\n') :
    nextLine (s.map charByte ++ 10 :: r) = some (s, r) := by
  induction s with
  | nil => simp [nextLine]
  | cons c s ih =>
    have hc := h c (by simp)
    simp only [List.map_cons, List.cons_append, nextLine]
    rw [if_neg (fun e => hc.2 ((charByte_newline c hc.1).1 e)), ih (fun d hd => h d (by simp [hd]))]
    simp [charOf_charByte c hc.1]

theorem wordsFrom_word (acc w rest : List Char) (hw : ∀ c ∈ w, isBlank c = false) :
    wordsFrom acc (w ++ rest) = wordsFrom (acc ++ w) rest := by
  induction w generalizing acc with
  | nil => simp
  | cons c w ih =>
    simp only [List.cons_append, wordsFrom]
    rw [if_neg (by simp [hw c (by simp)]), ih (acc ++ [c]) (fun d hd => hw d (by simp [hd]))]
    simp

theorem words_spaced (ws : List (List Char)) (h : ∀ w ∈ ws, Word w) : wordsFrom [] (spaced ws) = ws := by
  induction ws with
  | nil => simp [spaced, wordsFrom]
  | cons w ws ih =>
    have hw := h w (by simp)
    cases ws with
    | nil =>
      have := wordsFrom_word [] w [] (fun c hc => (hw.2 c hc).2)
      simp only [List.append_nil, List.nil_append] at this
      simp [spaced, this, wordsFrom, hw.1]
    | cons w' ws =>
      simp only [spaced]
      rw [wordsFrom_word [] w _ (fun c hc => (hw.2 c hc).2)]
      simp only [List.nil_append, wordsFrom]
      rw [if_pos (by decide), if_neg hw.1, ih (fun x hx => h x (by simp [hx]))]

theorem mem_spaced (ws : List (List Char)) (c : Char) (hc : c ∈ spaced ws) : c = ' ' ∨ ∃ w ∈ ws, c ∈ w := by
  induction ws with
  | nil => simp [spaced] at hc
  | cons w ws ih =>
    cases ws with
    | nil => exact Or.inr ⟨w, by simp, hc⟩
    | cons w' ws =>
      simp only [spaced, List.mem_append, List.mem_cons] at hc
      rcases hc with hc | rfl | hc
      · exact Or.inr ⟨w, by simp, hc⟩
      · exact Or.inl rfl
      · rcases ih hc with h | ⟨x, hx, h⟩
        · exact Or.inl h
        · exact Or.inr ⟨x, by simp at hx ⊢; tauto, h⟩

theorem spaced_ascii (ws : List (List Char)) (h : ∀ w ∈ ws, Word w) : ∀ c ∈ spaced ws, c.toNat < 128 ∧ c ≠ '\n' := by
  intro c hc
  rcases mem_spaced ws c hc with rfl | ⟨w, hw, hcw⟩
  · decide
  · refine ⟨((h w hw).2 c hcw).1, ?_⟩
    rintro rfl
    exact absurd ((h w hw).2 '\n' hcw).2 (by decide)

theorem writeLine_ok (ws : List (List Char)) (h : ∀ w ∈ ws, Word w) :
    writeLine ws = .ok ((spaced ws).map charByte ++ [10]) := by
  unfold writeLine encodeAscii
  rw [if_pos]
  · simp [charByte]
  · rw [List.all_eq_true]
    intro c hc
    rw [List.mem_append] at hc
    rcases hc with hc | hc
    · exact decide_eq_true (spaced_ascii ws h c hc).1
    · obtain rfl := List.mem_singleton.1 hc
      decide

theorem skipBlanks_newline (r : Bytes) : skipBlanks (10 :: r) = skipBlanks r := by
  unfold skipBlanks
  rw [List.dropWhile_cons_of_pos (by decide)]

/-- The bytes of a line. -/
def lineBytes (ws : List (List Char)) : Bytes := (spaced ws).map charByte ++ [10]

theorem keyword_line (k : String) (ws : List (List Char)) (r : Bytes) (hk : Word k.toList) (h : ∀ w ∈ ws, Word w) :
    keyword k (lineBytes (k.toList :: ws) ++ r) = some (ws, r) := by
  have hall : ∀ w ∈ k.toList :: ws, Word w := by
    intro w hw
    rcases List.mem_cons.1 hw with rfl | hw
    · exact hk
    · exact h w hw
  have hhead : ∃ c s, spaced (k.toList :: ws) = c :: s ∧ isBlank c = false ∧ c.toNat < 128 := by
    obtain ⟨c, s, hcs⟩ := List.exists_cons_of_ne_nil hk.1
    have hc := hk.2 c (by rw [hcs]; simp)
    cases ws with
    | nil => exact ⟨c, s, by simp [spaced, hcs], hc.2, hc.1⟩
    | cons w ws => exact ⟨c, s ++ ' ' :: spaced (w :: ws), by simp [spaced, hcs], hc.2, hc.1⟩
  obtain ⟨c, s, e, hb, hc⟩ := hhead
  have hskip : skipBlanks (lineBytes (k.toList :: ws) ++ r) = (spaced (k.toList :: ws)).map charByte ++ 10 :: r := by
    unfold skipBlanks lineBytes
    rw [e]
    simp only [List.map_cons, List.cons_append, List.append_assoc, List.nil_append]
    rw [List.dropWhile_cons_of_neg (by rw [charOf_charByte c hc]; simp [hb])]
  unfold keyword
  rw [hskip, nextLine_text _ r (spaced_ascii _ hall)]
  simp [words_spaced _ hall]

/-- A line with another keyword. -/
theorem keyword_other (k k' : String) (ws : List (List Char)) (r : Bytes) (hk : Word k.toList) (h : ∀ w ∈ ws, Word w) (hne : k.toList ≠ k'.toList) :
    keyword k' (lineBytes (k.toList :: ws) ++ r) = none := by
  have hall : ∀ w ∈ k.toList :: ws, Word w := by
    intro w hw
    rcases List.mem_cons.1 hw with rfl | hw
    · exact hk
    · exact h w hw
  have h1 := keyword_line k ws r hk h
  unfold keyword at h1 ⊢
  cases hn : nextLine (skipBlanks (lineBytes (k.toList :: ws) ++ r)) with
  | none => rfl
  | some p =>
    obtain ⟨l, r'⟩ := p
    rw [hn] at h1
    simp only [Option.bind_eq_bind, Option.bind_some] at h1 ⊢
    split at h1
    · rename_i w ws' hw
      split_ifs at h1 with hwk
      rw [if_neg (by rw [hwk]; exact hne)]
    · cases h1

theorem visible_not_blank (c : Char) (h : 32 < c.toNat) : isBlank c = false := by
  by_contra hb
  rw [Bool.not_eq_false] at hb
  unfold isBlank at hb
  rw [List.contains_iff_mem] at hb
  simp only [List.mem_cons, List.not_mem_nil, or_false] at hb
  rcases hb with rfl | rfl | rfl | rfl | rfl | rfl <;> exact absurd h (by decide)

theorem natText_digit {n : ℕ} {c : Char} (h : c ∈ natText n) : c.isDigit = true := Nat.isDigit_of_mem_toDigits (by decide) (by decide) h

theorem natText_ne_nil (n : ℕ) : natText n ≠ [] := Nat.toDigits_ne_nil

theorem natText_word (n : ℕ) : Word (natText n) := by
  refine ⟨natText_ne_nil n, fun c hc => ?_⟩
  have hd := Readers.digit_range (natText_digit hc)
  exact ⟨by omega, visible_not_blank c (by omega)⟩

theorem readNat_natText (n : ℕ) : readNat (natText n) = some n := by
  unfold readNat
  rw [if_pos ⟨natText_ne_nil n, List.all_eq_true.2 fun c hc => natText_digit hc⟩]
  exact congrArg some Nat.ofDigitChars_ten_toDigits

theorem readValues_ok {K : Type} (wr : NumWriter K) (rd : NumReader K) (round : VtkType → K → K) (hu : ReadsValues wr rd round) (t : VtkType)
    (l : List K) (r : Bytes) :
    readValues rd t l.length (l.flatMap (wr.bytes t) ++ r) = some (l.map (round t), r) := by
  induction l with
  | nil => simp [readValues]
  | cons v l ih =>
    have hs := hu.size t v
    simp only [List.length_cons, readValues, List.flatMap_cons, List.append_assoc]
    rw [if_neg (by rw [List.length_append]; omega), ← hs, List.take_left, List.drop_left, hu.value]
    simp [ih]

theorem runWrites_ok (l : List Bytes) : runWrites (l.map .ok) = (l.flatten, none) := by
  induction l with
  | nil => rfl
  | cons b l ih => simp [runWrites, ih]

theorem keyword_newline (k : String) (r : Bytes) : keyword k (10 :: r) = keyword k r := by
  unfold keyword
  rw [skipBlanks_newline]

theorem mapM_some {α β : Type} (f : α → Option β) (g : α → β) (l : List α) (h : ∀ a ∈ l, f a = some (g a)) : l.mapM f = some (l.map g) := by
  induction l with
  | nil => rfl
  | cons a l ih =>
    rw [List.mapM_cons, h a (by simp), ih (fun b hb => h b (by simp [hb]))]
    rfl

theorem three_nat (l : List ℕ) (h : l.length = 3) : three readNat (l.map natText) = some l := by
  unfold three
  rw [if_pos (by simpa using h), List.mapM_map, mapM_some (readNat ∘ natText) id l (fun n _ => readNat_natText n)]
  simp

section
variable {K : Type} {P : K → Prop} {wr : NumWriter K} {rd : NumReader K} {round : VtkType → K → K}

theorem text_word (hu : Understands P wr rd round) (v : K) : Word (wr.text v) :=
  ⟨(hu.visible v).1, fun c hc => ⟨((hu.visible v).2 c hc).2, visible_not_blank c ((hu.visible v).2 c hc).1⟩⟩

theorem three_text (hu : Understands P wr rd round) (l : List K) (h : l.length = 3) (hP : ∀ v ∈ l, P v) : three rd.number (l.map wr.text) = some l := by
  unfold three
  rw [if_pos (by simpa using h), List.mapM_map, mapM_some (rd.number ∘ wr.text) id l (fun v hv => hu.text v (hP v hv))]
  simp

theorem type_word (t : VtkType) : Word t.text := by
  cases t <;> exact ⟨by decide, by decide⟩

theorem readType_text (t : VtkType) : readType t.text = some t := by cases t <;> rfl

theorem coordinates_ok (hu : ReadsValues wr rd round) (t : VtkType) (k : String) (hk : Word k.toList) (g : List K) (r : Bytes) :
    readCoordinates rd k (lineBytes [k.toList, natText g.length, t.text] ++ (g.flatMap (wr.bytes t) ++ r)) = some (g.map (round t), r) := by
  unfold readCoordinates
  rw [keyword_line k _ _ hk (by
    intro w hw
    simp only [List.mem_cons, List.not_mem_nil, or_false] at hw
    rcases hw with rfl | rfl
    · exact natText_word _
    · exact type_word t)]
  simp only [Option.bind_eq_bind, Option.bind_some, readType_text, readNat_natText]
  exact readValues_ok wr rd round hu t g r

/-- The description of the points as it is read. -/
def DataSet.rounded (round : VtkType → K → K) (t : VtkType) : DataSet K → DataSet K
  | .structuredPoints d o s => .structuredPoints d o s
  | .rectilinearGrid g => .rectilinearGrid (g.map (List.map (round t)))

/-- Three dimensions. -/
def DataSet.Three : DataSet K → Prop
  | .structuredPoints d o s => d.length = 3 ∧ o.length = 3 ∧ s.length = 3
  | .rectilinearGrid g => g.length = 3

/-- The numbers which are written as text have the property `P`. -/
def DataSet.Texts (P : K → Prop) : DataSet K → Prop
  | .structuredPoints _ o s => ∀ v ∈ o ++ s, P v
  | .rectilinearGrid _ => True

theorem points_ok (hu : Understands P wr rd round) (t : VtkType) (d : DataSet K) (h3 : d.Three) (hP : d.Texts P) :
    ∃ bs : List Bytes, d.writes wr t = bs.map .ok ∧ ∀ r, ∃ r', readPoints rd (bs.flatten ++ r) = some (d.rounded round t, r') ∧
      ∀ k, keyword k r' = keyword k r := by
  cases d with
  | structuredPoints dims o s =>
    obtain ⟨h1, h2, h3⟩ := h3
    have w1 : ∀ w ∈ ["STRUCTURED_POINTS".toList], Word w := by
      intro w hw
      obtain rfl := List.mem_singleton.1 hw
      exact ⟨by decide, by decide⟩
    have w2 : ∀ w ∈ dims.map natText, Word w := by
      intro w hw
      obtain ⟨n, _, rfl⟩ := List.mem_map.1 hw
      exact natText_word n
    have w3 : ∀ (l : List K), ∀ w ∈ l.map wr.text, Word w := by
      intro l w hw
      obtain ⟨n, _, rfl⟩ := List.mem_map.1 hw
      exact text_word hu n
    have cons : ∀ (k : String) (ws : List (List Char)), Word k.toList → (∀ w ∈ ws, Word w) → ∀ w ∈ k.toList :: ws, Word w := by
      intro k ws hk hws w hw
      rcases List.mem_cons.1 hw with rfl | hw
      · exact hk
      · exact hws w hw
    have k1 : Word "DATASET".toList := ⟨by decide, by decide⟩
    have k2 : Word "DIMENSIONS".toList := ⟨by decide, by decide⟩
    have k3 : Word "ORIGIN".toList := ⟨by decide, by decide⟩
    have k4 : Word "SPACING".toList := ⟨by decide, by decide⟩
    refine ⟨[lineBytes ("DATASET".toList :: ["STRUCTURED_POINTS".toList]), lineBytes ("DIMENSIONS".toList :: dims.map natText),
      lineBytes ("ORIGIN".toList :: o.map wr.text), lineBytes ("SPACING".toList :: s.map wr.text)], ?_, fun r => ⟨r, ?_, fun _ => rfl⟩⟩
    · simp only [DataSet.writes]
      rw [writeLine_ok _ (cons _ _ k1 w1), writeLine_ok _ (cons _ _ k2 w2), writeLine_ok _ (cons _ _ k3 (w3 o)),
        writeLine_ok _ (cons _ _ k4 (w3 s))]
      rfl
    · simp only [List.flatten_cons, List.flatten_nil, List.append_nil, List.append_assoc]
      unfold readPoints
      rw [keyword_line "DATASET" _ _ k1 w1]
      simp only [Option.bind_eq_bind, Option.bind_some]
      rw [keyword_line "DIMENSIONS" _ _ k2 w2]
      simp only [Option.bind_some, three_nat dims h1, if_true]
      rw [keyword_line "ORIGIN" _ _ k3 (w3 o)]
      simp only [Option.bind_some, three_text hu o h2 fun v hv => hP v (List.mem_append_left _ hv)]
      rw [keyword_line "SPACING" _ _ k4 (w3 s)]
      simp only [Option.bind_some, three_text hu s h3 fun v hv => hP v (List.mem_append_right _ hv)]
      rfl
  | rectilinearGrid g =>
    match g, h3 with
    | [x, y, z], _ =>
    have w1 : ∀ w ∈ ["RECTILINEAR_GRID".toList], Word w := by
      intro w hw
      obtain rfl := List.mem_singleton.1 hw
      exact ⟨by decide, by decide⟩
    have w2 : ∀ w ∈ [natText x.length, natText y.length, natText z.length], Word w := by
      intro w hw
      simp only [List.mem_cons, List.not_mem_nil, or_false] at hw
      rcases hw with rfl | rfl | rfl <;> exact natText_word _
    have w3 : ∀ n : ℕ, ∀ w ∈ [natText n, t.text], Word w := by
      intro n w hw
      simp only [List.mem_cons, List.not_mem_nil, or_false] at hw
      rcases hw with rfl | rfl
      · exact natText_word _
      · exact type_word t
    have cons : ∀ (k : String) (ws : List (List Char)), Word k.toList → (∀ w ∈ ws, Word w) → ∀ w ∈ k.toList :: ws, Word w := by
      intro k ws hk hws w hw
      rcases List.mem_cons.1 hw with rfl | hw
      · exact hk
      · exact hws w hw
    have k1 : Word "DATASET".toList := ⟨by decide, by decide⟩
    have k2 : Word "DIMENSIONS".toList := ⟨by decide, by decide⟩
    have kx : Word "X_COORDINATES".toList := ⟨by decide, by decide⟩
    have ky : Word "Y_COORDINATES".toList := ⟨by decide, by decide⟩
    have kz : Word "Z_COORDINATES".toList := ⟨by decide, by decide⟩
    refine ⟨[lineBytes ("DATASET".toList :: ["RECTILINEAR_GRID".toList]),
      lineBytes ("DIMENSIONS".toList :: [natText x.length, natText y.length, natText z.length]),
      lineBytes ("X_COORDINATES".toList :: [natText x.length, t.text]), x.flatMap (wr.bytes t), [10],
      lineBytes ("Y_COORDINATES".toList :: [natText y.length, t.text]), y.flatMap (wr.bytes t), [10],
      lineBytes ("Z_COORDINATES".toList :: [natText z.length, t.text]), z.flatMap (wr.bytes t), [10]], ?_,
      fun r => ⟨10 :: r, ?_, fun k => keyword_newline k r⟩⟩
    · have e1 := writeLine_ok _ (cons _ _ k1 w1)
      have e2 := writeLine_ok _ (cons _ _ k2 w2)
      have e3 := writeLine_ok _ (cons _ _ kx (w3 x.length))
      have e4 := writeLine_ok _ (cons _ _ ky (w3 y.length))
      have e5 := writeLine_ok _ (cons _ _ kz (w3 z.length))
      show [writeLine ("DATASET".toList :: ["RECTILINEAR_GRID".toList]),
        writeLine ("DIMENSIONS".toList :: [natText x.length, natText y.length, natText z.length]),
        writeLine ("X_COORDINATES".toList :: [natText x.length, t.text]), .ok (x.flatMap (wr.bytes t)), .ok [10],
        writeLine ("Y_COORDINATES".toList :: [natText y.length, t.text]), .ok (y.flatMap (wr.bytes t)), .ok [10],
        writeLine ("Z_COORDINATES".toList :: [natText z.length, t.text]), .ok (z.flatMap (wr.bytes t)), .ok [10]] = _
      rw [e1, e2, e3, e4, e5]
      rfl
    · simp only [List.flatten_cons, List.flatten_nil, List.append_nil, List.append_assoc, List.cons_append, List.nil_append]
      unfold readPoints
      rw [keyword_line "DATASET" _ _ k1 w1]
      simp only [Option.bind_eq_bind, Option.bind_some]
      rw [keyword_line "DIMENSIONS" _ _ k2 w2]
      have h3n := three_nat [x.length, y.length, z.length] rfl
      simp only [List.map_cons, List.map_nil] at h3n
      simp only [Option.bind_some, h3n]
      rw [if_neg (by decide), if_pos trivial, coordinates_ok hu.toReadsValues t "X_COORDINATES" kx x]
      simp only [Option.bind_some]
      have nl : ∀ k r, readCoordinates rd k (10 :: r) = readCoordinates rd k r := by
        intro k r
        unfold readCoordinates
        rw [keyword_newline]
      rw [nl, coordinates_ok hu.toReadsValues t "Y_COORDINATES" ky y]
      simp only [Option.bind_some]
      rw [nl, coordinates_ok hu.toReadsValues t "Z_COORDINATES" kz z]
      simp [DataSet.rounded]

/-- The data as they are read. -/
theorem array_ok {V : Type} [Inhabited V] {wv : NumWriter V} {rv : NumReader V} {roundV : VtkType → V → V} (hu : ReadsValues wv rv roundV) (t : VtkType)
    (d : DataSet K) (a : ArrayData K V) (n : ℕ) (l : List V) (hn : a.len = .ok n) (hd : n = (vtkDimensions d).foldr (· * ·) 1)
    (hw : Word a.name) (ht : transformData a.fields = .ok l) (hl : l.length = n * a.fields.length)
    (h3 : a.kind = .vectors → a.fields.length = 3) :
    ∃ bs : List Bytes, (Attribute.point a).writes wv t = bs.map .ok ∧ ∀ r, (∀ k, keyword k r = keyword k bs.flatten) →
      readArray rv d r = some ⟨d, n, a.kind, a.name, t, a.fields.length, l.map (roundV t)⟩ := by
  have k1 : Word "POINT_DATA".toList := ⟨by decide, by decide⟩
  have k2 : Word "VECTORS".toList := ⟨by decide, by decide⟩
  have k3 : Word "SCALARS".toList := ⟨by decide, by decide⟩
  have k4 : Word "LOOKUP_TABLE".toList := ⟨by decide, by decide⟩
  have k5 : Word "default".toList := ⟨by decide, by decide⟩
  have w1 : ∀ w ∈ [natText n], Word w := by
    intro w hw
    obtain rfl := List.mem_singleton.1 hw
    exact natText_word n
  have w2 : ∀ w ∈ [a.name, t.text], Word w := by
    intro w h
    simp only [List.mem_cons, List.not_mem_nil, or_false] at h
    rcases h with rfl | rfl
    · exact hw
    · exact type_word t
  have w3 : ∀ w ∈ [a.name, t.text, natText a.fields.length], Word w := by
    intro w h
    simp only [List.mem_cons, List.not_mem_nil, or_false] at h
    rcases h with rfl | rfl | rfl
    · exact hw
    · exact type_word t
    · exact natText_word _
  have w4 : ∀ w ∈ ["default".toList], Word w := by
    intro w hw
    obtain rfl := List.mem_singleton.1 hw
    exact k5
  have cons : ∀ (k : String) (ws : List (List Char)), Word k.toList → (∀ w ∈ ws, Word w) → ∀ w ∈ k.toList :: ws, Word w := by
    intro k ws hk hws w hw
    rcases List.mem_cons.1 hw with rfl | hw
    · exact hk
    · exact hws w hw
  have hvals := readValues_ok wv rv roundV hu t l []
  rw [List.append_nil, hl] at hvals
  have e1 := writeLine_ok _ (cons _ _ k1 w1)
  have e2 := writeLine_ok _ (cons _ _ k2 w2)
  have e3 := writeLine_ok _ (cons _ _ k3 w3)
  have e4 := writeLine_ok _ (cons _ _ k4 w4)
  cases hk : a.kind with
  | vectors =>
    refine ⟨[lineBytes ("POINT_DATA".toList :: [natText n]), lineBytes ("VECTORS".toList :: [a.name, t.text]), l.flatMap (wv.bytes t)], ?_, ?_⟩
    · simp only [Attribute.writes, ArrayData.writes, hk, hn, ht, bind, Except.bind, Except.map, List.cons_append, List.nil_append]
      rw [e1, e2]
      rfl
    · intro r hr
      unfold readArray
      rw [hr]
      simp only [List.flatten_cons, List.flatten_nil, List.append_nil]
      rw [keyword_line "POINT_DATA" _ _ k1 w1]
      simp only [Option.bind_eq_bind, Option.bind_some, readNat_natText]
      rw [if_neg (not_not.2 hd), keyword_line "VECTORS" _ _ k2 w2]
      simp only [readType_text, Option.bind_some]
      rw [h3 hk] at hvals ⊢
      rw [hvals]
      rfl
  | scalars =>
    refine ⟨[lineBytes ("POINT_DATA".toList :: [natText n]), lineBytes ("SCALARS".toList :: [a.name, t.text, natText a.fields.length]),
      lineBytes ("LOOKUP_TABLE".toList :: ["default".toList]), l.flatMap (wv.bytes t)], ?_, ?_⟩
    · simp only [Attribute.writes, ArrayData.writes, hk, hn, ht, bind, Except.bind, Except.map, List.cons_append, List.nil_append]
      rw [e1, e3, e4]
      rfl
    · intro r hr
      unfold readArray
      rw [hr]
      simp only [List.flatten_cons, List.flatten_nil, List.append_nil]
      rw [keyword_line "POINT_DATA" _ _ k1 w1]
      simp only [Option.bind_eq_bind, Option.bind_some, readNat_natText]
      rw [if_neg (not_not.2 hd), keyword_other "SCALARS" "VECTORS" _ _ k3 w3 (by decide), keyword_line "SCALARS" _ _ k3 w3]
      simp only [readType_text, Option.bind_some, readNat_natText]
      rw [keyword_line "LOOKUP_TABLE" _ _ k4 w4]
      simp only [Option.bind_some]
      rw [hvals]
      rfl

theorem dimensions_rounded (round : VtkType → K → K) (t : VtkType) (d : DataSet K) : vtkDimensions (d.rounded round t) = vtkDimensions d := by
  cases d <;> simp [DataSet.rounded, vtkDimensions, Function.comp_def]

theorem header_ok : ∃ bs : List Bytes, vtkHeader = bs.map .ok ∧ ∀ r,
    nextLine (bs.flatten ++ r) = some ("# vtk DataFile Version 2.0".toList,
      ("PostPic exported data".toList.map charByte ++ 10 :: ("BINARY".toList.map charByte ++ 10 :: r))) := by
  refine ⟨["# vtk DataFile Version 2.0".toList.map charByte ++ [10], "PostPic exported data".toList.map charByte ++ [10],
    "BINARY".toList.map charByte ++ [10]], by decide +kernel, fun r => ?_⟩
  simp only [List.flatten_cons, List.flatten_nil, List.append_nil, List.append_assoc, List.cons_append, List.nil_append]
  exact nextLine_text _ _ (by decide)

/-- A file which was written completely is read completely. -/
theorem file_ok {V : Type} [Inhabited V] {wv : NumWriter V} {rv : NumReader V} {roundV : VtkType → V → V} (hk : Understands P wr rd round)
    (hv : ReadsValues wv rv roundV) (t : VtkType)
    (d : DataSet K) (h3 : d.Three) (hP : d.Texts P) (a : ArrayData K V) (n : ℕ) (l : List V) (hn : a.len = .ok n) (hd : n = (vtkDimensions d).foldr (· * ·) 1)
    (hw : Word a.name) (ht : transformData a.fields = .ok l) (hl : l.length = n * a.fields.length)
    (hvec : a.kind = .vectors → a.fields.length = 3) (old : Option Bytes) :
    ∃ file, vtkTofile wr wv d [.point a] t.text "binary".toList old = (some file, none) ∧
      readVtk rd rv file = some ⟨d.rounded round t, n, a.kind, a.name, t, a.fields.length, l.map (roundV t)⟩ := by
  obtain ⟨b1, e1, q1⟩ := header_ok
  obtain ⟨b2, e2, q2⟩ := points_ok hk t d h3 hP
  obtain ⟨b3, e3, q3⟩ := array_ok hv t (d.rounded round t) a n l hn (by rw [dimensions_rounded]; exact hd) hw ht hl hvec
  obtain ⟨r', p1, p2⟩ := q2 b3.flatten
  refine ⟨(b1 ++ b2 ++ b3).flatten, ?_, ?_⟩
  · have hty : vtkType t.text = .ok t := by cases t <;> rfl
    unfold vtkTofile
    rw [if_neg (not_not.2 rfl)]
    simp only [hty, List.flatMap_cons, List.flatMap_nil, List.append_nil, e1, e2, e3]
    rw [← List.map_append, ← List.map_append, runWrites_ok]
  · have hf : (b1 ++ b2 ++ b3).flatten = b1.flatten ++ (b2.flatten ++ b3.flatten) := by simp
    unfold readVtk
    rw [hf, q1]
    simp only [Option.bind_eq_bind, Option.bind_some]
    rw [nextLine_text _ _ (by decide)]
    simp only [Option.bind_some]
    rw [nextLine_text _ _ (by decide)]
    simp only [Option.bind_some]
    rw [if_pos (by simp), p1]
    exact q3 r' p2

end

open Postpic.Fields Postpic.Axes in
theorem atleastNd_name {K V : Type} [_root_.Field K] [LinearOrder K] (spl : Splines K) (f g : Field K V) (n : ℤ) (h : f.atleastNd spl n = .ok g) :
    g.name = f.name := by
  unfold Field.atleastNd at h
  split_ifs at h
  · cases h
    rfl
  · obtain ⟨ax, _, h⟩ := bind_ok h
    cases h
    rfl

open Postpic.Fields Postpic.Axes in
/-- What the model of the values has accepted is handed over to the file. -/
theorem prepare_of_export {K V : Type} [_root_.Field K] [LinearOrder K] [Inhabited V] (spl : Splines K)
    (unst : List (Field K V) → Res (List (Field K V))) (kind : VtkKind) (args : VtkArgs) (fields : List (Field K V)) (f0 : Field K V)
    (hf0 : fields.head? = some f0) (axes : List (Axis K)) (hs : ∀ f ∈ fields, f.axes = axes)
    (hrefl : axesEq axes axes = .ok true) (hlen : ∀ g, f0.atleastNd spl 3 = .ok g → g.axes.length = 3) (v : VtkFile K V)
    (h : exportArraydata spl unst kind args.unstagger args.skipAxesCheck fields = .ok v) :
    ∃ a : ArrayData K V, prepareVtk spl unst kind args fields = .ok (v.dataset, a) ∧ a.kind = kind ∧ a.name = underscore (exportName args.name f0.name) ∧
      transformData a.fields = .ok v.data ∧ a.len = .ok v.points ∧ a.fields.length = v.components ∧
      (kind = .vectors → a.fields.length = 3) ∧ v.dataset.Three ∧
      ∃ g, f0.atleastNd spl 3 = .ok g ∧ match v.dataset with
        | .structuredPoints _ o s => g.axes.all (fun ax => ax.isLinear) = true ∧ g.axes.mapM (fun ax => pyGet ax.grid 0) = .ok o ∧
          g.axes.mapM (fun ax => ax.spacing) = .ok s
        | .rectilinearGrid _ => g.axes.all (fun ax => ax.isLinear) = false := by
  obtain ⟨fs, rfl⟩ : ∃ fs, fields = f0 :: fs := by
    cases fields with
    | nil => cases hf0
    | cons a l =>
      cases hf0
      exact ⟨l, rfl⟩
  have hsame : fs.mapM (fun f => axesEq f.axes f0.axes) = .ok (List.replicate fs.length true) := by
    apply mapM_of_get (by simp)
    intro m f b hm hb
    rw [List.getElem?_replicate] at hb
    split_ifs at hb
    rw [Option.some.injEq] at hb
    rw [← hb, hs f (by simp [List.mem_of_getElem? hm]), hs f0 (by simp)]
    exact hrefl
  have hall : (!(List.replicate fs.length true).all id) = false := by simp
  unfold exportArraydata at h
  unfold prepareVtk prepareData
  rw [pyGet_zero (l := f0 :: fs) (a := f0) rfl] at h ⊢
  simp only [bind, Except.bind, List.tail_cons, hsame, pure, Except.pure, hall, Bool.false_eq_true, if_false] at h ⊢
  rw [pyGet_zero (l := f0 :: fs) (a := f0) rfl] at h
  simp only at h ⊢
  by_cases c1 : 3 < f0.shape.length
  · rw [if_pos c1] at h
    cases h
  rw [if_neg c1] at h ⊢
  by_cases c2 : f0.shape.length = 1
  · rw [if_pos c2] at h
    cases h
  rw [if_neg c2] at h ⊢
  cases hm : (f0 :: fs).mapM (fun f => f.atleastNd spl 3) with
  | error e =>
    rw [hm] at h
    cases h
  | ok gs =>
  rw [hm] at h
  simp only at h ⊢
  cases hg : pyGet gs 0 with
  | error e =>
    rw [hg] at h
    cases h
  | ok g0 =>
  rw [hg] at h
  simp only at h ⊢
  have hup : f0.atleastNd spl 3 = .ok g0 := by
    rw [List.mapM_cons] at hm
    obtain ⟨g, hg1, hm⟩ := bind_ok hm
    obtain ⟨l, _, hm⟩ := bind_ok hm
    cases hm
    rw [pyGet_zero (l := g :: l) (a := g) rfl] at hg
    cases hg
    exact hg1
  have hname : g0.name = f0.name := atleastNd_name spl f0 _ 3 hup
  have hd : ∃ ds, (if (g0.axes.all fun ax => ax.isLinear) = true then structuredPoints g0 else rectilinearGrid g0) = .ok ds ∧ ds.Three ∧
      match ds with
        | .structuredPoints _ o s => g0.axes.all (fun ax => ax.isLinear) = true ∧ g0.axes.mapM (fun ax => pyGet ax.grid 0) = .ok o ∧
          g0.axes.mapM (fun ax => ax.spacing) = .ok s
        | .rectilinearGrid _ => g0.axes.all (fun ax => ax.isLinear) = false := by
    by_cases hl : (g0.axes.all fun ax => ax.isLinear) = true
    · rw [if_pos hl] at h ⊢
      cases hd : structuredPoints g0 with
      | error e =>
        rw [hd] at h
        cases h
      | ok ds =>
        refine ⟨ds, rfl, ?_⟩
        unfold structuredPoints at hd
        by_cases c : g0.dims ≠ 3
        · rw [if_pos c] at hd
          cases hd
        rw [if_neg c] at hd
        obtain ⟨o, ho, hd⟩ := bind_ok hd
        obtain ⟨s, hs', hd⟩ := bind_ok hd
        cases hd
        have l1 := (Fields.mapM_ok ho).length_eq
        have l2 := (Fields.mapM_ok hs').length_eq
        exact ⟨⟨by simpa using hlen g0 hup, by rw [← l1]; exact hlen g0 hup, by rw [← l2]; exact hlen g0 hup⟩, hl, ho, hs'⟩
    · rw [if_neg hl] at h ⊢
      cases hd : rectilinearGrid g0 with
      | error e =>
        rw [hd] at h
        cases h
      | ok ds =>
        refine ⟨ds, rfl, ?_⟩
        unfold rectilinearGrid at hd
        by_cases c : g0.axes.length ≠ 3
        · rw [if_pos c] at hd
          cases hd
        rw [if_neg c] at hd
        cases hd
        exact ⟨by simpa [DataSet.Three] using c, by simpa using hl⟩
  obtain ⟨ds, hd, hthree, hlin⟩ := hd
  by_cases hl : (g0.axes.all fun ax => ax.isLinear) = true
  on_goal 1 => rw [if_pos hl] at h hd ⊢
  on_goal 2 => rw [if_neg hl] at h hd ⊢
  all_goals
    rw [hd] at h ⊢
    simp only at h ⊢
    by_cases c3 : kind = .vectors ∧ gs.length ≠ 3
    · rw [if_pos c3] at h
      cases h
    rw [if_neg c3] at h
    by_cases c4 : kind = .scalars ∧ 4 < gs.length
    · rw [if_pos c4] at h
      cases h
    rw [if_neg c4] at h
    cases ht : transformData gs with
    | error e =>
      rw [ht] at h
      cases h
    | ok data =>
    rw [ht] at h
    cases h
    refine ⟨⟨kind, underscore (exportName args.name f0.name), gs⟩, ?_, rfl, rfl, ht, ?_, rfl, ?_, ?_⟩
    · have : arrayData kind (if args.name = some [] then some "Field".toList else args.name) gs =
          .ok ⟨kind, underscore (exportName args.name f0.name), gs⟩ := by
        unfold arrayData
        rw [if_neg c3, if_neg c4, hg]
        cases hn : args.name with
        | none => simp [exportName, Except.map, hname, bind, Except.bind, pure, Except.pure]
        | some n =>
          cases n with
          | nil => simp [exportName, bind, Except.bind, pure, Except.pure]
          | cons c n => simp [exportName, bind, Except.bind, pure, Except.pure]
      rw [this]
    · simp [ArrayData.len, hg, bind, Except.bind, pure, Except.pure]
    · intro hk
      by_contra hne
      exact c3 ⟨hk, hne⟩
    · exact ⟨hthree, g0, hup, hlin⟩

theorem underscore_word (name : List Char) (h : WritableName name) : Word (underscore name) := by
  refine ⟨by simpa [underscore] using h.1, fun c hc => ?_⟩
  obtain ⟨d, hd, rfl⟩ := List.mem_map.1 hc
  by_cases hsp : d = ' '
  · rw [if_pos hsp]
    decide
  · rw [if_neg hsp]
    refine ⟨(h.2 d hd).1, ?_⟩
    by_contra hb
    exact hsp ((h.2 d hd).2 (by simpa using hb))

open Postpic.Fields Postpic.Axes in
theorem unit_spacing {K : Type} [_root_.Field K] [LinearOrder K] [IsStrictOrderedRing K] : (unitAxis K).spacing = .ok 1 := by
  unfold Axis.spacing
  rw [even_linear unit_even]
  simp only [unitAxis, Bool.not_true, Bool.false_eq_true, if_false]
  congr 1
  norm_num

open Postpic.Fields Postpic.Axes in
theorem mapM_mem {α β : Type} {f : α → Res β} {l : List α} {r : List β} (h : l.mapM f = .ok r) {y : β} (hy : y ∈ r) : ∃ x ∈ l, f x = .ok y := by
  induction l generalizing r with
  | nil =>
    cases h
    cases hy
  | cons a l ih =>
    rw [List.mapM_cons] at h
    obtain ⟨b, hb, h⟩ := bind_ok h
    obtain ⟨bs, hbs, h⟩ := bind_ok h
    cases h
    rcases List.mem_cons.1 hy with rfl | hy
    · exact ⟨a, by simp, hb⟩
    · obtain ⟨x, hx, hf⟩ := ih hbs hy
      exact ⟨x, by simp [hx], hf⟩

open Postpic.Fields Postpic.Axes in
/-- Exporting fields with the same axes and reading the file. -/
theorem export_file_sound {K V : Type} [_root_.Field K] [LinearOrder K] [IsStrictOrderedRing K] [Inhabited V] {wk : NumWriter K} {rk : NumReader K}
    {roundK : VtkType → K → K} {wv : NumWriter V} {rv : NumReader V} {roundV : VtkType → V → V} {P : K → Prop} (hk : Understands P wk rk roundK)
    (hv : ReadsValues wv rv roundV) (spl : Splines K) (unst : List (Field K V) → Res (List (Field K V))) (kind : VtkKind) (args : VtkArgs) (t : VtkType)
    (ht : args.type = t.text) (fields : List (Field K V)) (f0 : Field K V) (hf0 : fields.head? = some f0) (shape : List ℕ) (axes : List (Axis K))
    (hs : ∀ f ∈ fields, f.Sound ∧ f.shape = shape ∧ f.axes = axes) (hdim : shape.length = 2 ∨ shape.length = 3)
    (hkind : if kind = .vectors then fields.length = 3 else fields.length ≤ 4)
    (hax : (∀ ax ∈ axes, ∃ e0 h, EvenAxis ax e0 h ∧ 0 < h) ∨ ∃ ax ∈ axes, ax.isLinear = false)
    (h0 : P 0) (h1 : P 1) (hP : (∀ ax ∈ axes, ax.isLinear = true) → ∀ ax ∈ axes, ∀ x, pyGet ax.grid 0 = .ok x ∨ ax.spacing = .ok x → P x)
    (hname : WritableName (exportName args.name f0.name)) (old : Option Bytes) :
    ∃ file c, exportFile wk wv spl unst kind args fields old = (some file, none) ∧ readVtk rk rv file = some c ∧ c.kind = kind ∧
      c.name = underscore (exportName args.name f0.name) ∧ c.type = t ∧ c.components = fields.length ∧ c.points = shape.foldr (· * ·) 1 ∧
      c.data.length = c.points * c.components ∧ vtkDimensions c.dataset = shape ++ List.replicate (3 - shape.length) 1 ∧
      ∀ idx, InBounds shape idx →
        (∀ (j : ℕ) (f : Field K V), fields[j]? = some f →
          c.data[vtkPoint shape idx * fields.length + j]? = some (roundV t (f.matrix.at' idx))) ∧
        ∀ (d i : ℕ) (ax : Axis K), idx[d]? = some i → axes[d]? = some ax →
          (vtkCoordinates c.dataset (idx ++ List.replicate (3 - shape.length) 0))[d]? =
            (ax.grid[i]?).map fun x => if axes.all (fun ax => ax.isLinear) then x else roundK t x := by
  have hne : fields ≠ [] := by
    rintro rfl
    cases hf0
  have hm0 : f0 ∈ fields := by
    cases fields with
    | nil => cases hf0
    | cons a l =>
      cases hf0
      simp
  obtain ⟨s0, sh0, ax0⟩ := hs f0 hm0
  have hu0 := up_spec spl s0 (by rw [sh0]; omega)
  have hlenax : f0.axes.length = f0.shape.length := by rw [← s0.ok.lengths, List.length_map]
  obtain ⟨v, v1, v2, v3, v4, v5, v6⟩ := export_sound spl unst kind args.unstagger args.skipAxesCheck fields shape axes hne hs hdim hkind hax
  obtain ⟨a, a1, a2, a3, a4, a5, a6, a7, a8, g, g1, g2⟩ := prepare_of_export spl unst kind args fields f0 hf0 axes (fun f hf => (hs f hf).2.2)
    (axesEq_refl axes) (by
      intro g hg
      rw [hu0.1] at hg
      cases hg
      rw [hu0.2.2.1, List.length_append, List.length_replicate, hlenax, sh0]
      omega) v v1
  have hprod : (shape ++ List.replicate (3 - shape.length) 1).foldr (· * ·) 1 = shape.foldr (· * ·) 1 := by
    rw [List.foldr_append]
    congr 1
    generalize 3 - shape.length = k
    induction k with
    | zero => rfl
    | succ k ih => rw [List.replicate_succ, List.foldr_cons, ih]
  have hT : v.dataset.Texts P := by
    cases hds : v.dataset with
    | rectilinearGrid grid => trivial
    | structuredPoints p o s =>
      rw [hds] at g2
      obtain ⟨l1, l2, l3⟩ := g2
      have hga : ∀ ax ∈ g.axes, ax = unitAxis K ∨ ax ∈ axes := by
        rw [hu0.1] at g1
        cases g1
        rw [hu0.2.2.1, ax0]
        intro ax hm
        rcases List.mem_append.1 hm with hm | hm
        · exact Or.inr hm
        · exact Or.inl (List.mem_replicate.1 hm).2
      have hlin : ∀ ax ∈ axes, ax.isLinear = true := by
        intro ax hm
        refine List.all_eq_true.1 l1 ax ?_
        rw [hu0.1] at g1
        cases g1
        rw [hu0.2.2.1, ax0]
        exact List.mem_append_left _ hm
      have key : ∀ ax ∈ g.axes, ∀ x, pyGet ax.grid 0 = .ok x ∨ ax.spacing = .ok x → P x := by
        intro ax hm x hx
        rcases hga ax hm with rfl | hm
        · rcases hx with hx | hx
          · have e : pyGet (unitAxis K).grid 0 = .ok 0 := by
              show Except.ok ((-(1 / 2) + 1 / 2) / 2 : K) = .ok 0
              norm_num
            rw [e] at hx
            cases hx
            exact h0
          · rw [unit_spacing] at hx
            cases hx
            exact h1
        · exact hP hlin ax hm x hx
      intro x hx
      rcases List.mem_append.1 hx with hx | hx
      · obtain ⟨ax, hm, he⟩ := mapM_mem l2 hx
        exact key ax hm x (Or.inl he)
      · obtain ⟨ax, hm, he⟩ := mapM_mem l3 hx
        exact key ax hm x (Or.inr he)
  obtain ⟨file, q1, q2⟩ := file_ok hk hv t v.dataset a8 hT a v.points v.data a5 (by rw [v2, v5, hprod]) (by rw [a3]; exact underscore_word _ hname) a4
    (by rw [a6]; exact v4) (by rw [a2]; exact a7) old
  refine ⟨file, _, ?_, q2, a2, a3, rfl, by rw [← v3]; exact a6, v2, ?_, ?_, ?_⟩
  · unfold exportFile
    rw [a1]
    simp only [ht]
    exact q1
  · show (v.data.map (roundV t)).length = v.points * a.fields.length
    rw [List.length_map, v4, a6]
  · show vtkDimensions (v.dataset.rounded roundK t) = _
    rw [dimensions_rounded, v5]
  · intro idx hidx
    refine ⟨?_, ?_⟩
    · intro j f hj
      show (v.data.map (roundV t))[_]? = _
      rw [List.getElem?_map, (v6 idx hidx).1 j f hj]
      rfl
    · intro d i ax hd hx
      have hv6 := (v6 idx hidx).2 d i ax hd hx
      have hall : g.axes.all (fun ax => ax.isLinear) = axes.all (fun ax => ax.isLinear) := by
        rw [hu0.1] at g1
        cases g1
        rw [hu0.2.2.1, ax0, List.all_append]
        have : (List.replicate (3 - f0.shape.length) (unitAxis K)).all (fun ax => ax.isLinear) = true := by
          rw [List.all_eq_true]
          intro x hx
          rw [(List.mem_replicate.1 hx).2]
          exact even_linear unit_even
        rw [this, Bool.and_true]
      show (vtkCoordinates (v.dataset.rounded roundK t) _)[d]? = _
      cases hds : v.dataset with
      | structuredPoints p q r =>
        rw [hds] at g2 hv6
        simp only at g2
        rw [← hall, g2.1]
        simp only [if_true, Option.map_id']
        exact hv6
      | rectilinearGrid grid =>
        rw [hds] at g2 hv6 v5
        simp only at g2
        rw [← hall, g2]
        simp only [Bool.false_eq_true, if_false, DataSet.rounded, vtkCoordinates, vtkDimensions] at hv6 v5 ⊢
        rw [← hv6]
        simp only [List.getElem?_zipWith, List.getElem?_map]
        have hidxd : (idx ++ List.replicate (3 - shape.length) 0)[d]? = some i := by
          rw [List.getElem?_append_left (by
            have := List.getElem?_eq_some_iff.1 hd
            exact this.1)]
          exact hd
        rw [hidxd]
        cases hg : grid[d]? with
        | none => rfl
        | some gd =>
          have hlt : i < gd.length := by
            have h1 : (grid.map List.length)[d]? = some gd.length := by rw [List.getElem?_map, hg]; rfl
            rw [v5] at h1
            have hdl : d < shape.length := by
              have := (List.getElem?_eq_some_iff.1 hd).1
              rw [hidx.1] at this
              exact this
            rw [List.getElem?_append_left hdl] at h1
            exact hidx.2 d i _ hd h1
          simp [List.getD_eq_getElem?_getD, hlt]

theorem writeLine_ascii (ws : List (List Char)) (h : ∀ w ∈ ws, ∀ c ∈ w, c.toNat < 128) : ∃ b, writeLine ws = .ok b := by
  unfold writeLine encodeAscii
  rw [if_pos]
  · exact ⟨_, rfl⟩
  · rw [List.all_eq_true]
    intro c hc
    rw [List.mem_append] at hc
    rcases hc with hc | hc
    · rcases mem_spaced ws c hc with rfl | ⟨w, hw, hcw⟩
      · decide
      · exact decide_eq_true (h w hw c hcw)
    · obtain rfl := List.mem_singleton.1 hc
      decide

theorem runWrites_none (l : List (Res Bytes)) (h : ∀ x ∈ l, ∃ b, x = .ok b) : (runWrites l).2 = none := by
  induction l with
  | nil => rfl
  | cons x l ih =>
    obtain ⟨b, rfl⟩ := h x (by simp)
    simp only [runWrites]
    exact ih fun y hy => h y (by simp [hy])

theorem points_written {K : Type} {wk : NumWriter K} (hk : ∀ v, ∀ c ∈ wk.text v, c.toNat < 128) (t : VtkType) (d : DataSet K) :
    ∀ x ∈ d.writes wk t, ∃ b, x = .ok b := by
  have nat : ∀ n, ∀ c ∈ natText n, c.toNat < 128 := fun n c hc => ((natText_word n).2 c hc).1
  have ty : ∀ c ∈ t.text, c.toNat < 128 := fun c hc => ((type_word t).2 c hc).1
  intro x hx
  cases d with
  | structuredPoints dims o s =>
    simp only [DataSet.writes, List.mem_cons, List.not_mem_nil, or_false] at hx
    rcases hx with rfl | rfl | rfl | rfl
    · exact writeLine_ascii _ (by decide)
    · refine writeLine_ascii _ fun w hw => ?_
      rcases List.mem_cons.1 hw with rfl | hw
      · decide
      · obtain ⟨n, _, rfl⟩ := List.mem_map.1 hw
        exact nat n
    · refine writeLine_ascii _ fun w hw => ?_
      rcases List.mem_cons.1 hw with rfl | hw
      · decide
      · obtain ⟨n, _, rfl⟩ := List.mem_map.1 hw
        exact hk n
    · refine writeLine_ascii _ fun w hw => ?_
      rcases List.mem_cons.1 hw with rfl | hw
      · decide
      · obtain ⟨n, _, rfl⟩ := List.mem_map.1 hw
        exact hk n
  | rectilinearGrid g =>
    simp only [DataSet.writes, List.mem_append, List.mem_cons, List.not_mem_nil, or_false, List.mem_flatMap] at hx
    rcases hx with (rfl | rfl) | ⟨p, hp, rfl | rfl | rfl⟩
    · exact writeLine_ascii _ (by decide)
    · refine writeLine_ascii _ fun w hw => ?_
      rcases List.mem_cons.1 hw with rfl | hw
      · decide
      · obtain ⟨n, _, rfl⟩ := List.mem_map.1 hw
        exact nat _
    · refine writeLine_ascii _ fun w hw => ?_
      simp only [List.mem_cons, List.not_mem_nil, or_false] at hw
      rcases hw with rfl | rfl | rfl
      · intro c hc
        rcases List.mem_cons.1 hc with rfl | hc
        · have : p.1 ∈ "XYZ".toList := (List.of_mem_zip hp).1
          revert this
          generalize p.1 = q
          intro hq
          have : q = 'X' ∨ q = 'Y' ∨ q = 'Z' := by simpa using hq
          rcases this with rfl | rfl | rfl <;> decide
        · exact (by decide : ∀ c ∈ "_COORDINATES".toList, c.toNat < 128) c hc
      · exact nat _
      · exact ty
    · exact ⟨_, rfl⟩
    · exact ⟨_, rfl⟩

open Postpic.Fields Postpic.Axes in
theorem array_written {K V : Type} [Inhabited V] {wv : NumWriter V} (t : VtkType) (a : ArrayData K V) (hne : a.fields ≠ [])
    (shape : List ℕ) (hs : ∀ f ∈ a.fields, f.shape = shape) (hname : ∀ c ∈ a.name, c.toNat < 128) :
    ∀ x ∈ (Attribute.point a).writes wv t, ∃ b, x = .ok b := by
  have nat : ∀ n, ∀ c ∈ natText n, c.toNat < 128 := fun n c hc => ((natText_word n).2 c hc).1
  have ty : ∀ c ∈ t.text, c.toNat < 128 := fun c hc => ((type_word t).2 c hc).1
  obtain ⟨f0, fs, he⟩ := List.exists_cons_of_ne_nil hne
  have htd : ∃ l, transformData a.fields = .ok l := by
    unfold transformData vstack
    rw [he]
    simp only [List.map_cons]
    rw [if_pos]
    · exact ⟨_, rfl⟩
    · rw [List.all_eq_true]
      intro s hs'
      obtain ⟨g, hg, rfl⟩ := List.mem_map.1 hs'
      have h1 : g.matrix.shape = shape := hs g (by rw [he]; simp [hg])
      have h2 : f0.matrix.shape = shape := hs f0 (by rw [he]; simp)
      simp [ravelF, h1, h2]
  obtain ⟨l, hl⟩ := htd
  have hlen : a.len = .ok (f0.shape.foldl (· * ·) 1) := by
    unfold ArrayData.len
    rw [he, pyGet_zero (l := f0 :: fs) (a := f0) rfl]
    rfl
  intro x hx
  simp only [Attribute.writes, ArrayData.writes, hlen, hl, List.mem_cons, List.mem_append, List.not_mem_nil, or_false] at hx
  rcases hx with rfl | hx | rfl
  · refine writeLine_ascii _ fun w hw => ?_
    simp only [List.mem_cons, List.not_mem_nil, or_false] at hw
    rcases hw with rfl | rfl
    · decide
    · exact nat _
  · cases hk : a.kind with
    | vectors =>
      rw [hk] at hx
      simp only [List.mem_cons, List.not_mem_nil, or_false] at hx
      subst hx
      refine writeLine_ascii _ fun w hw => ?_
      simp only [List.mem_cons, List.not_mem_nil, or_false] at hw
      rcases hw with rfl | rfl | rfl
      · decide
      · exact hname
      · exact ty
    | scalars =>
      rw [hk] at hx
      simp only [List.mem_cons, List.not_mem_nil, or_false] at hx
      rcases hx with rfl | rfl
      · refine writeLine_ascii _ fun w hw => ?_
        simp only [List.mem_cons, List.not_mem_nil, or_false] at hw
        rcases hw with rfl | rfl | rfl | rfl
        · decide
        · exact hname
        · exact ty
        · exact nat _
      · exact writeLine_ascii _ (by decide)
  · exact ⟨_, rfl⟩

open Postpic.Fields Postpic.Axes in
theorem atleastNd_shape {K V : Type} [_root_.Field K] [LinearOrder K] (spl : Splines K) (f g : Field K V) (n : ℤ) (h : f.atleastNd spl n = .ok g) :
    g.shape = if (if 0 ∈ f.shape then -1 else (f.shape.length : ℤ)) ≥ n then f.shape
      else f.shape ++ List.replicate (n - (if 0 ∈ f.shape then -1 else (f.shape.length : ℤ))).toNat 1 := by
  unfold Field.atleastNd at h
  have hd : f.dims = if 0 ∈ f.shape then -1 else (f.shape.length : ℤ) := rfl
  rw [← hd]
  by_cases c : f.dims ≥ n
  · rw [if_pos c] at h ⊢
    cases h
    rfl
  · rw [if_neg c] at h ⊢
    obtain ⟨ax, _, h⟩ := bind_ok h
    cases h
    rfl

theorem forall2_mem_right {α β : Type} {R : α → β → Prop} {l : List α} {m : List β} (h : List.Forall₂ R l m) {b : β} (hb : b ∈ m) :
    ∃ a ∈ l, R a b := by
  induction h with
  | nil => cases hb
  | cons h1 _ ih =>
    rcases List.mem_cons.1 hb with rfl | hb
    · exact ⟨_, by simp, h1⟩
    · obtain ⟨a, ha, hr⟩ := ih hb
      exact ⟨a, by simp [ha], hr⟩

open Postpic.Fields Postpic.Axes in
theorem prepare_ok {K V : Type} [_root_.Field K] [LinearOrder K] (spl : Splines K)
    (unst : List (Field K V) → Res (List (Field K V))) (kind : VtkKind) (args : VtkArgs) (fields : List (Field K V)) (d : DataSet K) (a : ArrayData K V)
    (h : prepareVtk spl unst kind args fields = .ok (d, a)) :
    ∃ gs g0, (gs = fields ∨ unst fields = .ok gs) ∧ gs.head? = some g0 ∧ gs.mapM (fun f => f.atleastNd spl 3) = .ok a.fields ∧
      a.name = underscore (exportName args.name g0.name) := by
  have hdata : ∀ gs : List (Field K V), prepareData spl kind (if args.name = some [] then some "Field".toList else args.name) gs = .ok (d, a) →
      ∃ g0, gs.head? = some g0 ∧ gs.mapM (fun f => f.atleastNd spl 3) = .ok a.fields ∧ a.name = underscore (exportName args.name g0.name) := by
    intro gs h
    unfold prepareData at h
    obtain ⟨f0, hf0, h⟩ := bind_ok h
    by_cases c1 : 3 < f0.shape.length
    · rw [if_pos c1] at h
      cases h
    rw [if_neg c1] at h
    by_cases c2 : f0.shape.length = 1
    · rw [if_pos c2] at h
      cases h
    rw [if_neg c2] at h
    obtain ⟨ups, hups, h⟩ := bind_ok h
    obtain ⟨u0, hu0, h⟩ := bind_ok h
    have hlast : arrayData kind (if args.name = some [] then some "Field".toList else args.name) ups = .ok a := by
      by_cases hl : (u0.axes.all fun ax => ax.isLinear) = true
      · rw [if_pos hl] at h
        obtain ⟨ds, _, h⟩ := bind_ok h
        obtain ⟨a', ha, h⟩ := bind_ok h
        cases h
        exact ha
      · rw [if_neg hl] at h
        obtain ⟨ds, _, h⟩ := bind_ok h
        obtain ⟨a', ha, h⟩ := bind_ok h
        cases h
        exact ha
    cases gs with
    | nil =>
      cases hups
      cases hu0
    | cons g gs =>
      have hu : g.atleastNd spl 3 = .ok u0 := by
        rw [List.mapM_cons] at hups
        obtain ⟨g', hg1, hm⟩ := bind_ok hups
        obtain ⟨l, _, hm⟩ := bind_ok hm
        cases hm
        rw [pyGet_zero (l := g' :: l) (a := g') rfl] at hu0
        cases hu0
        exact hg1
      have hname := atleastNd_name spl g u0 3 hu
      unfold arrayData at hlast
      by_cases c3 : kind = .vectors ∧ ups.length ≠ 3
      · rw [if_pos c3] at hlast
        cases hlast
      rw [if_neg c3] at hlast
      by_cases c4 : kind = .scalars ∧ 4 < ups.length
      · rw [if_pos c4] at hlast
        cases hlast
      rw [if_neg c4, hu0] at hlast
      refine ⟨g, rfl, ?_, ?_⟩
      · rw [hups]
        cases hn : args.name with
        | none =>
          rw [hn] at hlast
          cases hlast
          rfl
        | some n =>
          rw [hn] at hlast
          cases n <;> (cases hlast; rfl)
      · cases hn : args.name with
        | none =>
          rw [hn] at hlast
          cases hlast
          simp [exportName, hname]
        | some n =>
          rw [hn] at hlast
          cases n <;> (cases hlast; rfl)
  unfold prepareVtk at h
  obtain ⟨f0, _, h⟩ := bind_ok h
  obtain ⟨same, _, h⟩ := bind_ok h
  by_cases h1 : (!same.all id) = true
  · rw [if_pos h1] at h
    by_cases h2 : args.unstagger = true
    · rw [if_pos h2] at h
      obtain ⟨gs, hgs, h⟩ := bind_ok h
      obtain ⟨g0, q⟩ := hdata gs h
      exact ⟨gs, g0, Or.inr hgs, q⟩
    · rw [if_neg h2] at h
      by_cases h3 : (!args.skipAxesCheck) = true
      · rw [if_pos h3] at h
        cases h
      · rw [if_neg h3] at h
        obtain ⟨g0, q⟩ := hdata fields h
        exact ⟨fields, g0, Or.inl rfl, q⟩
  · rw [if_neg h1] at h
    obtain ⟨g0, q⟩ := hdata fields h
    exact ⟨fields, g0, Or.inl rfl, q⟩

open Postpic.Fields Postpic.Axes in
theorem export_failed {K V : Type} [_root_.Field K] [LinearOrder K] [Inhabited V] {wk : NumWriter K} {wv : NumWriter V}
    (hk : ∀ v, ∀ c ∈ wk.text v, c.toNat < 128) (spl : Splines K)
    (unst : List (Field K V) → Res (List (Field K V))) (kind : VtkKind) (args : VtkArgs) (fields : List (Field K V)) (old new : Option Bytes) (e : Err)
    (shape : List ℕ)
    (hs : ∀ f ∈ fields, f.shape = shape) (hname : ∀ f ∈ fields, ∀ c ∈ exportName args.name f.name, c.toNat < 128)
    (hun : ∀ gs, unst fields = .ok gs → ∃ shape', ∀ g ∈ gs, g.shape = shape' ∧ ∀ c ∈ exportName args.name g.name, c.toNat < 128)
    (h : exportFile wk wv spl unst kind args fields old = (new, some e)) : new = old := by
  unfold exportFile at h
  cases hp : prepareVtk spl unst kind args fields with
  | error e' =>
    rw [hp] at h
    cases h
    rfl
  | ok p =>
    obtain ⟨d, a⟩ := p
    rw [hp] at h
    simp only at h
    obtain ⟨gs, g0, hgs, hg0, hup, hn⟩ := prepare_ok spl unst kind args fields d a hp
    obtain ⟨shape', hsh⟩ : ∃ shape', ∀ g ∈ gs, g.shape = shape' ∧ ∀ c ∈ exportName args.name g.name, c.toNat < 128 := by
      rcases hgs with rfl | hgs
      · exact ⟨shape, fun g hg => ⟨hs g hg, hname g hg⟩⟩
      · exact hun gs hgs
    have hm0 : g0 ∈ gs := by
      cases gs with
      | nil => cases hg0
      | cons x l =>
        cases hg0
        simp
    have hf2 := Fields.mapM_ok hup
    have hne : a.fields ≠ [] := by
      intro he
      have := hf2.length_eq
      rw [he] at this
      have h0 := List.length_eq_zero_iff.1 this
      rw [h0] at hm0
      cases hm0
    have hshape : ∃ s, ∀ f ∈ a.fields, f.shape = s := by
      refine ⟨if (if 0 ∈ shape' then -1 else (shape'.length : ℤ)) ≥ 3 then shape'
        else shape' ++ List.replicate (3 - (if 0 ∈ shape' then -1 else (shape'.length : ℤ))).toNat 1, fun f hf => ?_⟩
      obtain ⟨g, hg, hgf⟩ := forall2_mem_right hf2 hf
      rw [atleastNd_shape spl g f 3 hgf, (hsh g hg).1]
    obtain ⟨s, hs'⟩ := hshape
    unfold vtkTofile at h
    rw [if_neg (not_not.2 rfl)] at h
    cases hty : vtkType args.type with
    | error e' =>
      rw [hty] at h
      cases h
      rfl
    | ok t =>
      rw [hty] at h
      simp only [List.flatMap_cons, List.flatMap_nil, List.append_nil, Prod.mk.injEq] at h
      have := runWrites_none (vtkHeader ++ d.writes wk t ++ (Attribute.point a).writes wv t) (by
        intro x hx
        rw [List.mem_append, List.mem_append] at hx
        rcases hx with (hx | hx) | hx
        · obtain ⟨bs, hb, _⟩ := header_ok
          rw [hb] at hx
          obtain ⟨b, _, rfl⟩ := List.mem_map.1 hx
          exact ⟨b, rfl⟩
        · exact points_written hk t d x hx
        · refine array_written t a hne s hs' ?_ x hx
          rw [hn]
          intro c hc
          obtain ⟨c', hc', rfl⟩ := List.mem_map.1 hc
          split_ifs
          · decide
          · exact (hsh g0 hm0).2 c' hc')
      rw [this] at h
      cases h.2

end Postpic.Io
