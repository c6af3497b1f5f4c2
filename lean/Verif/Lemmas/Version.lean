import Mathlib.Data.Nat.Digits.Defs
import Verif.Lemmas.Series
import Verif.Model.Version
import Verif.Props.TextImage
import Verif.Spec.Version

/-!
# Lemmas about the version number
-/

set_option autoImplicit false

namespace Postpic.Version

open Postpic Postpic.Io Postpic.Spec

theorem lastSplit_append {c : Char} {b : List Char} (h : c ∉ b) (a : List Char) : lastSplit c (a ++ c :: b) = some (a, b) := by
  have hb : ∀ x ∈ b.reverse, (x != c) = true := by
    intro x hx
    have : x ∈ b := by simpa using hx
    simp only [bne_iff_ne, ne_eq]
    rintro rfl
    exact h this
  have hr : (a ++ c :: b).reverse = b.reverse ++ c :: a.reverse := by simp
  have h1 : (b.reverse ++ c :: a.reverse).dropWhile (· != c) = c :: a.reverse := by
    rw [List.dropWhile_append_of_pos hb]; simp
  have h2 : (b.reverse ++ c :: a.reverse).takeWhile (· != c) = b.reverse := by
    rw [List.takeWhile_append_of_pos hb]; simp
  simp only [lastSplit, hr, h1, h2, List.reverse_reverse]

theorem dropWhile_first {p : Char → Bool} {l : List Char} (h : ∀ c, l.head? = some c → p c = false) : l.dropWhile p = l := by
  cases l with
  | nil => rfl
  | cons a l => simp [h a rfl]

/-- `strip` removes just what surrounds a text which starts and ends with other characters. -/
theorem strip_of {p : Char → Bool} {a l b : List Char} (ha : ∀ c ∈ a, p c = true) (hb : ∀ c ∈ b, p c = true) (hl : l ≠ [])
    (h0 : ∀ c, l.head? = some c → p c = false) (h1 : ∀ c, l.getLast? = some c → p c = false) : strip p (a ++ (l ++ b)) = l := by
  have e1 : (a ++ (l ++ b)).dropWhile p = l ++ b := by
    rw [List.dropWhile_append_of_pos ha]
    refine dropWhile_first ?_
    intro c hc
    cases l with
    | nil => exact absurd rfl hl
    | cons x l => exact h0 c (by simpa using hc)
  have e2 : (l ++ b).reverse.dropWhile p = l.reverse := by
    rw [List.reverse_append, List.dropWhile_append_of_pos (by intro c hc; exact hb c (by simpa using hc))]
    refine dropWhile_first ?_
    intro c hc
    exact h1 c (by simpa using hc)
  simp only [strip, e1, e2, List.reverse_reverse]

theorem strip_nil (p : Char → Bool) : strip p [] = [] := rfl

theorem sep_inj {c : Char} {a a' b b' : List Char} (h : c ∉ a) (h' : c ∉ a') (e : a ++ c :: b = a' ++ c :: b') : a = a' ∧ b = b' := by
  induction a generalizing a' with
  | nil =>
    cases a' with
    | nil => simpa using e
    | cons x a' =>
      simp only [List.nil_append, List.cons_append, List.cons.injEq] at e
      exact absurd e.1 (by rintro rfl; exact h' (by simp))
  | cons x a ih =>
    cases a' with
    | nil =>
      simp only [List.nil_append, List.cons_append, List.cons.injEq] at e
      exact absurd e.1.symm (by rintro rfl; exact h (by simp))
    | cons y a' =>
      simp only [List.cons_append, List.cons.injEq] at e
      obtain ⟨h1, h2⟩ := ih (fun hc => h (by simp [hc])) (fun hc => h' (by simp [hc])) e.2
      exact ⟨by rw [e.1, h1], h2⟩

/-! ## Digits -/

theorem digits_isDigit {n : ℕ} {c : Char} (h : c ∈ Nat.toDigits 10 n) : c.isDigit = true :=
  Nat.isDigit_of_mem_toDigits (by decide) (by decide) h

theorem digits_not {n : ℕ} {c : Char} (h : c.isDigit = false) : c ∉ Nat.toDigits 10 n := by
  intro hc
  rw [digits_isDigit hc] at h
  exact absurd h (by simp)

theorem hex_isHex {c : Char} (h : c.isDigit ∨ ('a' ≤ c ∧ c ≤ 'f')) : isHex c = true := by
  simp only [isHex, Bool.or_eq_true, Bool.and_eq_true, decide_eq_true_eq]
  exact h

theorem hex_ne {c x : Char} (h : c.isDigit ∨ ('a' ≤ c ∧ c ≤ 'f')) (hx : isHex x = false) : c ≠ x := by
  rintro rfl
  rw [hex_isHex h] at hx
  exact absurd hx (by simp)

/-! ## The line of git -/

/-- The line without the mark for changed files. -/
def bare (s : Checkout) : List Char := s.tag ++ '-' :: (Nat.toDigits 10 s.commits ++ '-' :: 'g' :: s.hash)

theorem describe_bare (s : Checkout) :
    s.describe = bare s ++ (if s.changed then "-dirty".toList else []) ++ ['\n'] := by
  simp [Checkout.describe, bare]

theorem last_hash {s : Checkout} (h : s.Proper) {c : Char} (hc : (bare s).getLast? = some c) : c ∈ s.hash := by
  have e : bare s = (s.tag ++ '-' :: (Nat.toDigits 10 s.commits ++ ['-', 'g'])) ++ s.hash := by simp [bare]
  rw [e, List.getLast?_append_of_ne_nil _ h.hash] at hc
  exact List.mem_of_getLast? hc

theorem describeGroups_bare {s : Checkout} (h : s.Proper) :
    describeGroups (bare s) = some (s.tag, Nat.toDigits 10 s.commits, s.hash) := by
  have e : bare s = (s.tag ++ '-' :: Nat.toDigits 10 s.commits) ++ '-' :: ('g' :: s.hash) := by simp [bare]
  have h1 : '-' ∉ 'g' :: s.hash := by
    simp only [List.mem_cons, not_or]
    exact ⟨by decide, fun hc => hex_ne (h.hex _ hc) (x := '-') (by decide) rfl⟩
  have h2 : '-' ∉ Nat.toDigits 10 s.commits := digits_not (by decide)
  have ht : s.tag ≠ [] := by
    obtain ⟨d, l, hd, _⟩ := h.tag
    simp [hd]
  have hcond : s.tag ≠ [] ∧ Nat.toDigits 10 s.commits ≠ [] ∧ (Nat.toDigits 10 s.commits).all Char.isDigit = true ∧
      s.hash ≠ [] ∧ s.hash.all isHex = true := by
    refine ⟨ht, Nat.toDigits_ne_nil, ?_, h.hash, ?_⟩
    · exact List.all_eq_true.2 fun c hc => digits_isDigit hc
    · exact List.all_eq_true.2 fun c hc => hex_isHex (h.hex c hc)
  simp only [describeGroups, e, lastSplit_append h1, lastSplit_append h2, if_pos hcond]

theorem strip_describe {s : Checkout} (h : s.Proper) :
    strip blank s.describe = bare s ++ (if s.changed then "-dirty".toList else []) := by
  rw [describe_bare]
  have := strip_of (p := blank) (a := []) (l := bare s ++ (if s.changed then "-dirty".toList else [])) (b := ['\n']) (by simp)
    (by simp [blank]) (by simp [bare]) ?_ ?_
  · simpa using this
  · obtain ⟨d, l, hd, _⟩ := h.tag
    intro c hc
    simp only [bare, hd, List.cons_append, List.head?_cons, Option.some.injEq] at hc
    subst hc
    decide
  · intro c hc
    cases hch : s.changed with
    | true =>
      rw [hch] at hc
      simp only [if_true] at hc
      rw [List.getLast?_append_of_ne_nil _ (by decide)] at hc
      have : c = 'y' := by simpa using hc.symm
      subst this
      decide
    | false =>
      rw [hch] at hc
      simp only [Bool.false_eq_true, if_false, List.append_nil] at hc
      have hx := h.hex c (last_hash h hc)
      simp only [blank, Bool.or_eq_false_iff, beq_eq_false_iff_ne]
      exact ⟨⟨⟨hex_ne hx (by decide), hex_ne hx (by decide)⟩, hex_ne hx (by decide)⟩, hex_ne hx (by decide)⟩

theorem dirty_bare {s : Checkout} (h : s.Proper) :
    "-dirty".toList.isSuffixOf (bare s ++ (if s.changed then "-dirty".toList else [])) = s.changed := by
  cases hch : s.changed with
  | true => simp only [if_true, List.isSuffixOf_iff_suffix]; exact List.suffix_append _ _
  | false =>
    simp only [Bool.false_eq_true, if_false, List.append_nil]
    by_contra hc
    have hc : "-dirty".toList.isSuffixOf (bare s) = true := by simpa using hc
    rw [List.isSuffixOf_iff_suffix] at hc
    obtain ⟨t, ht⟩ := hc
    have hl : (bare s).getLast? = some 'y' := by
      rw [← ht, List.getLast?_append_of_ne_nil _ (by decide)]; decide
    exact hex_ne (h.hex _ (last_hash h hl)) (x := 'y') (by decide) rfl

theorem gitPieces_describe {s : Checkout} (h : s.Proper) (head : List Char) (n : ℕ) :
    gitPieces ['v'] ⟨s.describe, head, n⟩ = some ⟨some s.tag.tail, s.commits, s.hash, s.changed⟩ := by
  have htake : (if s.changed = true then
      (bare s ++ (if s.changed then "-dirty".toList else [])).take
        ((bare s ++ (if s.changed then "-dirty".toList else [])).length - 6)
      else bare s ++ (if s.changed then "-dirty".toList else [])) = bare s := by
    cases s.changed <;> simp
  have hmem : '-' ∈ bare s := by simp [bare]
  obtain ⟨d, l, hd, _⟩ := h.tag
  have hpre : ['v'].isPrefixOf s.tag = true := by rw [hd]; simp [List.isPrefixOf]
  have hnum : Nat.ofDigitChars 10 (Nat.toDigits 10 s.commits) 0 = s.commits := Nat.ofDigitChars_ten_toDigits
  simp only [gitPieces, strip_describe h, dirty_bare h, htake, if_pos hmem, describeGroups_bare h, if_pos hpre, hnum,
    List.length_singleton, List.drop_one]

theorem render_checkout {s : Checkout} (h : s.Proper) :
    renderPep440 ⟨some s.tag.tail, s.commits, s.hash, s.changed⟩ = s.version := by
  obtain ⟨d, l, hd, _⟩ := h.tag
  have hv : ('+' ∈ s.tag) ↔ ('+' ∈ d :: l) := by
    rw [hd, List.mem_cons]
    exact ⟨fun h => h.resolve_left (by decide), Or.inr⟩
  have ht : s.tag.tail = d :: l := by rw [hd]; rfl
  simp only [renderPep440, Checkout.version, ht, hv]
  by_cases hc : s.commits = 0 ∧ s.changed = false
  · rw [if_pos hc, if_neg (by simp [hc.1, hc.2]), List.append_nil]
  · rw [if_neg hc, if_pos (by
      by_contra hn
      simp only [ne_eq, not_or, not_not, Bool.not_eq_true] at hn
      exact hc hn)]
    simp

/-! ## The references -/

theorem strip_ref {r : List Char} (h : RefName r) {a : List Char} (ha : ∀ c ∈ a, blank c = true) : strip blank (a ++ r) = r := by
  have := strip_of (p := blank) (a := a) (l := r) (b := []) ha (by simp) h.nonempty ?_ ?_
  · simpa using this
  · intro c hc
    have hm : c ∈ r := List.mem_of_head? hc
    obtain ⟨_, _, _, h1, h2, h3⟩ := h.chars c hm
    have h0 : c ≠ ' ' := by rintro rfl; exact h.first hc
    simp [blank, h0, h1, h2, h3]
  · intro c hc
    have hm : c ∈ r := List.mem_of_getLast? hc
    obtain ⟨_, _, _, h1, h2, h3⟩ := h.chars c hm
    have h0 : c ≠ ' ' := by rintro rfl; exact h.last hc
    simp [blank, h0, h1, h2, h3]

theorem splitOn_refs {r : List Char} (hr : RefName r) {rs : List (List Char)} (h : ∀ x ∈ rs, RefName x) :
    splitOn ',' (r ++ rs.flatMap fun x => ',' :: ' ' :: x) = r :: rs.map (' ' :: ·) := by
  have hn : ∀ x, RefName x → ',' ∉ x := fun x hx hc => (hx.chars _ hc).1 rfl
  have key : ∀ (l : List (List Char)) (p : List Char), ',' ∉ p → (∀ x ∈ l, RefName x) →
      splitOn ',' (p ++ l.flatMap fun x => ',' :: ' ' :: x) = p :: l.map (' ' :: ·) := by
    intro l
    induction l with
    | nil => intro p hp _; simpa using Props.splitOn_single hp
    | cons x l ih =>
      intro p hp hl
      have e : (p ++ (x :: l).flatMap fun x => ',' :: ' ' :: x) = p ++ ',' :: ((' ' :: x) ++ l.flatMap fun x => ',' :: ' ' :: x) := by
        simp
      have hs : ∀ t, splitOn ',' (',' :: t) = [] :: splitOn ',' t := fun t => by simp [splitOn]
      rw [e, Props.splitOn_append hp, hs, ih (' ' :: x) ?_ (fun y hy => hl y (by simp [hy]))]
      · simp
      · simp only [List.mem_cons, not_or]
        exact ⟨by decide, hn x (hl x (by simp))⟩
  exact key rs r (hn r hr) h

theorem refs_split {refs : List (List Char)} (hne : refs ≠ []) (h : ∀ r ∈ refs, RefName r) :
    strip blank (refLine refs) = '(' :: ((refLine refs).drop 2).dropLast ++ [')'] ∧
    (splitOn ',' (strip (fun c => c == '(' || c == ')') (strip blank (refLine refs)))).map (strip blank) = refs := by
  obtain ⟨r, rs, rfl⟩ : ∃ r rs, refs = r :: rs := by
    cases refs with
    | nil => exact absurd rfl hne
    | cons r rs => exact ⟨r, rs, rfl⟩
  have hr := h r (by simp)
  have hrs : ∀ x ∈ rs, RefName x := fun x hx => h x (by simp [hx])
  set body := r ++ rs.flatMap fun x => ',' :: ' ' :: x with hbody
  have e : refLine (r :: rs) = [' '] ++ (('(' :: body ++ [')']) ++ []) := by simp [refLine, hbody]
  have h1 : strip blank (refLine (r :: rs)) = '(' :: body ++ [')'] := by
    rw [e]
    refine strip_of (by simp [blank]) (by simp) (by simp) ?_ ?_
    · intro c hc
      have : c = '(' := by simpa using hc.symm
      subst this; decide
    · intro c hc
      rw [List.getLast?_append_of_ne_nil _ (by simp)] at hc
      have : c = ')' := by simpa using hc.symm
      subst this; decide
  have hb : body ≠ [] := by simp [hbody, hr.nonempty]
  have h2 : strip (fun c => c == '(' || c == ')') ('(' :: body ++ [')']) = body := by
    have := strip_of (p := fun c => c == '(' || c == ')') (a := ['(']) (l := body) (b := [')']) (by simp) (by simp) hb ?_ ?_
    · simpa using this
    · intro c hc
      have hm : c ∈ r := by
        have : r.head? = some c := by
          cases r with
          | nil => exact absurd rfl hr.nonempty
          | cons a l => simpa [hbody] using hc
        exact List.mem_of_head? this
      obtain ⟨_, h1, h2, _⟩ := hr.chars c hm
      simp [h1, h2]
    · intro c hc
      have hm : c ∈ body := List.mem_of_getLast? hc
      rw [hbody, List.mem_append, List.mem_flatMap] at hm
      rcases hm with hm | ⟨x, hx, hm⟩
      · obtain ⟨_, h1, h2, _⟩ := hr.chars c hm
        simp [h1, h2]
      · simp only [List.mem_cons] at hm
        rcases hm with rfl | rfl | hm
        · decide
        · decide
        · obtain ⟨_, h1, h2, _⟩ := (hrs x hx).chars c hm
          simp [h1, h2]
  refine ⟨?_, ?_⟩
  · rw [h1, e]
    simp
  · rw [h1, h2, splitOn_refs hr hrs, List.map_cons, List.map_map]
    have h3 : strip blank r = r := by simpa using strip_ref hr (a := []) (by simp)
    rw [h3]
    congr 1
    conv_rhs => rw [← List.map_id rs]
    refine List.map_congr_left fun x hx => ?_
    exact strip_ref (hrs x hx) (a := [' ']) (by simp [blank])

/-! ## The first version -/

theorem versionOf_iff (r v : List Char) :
    versionOf ['v'] r = some v ↔ r = 'v' :: v ∧ ∃ (d : Char) (l : List Char), v = d :: l ∧ d.isDigit := by
  cases r with
  | nil => simp [versionOf]
  | cons a r =>
    by_cases ha : a = 'v'
    · subst ha
      have hp : ['v'].isPrefixOf ('v' :: r) = true := by simp [List.isPrefixOf]
      simp only [versionOf, hp, if_true, List.length_singleton, List.drop_one, List.tail_cons]
      cases r with
      | nil =>
        constructor
        · intro h; exact absurd h (by simp)
        · rintro ⟨h, d, l, rfl, _⟩; exact absurd h (by simp)
      | cons c l =>
        by_cases hc : c.isDigit = true
        · simp only [hc, if_true, Option.some.injEq, List.cons.injEq, true_and]
          constructor
          · rintro rfl; exact ⟨rfl, c, l, rfl, hc⟩
          · rintro ⟨hv, _⟩; exact hv
        · simp only [if_neg hc, List.cons.injEq, true_and]
          constructor
          · intro hv; exact absurd hv (by simp)
          · rintro ⟨hv, d, l', rfl, hdd⟩
            simp only [List.cons.injEq] at hv
            rw [hv.1] at hc
            exact absurd hdd hc
    · have : ['v'].isPrefixOf (a :: r) = false := by
        simp only [List.isPrefixOf, Bool.and_true, beq_eq_false_iff_ne]
        exact fun e => ha e.symm
      simp only [versionOf, this, List.cons.injEq]
      constructor
      · intro hv; exact absurd hv (by simp)
      · rintro ⟨⟨hv, _⟩, _⟩; exact absurd hv ha

/-- A name for a version among `names`. -/
def Names (names : List (List Char)) (v : List Char) : Prop := 'v' :: v ∈ names ∧ ∃ (d : Char) (l : List Char), v = d :: l ∧ d.isDigit

theorem firstVersion_spec (full : List Char) (names : List (List Char)) :
    ∃ v, firstVersion ['v'] full names = (v, some (strip blank full)) ∧
      ((∃ u, Names names u) → Names names v ∧ ∀ u, Names names u → v ≤ u) ∧
      ((¬ ∃ u, Names names u) → v = "0+unknown".toList) := by
  have hvt : ∀ v, v ∈ (Readers.sortNames names.dedup).filterMap (versionOf ['v']) ↔ Names names v := by
    intro v
    rw [List.mem_filterMap]
    constructor
    · rintro ⟨r, hr, hv⟩
      rw [Readers.mem_sortNames, List.mem_dedup] at hr
      obtain ⟨rfl, hd⟩ := (versionOf_iff r v).1 hv
      exact ⟨hr, hd⟩
    · rintro ⟨hv, hd⟩
      refine ⟨'v' :: v, ?_, (versionOf_iff _ _).2 ⟨rfl, hd⟩⟩
      rw [Readers.mem_sortNames, List.mem_dedup]
      exact hv
  have hsorted : ((Readers.sortNames names.dedup).filterMap (versionOf ['v'])).Pairwise (· ≤ ·) := by
    refine List.Pairwise.filterMap (versionOf ['v']) (R := (· ≤ ·)) ?_ (Readers.sortNames_sorted _)
    intro a b hab v hv u hu
    obtain ⟨rfl, _⟩ := (versionOf_iff _ _).1 hv
    obtain ⟨rfl, _⟩ := (versionOf_iff _ _).1 hu
    rw [← not_lt] at hab ⊢
    exact fun h => hab (List.Lex.cons h)
  cases hl : (Readers.sortNames names.dedup).filterMap (versionOf ['v']) with
  | nil =>
    refine ⟨_, by simp only [firstVersion, hl], ?_, fun _ => rfl⟩
    rintro ⟨u, hu⟩
    exact absurd ((hvt u).2 hu) (by rw [hl]; simp)
  | cons v vs =>
    refine ⟨v, by simp only [firstVersion, hl], fun _ => ⟨(hvt v).1 (by rw [hl]; simp), ?_⟩, ?_⟩
    · intro u hu
      have := (hvt u).2 hu
      rw [hl, List.mem_cons] at this
      rcases this with rfl | hm
      · exact le_refl _
      · rw [hl] at hsorted
        exact (List.pairwise_cons.1 hsorted).1 u hm
    · intro hn
      exact absurd ⟨v, (hvt v).1 (by rw [hl]; simp)⟩ hn

/-- Archives of a commit with tags. -/
theorem keyword_tags {refs : List (List Char)} (hne : refs ≠ []) (h : ∀ r ∈ refs, RefName r) (full : List Char)
    (ht : ∃ r, "tag: ".toList ++ r ∈ refs) :
    ∃ v, keywordVersion ['v'] ⟨refLine refs, full⟩ = some (v, some (strip blank full)) ∧
      ((∃ u, VersionTag refs u) → VersionTag refs v ∧ ∀ u, VersionTag refs u → v ≤ u) ∧
      ((¬ ∃ u, VersionTag refs u) → v = "0+unknown".toList) := by
  obtain ⟨h1, h2⟩ := refs_split hne h
  have h3 : "$Format".toList.isPrefixOf (strip blank (refLine refs)) = false := by
    rw [h1]; rfl
  set tags := (refs.dedup.filter fun r => "tag: ".toList.isPrefixOf r).map (·.drop 5) with htags
  have hmem : ∀ u, u ∈ tags ↔ "tag: ".toList ++ u ∈ refs := by
    intro u
    rw [htags, List.mem_map]
    constructor
    · rintro ⟨r, hr, rfl⟩
      rw [List.mem_filter, List.mem_dedup, List.isPrefixOf_iff_prefix] at hr
      obtain ⟨hr, t, rfl⟩ := hr
      simpa using hr
    · intro hu
      exact ⟨_, by rw [List.mem_filter, List.mem_dedup, List.isPrefixOf_iff_prefix]; exact ⟨hu, List.prefix_append _ _⟩, by simp⟩
  have hempty : tags.isEmpty = false := by
    obtain ⟨r, hr⟩ := ht
    cases htl : tags with
    | nil => exact absurd ((hmem r).2 hr) (by rw [htl]; simp)
    | cons a l => rfl
  have hn : ∀ u, Names tags u ↔ VersionTag refs u := by
    intro u
    unfold Names VersionTag
    rw [hmem]
    exact Iff.rfl
  obtain ⟨v, hv, ha, hb⟩ := firstVersion_spec full tags
  simp only [hn] at ha hb
  refine ⟨v, ?_, ha, hb⟩
  simp only [keywordVersion, h3, h2, ← htags, hempty, Bool.false_eq_true, if_false, hv]

/-- Archives of a commit without tags. -/
theorem keyword_untagged {refs : List (List Char)} (h : ∀ r ∈ refs, RefName r) (full : List Char)
    (ht : ∀ r, "tag: ".toList ++ r ∉ refs) :
    ∃ v, keywordVersion ['v'] ⟨refLine refs, full⟩ = some (v, some (strip blank full)) ∧
      ((∃ u, Names refs u) → Names refs v ∧ ∀ u, Names refs u → v ≤ u) ∧
      ((¬ ∃ u, Names refs u) → v = "0+unknown".toList) := by
  by_cases hne : refs = []
  · subst hne
    refine ⟨_, ?_, ?_, fun _ => rfl⟩
    · have h1 : strip blank (refLine []) = [] := rfl
      simp only [keywordVersion, h1]
      rfl
    · rintro ⟨u, hu, _⟩
      exact absurd hu (by simp)
  · obtain ⟨h1, h2⟩ := refs_split hne h
    have h3 : "$Format".toList.isPrefixOf (strip blank (refLine refs)) = false := by
      rw [h1]; rfl
    have h4 : (refs.dedup.filter fun r => "tag: ".toList.isPrefixOf r) = [] := by
      refine List.filter_eq_nil_iff.2 fun r hr hp => ?_
      rw [List.isPrefixOf_iff_prefix] at hp
      obtain ⟨t, rfl⟩ := hp
      exact ht t (List.mem_dedup.1 hr)
    have hn : ∀ u, Names (refs.dedup.filter fun r => r.any Char.isDigit) u ↔ Names refs u := by
      intro u
      unfold Names
      rw [List.mem_filter, List.mem_dedup]
      constructor
      · rintro ⟨⟨hm, _⟩, hd⟩; exact ⟨hm, hd⟩
      · rintro ⟨hm, d, l, rfl, hd⟩
        exact ⟨⟨hm, List.any_eq_true.2 ⟨d, by simp, hd⟩⟩, d, l, rfl, hd⟩
    obtain ⟨v, hv, ha, hb⟩ := firstVersion_spec full (refs.dedup.filter fun r => r.any Char.isDigit)
    simp only [hn] at ha hb
    refine ⟨v, ?_, ha, hb⟩
    simp only [keywordVersion, h3, h2, h4, List.map_nil, List.isEmpty_nil, Bool.false_eq_true, if_false, if_true, hv]

end Postpic.Version
