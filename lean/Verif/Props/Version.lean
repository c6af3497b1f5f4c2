import Verif.Lemmas.Version

/-!
# C107: the version number identifies the source

`postpic.__version__` is written to exported files, to find the program which made them. See `Verif.Spec.Version` for the states of a repository.
-/

set_option autoImplicit false

namespace Postpic.Props

open Postpic Postpic.Version Postpic.Spec

/-! ## Checked out repositories -/

/-- Version 0.5 and 12 more commits. -/
def laterCheckout : Checkout := ⟨"v0.5-beta".toList, 12, "1a2b3c4".toList, false⟩

theorem laterCheckout_proper : laterCheckout.Proper where
  tag := ⟨'0', ".5-beta".toList, by decide, by decide⟩
  blanks := by decide
  hash := by decide
  hex := by decide

theorem keyword_unexpanded (full : List Char) : keywordVersion ['v'] ⟨unexpanded, full⟩ = none := by
  have h : "$Format".toList.isPrefixOf (strip blank unexpanded) = true := by decide
  simp only [keywordVersion, h, if_true]

/-- The version of a checkout for all states git can describe: the tag without `v`, and the commits, the hash and the mark for changed files
whenever it is not the release itself. -/
theorem version_checkout {s : Checkout} (h : s.Proper) (hu : s.tag ≠ "v0+unknown".toList) (full head : List Char) (n : ℕ)
    (dirs : List (List Char)) :
    packageVersion ⟨unexpanded, full⟩ (some ⟨s.describe, head, n⟩) dirs = some s.version := by
  have hne : s.version ≠ "0+unknown".toList := by
    intro hv
    obtain ⟨d, l, hd, _⟩ := h.tag
    have ht : s.tag.tail = d :: l := by rw [hd]; rfl
    by_cases hc : s.commits = 0 ∧ s.changed = false
    · simp only [Checkout.version, if_pos hc, List.append_nil, ht] at hv
      exact hu (by rw [hd, hv]; rfl)
    · have : '.' ∈ s.version := by
        simp only [Checkout.version, if_neg hc]
        simp
      rw [hv] at this
      exact absurd this (by decide)
  simp only [packageVersion, getVersions, keyword_unexpanded, gitPieces_describe h, render_checkout h, if_neg hne]

example (full head : List Char) (dirs : List (List Char)) :
    packageVersion ⟨unexpanded, full⟩ (some ⟨"v0.5-beta-12-g1a2b3c4\n".toList, head, 700⟩) dirs = some "0.5-beta+12.g1a2b3c4".toList :=
  version_checkout laterCheckout_proper (by decide) full head 700 dirs

/-- The version of a release is the number in its tag. -/
theorem version_released {s : Checkout} (h : s.Proper) (hr : s.Released) (hu : s.tag ≠ "v0+unknown".toList) (full head : List Char) (n : ℕ)
    (dirs : List (List Char)) :
    packageVersion ⟨unexpanded, full⟩ (some ⟨s.describe, head, n⟩) dirs = some s.tag.tail := by
  rw [version_checkout h hu]
  have hr' : s.commits = 0 ∧ s.changed = false := hr
  simp only [Checkout.version, if_pos hr', List.append_nil]

example : (⟨"v0.5".toList, 0, "1a2b3c4".toList, false⟩ : Checkout).Released := ⟨rfl, rfl⟩

/-- With tags without `+`, two checkouts with the same version have the same tag, the same number of commits since, both or none have changed
files, and they are the same commit, or both the release.

Missing: tags with `+`, see `version_plus_violated`; and the kind of changes, which the version does not tell. -/
theorem version_determines_partial {s t : Checkout} (hs : s.Proper) (ht : t.Proper) (hps : '+' ∉ s.tag) (hpt : '+' ∉ t.tag)
    (full head full' head' : List Char) (n n' : ℕ) (dirs dirs' : List (List Char))
    (h : packageVersion ⟨unexpanded, full⟩ (some ⟨s.describe, head, n⟩) dirs =
      packageVersion ⟨unexpanded, full'⟩ (some ⟨t.describe, head', n'⟩) dirs') :
    s.tag = t.tag ∧ s.commits = t.commits ∧ s.changed = t.changed ∧ (s.Released ∨ s.hash = t.hash) := by
  have hu : ∀ u : Checkout, '+' ∉ u.tag → u.tag ≠ "v0+unknown".toList := by
    intro u hu he
    rw [he] at hu
    exact hu (by decide)
  rw [version_checkout hs (hu s hps), version_checkout ht (hu t hpt)] at h
  have h := Option.some.inj h
  obtain ⟨d, l, hd, _⟩ := hs.tag
  obtain ⟨d', l', hd', _⟩ := ht.tag
  have hts : s.tag.tail = d :: l := by rw [hd]; rfl
  have htt : t.tag.tail = d' :: l' := by rw [hd']; rfl
  have hps' : '+' ∉ d :: l := fun hc => hps (by rw [hd]; exact List.mem_cons_of_mem _ hc)
  have hpt' : '+' ∉ d' :: l' := fun hc => hpt (by rw [hd']; exact List.mem_cons_of_mem _ hc)
  simp only [Checkout.version, hts, htt, if_neg hps, if_neg hpt] at h
  by_cases hc : s.commits = 0 ∧ s.changed = false
  · by_cases hc' : t.commits = 0 ∧ t.changed = false
    · rw [if_pos hc, if_pos hc', List.append_nil, List.append_nil] at h
      exact ⟨by rw [hd, hd', h], by rw [hc.1, hc'.1], by rw [hc.2, hc'.2], Or.inl hc⟩
    · rw [if_pos hc, if_neg hc', List.append_nil] at h
      exact absurd (by rw [h]; simp) hps'
  · by_cases hc' : t.commits = 0 ∧ t.changed = false
    · rw [if_neg hc, if_pos hc', List.append_nil] at h
      exact absurd (by rw [← h]; simp) hpt'
    · rw [if_neg hc, if_neg hc'] at h
      obtain ⟨h1, h2⟩ := sep_inj hps' hpt' h
      obtain ⟨h3, h4⟩ := sep_inj (digits_not (by decide)) (digits_not (by decide)) h2
      have h4 : s.hash ++ (if s.changed then ".dirty".toList else []) = t.hash ++ (if t.changed then ".dirty".toList else []) := by
        simpa using h4
      have hn : ∀ u : Checkout, u.Proper → '.' ∉ u.hash := fun u hu hm => hex_ne (hu.hex _ hm) (x := '.') (by decide) rfl
      have hcom : s.commits = t.commits := by
        have := congrArg (fun x => Nat.ofDigitChars 10 x 0) h3
        simpa only [Nat.ofDigitChars_ten_toDigits] using this
      have hch : s.changed = t.changed ∧ s.hash = t.hash := by
        cases hsc : s.changed <;> cases htc : t.changed <;> simp only [hsc, htc, if_true, if_false, Bool.false_eq_true, List.append_nil] at h4
        · exact ⟨rfl, h4⟩
        · exact absurd (by rw [h4]; simp) (hn s hs)
        · exact absurd (by rw [← h4]; simp) (hn t ht)
        · exact ⟨rfl, List.append_cancel_right h4⟩
      exact ⟨by rw [hd, hd', h1], hcom, hch.1, Or.inr hch.2⟩

example : '+' ∉ laterCheckout.tag := by decide

/-- With `+` in the tags the version is ambiguous: three commits after the tag `v1+a`, and the tag `v1+a.3.gabc`. -/
theorem version_plus_violated :
    ∃ s t : Checkout, s.Proper ∧ t.Proper ∧ s.tag ≠ t.tag ∧ ∀ (full head : List Char) (n : ℕ) (dirs : List (List Char)),
      packageVersion ⟨unexpanded, full⟩ (some ⟨s.describe, head, n⟩) dirs =
        packageVersion ⟨unexpanded, full⟩ (some ⟨t.describe, head, n⟩) dirs := by
  have hs : (⟨"v1+a".toList, 3, "abc".toList, false⟩ : Checkout).Proper :=
    ⟨⟨'1', "+a".toList, by decide, by decide⟩, by decide, by decide, by decide⟩
  have ht : (⟨"v1+a.3.gabc".toList, 0, "abc".toList, false⟩ : Checkout).Proper :=
    ⟨⟨'1', "+a.3.gabc".toList, by decide, by decide⟩, by decide, by decide, by decide⟩
  refine ⟨_, _, hs, ht, by decide, fun full head n dirs => ?_⟩
  rw [version_checkout hs (by decide), version_checkout ht (by decide)]
  decide

/-- Without any tag for a version the number of all commits and the first seven digits of the commit make the version. -/
theorem version_untagged (hash head full : List Char) (n : ℕ) (changed : Bool) (dirs : List (List Char)) (h0 : hash ≠ [])
    (hx : ∀ c ∈ hash, c.isDigit ∨ ('a' ≤ c ∧ c ≤ 'f')) (hh : ∀ c ∈ head, c.isDigit ∨ ('a' ≤ c ∧ c ≤ 'f')) (hh0 : head ≠ []) :
    packageVersion ⟨unexpanded, full⟩
        (some ⟨hash ++ (if changed then "-dirty".toList else []) ++ ['\n'], head ++ ['\n'], n⟩) dirs =
      some ("0+untagged.".toList ++ Nat.toDigits 10 n ++ ".g".toList ++ head.take 7 ++ if changed then ".dirty".toList else []) := by
  have hblank : ∀ c : Char, (c.isDigit ∨ ('a' ≤ c ∧ c ≤ 'f')) → blank c = false := by
    intro c hc
    simp only [blank, Bool.or_eq_false_iff, beq_eq_false_iff_ne]
    exact ⟨⟨⟨hex_ne hc (by decide), hex_ne hc (by decide)⟩, hex_ne hc (by decide)⟩, hex_ne hc (by decide)⟩
  have e1 : strip blank (head ++ ['\n']) = head := by
    have := strip_of (p := blank) (a := []) (l := head) (b := ['\n']) (by simp) (by simp [blank]) hh0
      (fun c hc => hblank c (hh c (List.mem_of_head? hc))) (fun c hc => hblank c (hh c (List.mem_of_getLast? hc)))
    simpa using this
  have e2 : strip blank (hash ++ (if changed then "-dirty".toList else []) ++ ['\n']) = hash ++ (if changed then "-dirty".toList else []) := by
    have := strip_of (p := blank) (a := []) (l := hash ++ (if changed then "-dirty".toList else [])) (b := ['\n']) (by simp)
      (by simp [blank]) (by simp [h0]) ?_ ?_
    · simpa using this
    · intro c hc
      refine hblank c (hx c (List.mem_of_head? ?_))
      cases hash with
      | nil => exact absurd rfl h0
      | cons a l => simpa using hc
    · intro c hc
      cases changed with
      | true =>
        simp only [if_true] at hc
        rw [List.getLast?_append_of_ne_nil _ (by decide)] at hc
        have : c = 'y' := by simpa using hc.symm
        subst this
        decide
      | false =>
        simp only [Bool.false_eq_true, if_false, List.append_nil] at hc
        exact hblank c (hx c (List.mem_of_getLast? hc))
  have e3 : "-dirty".toList.isSuffixOf (hash ++ (if changed then "-dirty".toList else [])) = changed := by
    cases changed with
    | true => simp only [if_true, List.isSuffixOf_iff_suffix]; exact List.suffix_append _ _
    | false =>
      simp only [Bool.false_eq_true, if_false, List.append_nil]
      by_contra hc
      have hc : "-dirty".toList.isSuffixOf hash = true := by simpa using hc
      rw [List.isSuffixOf_iff_suffix] at hc
      obtain ⟨t, ht⟩ := hc
      have : 'y' ∈ hash := by rw [← ht]; simp
      exact hex_ne (hx _ this) (x := 'y') (by decide) rfl
  have e4 : (if changed = true then
      (hash ++ (if changed then "-dirty".toList else [])).take ((hash ++ (if changed then "-dirty".toList else [])).length - 6)
      else hash ++ (if changed then "-dirty".toList else [])) = hash := by
    cases changed <;> simp
  have e5 : '-' ∉ hash := fun hm => hex_ne (hx _ hm) (x := '-') (by decide) rfl
  have e6 : ∀ l : List Char, "0+untagged.".toList ++ l ≠ "0+unknown".toList := by
    intro l hl
    have := congrArg (List.take 5) hl
    simp at this
  have hp : gitPieces ['v'] ⟨hash ++ (if changed then "-dirty".toList else []) ++ ['\n'], head ++ ['\n'], n⟩ =
      some ⟨none, n, head.take 7, changed⟩ := by
    simp only [gitPieces, e1, e2, e3, e4, if_neg e5]
  simp only [packageVersion, getVersions, keyword_unexpanded, hp]
  simp only [renderPep440, List.append_assoc, if_neg (e6 _)]

example : ∀ c ∈ "1a2b3c4d5e".toList, c.isDigit ∨ ('a' ≤ c ∧ c ≤ 'f') := by decide

/-- Tags with another first letter, which a caller of `git describe` could get, give no version at all but the word `unknown`. -/
theorem version_other_tag_violated (full : List Char) (dirs : List (List Char)) :
    packageVersion ⟨unexpanded, full⟩ (some ⟨"release1-0-gabc\n".toList, "abcdef\n".toList, 5⟩) dirs = some "unknown".toList := by
  simp only [packageVersion, getVersions, keyword_unexpanded]
  decide

/-! ## Archives -/

/-- The version in an archive of a tagged commit is the number in its tag, without asking git; with more than one such tag it is the first one in
alphabetical order. -/
theorem archive_version {refs : List (List Char)} (h : ∀ r ∈ refs, RefName r) (ht : ∃ u, VersionTag refs u)
    (hu : ¬ VersionTag refs "0+unknown".toList) (full : List Char) (git : Option Answers) (dirs : List (List Char)) :
    ∃ v, packageVersion ⟨refLine refs, full⟩ git dirs = some v ∧ VersionTag refs v ∧ ∀ u, VersionTag refs u → v ≤ u := by
  obtain ⟨u, hu'⟩ := ht
  have hne : refs ≠ [] := List.ne_nil_of_mem hu'.1
  obtain ⟨v, h1, h2, _⟩ := keyword_tags hne h full ⟨'v' :: u, hu'.1⟩
  obtain ⟨hv, hmin⟩ := h2 ⟨u, hu'⟩
  have hn : v ≠ "0+unknown".toList := by rintro rfl; exact hu hv
  exact ⟨v, by simp only [packageVersion, getVersions, h1, if_neg hn], hv, hmin⟩

/-- The archive of a release with a single tag, and the checkout of the same tag, have the same version. -/
theorem archive_same_version {s : Checkout} (hs : s.Proper) (hr : s.Released) (hu : s.tag ≠ "v0+unknown".toList)
    {refs : List (List Char)} (h : ∀ r ∈ refs, RefName r) (hm : "tag: ".toList ++ s.tag ∈ refs)
    (hone : ∀ u, VersionTag refs u → s.tag = 'v' :: u) (full full' head : List Char) (n : ℕ) (git : Option Answers)
    (dirs dirs' : List (List Char)) :
    packageVersion ⟨refLine refs, full⟩ git dirs = packageVersion ⟨unexpanded, full'⟩ (some ⟨s.describe, head, n⟩) dirs' := by
  obtain ⟨d, l, hd, hdig⟩ := hs.tag
  have htag : VersionTag refs (d :: l) := ⟨by rw [hd] at hm; exact hm, d, l, rfl, hdig⟩
  obtain ⟨v, h1, h2, _⟩ := archive_version h ⟨_, htag⟩ (fun hc => hu (hone _ hc)) full git dirs
  rw [h1, version_released hs hr hu, hone v h2]
  rfl

/-- The references of a release. -/
def releaseRefs : List (List Char) := ["HEAD -> master".toList, "tag: v0.5".toList, "origin/master".toList]

theorem releaseRefs_names : ∀ r ∈ releaseRefs, RefName r := by
  intro r hr
  simp only [releaseRefs, List.mem_cons, List.not_mem_nil, or_false] at hr
  rcases hr with rfl | rfl | rfl <;> exact ⟨by decide, by decide, by decide, by decide⟩

example (full : List Char) : packageVersion ⟨" (HEAD -> master, tag: v0.5, origin/master)".toList, full⟩ none [] = some "0.5".toList := by
  obtain ⟨v, h1, h2, _⟩ := archive_version releaseRefs_names ⟨"0.5".toList, by decide, '0', ".5".toList, by decide, by decide⟩
    (fun h => absurd h.1 (by decide)) full none []
  have hv : v = "0.5".toList := by
    have := h2.1
    simp only [releaseRefs, List.mem_cons, List.not_mem_nil, or_false] at this
    rcases this with h | h | h
    · exact absurd (congrArg List.head? h) (by simp)
    · simpa using h
    · exact absurd (congrArg List.head? h) (by simp)
  rw [← hv]
  exact h1

/-- The version of an archive of a commit without tags is its hash, if no branch has a name like a version. -/
theorem archive_untagged {refs : List (List Char)} (h : ∀ r ∈ refs, RefName r) (ht : ∀ r, "tag: ".toList ++ r ∉ refs)
    (hb : ∀ (d : Char) (l : List Char), 'v' :: d :: l ∈ refs → d.isDigit = false)
    (full : List Char) (git : Option Answers) (dirs : List (List Char)) :
    packageVersion ⟨refLine refs, full⟩ git dirs = some (strip blank full) := by
  obtain ⟨v, h1, _, h3⟩ := keyword_untagged h full ht
  have hv : v = "0+unknown".toList := by
    refine h3 ?_
    rintro ⟨u, hu, d, l, rfl, hd⟩
    rw [hb d l hu] at hd
    exact absurd hd (by simp)
  simp only [packageVersion, getVersions, h1, hv, if_true]

/-- The same for a commit with other tags only. -/
theorem archive_other_tags {refs : List (List Char)} (h : ∀ r ∈ refs, RefName r) (ht : ∃ r, "tag: ".toList ++ r ∈ refs)
    (hb : ∀ v, ¬ VersionTag refs v) (full : List Char) (git : Option Answers) (dirs : List (List Char)) :
    packageVersion ⟨refLine refs, full⟩ git dirs = some (strip blank full) := by
  obtain ⟨r, hr⟩ := ht
  obtain ⟨v, h1, _, h3⟩ := keyword_tags (List.ne_nil_of_mem hr) h full ⟨r, hr⟩
  have hv : v = "0+unknown".toList := h3 fun ⟨u, hu⟩ => hb u hu
  simp only [packageVersion, getVersions, h1, hv, if_true]

/-- The references of a commit on two branches. -/
def branchRefs : List (List Char) := ["HEAD -> master".toList, "v2-dev".toList]

theorem branchRefs_names : ∀ r ∈ branchRefs, RefName r := by
  intro r hr
  simp only [branchRefs, List.mem_cons, List.not_mem_nil, or_false] at hr
  rcases hr with rfl | rfl <;> exact ⟨by decide, by decide, by decide, by decide⟩

example (full : List Char) : packageVersion ⟨" (HEAD -> master)".toList, full⟩ none [] = some (strip blank full) := by
  refine archive_untagged (refs := ["HEAD -> master".toList]) (fun r hr => branchRefs_names r ?_) ?_ ?_ full none []
  · rw [List.mem_singleton] at hr
    simp [hr, branchRefs]
  · intro r hr
    rw [List.mem_singleton] at hr
    exact absurd (congrArg List.head? hr) (by simp)
  · intro d l hr
    rw [List.mem_singleton] at hr
    exact absurd (congrArg List.head? hr) (by simp)

/-- A branch is taken for a version if there is no tag: the branch `v2-dev` gives the version `2-dev`. -/
theorem archive_branch_violated (full : List Char) (git : Option Answers) (dirs : List (List Char)) :
    packageVersion ⟨" (HEAD -> master, v2-dev)".toList, full⟩ git dirs = some "2-dev".toList := by
  obtain ⟨v, h1, h2, _⟩ := keyword_untagged branchRefs_names full (by
    intro r hr
    simp only [branchRefs, List.mem_cons, List.not_mem_nil, or_false] at hr
    rcases hr with h | h <;> exact absurd (congrArg List.head? h) (by simp))
  obtain ⟨⟨hm, _⟩, _⟩ := h2 ⟨"2-dev".toList, by decide, '2', "-dev".toList, by decide, by decide⟩
  have hv : v = "2-dev".toList := by
    simp only [branchRefs, List.mem_cons, List.not_mem_nil, or_false] at hm
    rcases hm with h | h
    · exact absurd (congrArg List.head? h) (by simp)
    · simpa using h
  subst hv
  have h1' : keywordVersion ['v'] ⟨" (HEAD -> master, v2-dev)".toList, full⟩ = some ("2-dev".toList, some (strip blank full)) := h1
  have hn : "2-dev".toList ≠ "0+unknown".toList := by decide
  simp only [packageVersion, getVersions, h1', if_neg hn]

/-! ## Neither -/

/-- Without git and keywords there is no version, unless a directory has a name which starts with `None`. -/
theorem version_missing (full : List Char) {dirs : List (List Char)} (h : ∀ d ∈ dirs.take 3, ¬ "None".toList <+: d) :
    packageVersion ⟨unexpanded, full⟩ none dirs = none := by
  have h1 : ((dirs.take 3).find? fun d => "None".toList.isPrefixOf d) = none := by
    refine List.find?_eq_none.2 fun d hd hp => h d hd (List.isPrefixOf_iff_prefix.1 hp)
  simp only [packageVersion, getVersions, keyword_unexpanded, parentVersion, h1, Option.map_none]
  rfl

example : ∀ d ∈ ["postpic-0.5".toList, "src".toList], ¬ "None".toList <+: d := by decide

/-- The version comes from the name of a directory which has nothing to do with it: the prefix is the text `None`. -/
theorem version_directory_violated (full : List Char) :
    packageVersion ⟨unexpanded, full⟩ none ["postpic-0.5".toList, "Nonesense".toList] = some "sense".toList := by
  simp only [packageVersion, getVersions, keyword_unexpanded]
  decide

end Postpic.Props
