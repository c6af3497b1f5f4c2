import Verif.Lemmas.FieldKeys

/-!
# C85, C86: components of the fields, lists of derived fields and species
-/

set_option autoImplicit false

namespace Postpic.Props

open Postpic Postpic.Fields Postpic.Readers Postpic.Spec

/-! ## C85 -/

/-- C85: a component of a field in a dump of EPOCH is the array stored for it, the averaged one if this is asked for. -/
theorem epoch_component {K : Type} (d : String → Option (Arr K)) (f : EB) (c : AxisKey) (l : String) (average : Bool)
    (h : (c, l) ∈ componentTable) (hl : l ∈ ["x", "y", "z"]) :
    (∀ a, d (epochPath f l average) = some a → epochComponent d f c average = .ok a) ∧
      (d (epochPath f l average) = none → epochComponent d f c average = .error .keyError) := by
  have hk : epochKey f c average = .ok (epochPath f l average) := by
    cases f
    · simp only [epochKey, epochKeyE, componentLetter_table h hl]
      rfl
    · simp only [epochKey, epochKeyB, componentLetter_table h hl]
      rfl
  unfold epochComponent
  rw [hk]
  constructor
  · intro a ha
    show orKeyError (d (epochPath f l average)) = _
    rw [ha]
    rfl
  · intro ha
    show orKeyError (d (epochPath f l average)) = _
    rw [ha]
    rfl

theorem pmdKey_eq (f : EB) (c : AxisKey) (l : String) (h : (c, l) ∈ componentTable) : pmdKey f c = .ok (pmdPath f l) := by
  unfold pmdKey
  rw [h5Letter_table h]
  cases f <;> rfl

theorem smileiKey_eq (f : EB) (c : AxisKey) (l : String) (h : (c, l) ∈ componentTable) : smileiKey f c = .ok (smileiPath f l) := by
  unfold smileiKey
  rw [h5Letter_table h]
  cases f <;> rfl

/-- C85: a component of a field in an openPMD file is the array stored for it, in SI units. Partial: records which are given as constants
become a single number, see `constant_component_violated`. -/
theorem pmd_component_partial {K : Type} [Mul K] (d : String → Option (H5Record K)) (f : EB) (c : AxisKey) (l : String)
    (h : (c, l) ∈ componentTable) :
    (∀ raw u, d (pmdPath f l) = some (.array raw u) → ∃ a, pmdComponent d f c = .ok a ∧ InSI raw u a) ∧
      (d (pmdPath f l) = none → pmdComponent d f c = .error .keyError) := by
  unfold pmdComponent
  rw [pmdKey_eq f c l h]
  constructor
  · intro raw u hr
    refine ⟨⟨raw.shape, fun i => raw.at' i * u⟩, ?_, rfl, fun i => rfl⟩
    show h5Value d (pmdPath f l) = _
    unfold h5Value
    rw [hr]
    rfl
  · intro hr
    show h5Value d (pmdPath f l) = _
    unfold h5Value
    rw [hr]
    rfl

/-- C85 fails for a field stored as a constant: the result has no axes, whatever the grid is. -/
theorem constant_component_violated {K : Type} [Mul K] (d : String → Option (H5Record K)) (f : EB) (c : AxisKey) (l : String)
    (h : (c, l) ∈ componentTable) (v u : K) (hd : d (pmdPath f l) = some (.constant v u)) :
    ∃ a, pmdComponent d f c = .ok a ∧ a.shape = [] := by
  refine ⟨⟨[], fun _ => v * u⟩, ?_, rfl⟩
  unfold pmdComponent
  rw [pmdKey_eq f c l h]
  show h5Value d (pmdPath f l) = _
  unfold h5Value
  rw [hd]
  rfl

/-- C85: a component of the electric field of fbpic is the expansion of the stored modes in SI units, at the angles asked for. Partial:
not so for the magnetic field, see `fbpic_magnetic_violated`. -/
theorem fbpic_component_partial (junk : ℕ → ℕ → ℕ → ℂ) (d : String → Option (H5Record ℝ)) (c : AxisKey) (l : String)
    (h : (c, l) ∈ componentTable) (thetas : Option (List ℝ)) (ntheta : Option ℤ) (raw : Arr ℝ) (u : ℝ)
    (hd : d (pmdPath .E l) = some (.array raw u)) :
    ∃ a, InSI raw u a ∧ fbpicComponent junk d .E c thetas ntheta = fbpicExpansion junk a thetas ntheta := by
  obtain ⟨a, ha, hs⟩ := (pmd_component_partial d .E c l h).1 raw u hd
  refine ⟨a, hs, ?_⟩
  unfold pmdComponent at ha
  unfold fbpicComponent
  rw [pmdKey_eq .E c l h] at ha ⊢
  have ha' : h5Value d (pmdPath .E l) = .ok a := ha
  show (do let raw ← h5Value d (pmdPath .E l); fbpicExpansion junk raw thetas ntheta) = _
  rw [ha']
  rfl

/-- C85 fails for the magnetic field of fbpic: it can never be read, `dataB` uses an undefined name. -/
theorem fbpic_magnetic_violated (junk : ℕ → ℕ → ℕ → ℂ) (d : String → Option (H5Record ℝ)) (c : AxisKey) (l : String)
    (h : (c, l) ∈ componentTable) (thetas : Option (List ℝ)) (ntheta : Option ℤ) :
    fbpicComponent junk d .B c thetas ntheta = .error .nameError := by
  unfold fbpicComponent
  rw [pmdKey_eq .B c l h]
  rfl

/-- C85: a component of a field of Smilei is the array stored for it in SI units, or the expansion of its modes at angle 0. Partial: other
angles are ignored, see `smilei_theta_violated`. -/
theorem smilei_component_partial (names : ModeNames) (modes : String → ℕ → Option (Arr ℝ)) (unit : String → ℝ)
    (d : String → Option (H5Record ℝ)) (f : EB) (c : AxisKey) (l : String) (h : (c, l) ∈ componentTable) :
    ((∀ m, (smileiPath f l, m) ∉ names) → ∀ raw u, d (smileiPath f l) = some (.array raw u) →
      ∃ a, smileiComponent names modes unit d f c none = .ok a ∧ InSI raw u a) ∧
    ((∃ m, (smileiPath f l, m) ∈ names) →
      smileiComponent names modes unit d f c none = smileiExpanded names modes unit (smileiPath f l) [0]) := by
  have hmem : smileiPath f l ∈ (listAMmodes names).1 ↔ ∃ m, (smileiPath f l, m) ∈ names := by
    unfold listAMmodes
    cases hm : maxMode names with
    | none =>
      cases names with
      | nil => simp
      | cons p ps =>
        exfalso
        unfold maxMode at hm
        cases hq : maxMode ps <;> rw [hq] at hm <;> cases hm
    | some m =>
      simp only [List.mem_map, Prod.exists, exists_and_right, exists_eq_right]
  unfold smileiComponent
  rw [smileiKey_eq f c l h]
  constructor
  · intro hn raw u hd
    refine ⟨⟨raw.shape, fun i => raw.at' i * u⟩, ?_, rfl, fun i => rfl⟩
    show smileiData names modes unit d (smileiPath f l) [0] = _
    unfold smileiData
    rw [if_neg fun hc => by obtain ⟨m, hm⟩ := hmem.1 hc; exact hn m hm]
    unfold h5Value
    rw [hd]
    rfl
  · intro hn
    show smileiData names modes unit d (smileiPath f l) [0] = _
    unfold smileiData
    rw [if_pos (hmem.2 hn)]

/-- C85 fails for the angle `theta` of Smilei: the argument has no effect. -/
theorem smilei_theta_violated (names : ModeNames) (modes : String → ℕ → Option (Arr ℝ)) (unit : String → ℝ)
    (d : String → Option (H5Record ℝ)) (f : EB) (c : AxisKey) (thetas : List ℝ) :
    smileiComponent names modes unit d f c (some thetas) = smileiComponent names modes unit d f c none := rfl

example : pmdPath .E "x" = "fields/E/x" ∧ epochPath .B "z" true = "Magnetic Field/Bz_averaged" ∧ smileiPath .B "r" = "Br" ∧
    ((.str "theta" : AxisKey), "t") ∈ componentTable := by
  decide +kernel

/-! ## C86 -/

/-- C86: the species listed for a dump of EPOCH are those with a key `Particles/<property>/<species>`, without repetition and in order.
Partial: for names of word characters and dashes, see `epoch_species_violated`. -/
theorem epoch_species_partial (word : Char → Bool) (hw : word '/' = false) (keys : List (List Char))
    (h : ∀ k ∈ keys, "Particles/".toList <+: k → ∃ s, ProperName word s ∧ ParticleKey word s k) :
    (epochSpecies word keys).Pairwise (· < ·) ∧
      ∀ s, s ∈ epochSpecies word keys ↔ ProperName word s ∧ ∃ k ∈ keys, ParticleKey word s k := by
  refine ⟨sortNames_strict (List.nodup_dedup _), ?_⟩
  intro s
  unfold epochSpecies
  rw [mem_sortNames, List.mem_dedup, List.mem_filterMap]
  constructor
  · rintro ⟨k, hk, hm⟩
    have hp : "Particles/".toList <+: k := by
      by_contra hp
      unfold speciesMatch at hm
      rw [stripPrefix_none hp] at hm
      cases hm
    obtain ⟨s', hs', hks'⟩ := h k hk hp
    rw [speciesMatch_key hw hs' hks'] at hm
    cases hm
    exact ⟨hs', k, hk, hks'⟩
  · rintro ⟨hs, k, hk, hks⟩
    exact ⟨k, hk, speciesMatch_key hw hs hks⟩

/-- Word characters of ASCII. -/
def asciiWord (c : Char) : Bool := c.isAlphanum || c == '_'

example : epochSpecies asciiWord ["Particles/Px/proton".toList, "Grid/Grid".toList, "Particles/Px/hot/e-".toList,
    "Particles/Weight/proton".toList] = ["hot/e-".toList, "proton".toList] := by
  decide +kernel

/-- C86 fails for other names: the part before a dot is listed, which is not a species. -/
theorem epoch_species_violated : epochSpecies asciiWord ["Particles/Px/e.hot".toList] = ["e".toList] := by
  decide +kernel

/-- C86: the derived quantities listed for a dump of EPOCH are its keys below `Derived`, each once, in order. Partial: for keys without
special characters, see `epoch_derived_violated`. -/
theorem epoch_derived_partial (word : Char → Bool) (keys : List (List Char))
    (h : ∀ k ∈ keys, "Derived/".toList <+: k → PlainDerived word k) :
    (epochDerived word keys).Pairwise (· ≤ ·) ∧
      (epochDerived word keys).Perm (keys.filter fun k => "Derived/".toList.isPrefixOf k) := by
  refine ⟨sortNames_sorted _, ?_⟩
  unfold epochDerived
  refine (sortNames_perm _).trans ?_
  rw [filterMap_eq_filter (p := fun k => "Derived/".toList.isPrefixOf k)]
  intro k hk
  by_cases hp : "Derived/".toList <+: k
  · rw [if_pos (List.isPrefixOf_iff_prefix.2 hp)]
    exact derivedMatch_plain (h k hk hp)
  · rw [if_neg fun hc => hp (List.isPrefixOf_iff_prefix.1 hc)]
    unfold derivedMatch
    rw [stripPrefix_none hp]
    rfl

example : epochDerived asciiWord ["Derived/Number_Density/e".toList, "Grid/Grid".toList, "Derived/EkBar".toList] =
    ["Derived/EkBar".toList, "Derived/Number_Density/e".toList] := by
  decide +kernel

/-- C86 fails for species with a dash: the key which is listed does not exist. -/
theorem epoch_derived_violated :
    epochDerived asciiWord ["Derived/Number_Density/e-".toList] = ["Derived/Number_Density/e".toList] := by
  decide +kernel

/-- C86: the other fields listed for an openPMD file are the datasets below `fields` besides those of `E` and `B`. Partial: with h5py
before version 3, and if no other name begins with `E` or `B`, see `pmd_derived_violated`. -/
theorem pmd_derived_partial (visited : List (List Char × Bool))
    (h : ∀ r ∈ visited, "E".toList <+: r.1 ∨ "B".toList <+: r.1 → IsEB r.1) :
    (pmdDerived false visited).Pairwise (· ≤ ·) ∧
      ∀ k, k ∈ pmdDerived false visited ↔ ∃ name, (name, true) ∈ visited ∧ ¬ IsEB name ∧ k = "fields/".toList ++ name := by
  have key : ∀ n : List Char, IsEB n → "E".toList <+: n ∨ "B".toList <+: n := by
    rintro n (rfl | rfl | hp | hp)
    · exact Or.inl (List.prefix_refl _)
    · exact Or.inr (List.prefix_refl _)
    · exact Or.inl (List.IsPrefix.trans (by decide) hp)
    · exact Or.inr (List.IsPrefix.trans (by decide) hp)
  refine ⟨sortNames_sorted _, ?_⟩
  intro k
  unfold pmdDerived
  simp only [mem_sortNames, List.mem_map, List.mem_filter, Bool.not_false, Bool.and_true, Bool.and_eq_true, Bool.not_eq_eq_eq_not,
    Bool.not_true, Bool.or_eq_false_iff, Prod.exists]
  constructor
  · rintro ⟨n, b, ⟨hm, ⟨h1, h2⟩, rfl⟩, rfl⟩
    refine ⟨n, hm, ?_, rfl⟩
    intro hc
    rcases key n hc with hp | hp
    · rw [List.isPrefixOf_iff_prefix.2 hp] at h1
      cases h1
    · rw [List.isPrefixOf_iff_prefix.2 hp] at h2
      cases h2
  · rintro ⟨n, hm, hn, rfl⟩
    refine ⟨n, true, ⟨hm, ⟨?_, ?_⟩, rfl⟩, rfl⟩
    · by_contra hc
      exact hn (h _ hm (Or.inl (List.isPrefixOf_iff_prefix.1 (by simpa using hc))))
    · by_contra hc
      exact hn (h _ hm (Or.inr (List.isPrefixOf_iff_prefix.1 (by simpa using hc))))

example : pmdDerived false [("E".toList, false), ("E/x".toList, true), ("rho".toList, true)] = ["fields/rho".toList] := by
  decide +kernel

/-- C86 fails with h5py 3, where the list is always empty, and for other fields whose name begins with `E` or `B`, which are left out. -/
theorem pmd_derived_violated (visited : List (List Char × Bool)) :
    pmdDerived true visited = [] ∧ pmdDerived false [("Energy".toList, true), ("rho".toList, true)] = ["fields/rho".toList] := by
  constructor
  · simp [pmdDerived, sortNames]
  · decide +kernel

/-- C86: the list for a dump of Smilei is in order and contains all fields. Partial: it contains everything else too, see
`smilei_derived_violated`. -/
theorem smilei_derived_partial (visited : List (List Char × Bool)) :
    (smileiDerived visited).Pairwise (· ≤ ·) ∧ (smileiDerived visited).Perm (visited.map (·.1)) :=
  ⟨sortNames_sorted _, sortNames_perm _⟩

/-- C86, violated: the list for a dump of Smilei contains the electric and magnetic fields, the particles and the names of groups, which are no
fields: whatever the dump contains. -/
theorem smilei_derived_violated (visited : List (List Char × Bool)) (name : List Char) (b : Bool) (h : (name, b) ∈ visited) :
    name ∈ smileiDerived visited :=
  (sortNames_perm _).mem_iff.2 (List.mem_map.2 ⟨_, h, rfl⟩)

example : smileiDerived [("Ex".toList, true), ("Rho".toList, true), ("particles".toList, false), ("particles/e/weight".toList, true)] =
    ["Ex".toList, "Rho".toList, "particles".toList, "particles/e/weight".toList] := by
  decide +kernel

/-- C86: the species listed for an openPMD file are the groups below `particles`, in order. Partial: a file without particles raises a
`KeyError`, see `pmd_species_violated`. -/
theorem pmd_species_partial (names : List (List Char)) :
    ∃ l, pmdSpecies (some names) = .ok l ∧ l.Perm names ∧ l.Pairwise (· ≤ ·) :=
  ⟨_, rfl, sortNames_perm names, sortNames_sorted names⟩

/-- C86 fails for an openPMD file without particles. -/
theorem pmd_species_violated : pmdSpecies none = .error .keyError := rfl

/-- C86: the number of dimensions of an openPMD file is the number of axes of its fields. Partial: not for fbpic, see
`simdimensions_violated`. -/
theorem simdimensions_partial {K : Type} (d : PmdDump K) (n : ℕ) (key : String) (r : PmdRecord K) (hk : key ∈ pmdSimgridkeys)
    (hd : d key = some r) (hg : r.gridAttrs.spacing.isSome ∧ r.gridAttrs.unit.isSome)
    (hn : ∀ k ∈ pmdSimgridkeys, ∀ r l, d k = some r → r.gridAttrs.spacing = some l → l.length = n) :
    pmdSimdimensions d = .ok n := by
  have hok : ∀ ks : List String, (∀ k ∈ ks, k ∈ pmdSimgridkeys) → key ∈ ks →
      firstKey (spacingLength d) ks = .ok n := by
    intro ks
    induction ks with
    | nil => intro _ h; cases h
    | cons k ks ih =>
      intro hsub hmem
      have ih' := fun hm => ih (fun x hx => hsub x (by simp [hx])) hm
      have hne : ¬ (∃ r, d k = some r ∧ r.gridAttrs.spacing.isSome ∧ r.gridAttrs.unit.isSome) → key ∈ ks := by
        intro hno
        rcases List.mem_cons.1 hmem with rfl | h
        · exact absurd ⟨r, hd, hg⟩ hno
        · exact h
      by_cases hex : ∃ r, d k = some r ∧ r.gridAttrs.spacing.isSome ∧ r.gridAttrs.unit.isSome
      · obtain ⟨r', hr', h1, h2⟩ := hex
        obtain ⟨l, hl⟩ := Option.isSome_iff_exists.1 h1
        obtain ⟨u, hu⟩ := Option.isSome_iff_exists.1 h2
        have : spacingLength d k = .ok n := by
          unfold spacingLength
          rw [hr', ← hn k (hsub k (by simp)) r' l hr' hl]
          show (do
            let l ← orKeyError r'.gridAttrs.spacing
            let _ ← orKeyError r'.gridAttrs.unit
            return l.length) = _
          rw [hl, hu]
          rfl
        simp only [firstKey, this]
      · have : spacingLength d k = .error .keyError := by
          unfold spacingLength
          cases hdk : d k with
          | none => rfl
          | some r' =>
            show (do
              let l ← orKeyError r'.gridAttrs.spacing
              let _ ← orKeyError r'.gridAttrs.unit
              return l.length) = _
            cases hs : r'.gridAttrs.spacing with
            | none => rfl
            | some l =>
              cases hu : r'.gridAttrs.unit with
              | none => rfl
              | some u => exact absurd ⟨r', hdk, by rw [hs]; rfl, by rw [hu]; rfl⟩ hex
        simp only [firstKey, this]
        exact ih' (hne hex)
  exact hok _ (fun _ h => h) hk

example : (pmdSimdimensions (fun k => if k = "fields/B/z" then some ⟨⟨none, none, none⟩, ⟨some [0, 0], some [1, 1], some 1⟩, [4, 4]⟩
    else none : PmdDump ℤ)) = .ok 2 := by
  decide +kernel

/-- C86: the number of dimensions of EPOCH is the digit in the name of the code. -/
theorem epoch_simdimensions (n : ℕ) (hn : n < 10) (rest : List Char) :
    epochSimdimensions ("Epoch".toList ++ (n.digitChar :: 'd' :: rest)) = .ok n := by
  unfold epochSimdimensions
  rw [stripPrefix_append]
  have h1 : n.digitChar.isDigit = true := by
    revert hn
    revert n
    decide
  have h2 : n.digitChar.toNat - 48 = n := Nat.toNat_digitChar_sub_48_of_lt_ten hn
  simp only [h1, h2, if_true]

/-- C86 fails for fbpic: the number of dimensions cannot be found. -/
theorem simdimensions_violated : fbpicSimdimensions = .error .keyError := rfl

end Postpic.Props
