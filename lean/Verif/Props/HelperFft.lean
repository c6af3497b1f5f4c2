import Mathlib.Data.List.Basic
import Mathlib.Data.List.Nodup
import Verif.Model.HelperFft

/-!
# Default arguments of Fourier transforms
-/

set_option autoImplicit false

namespace Postpic.Props

open Postpic Postpic.HelperFft

variable {V : Type}

/-! ## C140: default arguments of Fourier transforms -/

theorem lookup_append (d e : Kw V) (k : String) : (d ++ e).lookup k = (d.lookup k).or (e.lookup k) := by
  induction d with
  | nil => rfl
  | cons p d ih =>
    rw [List.cons_append, List.lookup_cons, List.lookup_cons]
    cases h : k == p.1 with
    | true => rfl
    | false => exact ih

theorem lookup_none_iff (d : Kw V) (k : String) : d.lookup k = none ↔ k ∉ d.map Prod.fst := by
  induction d with
  | nil => simp
  | cons p d ih =>
    rw [List.lookup_cons]
    by_cases h : k = p.1
    · simp [h]
    · rw [beq_eq_false_iff_ne.2 h]
      simp only [ih, List.map_cons, List.mem_cons, h, false_or]

theorem lookup_kwSet (d : Kw V) (k : String) (v : V) (q : String) : (kwSet d k v).lookup q = if q = k then some v else d.lookup q := by
  unfold kwSet
  by_cases h : d.any (fun p => p.1 == k) = true
  · rw [if_pos h]
    induction d with
    | nil => simp at h
    | cons p d ih =>
      rw [List.map_cons, List.lookup_cons, List.lookup_cons]
      by_cases hp : p.1 = k
      · simp only [hp, beq_self_eq_true, if_true]
        by_cases hq : q = k
        · simp [hq]
        · rw [beq_eq_false_iff_ne.2 hq, if_neg hq]
          simp only
          by_cases hd : d.any (fun p => p.1 == k) = true
          · rw [ih hd, if_neg hq]
          · have : d.map (fun p => if p.1 == k then (k, v) else p) = d := by
              conv_rhs => rw [← List.map_id d]
              refine List.map_congr_left fun x hx => ?_
              have hx' : ¬ (x.1 == k) = true := fun h' => hd (List.any_eq_true.2 ⟨x, hx, h'⟩)
              rw [if_neg hx']
              rfl
            rw [this]
      · have hd : d.any (fun p => p.1 == k) = true := by
          rw [List.any_cons, beq_eq_false_iff_ne.2 hp, Bool.false_or] at h
          exact h
        rw [beq_eq_false_iff_ne.2 hp]
        simp only [Bool.false_eq_true, if_false]
        by_cases hq : q = p.1
        · simp only [hq, beq_self_eq_true]
          rw [if_neg hp]
        · rw [beq_eq_false_iff_ne.2 hq]
          exact ih hd
  · rw [if_neg h, lookup_append]
    have hk : d.lookup k = none := by
      rw [lookup_none_iff]
      intro hm
      obtain ⟨p, hp, rfl⟩ := List.mem_map.1 hm
      exact h (List.any_eq_true.2 ⟨p, hp, beq_self_eq_true _⟩)
    by_cases hq : q = k
    · rw [if_pos hq, hq, hk]
      simp
    · rw [if_neg hq]
      have : ([(k, v)] : Kw V).lookup q = none := by
        rw [List.lookup_cons, beq_eq_false_iff_ne.2 hq]
        rfl
      rw [this, Option.or_none]

theorem lookup_kwUpdate {e : Kw V} (he : (e.map Prod.fst).Nodup) (d : Kw V) (q : String) :
    (kwUpdate d e).lookup q = (e.lookup q).or (d.lookup q) := by
  unfold kwUpdate
  induction e generalizing d with
  | nil => rfl
  | cons p e ih =>
    rw [List.map_cons, List.nodup_cons] at he
    rw [List.foldl_cons, ih he.2, lookup_kwSet, List.lookup_cons]
    by_cases hq : q = p.1
    · have : e.lookup q = none := (lookup_none_iff e q).2 (by rw [hq]; exact he.1)
      rw [this, hq, if_pos rfl, beq_self_eq_true]
      rfl
    · rw [if_neg hq, beq_eq_false_iff_ne.2 hq]

theorem mem_keys_iff (d : Kw V) (k : String) : k ∈ d.map Prod.fst ↔ (d.lookup k).isSome = true := by
  have := lookup_none_iff d k
  cases h : d.lookup k with
  | none => simpa [h] using this
  | some v =>
    rw [h] at this
    simp only [reduceCtorEq, false_iff, not_not] at this
    simp [this]

theorem bindCall_ok_iff (params : List String) (args : List V) (kw : Kw V) (b : Kw V) :
    bindCall params args kw = .ok b ↔
      args.length ≤ params.length ∧ (∀ k ∈ kw.map Prod.fst, k ∈ params.drop args.length) ∧ b = params.zip args ++ kw := by
  unfold bindCall
  by_cases h1 : params.length < args.length
  · rw [if_pos h1]
    constructor
    · intro h; cases h
    · rintro ⟨h, -⟩; omega
  · rw [if_neg h1]
    by_cases h2 : (kw.any fun p => !(params.drop args.length).contains p.1) = true
    · rw [if_pos h2]
      constructor
      · intro h; cases h
      · rintro ⟨-, h, -⟩
        obtain ⟨p, hp, hp'⟩ := List.any_eq_true.1 h2
        have := h p.1 (List.mem_map_of_mem hp)
        simp [this] at hp'
    · rw [if_neg h2]
      constructor
      · intro h
        cases h
        refine ⟨by omega, fun k hk => ?_, rfl⟩
        obtain ⟨p, hp, rfl⟩ := List.mem_map.1 hk
        by_contra hc
        exact h2 (List.any_eq_true.2 ⟨p, hp, by simp [hc]⟩)
      · rintro ⟨-, -, rfl⟩
        rfl

/-- C140: the results of calls are those of each call alone: no call changes the default arguments of later ones. -/
theorem fft_history (o : FftObject V) (calls : List (String × List V × Kw V)) :
    fftCalls o calls = (calls.map fun c => (fftCall o c.1 c.2.1 c.2.2).1, o) := by
  have key : ∀ (name : String) (args : List V) (kw : Kw V), (fftCall o name args kw).2 = o := by
    intro name args kw
    unfold fftCall
    cases o.lib.lookup name with
    | none => rfl
    | some params =>
      simp only
      by_cases h : o.wrapped.contains name = true
      · rw [if_pos h]
      · rw [if_neg h]
  induction calls with
  | nil => rfl
  | cons c cs ih =>
    obtain ⟨name, args, kw⟩ := c
    show ((fftCall o name args kw).1 :: (fftCalls (fftCall o name args kw).2 cs).1, (fftCalls (fftCall o name args kw).2 cs).2) = _
    rw [key, ih]
    rfl

/-- C140: the transforms in the list get the arguments of the caller, and the default value for every other argument with a default value. Partial:
`rfftn` is not in the list (`fft_rfftn_violated`), and a default value is in the way of a positional argument (`fft_positional_violated`). -/
theorem fft_defaults_partial (lib : FftLib) (defaults : Kw V) (o : FftObject V) (ho : fftInit lib defaults = .ok o) (name : String)
    (hname : name ∈ ["fft", "ifft", "fft2", "ifft2", "fftn", "ifftn", "rfft", "irfft", "rfft2", "irfft2", "irfftn", "hfft", "ihfft"])
    (args : List V) (kw : Kw V) (hkw : (kw.map Prod.fst).Nodup) (params : List String) (hp : lib.lookup name = some params) (direct : Kw V)
    (hdirect : bindCall params args kw = .ok direct) (hdef : ∀ k ∈ defaults.map Prod.fst, k ∈ params.drop args.length) :
    ∃ b, (fftCall o name args kw).1 = .ok b ∧ ∀ k, b.lookup k = (direct.lookup k).or (defaults.lookup k) := by
  unfold fftInit at ho
  by_cases hall : fftFunctions.all (fun f => (lib.lookup f).isSome) = true
  · rw [if_pos hall] at ho
    cases ho
    obtain ⟨h1, h2, h3⟩ := (bindCall_ok_iff _ _ _ _).1 hdirect
    refine ⟨params.zip args ++ kwUpdate defaults kw, ?_, fun k => ?_⟩
    · unfold fftCall
      simp only [hp]
      have hc : fftFunctions.contains name = true := List.contains_iff_mem.2 hname
      rw [if_pos hc]
      refine (bindCall_ok_iff _ _ _ _).2 ⟨h1, fun k hk => ?_, rfl⟩
      rw [mem_keys_iff, lookup_kwUpdate hkw] at hk
      cases hl : kw.lookup k with
      | some v => exact h2 k ((mem_keys_iff kw k).2 (by rw [hl]; rfl))
      | none =>
        rw [hl] at hk
        exact hdef k ((mem_keys_iff defaults k).2 hk)
    · rw [h3, lookup_append, lookup_append, lookup_kwUpdate hkw, Option.or_assoc]
  · rw [if_neg hall] at ho
    cases ho

/-- C140: without pyFFTW every function of the library is called as if it were called directly. -/
theorem fft_numpy (lib : FftLib) (estimate one : V) (o : FftObject V) (ho : fftInit lib (fftDefaults false estimate one) = .ok o) (name : String)
    (args : List V) (kw : Kw V) (hkw : (kw.map Prod.fst).Nodup) (params : List String) (hp : lib.lookup name = some params) :
    (fftCall o name args kw).1 = bindCall params args kw := by
  have hup : kwUpdate ([] : Kw V) kw = kw := by
    have key : ∀ (e d : Kw V), (e.map Prod.fst).Nodup → (∀ k ∈ e.map Prod.fst, k ∉ d.map Prod.fst) → kwUpdate d e = d ++ e := by
      intro e
      induction e with
      | nil => intro d _ _; exact (List.append_nil d).symm
      | cons p e ih =>
        intro d he hd
        rw [List.map_cons, List.nodup_cons] at he
        have hp : p.1 ∉ d.map Prod.fst := hd p.1 (by simp)
        have h1 : kwSet d p.1 p.2 = d ++ [p] := by
          unfold kwSet
          rw [if_neg]
          intro h
          obtain ⟨x, hx, hx'⟩ := List.any_eq_true.1 h
          exact hp (by rw [← beq_iff_eq.1 hx']; exact List.mem_map_of_mem hx)
        show kwUpdate (kwSet d p.1 p.2) e = _
        rw [h1, ih _ he.2 (fun k hk => ?_), List.append_assoc]
        · rfl
        · rw [List.map_append, List.mem_append]
          rintro (h | h)
          · exact hd k (List.mem_cons_of_mem _ hk) h
          · simp only [List.map_cons, List.map_nil, List.mem_singleton] at h
            exact he.1 (h ▸ hk)
    exact key kw [] hkw (by simp)
  unfold fftInit at ho
  by_cases hall : fftFunctions.all (fun f => (lib.lookup f).isSome) = true
  · rw [if_pos hall] at ho
    cases ho
    unfold fftCall
    simp only [hp, fftDefaults, Bool.false_eq_true, if_false, hup, ite_self]
  · rw [if_neg hall] at ho
    cases ho

/-- C140: functions of the library which are not in the list, such as `fftfreq`, are called as if they were called directly; a name unknown to the
library is an AttributeError. -/
theorem fft_other (lib : FftLib) (defaults : Kw V) (o : FftObject V) (ho : fftInit lib defaults = .ok o) (name : String)
    (hname : name ∉ ["fft", "ifft", "fft2", "ifft2", "fftn", "ifftn", "rfft", "irfft", "rfft2", "irfft2", "irfftn", "hfft", "ihfft"])
    (args : List V) (kw : Kw V) :
    (∀ params, lib.lookup name = some params → (fftCall o name args kw).1 = bindCall params args kw) ∧
    (lib.lookup name = none → (fftCall o name args kw).1 = .error .attributeError) := by
  unfold fftInit at ho
  by_cases hall : fftFunctions.all (fun f => (lib.lookup f).isSome) = true
  · rw [if_pos hall] at ho
    cases ho
    have hc : ¬ fftFunctions.contains name = true := fun h => hname (List.contains_iff_mem.1 h)
    constructor
    · intro params hp
      unfold fftCall
      simp only [hp]
      rw [if_neg hc]
    · intro hp
      unfold fftCall
      simp only [hp]
  · rw [if_neg hall] at ho
    cases ho

/-! ### Examples and violations -/

/-- Functions of pyFFTW: the transforms have these parameters, among others. -/
def pyfftwLib : FftLib :=
  (fftFunctions ++ ["rfftn"]).map (fun f => (f, ["a", "n", "axis", "overwrite_input", "planner_effort", "threads"])) ++ [("fftfreq", ["n", "d"])]

/-- The wrapper of it; arguments are texts here. -/
def pyfftwObject : FftObject String := ⟨pyfftwLib, fftDefaults true "FFTW_ESTIMATE" "1", fftFunctions⟩

example : fftInit pyfftwLib (fftDefaults true "FFTW_ESTIMATE" "1") = .ok pyfftwObject := rfl

example := fft_defaults_partial pyfftwLib (fftDefaults true "FFTW_ESTIMATE" "1") pyfftwObject rfl "fft" (by decide) ["data"]
  [("axis", "1"), ("threads", "4")] (by decide) _ rfl _ rfl (by decide)

example : (fftCalls pyfftwObject [("fft", ["data"], [("axis", "1"), ("threads", "4")]), ("ifftn", ["data"], []), ("fftfreq", ["8"], [])]).1 =
    [.ok [("a", "data"), ("planner_effort", "FFTW_ESTIMATE"), ("threads", "4"), ("axis", "1")],
      .ok [("a", "data"), ("planner_effort", "FFTW_ESTIMATE"), ("threads", "1")], .ok [("n", "8")]] := by decide

example := fft_other pyfftwLib (fftDefaults true "FFTW_ESTIMATE" "1") pyfftwObject rfl "fftfreq" (by decide) ["8"] [("d", "2")]

example := fft_numpy (V := String) ((fftFunctions ++ ["rfftn"]).map fun f => (f, ["a", "n", "axis"])) "FFTW_ESTIMATE" "1" _ rfl "rfftn" ["data"]
  [("axis", "0")] (by decide) _ rfl

/-- C140 violated: `rfftn` is the only transform which gets no default arguments. -/
theorem fft_rfftn_violated :
    (fftCall pyfftwObject "rfftn" ["data"] []).1 = .ok [("a", "data")] ∧
    (fftCall pyfftwObject "irfftn" ["data"] []).1 = .ok [("a", "data"), ("planner_effort", "FFTW_ESTIMATE"), ("threads", "1")] := by decide

/-- C140 violated: a call which the library accepts is refused if it gives `planner_effort` by position. -/
theorem fft_positional_violated :
    bindCall ["a", "n", "axis", "overwrite_input", "planner_effort", "threads"] ["data", "8", "0", "False", "FFTW_MEASURE"] [] =
      .ok [("a", "data"), ("n", "8"), ("axis", "0"), ("overwrite_input", "False"), ("planner_effort", "FFTW_MEASURE")] ∧
    (fftCall pyfftwObject "fft" ["data", "8", "0", "False", "FFTW_MEASURE"] []).1 = .error .typeError := by decide

/-- If the library lacks one of the transforms, the import of postpic fails. -/
example : (match fftInit (V := String) [("fft", ["a"])] [] with | .error e => some e | .ok _ => none) = some .attributeError := by decide

end Postpic.Props
