import Verif.Lemmas.ShippedChains

/- The prefixes in the shipped network; conversions written one by one. -/
namespace Unyts
open Spec
set_option maxRecDepth 1000000

theorem dict_plain : (rawDictionary.all fun e =>
    (declsOf (kindInstrs shippedPrefixes e.1 e.2)).all fun d => d.2.2.plain) = true := by decide +kernel

/-- what a declaration of the dictionary says, the network does -/
theorem Spec.ShippedNetwork.does {n : Net} (h : ShippedNetwork n) {a b : Str} {c : Cv}
    (hc : (a, b, c) ∈ dictDecls shippedPrefixes rawDictionary) (hX : (a, b) ∉ shippedFaults) :
    (∃ f, DirectName n a b f) ∧ ∀ f, DirectName n a b f → ∀ fvf x, f fvf x = c.eval fvf x := by
  have hs : (a, b, c) ∈ shipped := List.mem_append.2 (Or.inl hc)
  refine ⟨h.linked.2 (Or.inl ⟨c, hs⟩), ?_⟩
  intro f hf fvf x
  obtain ⟨c', hc', rfl⟩ := h.shows.1 hf
  have h1 : (a, b, c') ∈ dictDecls shippedPrefixes rawDictionary := by
    unfold shippedCv withReverse at hc'
    have h2 : (first (dictDecls shippedPrefixes rawDictionary) a b).isSome := first_isSome.2 ⟨c, hc⟩
    obtain ⟨c2, h3⟩ := Option.isSome_iff_exists.1 h2
    have h4 : first shipped a b = some c2 := by
      show first (dictDecls shippedPrefixes rawDictionary ++ _) a b = _
      rw [first_append, h3, Option.some_or]
    rw [h4, Option.some_or] at hc'
    cases hc'
    exact first_some h3
  have simple : ∀ c, (a, b, c) ∈ dictDecls shippedPrefixes rawDictionary → c.linear = true ∧ c.plain = true := by
    intro c hc
    obtain ⟨e, he, hc⟩ := List.mem_flatMap.1 hc
    have h1 := List.all_eq_true.1 (List.all_eq_true.1 dict_checked e he) _ hc
    have h2 := List.all_eq_true.1 (List.all_eq_true.1 dict_plain e he) _ hc
    rw [Bool.and_eq_true] at h1
    exact ⟨h1.1, h2⟩
  obtain ⟨M, _, hM⟩ := Cv.linear_plain (simple c hc).1 (simple c hc).2
  obtain ⟨M', _, hM'⟩ := Cv.linear_plain (simple c' h1).1 (simple c' h1).2
  have resp : ∀ c, (a, b, c) ∈ dictDecls shippedPrefixes rawDictionary → Respects a b c := by
    intro c hc
    rcases (decl_respects (List.mem_append.2 (Or.inl hc))).1 with h | h
    · exact h
    · exact absurd (fault_pair h).1 hX
  have e1 := (resp c hc).reading (fvf := some 1) (by simp) (hM (some 1) x)
  have e2 := (resp c' h1).reading (fvf := some 1) (by simp) (hM' (some 1) x)
  rw [hM, hM', shippedReading_inj (fvfOr1_ne (by simp)) b (e2.trans e1.symm)]

def CExp.times (k : Rat) : CExp := .mul .x (.lit k)

def kindDeclares (k : Str) (d : Str × Str × Cv) : Bool :=
  match Py.dictGet rawDictionary k with
  | some v => (declsOf (kindInstrs shippedPrefixes k v)).contains d
  | none => false

theorem kindDeclares_mem {k : Str} {d : Str × Str × Cv} (h : kindDeclares k d = true) :
    d ∈ dictDecls shippedPrefixes rawDictionary := by
  unfold kindDeclares at h
  split at h
  · next v hv => exact List.mem_flatMap.2 ⟨(k, v), dictGet_mem hv, List.contains_iff_mem.1 h⟩
  · cases h

/-- the prefixed name `p` of `u` is declared as `k` times `u` -/
def declaresPrefix (kind p u : Str) (k : Rat) : Bool :=
  kindDeclares kind (p ++ u, u, .fn (.times k)) && kindDeclares kind (u, p ++ u, .rev (.fn (.times k))) &&
  !(shippedFaults.contains (p ++ u, u)) && !(shippedFaults.contains (u, p ++ u)) && k != 0

theorem Spec.ShippedNetwork.prefixed {n : Net} (h : ShippedNetwork n) {kind p u : Str} {k : Rat}
    (hp : declaresPrefix kind p u k = true) :
    ((∃ f, DirectName n (p ++ u) u f) ∧ ∀ f, DirectName n (p ++ u) u f → MultipliesBy k f) ∧
    ((∃ f, DirectName n u (p ++ u) f) ∧ ∀ f, DirectName n u (p ++ u) f → MultipliesBy (1 / k) f) := by
  unfold declaresPrefix at hp
  simp only [Bool.and_eq_true, Bool.not_eq_true', ← Bool.not_eq_true, List.contains_iff_mem, bne_iff_ne, ne_eq] at hp
  obtain ⟨⟨⟨⟨h1, h2⟩, h3⟩, h4⟩, h5⟩ := hp
  obtain ⟨e1, d1⟩ := h.does (kindDeclares_mem h1) h3
  obtain ⟨e2, d2⟩ := h.does (kindDeclares_mem h2) h4
  refine ⟨⟨e1, fun f hf fvf x => ?_⟩, e2, fun f hf fvf x => ?_⟩
  · rw [d1 f hf]; rfl
  · rw [d2 f hf]
    simp only [Cv.eval, CExp.times, CExp.eval, revFn, bind, Except.bind, pdiv, one_mul, h5, if_false]
    congr 1
    rw [div_eq_mul_one_div]

/-- the check of a list of units, in pieces for the memory it takes -/
def metricOk (l : List (Str × Str × Int)) : Bool :=
  l.all fun u => metricPrefixes.all fun p => declaresPrefix u.2.1 p.1 u.1 ((10 : Rat) ^ (p.2 * u.2.2))

theorem metric_declared1 : metricOk (metricUnits.take 6) = true := by decide +kernel
theorem metric_declared2 : metricOk ((metricUnits.drop 6).take 4) = true := by decide +kernel
theorem metric_declared3 : metricOk ((metricUnits.drop 10).take 4) = true := by decide +kernel
theorem metric_declared4 : metricOk ((metricUnits.drop 14).take 4) = true := by decide +kernel
theorem metric_declared5 : metricOk (metricUnits.drop 18) = true := by decide +kernel

theorem metric_declared : metricOk metricUnits = true := by
  have e : metricUnits = metricUnits.take 6 ++ ((metricUnits.drop 6).take 4 ++ ((metricUnits.drop 10).take 4 ++
    ((metricUnits.drop 14).take 4 ++ metricUnits.drop 18))) := rfl
  rw [e]
  simp only [metricOk, List.all_append, Bool.and_eq_true]
  exact ⟨metric_declared1, metric_declared2, metric_declared3, metric_declared4, metric_declared5⟩

theorem data_declared : (dataUnits.all fun u => dataPrefixes.all fun p =>
    declaresPrefix u.2.1 p.1 u.1 ((u.2.2 : Rat) ^ p.2)) = true := by decide +kernel

theorem field_declared : (fieldUnits.all fun u => fieldPrefixes.all fun p =>
    declaresPrefix s!!"Volume_OGF" p.1 u ((1000 : Rat) ^ p.2)) = true := by decide +kernel

theorem K_declared : (metricUnits.all fun u => declaresPrefix u.2.1 ['K'] u.1 1000) = true := by decide +kernel

theorem metric_ok {u kind p : Str} {k e : Int} (hu : (u, kind, k) ∈ metricUnits) (hp : (p, e) ∈ metricPrefixes) :
    declaresPrefix kind p u ((10 : Rat) ^ (e * k)) = true := by
  have h1 := List.all_eq_true.1 metric_declared _ hu
  have h2 := List.all_eq_true.1 h1 _ hp
  exact h2

theorem data_ok {u kind p : Str} {k e : Nat} (hu : (u, kind, k) ∈ dataUnits) (hp : (p, e) ∈ dataPrefixes) :
    declaresPrefix kind p u ((k : Rat) ^ e) = true := by
  have h1 := List.all_eq_true.1 data_declared _ hu
  have h2 := List.all_eq_true.1 h1 _ hp
  exact h2

theorem field_ok {u p : Str} {e : Nat} (hu : u ∈ fieldUnits) (hp : (p, e) ∈ fieldPrefixes) :
    declaresPrefix s!!"Volume_OGF" p u ((1000 : Rat) ^ e) = true := by
  have h1 := List.all_eq_true.1 field_declared _ hu
  have h2 := List.all_eq_true.1 h1 _ hp
  exact h2

/-! ## Conversions only written one by one -/

def explOnly : List (Str × Str) :=
  [(s!!"psi gauge", s!!"absolute psi"), (s!!"absolute psi", s!!"psi"),
   (s!!"gallonUK", s!!"quartUK"), (s!!"quartUK", s!!"pintUK"), (s!!"pintUK", s!!"gillUK"),
   (s!!"gillUK", s!!"fluid ounce UK"), (s!!"gallonUK", s!!"fluid ounce UK"), (s!!"day", s!!"hour"),
   (s!!"light year", s!!"meter"), (s!!"Celsius", s!!"Kelvin"), (s!!"Kelvin", s!!"Celsius"), (s!!"foot", s!!"inch"),
   (s!!"API", s!!"SgO"), (s!!"gallonUS", s!!"fluid ounce"), (s!!"reservoir cubic meter", s!!"standard cubic meter")]

def explOnlyFirst : List Str :=
  [s!!"psi gauge", s!!"absolute psi", s!!"gallonUK", s!!"quartUK", s!!"pintUK", s!!"gillUK", s!!"day", s!!"light year",
   s!!"Celsius", s!!"Kelvin", s!!"foot", s!!"API", s!!"gallonUS", s!!"reservoir cubic meter"]

theorem explOnly_first : (rawDictionary.all fun e => (declsOf (kindInstrs shippedPrefixes e.1 e.2)).all fun d =>
    !(explOnlyFirst.contains d.1) || !(explOnly.contains (d.1, d.2.1))) = true := by decide +kernel

theorem explOnly_ok : (rawDictionary.all fun e => (declsOf (kindInstrs shippedPrefixes e.1 e.2)).all fun d =>
    !(explOnly.contains (d.1, d.2.1))) = true := by
  refine List.all_eq_true.2 fun e he => List.all_eq_true.2 fun d hd => ?_
  have := List.all_eq_true.1 (List.all_eq_true.1 explOnly_first e he) d hd
  rw [Bool.or_eq_true] at this
  rcases this with h | h
  · rw [Bool.not_eq_true', ← Bool.not_eq_true, List.contains_iff_mem] at h ⊢
    intro hm
    have key : ∀ p ∈ explOnly, p.1 ∈ explOnlyFirst := by decide
    exact h (key _ hm)
  · exact h

theorem Spec.ShippedNetwork.written {n : Net} (h : ShippedNetwork n) {a b : Str} {c : Cv} (ho : (a, b) ∈ explOnly)
    (hf : first (explDecls explicitConversions) a b = some c) : DirectName n a b c.eval := by
  refine h.shows.2 ⟨c, ?_, rfl⟩
  have h1 : first (dictDecls shippedPrefixes rawDictionary) a b = none := by
    cases hh : first (dictDecls shippedPrefixes rawDictionary) a b with
    | none => rfl
    | some c' =>
      obtain ⟨e, he, hm⟩ := List.mem_flatMap.1 (first_some hh)
      have := List.all_eq_true.1 (List.all_eq_true.1 explOnly_ok e he) _ hm
      rw [Bool.not_eq_true', ← Bool.not_eq_true, List.contains_iff_mem] at this
      exact absurd ho this
  unfold shippedCv withReverse
  have h4 : first shipped a b = some c := by
    show first (dictDecls shippedPrefixes rawDictionary ++ _) a b = _
    rw [first_append, h1, Option.none_or, hf]
  rw [h4, Option.some_or]

theorem Spec.ShippedNetwork.gauge {n : Net} (h : ShippedNetwork n) :
    ∃ f, DirectName n s!!"psi gauge" s!!"psi" f ∧ ∀ fvf x, f fvf x = .ok x := by
  have hs : (s!!"psi gauge", s!!"psi", Cv.fn .x) ∈ shipped := mem_expl (by decide +kernel)
  obtain ⟨f, hf⟩ := h.linked.2 (Or.inl ⟨_, hs⟩)
  refine ⟨f, hf, fun fvf x => ?_⟩
  obtain ⟨c, hc, rfl⟩ := h.shows.1 hf
  have hm : ∀ c, (s!!"psi gauge", s!!"psi", c) ∈ faultDecls → c = .same := by
    intro c hc
    have : ∀ d ∈ faultDecls, d.1 = s!!"psi gauge" → d.2.1 = s!!"psi" → d.2.2 = .same := by decide +kernel
    exact this _ hc rfl rfl
  have hm' : ∀ c, (s!!"psi", s!!"psi gauge", c) ∈ faultDecls → c = .same := by
    intro c hc
    have : ∀ d ∈ faultDecls, d.1 = s!!"psi" → d.2.1 = s!!"psi gauge" → d.2.2 = .same := by decide +kernel
    exact this _ hc rfl rfl
  rcases shown_fault hc (by decide +kernel) with h1 | ⟨c', rfl, h1⟩
  · rw [hm c h1]; rfl
  · rw [hm' c' h1]
    simp only [Cv.eval, Cv.same, CExp.eval, revFn, bind, Except.bind, pdiv, one_ne_zero, if_false, div_one]

end Unyts
