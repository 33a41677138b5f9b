import Verif.Spec.Ratios
import Verif.Props.Compound
import Verif.Props.ShippedPressure
import Verif.Props.ShippedWeight
import Verif.Lemmas.ConvRepeat
import Verif.Lemmas.SearchApart
import Verif.Lemmas.Sizes

/- C96: ratios and products of built-in units convert factor by factor. -/
namespace Unyts
open Spec
set_option maxRecDepth 1000000

/-- the built-in names with signs that matter here -/
theorem signed_check : ([s!!"Dimensionless", s!!"Percentage", s!!"Date", s!!"Weight", s!!"Temperature"].all fun q =>
    (basicNames q).all fun u => u == s!!"/100" || (!u.contains '/' && !u.contains '*')) = true := by decide +kernel

theorem signed_listed {n : Net} {d : UnitDict} (h : ShippedLibrary n d) {k u : Str}
    (hk : k ∈ [s!!"Dimensionless", s!!"Percentage", s!!"Date", s!!"Weight", s!!"Temperature"]) (hl : Lists d k u) :
    u = s!!"/100" ∨ Spec.SimpleName u := by
  have base : ∀ {v : Str}, Known ListedUnit k v → v = s!!"/100" ∨ Spec.SimpleName v := by
    rintro v (hb | hc)
    · obtain ⟨k', hk', e⟩ := hb.1
      have hq : kindBase k' = k := by
        unfold quantityOf at e
        split at e
        · subst e; exact absurd hk (by decide)
        · exact e
      have := List.all_eq_true.1 (List.all_eq_true.1 signed_check k hk) v (mem_basicNames.2 ⟨k', hk', hq⟩)
      simp only [Bool.or_eq_true, beq_iff_eq, Bool.and_eq_true, Bool.not_eq_true', ← Bool.not_eq_true, List.contains_iff_mem] at this
      rcases this with h | h
      · exact Or.inl h
      · exact Or.inr h
    · exfalso
      cases hc <;> revert hk <;> decide
  rcases (h.lists k u).1 hl with hl | ⟨v, hv, x, y, rfl, rfl, hxy⟩
  · exact base hl
  · exfalso
    rcases base hv with e | e
    · have : '*' ∈ s!!"/100" := by rw [← e]; simp [starred]
      revert this; decide
    · exact e.2 (by simp [starred])

theorem lower_cons {c : Char} {s t : Str} (h : Py.lower s = c :: t) : ∃ c' s', s = c' :: s' ∧ Py.lowerC c' = c := by
  cases s with
  | nil => cases h
  | cons x xs => exact ⟨x, xs, rfl, by unfold Py.lower at h; simpa using (List.cons.inj h).1⟩

/-- a unit of several names is no date, no dimensionless name and no percentage -/
theorem Spec.ShippedWorld.ordinary_signed {w : World} (h : ShippedWorld w) {u : Str} (hs : ¬ Spec.SimpleName u)
    (hf : ∀ f ∈ factors u, f.2 ≠ []) : Ordinary w.dic u := by
  obtain ⟨d, hd, hw⟩ := h
  rw [hw]
  have notSlash : ∀ s, u ≠ '/' :: s := by
    rintro s rfl
    exact hf (false, []) (by simp [factors, readFactors]) rfl
  have low : ∀ v, Py.lower u = v → v = s!!"/100" ∨ Spec.SimpleName v → False := by
    rintro v rfl (e | e)
    · obtain ⟨c, s, rfl, hc⟩ := lower_cons e
      rw [lowerC_eq_slash] at hc
      exact notSlash s (by rw [hc])
    · refine hs ⟨fun h => e.1 (slash_mem_lower.2 h), fun h => e.2 ?_⟩
      unfold Py.lower
      exact List.mem_map.2 ⟨'*', h, by decide⟩
  constructor
  · intro hm
    rcases signed_listed hd (by simp) (kindStart_mem.1 hm) with e | e
    · exact notSlash _ e
    · exact hs e
  · intro hm
    exact low _ rfl (signed_listed hd (by simp) (kindStart_mem.1 hm))
  · intro hm
    exact low _ rfl (signed_listed hd (by simp) (kindStart_mem.1 hm))

theorem Spec.ShippedWorld.noDensity_signed {w : World} (h : ShippedWorld w) {a b : Str} (ha : ¬ Spec.SimpleName a)
    (hb : ¬ Spec.SimpleName b) (fa : ∀ f ∈ factors a, f.2 ≠ []) (fb : ∀ f ∈ factors b, f.2 ≠ []) : ¬ DensityPair w.dic a b := by
  obtain ⟨d, hd, hw⟩ := h
  rw [hw]
  have no : ∀ u, ¬ Spec.SimpleName u → (∀ f ∈ factors u, f.2 ≠ []) → u ∉ kindStart d s!!"Weight" := by
    intro u hu hf hm
    rcases signed_listed hd (by simp) (kindStart_mem.1 hm) with e | e
    · subst e
      exact hf (false, []) (by simp [factors, readFactors]) rfl
    · exact hu e
  rintro ⟨_, _, ⟨_, hm⟩ | ⟨_, hm⟩⟩
  · exact no b hb fb hm
  · exact no a ha fa hm

theorem together_length {R : Str → Str → Rat → Prop} {fs ts : List Factor} {r : Rat} (h : Together R fs ts r) :
    fs.length = ts.length := by
  induction h with
  | nil => rfl
  | num _ _ ih => simp [ih]
  | den _ _ _ ih => simp [ih]

theorem together_mem {R : Str → Str → Rat → Prop} {fs ts : List Factor} {r : Rat} (h : Together R fs ts r) :
    (∀ f ∈ fs, ∃ t k, R f.2 t k) ∧ ∀ t ∈ ts, ∃ f k, R f t.2 k := by
  induction h with
  | nil => simp
  | num h _ ih =>
    constructor <;> intro f hf <;> rcases List.mem_cons.1 hf with rfl | hf
    · exact ⟨_, _, h⟩
    · exact ih.1 f hf
    · exact ⟨_, _, h⟩
    · exact ih.2 f hf
  | den h _ _ ih =>
    constructor <;> intro f hf <;> rcases List.mem_cons.1 hf with rfl | hf
    · exact ⟨_, _, h⟩
    · exact ih.1 f hf
    · exact ⟨_, _, h⟩
    · exact ih.2 f hf

theorem together_mono {R S : Str → Str → Rat → Prop} (hRS : ∀ f t k, R f t k → S f t k) {fs ts : List Factor} {r : Rat}
    (h : Together R fs ts r) : Together S fs ts r := by
  induction h with
  | nil => exact .nil
  | num h _ ih => exact .num (hRS _ _ _ h) ih
  | den h hk _ ih => exact .den (hRS _ _ _ h) hk ih

/-- the factors convert one after the other -/
theorem parts_together {w : World} (hg : WF w.net) {fs ts : List Factor} {r : Rat} (h : Together (OneIs w) fs ts r)
    (uc : Option Bool) {cs : List Call} (hcs : ∀ c ∈ cs, Asks c) :
    ∃ ks w2, PartsConvert uc (session cs w) fs ts ks w2 ∧ ks.prod = r := by
  induction h generalizing cs with
  | nil => exact ⟨[], _, .nil _, rfl⟩
  | @num f t fs ts k r h _ ih =>
    obtain ⟨⟨hf, _⟩, ⟨ht, _⟩, hd, hc⟩ := h
    have hcs' : ∀ c ∈ cs ++ [Call.convert (some 1) (some f) (some t) uc], Asks c := by
      intro c hm
      rcases List.mem_append.1 hm with hm | hm
      · exact hcs c hm
      · rw [List.mem_singleton.1 hm]; trivial
    obtain ⟨ks, w2, h1, h2⟩ := ih hcs'
    rw [session_append] at h1
    refine ⟨k :: ks, w2, .cons (den := false) hf ht (by rw [(base_session hcs hg).dic]; exact hd) (Prod.ext (hc cs hcs uc) rfl)
      (by simp) h1, by simp [h2]⟩
  | @den f t fs ts k r h hk _ ih =>
    obtain ⟨⟨hf, _⟩, ⟨ht, _⟩, hd, hc⟩ := h
    have hcs' : ∀ c ∈ cs ++ [Call.convert (some 1) (some f) (some t) uc], Asks c := by
      intro c hm
      rcases List.mem_append.1 hm with hm | hm
      · exact hcs c hm
      · rw [List.mem_singleton.1 hm]; trivial
    obtain ⟨ks, w2, h1, h2⟩ := ih hcs'
    rw [session_append] at h1
    refine ⟨1 / k :: ks, w2, .cons (den := true) hf ht (by rw [(base_session hcs hg).dic]; exact hd) (Prod.ext (hc cs hcs uc) rfl)
      (fun _ => hk) h1, ?_⟩
    rw [List.prod_cons, h2]
    ring

/-- every node of the network is a unit the loader added -/
theorem Spec.ShippedNetwork.node_unit {n : Net} (h : ShippedNetwork n) {x : UNode} (hx : x ∈ n.nodes) :
    ∃ k, UnitOfKind k x.name := by
  obtain ⟨g, d, hg, rfl⟩ := id h
  obtain ⟨b, f, hf⟩ := mem_nodes_clean.1 hx
  exact isName_unit (h.linked_names ⟨f, x, b, rfl, rfl, direct_clean.2 hf⟩).1

theorem simple_length {u : Str} : Spec.SimpleName u ↔ (factors u).length = 1 := by
  have := readFactors_length false [] u
  unfold factors
  rw [this]
  constructor
  · intro h
    rw [List.count_eq_zero_of_not_mem h.1, List.count_eq_zero_of_not_mem h.2]
  · intro h
    exact ⟨List.count_eq_zero.1 (by omega), List.count_eq_zero.1 (by omega)⟩

/-- no conversion of the whole is found -/
theorem unfound_ready {w : World} (hw : Started w) {cs : List Call} (hcs : ∀ c ∈ cs, Asks c) {a b : Str}
    (sa : ¬ Spec.SimpleName a) (sb : ¬ Spec.SimpleName b) (fa : ∀ f ∈ factors a, f.2 ≠ []) (fb : ∀ f ∈ factors b, f.2 ≠ [])
    (hT : ∀ f ∈ factors a, ¬ BuiltIn s!!"Temperature" f.2) (hsw : ¬ Swapped a b) (hnr : ¬ Reach (LinkedName w.net) a b)
    (uc : Option Bool) (hm : uc.getD w.par.cache = false ∨ ∀ c ∈ cs, AsksNames w c) : Unfound (session cs w) uc a b := by
  have hbase := base_session hcs hw.fresh.wf
  have hn := hw.shipped.network
  refine ⟨?_, by rw [hbase.dic]; exact hw.shipped.ordinary_signed sa fa, by rw [hbase.dic]; exact hw.shipped.ordinary_signed sb fb,
    hsw, ?_, by rw [hbase.dic]; exact hw.shipped.noDensity_signed sa sb fa fb, ?_, ?_⟩
  · rintro rfl; exact hnr ⟨_, .single _⟩
  · rw [hbase.dic]
    rintro ⟨t1, d1, _, _, n1, n2, _, _, rfl, _, hm, _⟩
    obtain ⟨d, hd, e⟩ := hw.shipped
    rw [e] at hm
    have hl : Lists d s!!"Temperature" t1 := kindStart_mem.1 hm
    rcases signed_listed hd (by simp) hl with e | e
    · subst e; exact n1 (by decide)
    · refine hT (false, t1) ?_ ((hd.unsigned e).1 hl).1
      rw [factors_slash, factors_simple e]
      simp
  · refine search_apart (by rw [hbase.net]; exact hw.fresh.wf) (by rw [hbase.par]; exact hw.algorithm) ?_
    rw [hbase.net]
    rintro na nb ga gb ⟨p, hp⟩
    have := chain_linkedNames hp
    rw [(getNode_mem ga).2, (getNode_mem gb).2] at this
    exact hnr ⟨_, this⟩
  · rw [hbase.par]
    rcases hm with hm | hm
    · exact Or.inl hm
    · right
      exact (alike_session hw.fresh.wf hw.fresh.ample hm).abs _ _ (by rw [hw.fresh.memory]; rfl) (Or.inl fun h => sa h.1)

/-- the search between the two wholes, as a call -/
theorem asks_search {cs : List Call} (hcs : ∀ c ∈ cs, Asks c) (a b : Str) : ∀ c ∈ cs ++ [Call.search a b], Asks c := by
  intro c hc
  rcases List.mem_append.1 hc with hc | hc
  · exact hcs c hc
  · rw [List.mem_singleton.1 hc]; trivial

theorem session_search (cs : List Call) (a b : Str) (w : World) :
    session (cs ++ [Call.search a b]) w = (searchNetwork a b (session cs w)).2 := session_append _ _ _

/-- what the converter needs to convert a unit by its factors -/
theorem parts_ready {w : World} (hw : Started w) {cs : List Call} (hcs : ∀ c ∈ cs, Asks c) {a b : Str}
    (sa : ¬ Spec.SimpleName a) {r : Rat} (ht : Together (OneIs w) (factors a) (factors b) r)
    (hT : ∀ f ∈ factors a, ¬ BuiltIn s!!"Temperature" f.2) (hsw : ¬ Swapped a b)
    (hnr : ¬ Reach (LinkedName w.net) a b) (uc : Option Bool)
    (hm : uc.getD w.par.cache = false ∨ ∀ c ∈ cs, AsksNames w c) :
    Unfound (session cs w) uc a b ∧ (∀ f ∈ factors a, f.2 ≠ []) ∧ (∀ f ∈ factors b, f.2 ≠ []) ∧
      ∃ ks w2, PartsConvert uc (searchNetwork a b (session cs w)).2 (factors a) (factors b) ks w2 ∧ ks.prod = r := by
  have fa : ∀ f ∈ factors a, f.2 ≠ [] := by
    intro f hf
    obtain ⟨t, k, h⟩ := (together_mem ht).1 f hf
    exact h.1.2
  have fb : ∀ f ∈ factors b, f.2 ≠ [] := by
    intro f hf
    obtain ⟨t, k, h⟩ := (together_mem ht).2 f hf
    exact h.2.1.2
  have sb : ¬ Spec.SimpleName b := by rw [simple_length, ← together_length ht, ← simple_length]; exact sa
  refine ⟨unfound_ready hw hcs sa sb fa fb hT hsw hnr uc hm, fa, fb, ?_⟩
  rw [← session_search]
  exact parts_together hw.fresh.wf ht uc (asks_search hcs a b)

/-- a conversion by parts -/
theorem convert_unfound_all {w w2 : World} (hs : SoundAmple w) {a b : Str} (ca : CleanUnit a) (cb : CleanUnit b) {uc : Option Bool}
    (hu : Unfound w uc a b) (fa : ∀ f ∈ factors a, f.2 ≠ []) (fb : ∀ f ∈ factors b, f.2 ≠ []) {ks : List Rat}
    (hp : PartsConvert uc (searchNetwork a b w).2 (factors a) (factors b) ks w2) (x : Rat) :
    (convert (some x) (some a) (some b) uc w).1 = .ok (some (.num (x * ks.prod))) := by
  have ff : ∀ {l : List Factor}, (∀ f ∈ l, f.2 ≠ []) → l.filter (fun f => decide (f.2 ≠ [])) = l := by
    intro l h
    exact List.filter_eq_self.2 fun f hf => by simpa using h f hf
  obtain ⟨w3, p, _, _, h⟩ := convert_unfound hs ca cb hu (by rw [ff fa, ff fb]; exact hp) (by
    have hne : factors a ≠ [] := readFactors_ne a false []
    generalize factors a = fa, factors b = fb at hp hne
    cases hp with
    | nil => exact absurd rfl hne
    | cons => simp)
  rw [h x]

/-- C96. After `import unyts`: when each factor of `a` converts to the corresponding factor of `b`, the unit `a` converts to
the unit `b` by the numbers so obtained, whatever was asked before (with the cache in use: conversions between names). -/
theorem C96_parts {w : World} (hw : Started w) {cs : List Call} (hcs : ∀ c ∈ cs, Asks c) {a b : Str} (ca : CleanUnit a)
    (cb : CleanUnit b) (sa : ¬ Spec.SimpleName a) {r : Rat} (ht : Together (OneIs w) (factors a) (factors b) r)
    (hT : ∀ f ∈ factors a, ¬ BuiltIn s!!"Temperature" f.2) (hsw : ¬ Swapped a b)
    (hnr : ¬ Reach (LinkedName w.net) a b) (uc : Option Bool)
    (hm : uc.getD w.par.cache = false ∨ ∀ c ∈ cs, AsksNames w c) (x : Rat) :
    (convert (some x) (some a) (some b) uc (session cs w)).1 = .ok (some (.num (x * r))) := by
  obtain ⟨hu, fa, fb, ks, w2, h1, rfl⟩ := parts_ready hw hcs sa ht hT hsw hnr uc hm
  exact convert_unfound_all (sound_of_reachable (hw.reachable hcs)) ca cb hu fa fb h1 x

theorem sized_labels : ((standardSizes.flatten ++ pressureSizes).all fun e => e.2 ≠ 0 && match labelOf e.1 with
    | some l => l != 1 && l != 3 | none => false) = true ∧ (weightSizes.all fun e => e.2 ≠ 0 && labelOf e.1 == some 3) = true := by
  constructor <;> decide +kernel

theorem standard_clean : ∀ l ∈ standardSizes, ∀ e ∈ l, '(' ∉ e.1 ∧ ')' ∉ e.1 ∧
    (∀ c ∈ e.1.head?.toList ++ e.1.getLast?.toList, c ∉ [' ', '"', '\'']) ∧ e.1 ≠ s!!"Empty" ∧ '/' ∉ e.1 ∧ '*' ∉ e.1 := by
  decide +kernel

theorem sized_clean {l : List (Str × Rat)} (hl : SizeList l) : ∀ e ∈ l, CleanName e.1 := by
  intro e he
  rcases hl with hl | rfl | rfl
  · exact Demo.cleanName_of (standard_clean l hl e he)
  · exact Demo.cleanName_of (pressure_clean e he)
  · exact Demo.cleanName_of (weight_clean e he)

theorem sized_label {l : List (Str × Rat)} (hl : SizeList l) : ∀ e ∈ l, e.2 ≠ 0 ∧ labelOf e.1 ≠ some 1 ∧
    (l = weightSizes ∨ labelOf e.1 ≠ some 3) := by
  intro e he
  have key : ∀ e ∈ standardSizes.flatten ++ pressureSizes, e.2 ≠ 0 ∧ labelOf e.1 ≠ some 1 ∧ labelOf e.1 ≠ some 3 := by
    intro e he
    have := List.all_eq_true.1 sized_labels.1 e he
    simp only [Bool.and_eq_true, decide_eq_true_eq] at this
    refine ⟨this.1, ?_⟩
    cases h : labelOf e.1 with
    | none => simp
    | some n =>
      have h2 := this.2
      rw [h] at h2
      simpa using h2
  rcases hl with hl | rfl | rfl
  · obtain ⟨h1, h2, h3⟩ := key e (List.mem_append.2 (Or.inl (List.mem_flatten.2 ⟨l, hl, he⟩)))
    exact ⟨h1, h2, Or.inr h3⟩
  · obtain ⟨h1, h2, h3⟩ := key e (List.mem_append.2 (Or.inr he))
    exact ⟨h1, h2, Or.inr h3⟩
  · have := List.all_eq_true.1 sized_labels.2 e he
    simp only [Bool.and_eq_true, decide_eq_true_eq, beq_iff_eq] at this
    exact ⟨this.1, by rw [this.2]; decide, Or.inl rfl⟩

theorem sized_ne {l : List (Str × Rat)} (hl : SizeList l) : ∀ e ∈ l, e.1 ≠ [] := by
  have key : ∀ e ∈ standardSizes.flatten ++ (pressureSizes ++ weightSizes), e.1 ≠ [] := by decide +kernel
  intro e he
  refine key e ?_
  rcases hl with hl | rfl | rfl
  · exact List.mem_append.2 (Or.inl (List.mem_flatten.2 ⟨l, hl, he⟩))
  · simp [he]
  · simp [he]

/-- the standard sizes are what `convert` uses -/
theorem standardRatio_oneIs {w : World} (hw : Started w) (hg : 17 ≤ w.par.maxGenerations) (hφ : w.fvf ≠ some 0) {f t : Str}
    {k : Rat} (h : StandardRatio f t k) : OneIs w f t k := by
  obtain ⟨l, sf, st, hl, mf, mt, rfl⟩ := h
  have cf := sized_clean hl _ mf
  have ct := sized_clean hl _ mt
  have ne : ∀ {u s}, (u, s) ∈ l → u ≠ [] := by
    rintro u s hm rfl
    exact sized_ne hl _ hm rfl
  refine ⟨⟨cf, ne mf⟩, ⟨ct, ne mt⟩, ?_, ?_⟩
  · rcases (sized_label hl _ mf).2.2 with rfl | h
    · exact hw.shipped.weights_noDensity (weight_size.choose_spec.2 _ mf).2.1 (weight_size.choose_spec.2 _ mt).2.1 cf.2 ct.2
    · exact hw.shipped.noDensity cf.2 h
  · intro cs hcs uc
    have : sf / st = 1 * sf / st := by rw [one_mul]
    rw [this]
    rcases hl with hl | rfl | rfl
    · exact C76_exact hw hφ hcs hl mf mt uc 1
    · exact C95_exact hw hφ hcs mf mt uc 1
    · exact C93_exact hw hg hφ hcs mf mt uc 1

/-- C96. After `import unyts`, ratios and products of units with a standard size convert by these sizes: whatever was
asked before, converting `x` from `a` to `b`, where each factor of `a` is of the same quantity as the factor of `b` in its
place, returns `x` times the sizes of the numerators over those of the denominators, of `a` over `b`. -/
theorem C96_exact {w : World} (hw : Started w) (hg : 17 ≤ w.par.maxGenerations) (hφ : w.fvf ≠ some 0) {cs : List Call}
    (hcs : ∀ c ∈ cs, Asks c) {a b : Str} (ca : CleanUnit a) (cb : CleanUnit b) (sa : ¬ Spec.SimpleName a) {r : Rat}
    (ht : Together StandardRatio (factors a) (factors b) r) (hsw : ¬ Swapped a b)
    (hnr : ¬ Reach (LinkedName w.net) a b) (uc : Option Bool)
    (hm : uc.getD w.par.cache = false ∨ ∀ c ∈ cs, AsksNames w c) (x : Rat) :
    (convert (some x) (some a) (some b) uc (session cs w)).1 = .ok (some (.num (x * r))) := by
  refine C96_parts hw hcs ca cb sa (together_mono (fun _ _ _ h => standardRatio_oneIs hw hg hφ h) ht) ?_ hsw hnr uc hm x
  intro f hf hb
  obtain ⟨t, k, l, sf, st, hl, mf, _, _⟩ := (together_mem ht).1 f hf
  refine (sized_label hl _ mf).2.1 ?_
  obtain ⟨n, h1, q, h2, h3⟩ := builtIn_label hb
  have : ∀ e ∈ kindLabels, e.1 = s!!"Temperature" → e.2 = 1 := by decide +kernel
  rw [h1]
  refine congrArg some (this (q, n) h2 ?_)
  split at h3
  · exact absurd h3 (by decide)
  · exact h3.symm

/-- nothing the loader adds is called like this -/
theorem not_builtIn {u : Str} (h : labelOf u = none) : ¬ ∃ q, BuiltIn q u := by
  rintro ⟨q, hb⟩
  obtain ⟨n, h1, _⟩ := builtIn_label hb
  rw [h] at h1
  cases h1

/-- nothing leads from a name the loader did not add -/
theorem apart_of_unknown {n : Net} (hn : ShippedNetwork n) {a b : Str} (hab : a ≠ b) (h : labelOf a = none) :
    ¬ Reach (LinkedName n) a b := by
  rintro ⟨p, hp⟩
  cases hp with
  | single => exact hab rfl
  | step e _ =>
    obtain ⟨k, hk⟩ := isName_unit (hn.linked_names e).1
    exact not_builtIn h ⟨_, k, hk, rfl⟩

theorem apart_of_island {n : Net} (hn : ShippedNetwork n) {a b : Str} (h : islandOf a ≠ islandOf b) : ¬ Reach (LinkedName n) a b :=
  fun hr => h (hn.reach_island hr)

/-- a clean unit of several names -/
theorem cleanUnit_of {u : Str} (h : '(' ∉ u ∧ ')' ∉ u ∧ (∀ c ∈ u.head?.toList ++ u.getLast?.toList, c ∉ [' ', '"', '\'']) ∧
    u ≠ s!!"Empty") : CleanUnit u := by
  refine ⟨h.1, h.2.1, fun c hc => h.2.2.1 c ?_, h.2.2.2⟩
  rcases hc with hc | hc <;> simp [hc]

theorem not_swapped {a b : Str} (h : (Py.splitOn '/' a).map Py.stripWs ≠ ((Py.splitOn '/' b).map Py.stripWs).reverse) :
    ¬ Swapped a b := by
  rintro ⟨x, y, z, t, hx, hy, hz, ht, rfl, rfl, h1, h2⟩
  refine h ?_
  have e1 : Py.splitOn '/' (x ++ '/' :: y) = [x, y] := by simpa using splitOn_pair hx hy
  have e2 : Py.splitOn '/' (z ++ '/' :: t) = [z, t] := by simpa using splitOn_pair hz ht
  rw [e1, e2]
  simp [h1, h2]

/-- A heating value: 2 kWh per pound in joules per gram. -/
example : ∃ w, Started w ∧ ∀ uc, numOf (convert (some 2) (some s!!"kWh/lb") (some s!!"J/g") uc
    (session [.convertible s!!"mile" s!!"km" (some true)] w)).1 = some (2 * 3600000 * 100000 / 45359237) := by
  obtain ⟨w, hw, hp, hf⟩ := started_ex
  refine ⟨w, hw, fun uc => ?_⟩
  rw [C96_exact hw (by rw [hp]; decide) (by rw [hf]; decide) (by simp [Asks]) (cleanUnit_of (by decide)) (cleanUnit_of (by decide))
    (fun h => h.1 (by decide)) (.num ⟨standardSizes[3], 3600000, 1, Or.inl (List.getElem_mem _), by decide +kernel, by decide +kernel, rfl⟩
      (.den ⟨weightSizes, 45359237 / 100000, 1, Or.inr (Or.inr rfl), by decide +kernel, by decide +kernel, rfl⟩ (by norm_num) .nil))
    (not_swapped (by decide)) (apart_of_unknown hw.shipped.network (by decide) (by decide +kernel)) uc (Or.inr ?_)]
  · simp only [numOf]
    norm_num
  · intro c hc
    rw [List.mem_singleton.1 hc]
    exact ⟨⟨by decide, by decide⟩, ⟨by decide, by decide⟩, rfl⟩

/-- Four factors, without the cache: pound times mile per day and foot, in kilogram times kilometer per hour and meter. -/
example : ∃ w, Started w ∧ numOf (convert (some 1) (some s!!"lb*mile/day/ft") (some s!!"kg*km/h/m") (some false) w).1 =
    some (45359237 / 100000000 * (1609344 / 1000000) / 24 / (3048 / 10000)) := by
  obtain ⟨w, hw, hp, hf⟩ := started_ex
  refine ⟨w, hw, ?_⟩
  have := C96_exact hw (by rw [hp]; decide) (by rw [hf]; decide) (cs := []) (by simp) (a := s!!"lb*mile/day/ft") (b := s!!"kg*km/h/m")
    (cleanUnit_of (by decide)) (cleanUnit_of (by decide)) (fun h => h.1 (by decide))
    (.num ⟨weightSizes, 45359237 / 100000, 1000, Or.inr (Or.inr rfl), by decide +kernel, by decide +kernel, rfl⟩
      (.num ⟨standardSizes[0], 201168 / 125, 1000, Or.inl (List.getElem_mem _), by decide +kernel, by decide +kernel, rfl⟩
      (.den ⟨standardSizes[1], 86400, 3600, Or.inl (List.getElem_mem _), by decide +kernel, by decide +kernel, rfl⟩ (by norm_num)
      (.den ⟨standardSizes[0], 381 / 1250, 1, Or.inl (List.getElem_mem _), by decide +kernel, by decide +kernel, rfl⟩ (by norm_num)
      .nil))))
    (not_swapped (by decide)) (apart_of_unknown hw.shipped.network (by decide) (by decide +kernel)) (some false) (Or.inl rfl) 1
  rw [show session [] w = w from rfl] at this
  rw [this]
  simp only [numOf]
  norm_num

end Unyts
