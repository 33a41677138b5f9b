import Verif.Lemmas.ShippedKinds
import Verif.Lemmas.ShippedPrefix

/- The network that ships with the library: properties C52, C53, C55, C59–C63. -/
namespace Unyts
open Spec

/-! ## C52: every conversion has one back -/

/-- For every dictionary that loads: if the main names with blanks of the `_SPACES` kinds, and the sources of the
conversions written one by one that are not written both ways, are listed under a kind with `_REVERSE`, then every
direct conversion has one back. Missing: without these conditions the loader leaves some conversions one way. -/
theorem C52_two_way_partial {P : Prefixes} {expl : List (Str × Str × CExp)} {d d' : RawDict} {g : Net}
    (hd : (d.map Prod.fst).Nodup) (h : loadNetwork P expl d = .ok (g, d'))
    (hs : ∀ k v, (k, v) ∈ d → Py.subStr s!!"_SPACES" k = true → ∀ a ∈ v.keys, ' ' ∈ a → Reversed d a)
    (he : ∀ e ∈ expl, Reversed d e.1 ∨ ∃ e' ∈ expl, e'.1 = e.2.1 ∧ e'.2.1 = e.1)
    {a b : Str} (hl : LinkedName (cleanNetwork g) a b) : LinkedName (cleanNetwork g) b a := by
  rw [linked_clean] at hl ⊢
  exact load_back (X := []) hd h hs (fun e hm => (he e hm).imp id Or.inl) hl (by simp)

/-- In the shipped network a direct conversion has one back unless it is one of three. -/
theorem C52_shipped {n : Net} (h : ShippedNetwork n) {a b : Str} (hl : LinkedName n a b) :
    LinkedName n b a ↔ (a, b) ∉ oneWay := h.back hl

/-- The three are in the network: the property fails. -/
theorem C52_fails {n : Net} (h : ShippedNetwork n) :
    ∀ p ∈ oneWay, LinkedName n p.1 p.2 ∧ ¬ LinkedName n p.2 p.1 := by
  obtain ⟨g, d, hg, rfl⟩ := h
  intro p hp
  rw [linked_clean, linked_clean]
  exact oneWay_one_way hg hp

/-- A dictionary with two names and one conversion meets the conditions. -/
def smallDict : RawDict :=
  [(s!!"Length", .names []), (s!!"Length_NAMES_SPACES_REVERSE", .table [(s!!"long mile", [s!!"lm"]), (s!!"yard", [])]),
   (s!!"dataBYTE", .names []), (s!!"dataBIT", .names []), (s!!"UserUnits", .names [])]

example : ∃ g d', loadNetwork shippedPrefixes [(s!!"long mile", s!!"yard", .mul .x (.lit 2000))] smallDict = .ok (g, d') ∧
    (smallDict.map Prod.fst).Nodup ∧ LinkedName (cleanNetwork g) s!!"yard" s!!"long mile" ∧
    LinkedName (cleanNetwork g) s!!"long-mile" s!!"long mile" := by
  have hn : (smallDict.map Prod.fst).Nodup := by decide +kernel
  have hl : Loadable shippedPrefixes [(s!!"long mile", s!!"yard", .mul .x (.lit 2000))] smallDict := by
    refine ⟨hn, ?_, ?_, by decide +kernel, by decide +kernel, by decide +kernel, by decide +kernel⟩
    · intro k v hk hu
      simp only [smallDict, List.mem_cons, List.not_mem_nil, or_false, Prod.mk.injEq] at hk
      rcases hk with ⟨rfl, rfl⟩ | ⟨rfl, rfl⟩ | ⟨rfl, rfl⟩ | ⟨rfl, rfl⟩ | ⟨rfl, rfl⟩
      · exact absurd hu (by decide)
      · exact ⟨[], by decide +kernel⟩
      · exact absurd hu (by decide)
      · exact absurd hu (by decide)
      · exact absurd hu (by decide)
    · intro k v hk hu
      simp only [smallDict, List.mem_cons, List.not_mem_nil, or_false, Prod.mk.injEq] at hk
      rcases hk with ⟨rfl, rfl⟩ | ⟨rfl, rfl⟩ | ⟨rfl, rfl⟩ | ⟨rfl, rfl⟩ | ⟨rfl, rfl⟩
      · exact absurd hu (by decide)
      · exact ⟨_, rfl⟩
      · exact absurd hu (by decide)
      · exact absurd hu (by decide)
      · exact absurd hu (by decide)
  obtain ⟨g, d', h⟩ := load_runs hl
  have hr : Reversed smallDict s!!"long mile" := ⟨_, _, List.mem_cons_of_mem _ List.mem_cons_self, by decide, by decide⟩
  have hb : ∀ a b, LinkedName (cleanNetwork g) a b → LinkedName (cleanNetwork g) b a := fun a b hab =>
    C52_two_way_partial hn h (by
      intro k v hk hu a ha hb
      simp only [smallDict, List.mem_cons, List.not_mem_nil, or_false, Prod.mk.injEq] at hk
      rcases hk with ⟨rfl, rfl⟩ | ⟨rfl, rfl⟩ | ⟨rfl, rfl⟩ | ⟨rfl, rfl⟩ | ⟨rfl, rfl⟩
      · exact absurd hu (by decide)
      · have : a = s!!"long mile" ∨ a = s!!"yard" := by simpa [RawVal.keys, RawVal.entries] using ha
        rcases this with rfl | rfl
        · exact hr
        · exact absurd hb (by decide)
      · exact absurd hu (by decide)
      · exact absurd hu (by decide)
      · exact absurd hu (by decide)) (by
      intro e he
      simp only [List.mem_cons, List.not_mem_nil, or_false] at he
      subst he
      exact Or.inl hr) hab
  obtain ⟨_, s⟩ := load_spec hn h
  refine ⟨g, d', h, hn, hb _ _ ?_, hb _ _ ?_⟩
  · rw [linked_clean, s.linked]; decide +kernel
  · rw [linked_clean, s.linked]; decide +kernel

example : ∃ n, ShippedNetwork n ∧ LinkedName n s!!"pound" s!!"dram" ∧ LinkedName n s!!"dram" s!!"pound" := by
  obtain ⟨n, h⟩ := ShippedNetwork.ex
  exact ⟨n, h, (C52_shipped h h.dram.1).2 (by decide), h.dram.1⟩

/-! ## C53: prefixes -/

/-- A metric prefix of power `e` (other than `K`) on a unit of order `k` is worth `10 ^ (e * k)` units, and back. -/
theorem C53_metric_partial {n : Net} (h : ShippedNetwork n) {u kind : Str} {k : Int} (hu : (u, kind, k) ∈ metricUnits)
    {p : Str} {e : Int} (hp : (p, e) ∈ metricPrefixes) :
    ((∃ f, DirectName n (p ++ u) u f) ∧ ∀ f, DirectName n (p ++ u) u f → MultipliesBy (10 ^ (e * k)) f) ∧
    ((∃ f, DirectName n u (p ++ u) f) ∧ ∀ f, DirectName n u (p ++ u) f → MultipliesBy (1 / 10 ^ (e * k)) f) :=
  h.prefixed (metric_ok hu hp)

/-- The prefixes of bits are powers of 1000, those of bytes powers of 1024. -/
theorem C53_data {n : Net} (h : ShippedNetwork n) {u kind : Str} {k : Nat} (hu : (u, kind, k) ∈ dataUnits)
    {p : Str} {e : Nat} (hp : (p, e) ∈ dataPrefixes) :
    ((∃ f, DirectName n (p ++ u) u f) ∧ ∀ f, DirectName n (p ++ u) u f → MultipliesBy ((k : Rat) ^ e) f) ∧
    ((∃ f, DirectName n u (p ++ u) f) ∧ ∀ f, DirectName n u (p ++ u) f → MultipliesBy (1 / (k : Rat) ^ e) f) :=
  h.prefixed (data_ok hu hp)

/-- The oil field prefixes are powers of 1000. -/
theorem C53_field {n : Net} (h : ShippedNetwork n) {u : Str} (hu : u ∈ fieldUnits)
    {p : Str} {e : Nat} (hp : (p, e) ∈ fieldPrefixes) :
    ((∃ f, DirectName n (p ++ u) u f) ∧ ∀ f, DirectName n (p ++ u) u f → MultipliesBy (1000 ^ e) f) ∧
    ((∃ f, DirectName n u (p ++ u) f) ∧ ∀ f, DirectName n u (p ++ u) f → MultipliesBy (1 / 1000 ^ e) f) :=
  h.prefixed (field_ok hu hp)

/-- The prefix `K` is worth 1000 whatever the order: a `Km2` is a thousand square meters, not a million. -/
theorem C53_fails {n : Net} (h : ShippedNetwork n) {u kind : Str} {k : Int} (hu : (u, kind, k) ∈ metricUnits) :
    (∃ f, DirectName n ('K' :: u) u f) ∧ ∀ f, DirectName n ('K' :: u) u f → MultipliesBy 1000 f :=
  (h.prefixed (List.all_eq_true.1 K_declared _ hu)).1

example : ∃ n, ShippedNetwork n ∧ ∃ f, DirectName n s!!"km3" s!!"m3" f ∧ f none 2 = .ok 2000000000 ∧
    ∃ f, DirectName n s!!"Km2" s!!"m2" f ∧ f none 2 = .ok 2000 := by
  obtain ⟨n, h⟩ := ShippedNetwork.ex
  obtain ⟨⟨f, hf⟩, hm⟩ := (C53_metric_partial h (u := s!!"m3") (kind := s!!"Volume_SI_UPPER") (k := 3) (by decide)
    (p := s!!"k") (e := 3) (by decide)).1
  obtain ⟨⟨f', hf'⟩, hm'⟩ := C53_fails h (u := s!!"m2") (kind := s!!"Area_SI") (k := 2) (by decide)
  refine ⟨n, h, f, hf, ?_, f', hf', ?_⟩
  · rw [hm f hf]; norm_num
  · rw [hm' f' hf']; norm_num

example : ∃ n, ShippedNetwork n ∧ (∃ f, DirectName n s!!"kB" s!!"B" f ∧ f none 2 = .ok 2048) ∧
    ∃ f, DirectName n s!!"bbl" s!!"MMbbl" f ∧ f none 5000000 = .ok 5 := by
  obtain ⟨n, h⟩ := ShippedNetwork.ex
  obtain ⟨⟨f, hf⟩, hm⟩ := (C53_data h (u := s!!"B") (kind := s!!"dataBYTE_DATA") (k := 1024) (by decide)
    (p := s!!"k") (e := 1) (by decide)).1
  obtain ⟨⟨f', hf'⟩, hm'⟩ := (C53_field h (u := s!!"bbl") (by decide) (p := s!!"MM") (e := 2) (by decide)).2
  refine ⟨n, h, ⟨f, hf, ?_⟩, f', hf', ?_⟩
  · rw [hm f hf]; norm_num
  · rw [hm' f' hf']; norm_num

/-! ## C55: pressures -/

/-- Two chains of built-in conversions from the same pressure to the same unit give the same number, if neither takes
one of the six short cuts between gauge and other pressures. -/
theorem C55_pressure_partial {n : Net} (h : ShippedNetwork n) {fvf : Option Rat} (hφ : fvf ≠ some 0)
    {k a : Str} (hk : kindBase k = s!!"Pressure") (ha : UnitOfKind k a)
    {p q : List Str} {f g : Fn} (hp : AlongNames n p f) (hq : AlongNames n q g)
    (h1 : p.head? = some a) (h2 : q.head? = some a) (h3 : p.getLast? = q.getLast?)
    (hX : Avoids pressureFaults p) (hY : Avoids pressureFaults q)
    {x y z : Rat} (hy : f fvf x = .ok y) (hz : g fvf x = .ok z) : y = z := by
  have hl := pressure_label hk ha
  obtain ⟨b, hb⟩ : ∃ b, p.getLast? = some b := by cases hp <;> simp [List.getLast?_cons]
  apply shippedReading_inj (fvfOr1_ne hφ) b
  rw [h.along hp (h.pressure_avoids hp h1 hl hX) hφ hy h1 hb,
    h.along hq (h.pressure_avoids hq h2 hl hY) hφ hz h2 (h3 ▸ hb)]

/-- With a short cut they do not: `psi gauge` to `psi` is the identity, through `absolute psi` it adds 14.6959. -/
theorem C55_fails {n : Net} (h : ShippedNetwork n) :
    ∃ f g, AlongNames n [s!!"psi gauge", s!!"psi"] f ∧ AlongNames n [s!!"psi gauge", s!!"absolute psi", s!!"psi"] g ∧
      ∀ x, f none x = .ok x ∧ g none x = .ok (x + 146959 / 10000) := by
  obtain ⟨f, hf, e⟩ := h.gauge
  have h1 := h.written (a := s!!"psi gauge") (b := s!!"absolute psi") (c := .fn (.add .x (.lit (146959 / 10000))))
    (by decide) (by decide +kernel)
  have h2 := h.written (a := s!!"absolute psi") (b := s!!"psi") (c := .fn .x) (by decide) (by decide +kernel)
  refine ⟨_, _, .step hf (.single _), .step h1 (.step h2 (.single _)), fun x => ⟨?_, rfl⟩⟩
  simp only [e, Except.bind]

/-- a unit and two chains that meet the hypotheses: `absolute bar` to `psi` directly through `bar`, and through
`absolute psi` -/
example : ∃ n, ShippedNetwork n ∧ UnitOfKind s!!"Pressure_NAMES_REVERSE_UPPER_SPACES" s!!"absolute psi" ∧
    ∃ f, AlongNames n [s!!"absolute psi", s!!"psi"] f ∧ Avoids pressureFaults [s!!"absolute psi", s!!"psi"] ∧
      f none 3 = .ok 3 := by
  obtain ⟨n, h⟩ := ShippedNetwork.ex
  exact ⟨n, h, unitOfKind (by decide +kernel), _, .step (h.written (c := .fn .x) (by decide) (by decide +kernel))
    (.single _), by simp only [Avoids]; decide, rfl⟩

/-! ## C59: a conversion and the one back undo each other -/

theorem C59_undo {n : Net} (h : ShippedNetwork n) {a b : Str} {f g : Fn} (hf : DirectName n a b f)
    (hg : DirectName n b a g) {fvf : Option Rat} (hφ : fvf ≠ some 0) {x y z : Rat} (hx : f fvf x = .ok y)
    (hy : g fvf y = .ok z) : z = x := h.undo hf hg hφ hx hy

example : ∃ n, ShippedNetwork n ∧ ∃ f g, DirectName n s!!"Celsius" s!!"Kelvin" f ∧ DirectName n s!!"Kelvin" s!!"Celsius" g ∧
    f none 20 = .ok (5863 / 20) ∧ g none (5863 / 20) = .ok 20 := by
  obtain ⟨n, h⟩ := ShippedNetwork.ex
  refine ⟨n, h, _, _, h.written (c := .fn (.add .x (.lit (5463 / 20)))) (by decide) (by decide +kernel),
    h.written (c := .fn (.sub .x (.lit (5463 / 20)))) (by decide) (by decide +kernel), ?_, ?_⟩
  · simp only [Cv.eval, CExp.eval, bind, Except.bind]; norm_num
  · simp only [Cv.eval, CExp.eval, bind, Except.bind]; norm_num

/-! ## C60: the shipped data load -/

/-- The data that ship with the library load without an exception, into a well formed network with one node per
name. -/
theorem C60_loads : ∃ g d, loadShipped = .ok (g, d) ∧ WF (cleanNetwork g) ∧ DistinctNames (cleanNetwork g) := by
  obtain ⟨g, d, h⟩ := shipped_loads
  have hs : ShippedNetwork (cleanNetwork g) := ⟨g, d, h, rfl⟩
  exact ⟨g, d, h, hs.wf, hs.distinct⟩

/-- Any dictionary with one entry per kind, whose kinds with flags start with the name of a list of units, whose
`_NAMES` kinds are tables and whose conversions are between declared names loads without an exception. -/
theorem C60_loadable {P : Prefixes} {expl : List (Str × Str × CExp)} {d : RawDict} (h : Loadable P expl d) :
    ∃ g d', loadNetwork P expl d = .ok (g, d') := load_runs h

/-! ## C61: chains agree -/

/-- Two chains of built-in conversions between the same units that avoid the six faulty pairs give the same number. -/
theorem C61_chains_partial {n : Net} (h : ShippedNetwork n) {fvf : Option Rat} (hφ : fvf ≠ some 0)
    {p q : List Str} {f g : Fn} (hp : AlongNames n p f) (hq : AlongNames n q g)
    (h1 : p.head? = q.head?) (h2 : p.getLast? = q.getLast?)
    (hX : Avoids shippedFaults p) (hY : Avoids shippedFaults q)
    {x y z : Rat} (hy : f fvf x = .ok y) (hz : g fvf x = .ok z) : y = z := by
  obtain ⟨a, ha⟩ : ∃ a, p.head? = some a := by cases hp <;> simp
  obtain ⟨b, hb⟩ : ∃ b, p.getLast? = some b := by cases hp <;> simp [List.getLast?_cons]
  apply shippedReading_inj (fvfOr1_ne hφ) b
  rw [h.along hp hX hφ hy ha hb, h.along hq hY hφ hz (h1 ▸ ha) (h2 ▸ hb)]

/-- A chain there and a chain back give the number one started with. -/
theorem C61_round_trip_partial {n : Net} (h : ShippedNetwork n) {fvf : Option Rat} (hφ : fvf ≠ some 0)
    {p q : List Str} {f g : Fn} (hp : AlongNames n p f) (hq : AlongNames n q g)
    (h1 : q.head? = p.getLast?) (h2 : q.getLast? = p.head?)
    (hX : Avoids shippedFaults p) (hY : Avoids shippedFaults q)
    {x y z : Rat} (hy : f fvf x = .ok y) (hz : g fvf y = .ok z) : z = x := by
  obtain ⟨a, ha⟩ : ∃ a, p.head? = some a := by cases hp <;> simp
  obtain ⟨b, hb⟩ : ∃ b, p.getLast? = some b := by cases hp <;> simp [List.getLast?_cons]
  apply shippedReading_inj (fvfOr1_ne hφ) a
  rw [h.along hq hY hφ hz (h1 ▸ hb) (h2 ▸ ha), h.along hp hX hφ hy ha hb]

/-- The UK gill: a UK gallon is 160 UK fluid ounces directly, 128 through quarts, pints and gills. -/
theorem C61_fails {n : Net} (h : ShippedNetwork n) :
    ∃ f g, AlongNames n [s!!"gallonUK", s!!"fluid ounce UK"] f ∧
      AlongNames n [s!!"gallonUK", s!!"quartUK", s!!"pintUK", s!!"gillUK", s!!"fluid ounce UK"] g ∧
      f none 1 = .ok 160 ∧ g none 1 = .ok 128 := by
  refine ⟨_, _, .step (h.written (c := .fn (.times 160)) (by decide) (by decide +kernel)) (.single _),
    .step (h.written (c := .fn (.times 4)) (by decide) (by decide +kernel)) (.step
      (h.written (c := .fn (.times 2)) (by decide) (by decide +kernel)) (.step
      (h.written (c := .fn (.times 4)) (by decide) (by decide +kernel)) (.step
      (h.written (c := .fn (.times 4)) (by decide) (by decide +kernel)) (.single _)))), by decide +kernel, by decide +kernel⟩

example : ∃ n, ShippedNetwork n ∧ ∃ f, AlongNames n [s!!"gallonUK", s!!"quartUK", s!!"pintUK"] f ∧
    Avoids shippedFaults [s!!"gallonUK", s!!"quartUK", s!!"pintUK"] ∧ f none 3 = .ok 24 := by
  obtain ⟨n, h⟩ := ShippedNetwork.ex
  exact ⟨n, h, _, .step (h.written (c := .fn (.times 4)) (by decide) (by decide +kernel)) (.step
      (h.written (c := .fn (.times 2)) (by decide) (by decide +kernel)) (.single _)), by simp only [Avoids]; decide,
    by decide +kernel⟩

/-! ## C62: what can be reached can be left -/

/-- If the shipped network converts from `a` to `b` through any chain, it converts from `b` to `a`. -/
theorem C62_symmetric {n : Net} (h : ShippedNetwork n) {a b : Str} (hr : Reach (LinkedName n) a b) :
    Reach (LinkedName n) b a := by
  have trans : ∀ {a b c : Str} {p q : List Str}, Chain (LinkedName n) a b p → Chain (LinkedName n) b c q →
      ∃ r, Chain (LinkedName n) a c r := by
    intro a b c p q h1 h2
    induction h1 with
    | single => exact ⟨q, h2⟩
    | step he _ ih =>
      obtain ⟨r, hr⟩ := ih h2
      exact ⟨_, .step he hr⟩
  obtain ⟨p, hp⟩ := hr
  induction hp with
  | single a => exact ⟨_, .single a⟩
  | step he _ ih =>
    obtain ⟨q, hq⟩ := ih
    obtain ⟨r, hr⟩ := h.onward he
    exact trans hq hr

example : ∃ n, ShippedNetwork n ∧ Reach (LinkedName n) s!!"weight ounce" s!!"dram" ∧
    ¬ LinkedName n s!!"dram" s!!"weight ounce" := by
  obtain ⟨n, h⟩ := ShippedNetwork.ex
  have := C52_fails h _ (List.mem_cons_self (a := (s!!"weight ounce", s!!"dram")))
  exact ⟨n, h, ⟨_, .step this.1 (.single _)⟩, this.2⟩

/-! ## C63: different quantities are apart -/

/-- A chain of built-in conversions never leaves the quantity of its unit, up to the merged kinds. -/
theorem C63_apart_partial {n : Net} (h : ShippedNetwork n) {k l a b : Str} (ha : UnitOfKind k a) (hb : UnitOfKind l b)
    (hq : ¬ SameQuantity k l) : ¬ Reach (LinkedName n) a b :=
  fun hr => hq (h.same_quantity ha hb hr)

example : ∃ n, ShippedNetwork n ∧ UnitOfKind s!!"Length_SI" s!!"km" ∧ UnitOfKind s!!"Time_SI" s!!"ms" ∧
    ¬ SameQuantity s!!"Length_SI" s!!"Time_SI" ∧ (∃ f, DirectName n s!!"km" s!!"m" f) := by
  obtain ⟨n, h⟩ := ShippedNetwork.ex
  exact ⟨n, h, unitOfKind (by decide +kernel), unitOfKind (by decide +kernel), by unfold SameQuantity; decide +kernel,
    (C53_metric_partial h (u := s!!"m") (kind := s!!"Length_SI") (k := 1) (by decide) (p := s!!"k") (e := 3)
      (by decide)).1.1⟩

/-- Volumes and weights are not apart: a US gallon is 128 fluid ounces, which are 128 ounces, which are 128 weight
ounces. -/
theorem C63_fails {n : Net} (h : ShippedNetwork n) :
    ∃ f, AlongNames n [s!!"gallonUS", s!!"fluid ounce", s!!"ounce", s!!"weight ounce"] f ∧ f none 1 = .ok 128 := by
  obtain ⟨⟨f, hf⟩, ef⟩ := h.does (a := s!!"fluid ounce") (b := s!!"ounce") (c := .same)
    (kindDeclares_mem (k := s!!"Volume_UK_NAMES_REVERSE") (by decide +kernel)) (by decide)
  obtain ⟨⟨g, hg⟩, eg⟩ := h.does (a := s!!"ounce") (b := s!!"weight ounce") (c := .same)
    (kindDeclares_mem (k := s!!"Weight_UK_NAMES_REVERSE") (by decide +kernel)) (by decide)
  refine ⟨_, .step (h.written (c := .fn (.times 128)) (by decide) (by decide +kernel)) (.step hf (.step hg (.single _))), ?_⟩
  simp only [Cv.eval, CExp.times, CExp.eval, Except.bind, bind, ef _ hf, eg _ hg, Cv.same]
  norm_num

end Unyts
