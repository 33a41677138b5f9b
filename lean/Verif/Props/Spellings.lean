import Verif.Spec.Spellings
import Verif.Props.ShippedQuantity

/- C104: the ways to write a unit are interchangeable. -/
namespace Unyts
open Spec
set_option maxRecDepth 1000000

/-- the other ways to write the names of an entry -/
def respellings (k : Str) (e : Str × List Str) : List (Str × Str) :=
  (if Py.subStr s!!"_NAMES" k then (e.2.filter fun s => !([(s!!"psi gauge", s!!"psi"), (s!!"bar gauge", s!!"bar")].contains (e.1, s))).map
    fun s => (e.1, s) else []) ++
  (if Py.subStr s!!"_UPPER" k then (e.1 :: e.2).map fun s => (s, Py.upper s) else []) ++
  (if Py.subStr s!!"_LOWER" k then (e.1 :: e.2).map fun s => (s, Py.lower s) else []) ++
  (if Py.subStr s!!"_SPACES" k then (e.1 :: e.2).flatMap fun s => [(s, Py.replaceC ' ' ['-'] s), (s, Py.replaceC ' ' ['_'] s)] else []) ++
  (if Py.subStr s!!"_PLURALwS" k then [(e.1, e.1 ++ s!!"s")] else [])

theorem respelled_mem {s t : Str} (h : Respelled s t) : ∃ k v e, (k, v) ∈ rawDictionary ∧ e ∈ v.entries ∧ (s, t) ∈ respellings k e := by
  cases h with
  | @names k _ _ l _ h1 h2 h3 h4 h5 =>
    refine ⟨k, _, (_, l), h1, h3, ?_⟩
    unfold respellings
    rw [if_pos h2]
    simp only [List.mem_append]
    refine Or.inl (Or.inl (Or.inl (Or.inl (List.mem_map.2 ⟨_, List.mem_filter.2 ⟨h4, ?_⟩, rfl⟩))))
    rw [Bool.not_eq_true', ← Bool.not_eq_true, List.contains_iff_mem]
    exact h5
  | @capitals k v m l s h1 h2 h3 h4 =>
    refine ⟨k, v, (m, l), h1, h3, ?_⟩
    unfold respellings
    rw [if_pos (c := Py.subStr s!!"_UPPER" k = true) h2]
    simp only [List.mem_append]
    exact Or.inl (Or.inl (Or.inl (Or.inr (List.mem_map.2 ⟨s, h4, rfl⟩))))
  | @small k v m l s h1 h2 h3 h4 =>
    refine ⟨k, v, (m, l), h1, h3, ?_⟩
    unfold respellings
    rw [if_pos (c := Py.subStr s!!"_LOWER" k = true) h2]
    simp only [List.mem_append]
    exact Or.inl (Or.inl (Or.inr (List.mem_map.2 ⟨s, h4, rfl⟩)))
  | @blanks k v m l s c h1 h2 h3 h4 h5 =>
    refine ⟨k, v, (m, l), h1, h3, ?_⟩
    unfold respellings
    rw [if_pos (c := Py.subStr s!!"_SPACES" k = true) h2]
    simp only [List.mem_append]
    refine Or.inl (Or.inr (List.mem_flatMap.2 ⟨s, h4, ?_⟩))
    simp only [List.mem_cons, List.not_mem_nil, or_false] at h5
    rcases h5 with rfl | rfl <;> simp
  | @plural k v _ l h1 h2 h3 =>
    refine ⟨k, v, (_, l), h1, h3, ?_⟩
    unfold respellings
    rw [if_pos (c := Py.subStr s!!"_PLURALwS" k = true) h2]
    simp

def respellOk (p : Str × Str) : Bool :=
  decide (readingOf p.1 = readingOf p.2) && islandOf p.1 == islandOf p.2 && labelOf p.1 == labelOf p.2

theorem respell_check : (rawDictionary.all fun e => e.2.entries.all fun p => (respellings e.1 p).all respellOk) = true := by
  decide +kernel

theorem respelled_same {s t : Str} (h : Respelled s t) : readingOf s = readingOf t ∧ islandOf s = islandOf t ∧ labelOf s = labelOf t := by
  obtain ⟨k, v, e, h1, h2, h3⟩ := respelled_mem h
  have := List.all_eq_true.1 (List.all_eq_true.1 (List.all_eq_true.1 respell_check _ h1) _ h2) _ h3
  simp only [respellOk, Bool.and_eq_true, decide_eq_true_eq, beq_iff_eq] at this
  exact ⟨this.1.1, this.1.2, this.2⟩

theorem sameUnit_same {s t : Str} (h : SameUnit s t) : readingOf s = readingOf t ∧ islandOf s = islandOf t ∧ labelOf s = labelOf t := by
  induction h with
  | refl => exact ⟨rfl, rfl, rfl⟩
  | there _ h ih =>
    obtain ⟨h1, h2, h3⟩ := respelled_same h
    exact ⟨ih.1.trans h1, ih.2.1.trans h2, ih.2.2.trans h3⟩
  | back _ h ih =>
    obtain ⟨h1, h2, h3⟩ := respelled_same h
    exact ⟨ih.1.trans h1.symm, ih.2.1.trans h2.symm, ih.2.2.trans h3.symm⟩

theorem ounce_dram : (dramNames.all fun d => decide (readingOf s!!"weight ounce" ≠ readingOf d)) = true := by decide +kernel

/-- names with one reading convert with the number unchanged -/
theorem sameReading_convert {w : World} (hw : Started w) (hg : 17 ≤ w.par.maxGenerations) (hφ : w.fvf ≠ some 0) {cs : List Call}
    (hcs : ∀ c ∈ cs, Asks c) {q a b : Str} (ha : BuiltIn q a) (hb : BuiltIn q b) (hR : readingOf a = readingOf b)
    (hI : islandOf a = islandOf b)
    (hq : q ∉ [s!!"Volume", s!!"Density", s!!"PressureGradient", s!!"Dimensionless", s!!"Percentage", s!!"Date"])
    (hga : q = s!!"Pressure" → a ∉ gaugeNames ∧ b ∉ gaugeNames) (ca : CleanName a) (cb : CleanName b) (uc : Option Bool) (x : Rat) :
    (convert (some x) (some a) (some b) uc (session cs w)).1 = .ok (some (.num x)) := by
  have hn := hw.shipped.network
  have hr : Reach (LinkedName w.net) a b := (hn.reach_iff (builtIn_isName ha) (builtIn_isName hb)).2 hI
  have fin : ∀ y, shippedReading (fvfOr1 w.fvf) b y = shippedReading (fvfOr1 w.fvf) a x → y = x := by
    intro y hy
    have : shippedReading (fvfOr1 w.fvf) b = shippedReading (fvfOr1 w.fvf) a := by
      funext z; unfold shippedReading; rw [hR]
    rw [this] at hy
    exact shippedReading_inj (fvfOr1_ne hφ) a hy
  by_cases hwt : q = s!!"Weight"
  · subst hwt
    have hex : w.par.algorithm = .lean → ¬ (a = s!!"weight ounce" ∧ b ∈ dramNames) := by
      rintro - ⟨rfl, hm⟩
      exact of_decide_eq_true (List.all_eq_true.1 ounce_dram _ hm) hR
    obtain ⟨y, w', hy⟩ := weight_found hw hg hcs ha hb ca cb hex hr uc x
    have hbase := base_session hcs hw.fresh.wf
    have hsh : ShippedWorld (session cs w) := by
      obtain ⟨d, h1, h2⟩ := hw.shipped
      exact ⟨d, by rw [hbase.net]; exact h1, by rw [hbase.dic]; exact h2⟩
    obtain ⟨z, hz, e⟩ := weight_answer (hw.reachable hcs) hsh (by rw [hbase.fvf]; exact hφ) ha hb ca cb hy
    cases hz
    rw [hbase.fvf] at e
    rw [hy, fin _ e]
  · have hsp : q ∉ specialQuantities := by
      intro hm
      simp only [specialQuantities, List.mem_cons, List.not_mem_nil, or_false, not_or] at hm hq
      obtain ⟨q1, q2, q3, q4, q5, q6⟩ := hq
      rcases hm with e | e | e | e | e | e | e <;> contradiction
    by_cases hp : q = s!!"Pressure"
    · subst hp
      obtain ⟨y, hy, e⟩ := pressure_answer hw hφ hcs ha hb (hga rfl).1 (hga rfl).2 ca cb uc x
      rw [hy, fin y e]
    · obtain ⟨hs, h32, h34⟩ := special_label ha hsp
      obtain ⟨y, hy, e⟩ := shipped_answer hw hφ hcs (builtIn_isName ha) (builtIn_isName hb) hs h32 h34
        (fun h6 => hp ((builtIn_numbers ha).2.2.2.2.2 h6)) ca cb hr uc x
      rw [hy, fin y e]

theorem sameReading_convertible {w : World} (hw : Started w) (hg : 17 ≤ w.par.maxGenerations) {cs : List Call}
    (hcs : ∀ c ∈ cs, Asks c) {q a b : Str} (ha : BuiltIn q a) (hb : BuiltIn q b) (hR : readingOf a = readingOf b)
    (hI : islandOf a = islandOf b)
    (hq : q ∉ [s!!"Volume", s!!"Density", s!!"PressureGradient", s!!"Dimensionless", s!!"Percentage", s!!"Date"])
    (ca : CleanName a) (cb : CleanName b) (uc : Option Bool) : (convertible a b uc (session cs w)).1 = .ok true := by
  have hn := hw.shipped.network
  have hr : Reach (LinkedName w.net) a b := (hn.reach_iff (builtIn_isName ha) (builtIn_isName hb)).2 hI
  by_cases hwt : q = s!!"Weight"
  · subst hwt
    refine weight_convertible hw hg hcs ha hb ca cb ?_ hr uc
    rintro - ⟨rfl, hm⟩
    exact of_decide_eq_true (List.all_eq_true.1 ounce_dram _ hm) hR
  · refine C88_convertible_partial hw hcs ha ?_ ca cb hr uc
    intro hm
    simp only [specialQuantities, List.mem_cons, List.not_mem_nil, or_false, not_or] at hm hq
    obtain ⟨q1, q2, q3, q4, q5, q6⟩ := hq
    rcases hm with e | e | e | e | e | e | e <;> contradiction

/-- C104. After `import unyts`, whatever was asked before, converting between two ways to write one unit changes nothing. -/
theorem C104_spellings_partial {w : World} (hw : Started w) (hg : 17 ≤ w.par.maxGenerations) (hφ : w.fvf ≠ some 0) {cs : List Call}
    (hcs : ∀ c ∈ cs, Asks c) {q a b : Str} (ha : BuiltIn q a) (hb : BuiltIn q b) (h : SameUnit a b)
    (hq : q ∉ [s!!"Volume", s!!"Density", s!!"PressureGradient", s!!"Dimensionless", s!!"Percentage", s!!"Date"])
    (ga : a ∉ gaugeNames) (gb : b ∉ gaugeNames) (ca : CleanName a) (cb : CleanName b) (uc : Option Bool) (x : Rat) :
    (convert (some x) (some a) (some b) uc (session cs w)).1 = .ok (some (.num x)) :=
  sameReading_convert hw hg hφ hcs ha hb (sameUnit_same h).1 (sameUnit_same h).2.1 hq (fun _ => ⟨ga, gb⟩) ca cb uc x

/-- C104: `convertible` says yes. -/
theorem C104_convertible_partial {w : World} (hw : Started w) (hg : 17 ≤ w.par.maxGenerations) {cs : List Call}
    (hcs : ∀ c ∈ cs, Asks c) {q a b : Str} (ha : BuiltIn q a) (hb : BuiltIn q b) (h : SameUnit a b)
    (hq : q ∉ [s!!"Volume", s!!"Density", s!!"PressureGradient", s!!"Dimensionless", s!!"Percentage", s!!"Date"])
    (ca : CleanName a) (cb : CleanName b) (uc : Option Bool) : (convertible a b uc (session cs w)).1 = .ok true :=
  sameReading_convertible hw hg hcs ha hb (sameUnit_same h).1 (sameUnit_same h).2.1 hq ca cb uc

theorem Spec.SameUnit.symm {a b : Str} (h : SameUnit a b) : SameUnit b a := by
  have trans : ∀ {s t u : Str}, SameUnit s t → SameUnit t u → SameUnit s u := by
    intro s t u h1 h2
    induction h2 with
    | refl => exact h1
    | there _ h ih => exact .there ih h
    | back _ h ih => exact .back ih h
  induction h with
  | refl => exact .refl _
  | there _ h ih => exact trans (.back (.refl _) h) ih
  | back _ h ih => exact trans (.there (.refl _) h) ih

theorem Spec.SameUnit.trans {s t u : Str} (h1 : SameUnit s t) (h2 : SameUnit t u) : SameUnit s u := by
  induction h2 with
  | refl => exact h1
  | there _ h ih => exact .there ih h
  | back _ h ih => exact .back ih h

/-- `u` is a name of the quantity `n` alone, one of the ways to write `m`. -/
structure OneSpelling (n m u : Str) : Prop where
  same : SameUnit m u
  built : BuiltIn n u
  only : ∀ q, BuiltIn q u → q = n
  clean : CleanName u
  listed : u ∉ unlistedUnits ∧ u ∉ ambiguousNames
  gauge : u ∉ gaugeNames
  strip : Py.stripWs u = u

/-- `u` is a name of the quantity `n` alone with the reading of `m`. -/
structure OneReading (n m u : Str) : Prop where
  same : readingOf m = readingOf u ∧ islandOf m = islandOf u
  built : BuiltIn n u
  only : ∀ q, BuiltIn q u → q = n
  clean : CleanName u
  listed : u ∉ unlistedUnits ∧ u ∉ ambiguousNames
  gauge : u ∉ gaugeNames
  strip : Py.stripWs u = u

theorem gauged_readings {w0 : World} (hw : Started w0) (hg : 17 ≤ w0.par.maxGenerations) (hφ : w0.fvf ≠ some 0) {n m : Str}
    (hn : n ∈ stdClasses) (hq : n ∉ [s!!"Volume", s!!"Density", s!!"PressureGradient", s!!"Dimensionless", s!!"Percentage", s!!"Date"]) :
    Gauged w0 n (OneReading n m) (fun _ => 1) := by
  refine ⟨hn, fun u h => h.built, fun u h => h.listed, fun u h => h.clean, fun u h => h.only, fun u h => h.strip, fun _ _ => one_pos,
    ?_, ?_⟩
  · intro a b ha hb cs hcs
    exact sameReading_convertible hw hg hcs ha.built hb.built (ha.same.1.symm.trans hb.same.1) (ha.same.2.symm.trans hb.same.2) hq ha.clean hb.clean none
  · intro a b ha hb cs hcs x
    rw [sameReading_convert hw hg hφ hcs ha.built hb.built (ha.same.1.symm.trans hb.same.1) (ha.same.2.symm.trans hb.same.2) hq (fun _ => ⟨ha.gauge, hb.gauge⟩)
      ha.clean hb.clean none x, mul_one, div_one]

theorem OneSpelling.reading {n m u : Str} (h : OneSpelling n m u) : OneReading n m u :=
  ⟨⟨(sameUnit_same h.same).1, (sameUnit_same h.same).2.1⟩, h.built, h.only, h.clean, h.listed, h.gauge, h.strip⟩

/-- C104 for quantities: a program that writes one unit in different ways computes with the numbers, also for temperatures. -/
theorem C104_program_partial {w0 : World} (hw : Started w0) (hg : 17 ≤ w0.par.maxGenerations) (hφ : w0.fvf ≠ some 0) {n m : Str}
    (hn : n ∈ stdClasses) (hq : n ∉ [s!!"Volume", s!!"Density", s!!"PressureGradient"]) (e : Program)
    (he : ∀ u ∈ e.names, OneSpelling n m u) (hz : e.Defined) {L : Lib} (hL : Running w0 L) :
    ∃ L', e.run L = (.ok ⟨.std n, e.unit, e.amount fun _ => 1⟩, L') ∧ Running w0 L' := by
  have hq' : n ∉ [s!!"Volume", s!!"Density", s!!"PressureGradient", s!!"Dimensionless", s!!"Percentage", s!!"Date"] := by
    have key : (stdClasses.all fun n => n != s!!"Dimensionless" && n != s!!"Percentage" && n != s!!"Date") = true := by decide
    have := List.all_eq_true.1 key n hn
    simp only [Bool.and_eq_true, bne_iff_ne] at this
    simp only [List.mem_cons, List.not_mem_nil, or_false, not_or] at hq ⊢
    exact ⟨hq.1, hq.2.1, hq.2.2, this.1.1, this.1.2, this.2⟩
  obtain ⟨_, L', h, r⟩ := (gauged_readings (m := m) hw hg hφ hn hq').run hw.fresh.wf e (fun u hu => (he u hu).reading) hz hL
  exact ⟨L', by rw [h]; simp, r⟩

/-! ### concrete cases -/

theorem mem_given {α : Type} {c : Bool} {l : List α} {x : α} (h : x ∈ if c = true then l else []) : c = true ∧ x ∈ l := by
  cases c
  · cases h
  · exact ⟨rfl, h⟩

theorem respelled_of {s t : Str} (h : (rawDictionary.any fun e => e.2.entries.any fun p => (respellings e.1 p).contains (s, t)) = true) :
    Respelled s t := by
  obtain ⟨⟨k, v⟩, h1, h⟩ := List.any_eq_true.1 h
  obtain ⟨⟨m, l⟩, h2, h⟩ := List.any_eq_true.1 h
  rw [List.contains_iff_mem] at h
  unfold respellings at h
  simp only [List.mem_append] at h
  rcases h with (((h | h) | h) | h) | h <;> obtain ⟨hk, h⟩ := mem_given h
  · obtain ⟨u, hs, e⟩ := List.mem_map.1 h
    cases e
    obtain ⟨hs, hx⟩ := List.mem_filter.1 hs
    rw [Bool.not_eq_true', ← Bool.not_eq_true, List.contains_iff_mem] at hx
    cases v with
    | table t => exact .names h1 hk h2 hs hx
    | names n =>
      obtain ⟨u, _, e⟩ := List.mem_map.1 (show (_, l) ∈ n.map fun u => (u, []) from h2)
      have : l = [] := (congrArg Prod.snd e).symm
      rw [this] at hs
      cases hs
  · obtain ⟨u, hs, e⟩ := List.mem_map.1 h
    cases e
    exact .capitals h1 hk h2 hs
  · obtain ⟨u, hs, e⟩ := List.mem_map.1 h
    cases e
    exact .small h1 hk h2 hs
  · obtain ⟨u, hs, e⟩ := List.mem_flatMap.1 h
    simp only [List.mem_cons, List.not_mem_nil, or_false] at e
    rcases e with e | e <;> cases e
    · exact .blanks h1 hk h2 hs (by simp)
    · exact .blanks h1 hk h2 hs (by simp)
  · rw [List.mem_singleton] at h
    cases h
    exact .plural h1 hk h2

/-- pounds are LB, whatever was asked before -/
example : ∃ w, Started w ∧ ∀ uc x, (convert (some x) (some s!!"pounds") (some s!!"LB") uc
    (session [.convert (some 1) (some s!!"stb") (some s!!"kg") none, .convertible s!!"ft/day" s!!"m/s" none] w)).1 = .ok (some (.num x)) := by
  obtain ⟨w, hw, hp, hf⟩ := started_ex
  refine ⟨w, hw, fun uc x => C104_spellings_partial hw (by rw [hp]; decide) (by rw [hf]; decide) (by simp [Asks])
    (q := s!!"Weight") (builtIn_mem (by decide +kernel) (by decide)) (builtIn_mem (by decide +kernel) (by decide)) ?_ (by decide)
    (by decide +kernel) (by decide +kernel) (Demo.cleanName_of (by decide)) (Demo.cleanName_of (by decide)) uc x⟩
  exact .there (.there (.back (.refl _) (respelled_of (s := s!!"pound") (by decide +kernel))) (respelled_of (t := s!!"lb") (by decide +kernel)))
    (respelled_of (by decide +kernel))

/-- and degrees Celsius are written 'deg C', 'Celsius', 'CELSIUS' -/
example : ∃ w, Started w ∧ ∀ uc x, (convert (some x) (some s!!"deg C") (some s!!"CELSIUS") uc w).1 = .ok (some (.num x)) := by
  obtain ⟨w, hw, hp, hf⟩ := started_ex
  refine ⟨w, hw, fun uc x => C104_spellings_partial hw (by rw [hp]; decide) (by rw [hf]; decide) (cs := []) (by simp)
    (q := s!!"Temperature") (builtIn_mem (by decide +kernel) (by decide)) (builtIn_mem (by decide +kernel) (by decide)) ?_ (by decide)
    (by decide +kernel) (by decide +kernel) (Demo.cleanName_of (by decide)) (Demo.cleanName_of (by decide)) uc x⟩
  exact .there (.back (.refl _) (respelled_of (s := s!!"Celsius") (by decide +kernel))) (respelled_of (by decide +kernel))

theorem celsius_spellings : ∀ u ∈ [s!!"deg C", s!!"Celsius", s!!"CELSIUS"], OneSpelling s!!"Temperature" s!!"Celsius" u := by
  have k : ∀ u ∈ [s!!"deg C", s!!"Celsius", s!!"CELSIUS"], (basicNames s!!"Temperature").contains u = true ∧ onlyIn s!!"Temperature" u = true ∧
      (u ∉ unlistedUnits ∧ u ∉ ambiguousNames) ∧ u ∉ gaugeNames ∧ Py.stripWs u = u := by decide +kernel
  have c : ∀ u ∈ [s!!"deg C", s!!"Celsius", s!!"CELSIUS"], '(' ∉ u ∧ ')' ∉ u ∧ (∀ c ∈ u.head?.toList ++ u.getLast?.toList, c ∉ [' ', '"', '\'']) ∧
      u ≠ s!!"Empty" ∧ '/' ∉ u ∧ '*' ∉ u := by decide
  intro u hu
  obtain ⟨k1, k2, k3, k4, k5⟩ := k u hu
  refine ⟨?_, builtIn_mem k1 (by decide), fun q hb => onlyIn_iff k2 hb, Demo.cleanName_of (c u hu), k3, k4, k5⟩
  simp only [List.mem_cons, List.not_mem_nil, or_false] at hu
  rcases hu with rfl | rfl | rfl
  · exact .there (.refl _) (respelled_of (by decide +kernel))
  · exact .refl _
  · exact .there (.refl _) (respelled_of (by decide +kernel))

/-- `(units(30, 'deg C') + units(5, 'CELSIUS')).to('Celsius') / 2` -/
example : ∃ w L, Started w ∧ Running w L ∧
    ((Program.divNum (.to (.add (.units 30 s!!"deg C") (.units 5 s!!"CELSIUS")) s!!"Celsius") 2).run L).1 =
      .ok ⟨.std s!!"Temperature", s!!"Celsius", 35 / 2⟩ := by
  obtain ⟨w, hw, hp, hf⟩ := started_ex
  obtain ⟨L, _, hL⟩ := hw.running
  obtain ⟨L', h, _⟩ := C104_program_partial hw (by rw [hp]; decide) (by rw [hf]; decide) (n := s!!"Temperature") (m := s!!"Celsius")
    (by decide) (by decide) (Program.divNum (.to (.add (.units 30 s!!"deg C") (.units 5 s!!"CELSIUS")) s!!"Celsius") 2)
    (fun u hu => celsius_spellings u (by revert u; decide)) (by simp [Program.Defined]) hL
  refine ⟨w, L, hw, hL, ?_⟩
  rw [h]
  simp only [Program.unit, Program.amount]
  norm_num

end Unyts
