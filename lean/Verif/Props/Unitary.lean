import Verif.Spec.Unitary
import Verif.Model.Unitary
import Verif.Props.SpellingsVolume

/- C105: the constants of unitary.py. -/
namespace Unyts
open Spec
set_option maxRecDepth 1000000

/-- the statements evaluated, given what `units(1, …)` and `Unit(1, …)` give -/
def evalModule (f g : Str → Option Quantity) : List (Str × Quantity) → List Assign → Option (List (Str × Quantity))
  | vars, [] => some vars
  | vars, .units v u :: l => (f u).bind fun q => evalModule f g (vars ++ [(v, q)]) l
  | vars, .unit v u :: l => (g u).bind fun q => evalModule f g (vars ++ [(v, q)]) l
  | vars, .alias v w :: l => (Py.dictGet vars w).bind fun q => evalModule f g (vars ++ [(v, q)]) l

theorem exec_eval {f g : Str → Option Quantity} {L : Lib} (hf : ∀ u q, f u = some q → units 1 u L = (.ok q, L))
    (hg : ∀ u q, g u = some q → construct .base 1 u L = (.ok q, L)) {l : List Assign} {vars r : List (Str × Quantity)}
    (h : evalModule f g vars l = some r) : execModule vars l L = (.ok r, L) := by
  induction l generalizing vars with
  | nil => cases h; rfl
  | cons a l ih =>
    cases a with
    | units v u =>
      obtain ⟨q, hq, h⟩ := Option.bind_eq_some_iff.1 h
      unfold execModule
      rw [PyM.run_bind_ok (show Assign.exec vars (.units v u) L = (.ok (vars ++ [(v, q)]), L) by
        dsimp only [Assign.exec]
        rw [PyM.run_bind_ok (hf u q hq)]; rfl)]
      exact ih h
    | unit v u =>
      obtain ⟨q, hq, h⟩ := Option.bind_eq_some_iff.1 h
      unfold execModule
      rw [PyM.run_bind_ok (show Assign.exec vars (.unit v u) L = (.ok (vars ++ [(v, q)]), L) by
        dsimp only [Assign.exec]
        rw [PyM.run_bind_ok (hg u q hq)]; rfl)]
      exact ih h
    | «alias» v w =>
      obtain ⟨q, hq, h⟩ := Option.bind_eq_some_iff.1 h
      unfold execModule
      rw [PyM.run_bind_ok (show Assign.exec vars (.alias v w) L = (.ok (vars ++ [(v, q)]), L) by
        dsimp only [Assign.exec]
        rw [hq]; rfl)]
      exact ih h

def tableUnits (u : Str) : Option Quantity :=
  (constants.find? fun e => e.2.2 == u).map fun e => ⟨.std e.2.1, e.2.2, 1⟩

def tableUnit (u : Str) : Option Quantity := if u = s!!"oz" then some ⟨.base, u, 1⟩ else none

theorem eval_table : ((evalModule tableUnits tableUnit [] unitaryModule).any fun r =>
    (constants.all fun e => Py.dictGet r e.1 == some ⟨.std e.2.1, e.2.2, 1⟩) && Py.dictGet r s!!"ounce" == some ⟨.base, s!!"oz", 1⟩ &&
      decide (r.length = constants.length + 1)) = true := by
  decide +kernel

def namesOf (c : Str) : List Str := if c = s!!"Data" then basicNames s!!"dataBIT" ++ basicNames s!!"dataBYTE" else basicNames c

theorem builtIn_namesOf {c u : Str} (h : (namesOf c).contains u = true) (hc : c ∈ stdClasses) : BuiltIn c u := by
  unfold namesOf at h
  split at h
  · next e =>
    subst e
    simp only [List.contains_iff_mem, List.mem_append] at h
    rcases h with h | h
    · obtain ⟨k, hk, e⟩ := mem_basicNames.1 h
      exact ⟨k, hk, by unfold quantityOf; rw [if_pos (Or.inr e)]⟩
    · obtain ⟨k, hk, e⟩ := mem_basicNames.1 h
      exact ⟨k, hk, by unfold quantityOf; rw [if_pos (Or.inl e)]⟩
  · refine builtIn_mem h ?_
    have : ∀ c ∈ stdClasses, c ≠ s!!"dataBYTE" ∧ c ≠ s!!"dataBIT" := by decide
    exact this c hc

/-- no other quantity has the name -/
def alone (c u : Str) : Bool := match labelOf u with
  | none => false
  | some l => kindLabels.all fun b => b.2 != l || (if b.1 = s!!"dataBYTE" ∨ b.1 = s!!"dataBIT" then s!!"Data" else b.1) == c ||
      !(basicNames b.1).contains u

theorem alone_only {c u : Str} (h : alone c u = true) {q : Str} (hq : BuiltIn q u) : q = c := by
  obtain ⟨k, hk, rfl⟩ := hq
  obtain ⟨l, h1, h2⟩ := unit_label hk
  unfold alone at h
  rw [h1] at h
  have := List.all_eq_true.1 h _ h2
  simp only [bne_self_eq_false, Bool.false_or, Bool.or_eq_true, beq_iff_eq, Bool.not_eq_true'] at this
  rcases this with h | h
  · exact h
  · rw [List.contains_iff_mem.2 (mem_basicNames.2 ⟨k, hk, rfl⟩)] at h
    cases h

/-- what is checked of a unit of a table -/
def constantOk (c u : Str) : Bool :=
  stdClasses.contains c && !unlistedUnits.contains u && !ambiguousNames.contains u && !u.contains '/' && !u.contains '*' && Py.stripWs u == u &&
    if c = s!!"Resistance" then (basicNames s!!"Impedance").contains u else (namesOf c).contains u && alone c u

theorem constants_check : (constants.all fun e => constantOk e.2.1 e.2.2) = true := by decide +kernel

theorem constant_units {L : Lib} (h : ShippedClasses L) {c u : Str} (hc : constantOk c u = true) (x : Rat) :
    units x u L = (.ok ⟨.std c, u, x⟩, L) := by
  simp only [constantOk, Bool.and_eq_true, Bool.not_eq_true', beq_iff_eq, List.contains_iff_mem] at hc
  obtain ⟨⟨⟨⟨⟨⟨h1, h2⟩, h3⟩, h4⟩, h5⟩, h6⟩, h7⟩ := hc
  split at h7
  · next e =>
    subst e
    exact C81_impedance_fails h (builtIn_mem (by simpa using h7) (by decide)) x
  · simp only [Bool.and_eq_true] at h7
    exact C81_class_partial h h1 (builtIn_namesOf h7.1 h1) (by simpa using h2) (by simpa using h3) ⟨by simpa using h4, by simpa using h5⟩
      (fun q hq => alone_only h7.2 hq) h6 x

/-- C105. After `import unyts.unitary` each constant is one of the unit its name says, a quantity of the class its heading says; the
ounce, which is a weight and a volume, belongs to no class. Importing the module changes nothing. -/
theorem C105_constants {L : Lib} (h : ShippedClasses L) (hall : ∀ q u, Lists L.dict q u → u ∈ L.allUnits) :
    ∃ vars, execModule [] unitaryModule L = (.ok vars, L) ∧ vars.length = 70 ∧
      (∀ v c u, (v, c, u) ∈ constants → Py.dictGet vars v = some ⟨.std c, u, 1⟩) ∧
      Py.dictGet vars s!!"ounce" = some ⟨.base, s!!"oz", 1⟩ := by
  have hr := eval_table
  cases he : evalModule tableUnits tableUnit [] unitaryModule with
  | none => rw [he] at hr; cases hr
  | some r =>
    rw [he] at hr
    simp only [Option.any_some, Bool.and_eq_true, beq_iff_eq, decide_eq_true_eq] at hr
    obtain ⟨⟨h1, h2⟩, h3⟩ := hr
    refine ⟨r, exec_eval ?_ ?_ he, h3, fun v c u hm => by simpa using List.all_eq_true.1 h1 _ hm, h2⟩
    · intro u q hq
      obtain ⟨e, hf, rfl⟩ := Option.map_eq_some_iff.1 hq
      have hu : e.2.2 = u := by simpa using List.find?_some hf
      rw [← hu]
      exact constant_units h (List.all_eq_true.1 constants_check _ (List.mem_of_find?_eq_some hf)) 1
    · intro u q hq
      unfold tableUnit at hq
      split at hq
      · next e =>
        subst e
        cases hq
        obtain ⟨n, hd, -⟩ := h
        have hl : Lists L.dict s!!"Weight" s!!"oz" :=
          (hd.unsigned ⟨by decide, by decide⟩).2 ⟨builtIn_mem (by decide +kernel) (by decide), by decide⟩
        have : Py.stripWs s!!"oz" = s!!"oz" := by decide
        simp only [construct, this, if_pos (hall _ _ hl)]
      · cases hq

/-- what is checked of the name of a constant that is the name of a unit -/
def namedOk (c v u : Str) : Bool :=
  c == s!!"Volume" || c == s!!"Resistance" || !(namesOf c).contains v ||
    (decide (readingOf u = readingOf v) && islandOf u == islandOf v && alone c v && alone c u && (namesOf c).contains u &&
      [u, v].all fun s => !unlistedUnits.contains s && !ambiguousNames.contains s && !gaugeNames.contains s && Py.stripWs s == s &&
        decide ('(' ∉ s ∧ ')' ∉ s ∧ (∀ c ∈ s.head?.toList ++ s.getLast?.toList, c ∉ [' ', '"', '\'']) ∧ s ≠ s!!"Empty" ∧ '/' ∉ s ∧ '*' ∉ s))

theorem named_check : (constants.all fun e => stdClasses.contains e.2.1 && namedOk e.2.1 e.1 e.2.2) = true := by decide +kernel

theorem namesOf_builtIn {c v : Str} (h : BuiltIn c v) : (namesOf c).contains v = true := by
  unfold namesOf
  rw [List.contains_iff_mem]
  obtain ⟨k, hk, e⟩ := h
  unfold quantityOf at e
  split at e
  · next h' =>
    subst e
    rw [if_pos rfl]
    simp only [List.mem_append]
    rcases h' with h' | h'
    · exact Or.inr (mem_basicNames.2 ⟨k, hk, h'⟩)
    · exact Or.inl (mem_basicNames.2 ⟨k, hk, h'⟩)
  · next h' =>
    split
    · next e' =>
      exfalso
      have key : (rawDictionary.all fun e => kindBase e.1 != s!!"Data" || (kindInstrs shippedPrefixes e.1 e.2).all fun i =>
        match i with | .node _ => false | _ => true) = true := by decide +kernel
      obtain ⟨x, hx, hi⟩ := hk
      have := List.all_eq_true.1 key _ hx
      rw [e, e'] at this
      simp only [bne_self_eq_false, Bool.false_or] at this
      have := List.all_eq_true.1 this _ hi
      simp at this
    · exact mem_basicNames.2 ⟨k, hk, e⟩

/-- two names of one volume, the one another way to write the other -/
structure OneVolume (s t u : Str) : Prop where
  one : u = s ∨ u = t
  built : BuiltIn s!!"Volume" u
  only : ∀ q, BuiltIn q u → q = s!!"Volume"
  clean : CleanName u
  listed : u ∉ unlistedUnits ∧ u ∉ ambiguousNames
  strip : Py.stripWs u = u

theorem gauged_volume {w0 : World} (hw : Started w0) (hg : 17 ≤ w0.par.maxGenerations) (hφ : w0.fvf ≠ some 0) {s t : Str}
    (h : s = t ∨ Respelled s t) : Gauged w0 s!!"Volume" (OneVolume s t) (fun _ => 1) := by
  have light : ∀ {u}, OneVolume s t u → ¬ BuiltIn s!!"Weight" u := fun hu hb => absurd (hu.only _ hb) (by decide)
  have pair : ∀ {a b}, OneVolume s t a → OneVolume s t b → a = b ∨ Respelled a b ∨ Respelled b a := by
    intro a b ha hb
    rcases ha.one with rfl | rfl <;> rcases hb.one with rfl | rfl
    · exact Or.inl rfl
    · exact h.imp id Or.inl
    · exact h.imp Eq.symm Or.inr
    · exact Or.inl rfl
  refine ⟨by decide, fun u h => h.built, fun u h => h.listed, fun u h => h.clean, fun u h => h.only, fun u h => h.strip, fun _ _ => one_pos,
    ?_, ?_⟩
  · intro a b ha hb cs hcs
    have hI : readingOf a = readingOf b ∧ islandOf a = islandOf b := by
      rcases pair ha hb with rfl | h | h
      · exact ⟨rfl, rfl⟩
      · exact ⟨(respelled_same h).1, (respelled_same h).2.1⟩
      · exact ⟨(respelled_same h).1.symm, (respelled_same h).2.1.symm⟩
    exact (liquid_found hw hg hφ hcs ⟨ha.built, light ha, ha.clean⟩ ⟨hb.built, light hb, hb.clean⟩ hI.2 (Or.inl (isRes_same hI.1)) none 1).2
  · intro a b ha hb cs hcs x
    rw [mul_one, div_one]
    rcases pair ha hb with rfl | h
    · have fa : Fluid a := ⟨ha.built, light ha, ha.clean⟩
      obtain ⟨_, h32, _⟩ := fa.numbers
      obtain ⟨c, hc⟩ := List.exists_mem_of_ne_nil _ (builtIn_ne_nil ha.built h32)
      have hbase := base_session hcs hw.fresh.wf
      refine C11_self _ (hw.reachable hcs) a fa.clean.1 ⟨c, hc, ?_, ?_⟩ (by rw [hbase.dic]; exact hw.shipped.liquid_noDensity fa fa) none x
      · rintro rfl; exact fa.clean.2.2 hc
      · rintro rfl; exact fa.clean.2.1 hc
    · exact C104_respelled_partial hw hg hφ hcs ha.built hb.built h (by decide) (fun _ => ⟨light ha, light hb⟩) ha.clean hb.clean none x

def volumeOk (v u : Str) : Bool :=
  (v == u || rawDictionary.any fun e => e.2.entries.any fun p => (respellings e.1 p).contains (v, u)) &&
    [u, v].all fun s => (basicNames s!!"Volume").contains s && alone s!!"Volume" s && !unlistedUnits.contains s && !ambiguousNames.contains s &&
      Py.stripWs s == s &&
        decide ('(' ∉ s ∧ ')' ∉ s ∧ (∀ c ∈ s.head?.toList ++ s.getLast?.toList, c ∉ [' ', '"', '\'']) ∧ s ≠ s!!"Empty" ∧ '/' ∉ s ∧ '*' ∉ s)

theorem volumes_check : (constants.all fun e => e.2.1 != s!!"Volume" || volumeOk e.1 e.2.2) = true := by decide +kernel

/-- C105 for volumes. -/
theorem volume_named {w0 : World} (hw : Started w0) (hg : 17 ≤ w0.par.maxGenerations) (hφ : w0.fvf ≠ some 0) {v u : Str}
    (hm : (v, s!!"Volume", u) ∈ constants) {L : Lib} (hL : Running w0 L) :
    ∃ L', Quantity.to ⟨.std s!!"Volume", u, 1⟩ v L = (.ok (.qty ⟨.std s!!"Volume", v, 1⟩), L') ∧ Running w0 L' := by
  have hk := List.all_eq_true.1 volumes_check _ hm
  simp only [bne_self_eq_false, Bool.false_or, volumeOk, Bool.and_eq_true, Bool.or_eq_true, beq_iff_eq, List.all_cons, List.all_nil,
    decide_eq_true_eq, Bool.not_eq_true'] at hk
  obtain ⟨hr, ⟨⟨⟨⟨⟨u1, u2⟩, u3⟩, u4⟩, u5⟩, u6⟩, ⟨⟨⟨⟨⟨v1, v2⟩, v3⟩, v4⟩, v5⟩, v6⟩, -⟩ := hk
  have hG := gauged_volume hw hg hφ (hr.imp id respelled_of)
  have pu : OneVolume v u u := ⟨Or.inr rfl, builtIn_mem u1 (by decide), fun q h => alone_only u2 h, Demo.cleanName_of u6,
    ⟨by simpa using u3, by simpa using u4⟩, u5⟩
  have pv : OneVolume v u v := ⟨Or.inl rfl, builtIn_mem v1 (by decide), fun q h => alone_only v2 h, Demo.cleanName_of v6,
    ⟨by simpa using v3, by simpa using v4⟩, v5⟩
  obtain ⟨L', h, r⟩ := hG.to hw.fresh.wf hL pu pv 1
  exact ⟨L', by rw [h]; simp, r⟩

/-- C105: a constant whose name is the name of a unit is one of that unit: converted to the unit of its name, its value is one,
whatever was asked before. The ohm is missing. -/
theorem C105_named_partial {w0 : World} (hw : Started w0) (hg : 17 ≤ w0.par.maxGenerations) (hφ : w0.fvf ≠ some 0) {v c u : Str}
    (hm : (v, c, u) ∈ constants) (hc : c ≠ s!!"Resistance") (hv : BuiltIn c v) {L : Lib} (hL : Running w0 L) :
    ∃ L', Quantity.to ⟨.std c, u, 1⟩ v L = (.ok (.qty ⟨.std c, v, 1⟩), L') ∧ Running w0 L' := by
  by_cases hvol : c = s!!"Volume"
  · subst hvol
    exact volume_named hw hg hφ hm hL
  have hk := List.all_eq_true.1 named_check _ hm
  simp only [namedOk, Bool.and_eq_true, Bool.or_eq_true, beq_iff_eq, List.contains_iff_mem, List.all_cons, List.all_nil, decide_eq_true_eq,
    Bool.not_eq_true'] at hk
  obtain ⟨hs, hk⟩ := hk
  have hk := hk.resolve_left (by
    rw [namesOf_builtIn hv]
    simp [hc, hvol])
  obtain ⟨⟨⟨⟨⟨r1, r2⟩, o1⟩, o2⟩, b⟩, ⟨⟨⟨⟨u1, u2⟩, u3⟩, u4⟩, u5⟩, ⟨⟨⟨⟨v1, v2⟩, v3⟩, v4⟩, v5⟩, -⟩ := hk
  have hq : c ∉ [s!!"Volume", s!!"Density", s!!"PressureGradient", s!!"Dimensionless", s!!"Percentage", s!!"Date"] := by
    have : ∀ e ∈ constants, e.2.1 ∉ [s!!"Density", s!!"PressureGradient", s!!"Dimensionless", s!!"Percentage", s!!"Date"] := by decide
    have := this _ hm
    rw [List.mem_cons, not_or]
    exact ⟨hvol, this⟩
  have hG := gauged_readings (m := u) hw hg hφ hs hq
  have pu : OneReading c u u := ⟨⟨rfl, rfl⟩, builtIn_namesOf (by rw [List.contains_iff_mem]; exact b) hs, fun q h => alone_only o2 h, Demo.cleanName_of u5,
    ⟨by simpa using u1, by simpa using u2⟩, by simpa using u3, u4⟩
  have pv : OneReading c u v := ⟨⟨r1, r2⟩, hv, fun q h => alone_only o1 h, Demo.cleanName_of v5,
    ⟨by simpa using v1, by simpa using v2⟩, by simpa using v3, v4⟩
  obtain ⟨L', h, r⟩ := hG.to hw.fresh.wf hL pu pv 1
  exact ⟨L', by rw [h]; simp, r⟩

/-! ### concrete cases -/

/-- a library whose list of units is complete -/
theorem classes_ex : ∃ L, ShippedClasses L ∧ ∀ q u, Lists L.dict q u → u ∈ L.allUnits := by
  obtain ⟨w, hw, -, -⟩ := started_ex
  obtain ⟨d, h1, h2⟩ := hw.shipped
  refine ⟨⟨w, d, d.flatMap Prod.snd, [], fun _ => [], 0⟩, ⟨_, h1, h2⟩, ?_⟩
  rintro q u ⟨l, hl, hu⟩
  exact List.mem_flatMap.2 ⟨(q, l), dictGet_mem hl, hu⟩

example : ∃ L vars, execModule [] unitaryModule L = (.ok vars, L) ∧
    Py.dictGet vars s!!"barrel" = some ⟨.std s!!"Volume", s!!"stb", 1⟩ ∧ Py.dictGet vars s!!"ohm" = some ⟨.std s!!"Resistance", s!!"Ω", 1⟩ := by
  obtain ⟨L, h1, h2⟩ := classes_ex
  obtain ⟨vars, h, -, hc, -⟩ := C105_constants h1 h2
  exact ⟨L, vars, h, hc _ _ _ (by decide), hc _ _ _ (by decide)⟩

/-- the constant `celsius` is one degree Celsius -/
example : ∃ w L, Started w ∧ Running w L ∧ (Quantity.to ⟨.std s!!"Temperature", s!!"deg C", 1⟩ s!!"celsius" L).1 =
    .ok (.qty ⟨.std s!!"Temperature", s!!"celsius", 1⟩) := by
  obtain ⟨w, hw, hp, hf⟩ := started_ex
  obtain ⟨L, _, hL⟩ := hw.running
  obtain ⟨L', h, _⟩ := C105_named_partial hw (by rw [hp]; decide) (by rw [hf]; decide) (v := s!!"celsius") (c := s!!"Temperature")
    (u := s!!"deg C") (by decide) (by decide) (builtIn_mem (by decide +kernel) (by decide)) hL
  exact ⟨w, L, hw, hL, by rw [h]⟩

end Unyts
