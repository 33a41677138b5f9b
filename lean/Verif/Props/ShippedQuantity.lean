import Verif.Props.ShippedRatio
import Verif.Spec.Programs

/- Programs that compute with quantities, on the shipped library. -/
namespace Unyts
open Spec Quantity

/-- `P` are names of the class `n` for which the converter works with the sizes `size`. -/
structure Gauged (w0 : World) (n : Str) (P : Str → Prop) (size : Str → Rat) : Prop where
  cls : n ∈ stdClasses
  built : ∀ u, P u → BuiltIn n u
  listed : ∀ u, P u → u ∉ unlistedUnits ∧ u ∉ ambiguousNames
  clean : ∀ u, P u → CleanName u
  only : ∀ u, P u → ∀ q, BuiltIn q u → q = n
  strip : ∀ u, P u → Py.stripWs u = u
  pos : ∀ u, P u → 0 < size u
  ask : ∀ a b, P a → P b → ∀ cs, (∀ c ∈ cs, Asks c) → (convertible a b none (session cs w0)).1 = .ok true
  conv : ∀ a b, P a → P b → ∀ cs, (∀ c ∈ cs, Asks c) → ∀ x,
    (convert (some x) (some a) (some b) none (session cs w0)).1 = .ok (some (.num (x * size a / size b)))

section
variable {w0 : World} {n : Str} {P : Str → Prop} {size : Str → Rat}

theorem Spec.Running.of_world {L : Lib} (hg : WF w0.net) (h : Running w0 L) {c : Call} (hc : Asks c) :
    Running w0 { L with w := c.run L.w } := by
  obtain ⟨⟨cs, hcs, hL⟩, m, hm, hd⟩ := h
  have hb := base_session hcs hg
  have hb2 := base_asks hc (w := session cs w0) (by rw [hb.net]; exact hg)
  refine ⟨⟨cs ++ [c], ?_, ?_⟩, m, hm, ?_⟩
  · intro c' h'
    rcases List.mem_append.1 h' with h' | h'
    · exact hcs c' h'
    · rw [List.mem_singleton.1 h']; exact hc
  · rw [session_append, ← hL]; rfl
  · show (c.run L.w).dic = _
    rw [hL, hb2.dic, ← hL]; exact hd

theorem Gauged.units (h : Gauged w0 n P size) {L : Lib} (hL : Running w0 L) {u : Str} (hu : P u) (x : Rat) :
    units x u L = (.ok ⟨.std n, u, x⟩, L) :=
  C81_class_partial hL.2 h.cls (h.built u hu) (h.listed u hu).1 (h.listed u hu).2 (h.clean u hu).2 (h.only u hu) (h.strip u hu) x

theorem Gauged.construct (h : Gauged w0 n P size) {L : Lib} (hL : Running w0 L) {u : Str} (hu : P u) (x : Rat) :
    construct (.std n) x u L = (.ok ⟨.std n, u, x⟩, L) := by
  obtain ⟨_, m, hm, _⟩ := hL
  obtain ⟨l, h1, h2⟩ := (hm.unsigned (h.clean u hu).2).2 ⟨h.built u hu, (h.listed u hu).1⟩
  have : u ∈ L.names n := by unfold Lib.names; rw [h1]; exact h2
  simp [Unyts.construct, Kind.key, this]

theorem Gauged.convertible (h : Gauged w0 n P size) (hg : WF w0.net) {L : Lib} (hL : Running w0 L) {a b : Str} (ha : P a) (hb : P b) :
    ∃ L', libConvertible a b L = (.ok true, L') ∧ Running w0 L' := by
  obtain ⟨cs, hcs, e⟩ := hL.1
  refine ⟨{ L with w := (Call.convertible a b none).run L.w }, ?_, hL.of_world hg (c := .convertible a b none) trivial⟩
  unfold libConvertible onWorld
  rw [e, h.ask a b ha hb cs hcs]
  rfl

theorem Gauged.convert (h : Gauged w0 n P size) (hg : WF w0.net) {L : Lib} (hL : Running w0 L) {a b : Str} (ha : P a) (hb : P b)
    (er : PyErr) (x : Rat) :
    ∃ L', libConvert er x a b L = (.ok (x * size a / size b), L') ∧ Running w0 L' := by
  obtain ⟨cs, hcs, e⟩ := hL.1
  refine ⟨{ L with w := (Call.convert (some x) (some a) (some b) none).run L.w }, ?_,
    hL.of_world hg (c := .convert (some x) (some a) (some b) none) trivial⟩
  unfold libConvert
  rw [PyM.run_bind_ok (a := some (.num (x * size a / size b)))
    (s' := { L with w := (Call.convert (some x) (some a) (some b) none).run L.w })]
  · rfl
  · unfold onWorld
    rw [e, h.conv a b ha hb cs hcs]
    rfl

theorem Gauged.to (h : Gauged w0 n P size) (hg : WF w0.net) {L : Lib} (hL : Running w0 L) {a b : Str} (ha : P a) (hb : P b) (x : Rat) :
    ∃ L', Quantity.to ⟨.std n, a, x⟩ b L = (.ok (.qty ⟨.std n, b, x * size a / size b⟩), L') ∧ Running w0 L' := by
  obtain ⟨L1, e1, r1⟩ := h.convertible hg hL ha hb
  obtain ⟨L2, e2, r2⟩ := h.convert hg r1 ha hb .wrongValue x
  refine ⟨L2, ?_, r2⟩
  unfold Quantity.to
  have : ∀ m m' : PyM Lib Obj, (if (⟨.std n, a, x⟩ : Quantity).unitless then m else m') L = m' L := by
    intro m m'; rw [if_neg]; simp [unitless]
  refine (this _ _).trans ?_
  rw [PyM.run_bind_ok e1, if_pos rfl]
  dsimp only
  rw [PyM.run_bind_ok e2, PyM.run_bind_ok (h.construct r2 hb _)]
  rfl

theorem Gauged.addLike (h : Gauged w0 n P size) (hg : WF w0.net) {L : Lib} (hL : Running w0 L) {a b : Str} (ha : P a) (hb : P b)
    (op : Rat → Rat → Rat) (x y : Rat) :
    ∃ L', Quantity.addLike op ⟨.std n, a, x⟩ ⟨.std n, b, y⟩ L =
      (.ok (.qty ⟨.std n, a, op x (y * size b / size a)⟩), L') ∧ Running w0 L' := by
  unfold Quantity.addLike
  rw [if_pos rfl]
  by_cases hab : a = b
  · subst hab
    refine ⟨L, ?_, hL⟩
    rw [if_pos rfl, PyM.run_bind_ok (h.construct hL ha _), mul_div_cancel_right₀ _ (h.pos a ha).ne']
    rfl
  · obtain ⟨L1, e1, r1⟩ := h.convertible hg hL hb ha
    obtain ⟨L2, e2, r2⟩ := h.convert hg r1 hb ha .typeError y
    refine ⟨L2, ?_, r2⟩
    rw [if_neg hab, PyM.run_bind_ok e1, if_pos rfl, PyM.run_bind_ok e2, PyM.run_bind_ok (h.construct r2 ha _)]
    rfl

/-- programs with these names do what they mean -/
theorem Gauged.run (h : Gauged w0 n P size) (hg : WF w0.net) (e : Program) (he : ∀ u ∈ e.names, P u) (hz : e.Defined)
    {L : Lib} (hL : Running w0 L) :
    P e.unit ∧ ∃ L', e.run L = (.ok ⟨.std n, e.unit, e.amount size / size e.unit⟩, L') ∧ Running w0 L' := by
  induction e generalizing L with
  | units x u =>
    have hu := he u (by simp [Program.names])
    refine ⟨hu, L, ?_, hL⟩
    simp only [Program.run, Program.unit, Program.amount]
    rw [h.units hL hu, mul_div_cancel_right₀ _ (h.pos u hu).ne']
  | add e f ihe ihf =>
    obtain ⟨pe, L1, e1, r1⟩ := ihe (fun u hu => he u (by simp [Program.names, hu])) hz.1 hL
    obtain ⟨pf, L2, e2, r2⟩ := ihf (fun u hu => he u (by simp [Program.names, hu])) hz.2 r1
    obtain ⟨L3, e3, r3⟩ := h.addLike hg r2 pe pf (· + ·) (e.amount size / size e.unit) (f.amount size / size f.unit)
    refine ⟨pe, L3, ?_, r3⟩
    simp only [Program.run, Program.unit, Program.amount]
    rw [PyM.run_bind_ok e1, PyM.run_bind_ok e2, PyM.run_bind_ok (by unfold Quantity.add; exact e3), div_mul_cancel₀ _ (h.pos _ pf).ne', add_div]
    rfl
  | sub e f ihe ihf =>
    obtain ⟨pe, L1, e1, r1⟩ := ihe (fun u hu => he u (by simp [Program.names, hu])) hz.1 hL
    obtain ⟨pf, L2, e2, r2⟩ := ihf (fun u hu => he u (by simp [Program.names, hu])) hz.2 r1
    obtain ⟨L3, e3, r3⟩ := h.addLike hg r2 pe pf (· - ·) (e.amount size / size e.unit) (f.amount size / size f.unit)
    refine ⟨pe, L3, ?_, r3⟩
    simp only [Program.run, Program.unit, Program.amount]
    rw [PyM.run_bind_ok e1, PyM.run_bind_ok e2, PyM.run_bind_ok (by unfold Quantity.sub; exact e3), div_mul_cancel₀ _ (h.pos _ pf).ne', sub_div]
    rfl
  | neg e ih =>
    obtain ⟨pe, L1, e1, r1⟩ := ih he hz hL
    refine ⟨pe, L1, ?_, r1⟩
    simp only [Program.run, Program.unit, Program.amount]
    rw [PyM.run_bind_ok e1]
    show Unyts.construct (.std n) _ _ L1 = _
    rw [h.construct r1 pe, neg_div]
  | abs e ih =>
    obtain ⟨pe, L1, e1, r1⟩ := ih he hz hL
    refine ⟨pe, L1, ?_, r1⟩
    simp only [Program.run, Program.unit, Program.amount]
    rw [PyM.run_bind_ok e1]
    show Unyts.construct (.std n) _ _ L1 = _
    rw [h.construct r1 pe]
    have := h.pos _ pe
    have key : e.amount size / size e.unit < 0 ↔ e.amount size < 0 := by rw [div_lt_iff₀ this, zero_mul]
    simp only [key]
    split <;> simp [neg_div]
  | «to» e u ih =>
    obtain ⟨pe, L1, e1, r1⟩ := ih (fun v hv => he v (by simp [Program.names, hv])) hz hL
    have hu := he u (by simp [Program.names])
    obtain ⟨L2, e2, r2⟩ := h.to hg r1 pe hu (e.amount size / size e.unit)
    refine ⟨hu, L2, ?_, r2⟩
    simp only [Program.run, Program.unit, Program.amount]
    rw [PyM.run_bind_ok e1, PyM.run_bind_ok e2, div_mul_cancel₀ _ (h.pos _ pe).ne']
    rfl
  | addNum e x ih =>
    obtain ⟨pe, L1, e1, r1⟩ := ih he hz hL
    refine ⟨pe, L1, ?_, r1⟩
    simp only [Program.run, Program.unit, Program.amount]
    rw [PyM.run_bind_ok e1]
    show Unyts.construct (.std n) _ _ L1 = _
    rw [h.construct r1 pe, add_div, mul_div_cancel_right₀ _ (h.pos _ pe).ne']
  | subNum e x ih =>
    obtain ⟨pe, L1, e1, r1⟩ := ih he hz hL
    refine ⟨pe, L1, ?_, r1⟩
    simp only [Program.run, Program.unit, Program.amount]
    rw [PyM.run_bind_ok e1]
    show Unyts.construct (.std n) _ _ L1 = _
    rw [h.construct r1 pe, sub_div, mul_div_cancel_right₀ _ (h.pos _ pe).ne']
  | mulNum e x ih =>
    obtain ⟨pe, L1, e1, r1⟩ := ih he hz hL
    refine ⟨pe, L1, ?_, r1⟩
    simp only [Program.run, Program.unit, Program.amount]
    rw [PyM.run_bind_ok e1]
    show Unyts.construct (.std n) _ _ L1 = _
    rw [h.construct r1 pe, mul_div_right_comm]
  | divNum e x ih =>
    obtain ⟨pe, L1, e1, r1⟩ := ih he hz.1 hL
    refine ⟨pe, L1, ?_, r1⟩
    simp only [Program.run, Program.unit, Program.amount]
    rw [PyM.run_bind_ok e1]
    unfold Quantity.divNum
    rw [PyM.run_bind_ok (a := e.amount size / size e.unit / x) (s' := L1) (by simp [pdiv, hz.2, PyM.lift])]
    show Unyts.units _ _ L1 = _
    rw [h.units r1 pe, div_right_comm]

/-- comparisons compare the amounts -/
theorem Gauged.compare (h : Gauged w0 n P size) (hg : WF w0.net) {L : Lib} (hL : Running w0 L) {a b : Str} (ha : P a) (hb : P b)
    (c : Cmp) (x y : Rat) :
    ∃ L', Quantity.compare c ⟨.std n, a, x⟩ ⟨.std n, b, y⟩ L = (.ok (c.holds (x * size a) (y * size b)), L') ∧ Running w0 L' := by
  obtain ⟨L1, e1, r1⟩ := h.to hg hL hb ha y
  refine ⟨L1, ?_, r1⟩
  unfold Quantity.compare
  rw [if_pos rfl, PyM.run_bind_ok e1]
  show (Except.ok _, L1) = _
  congr 2
  have := h.pos a ha
  cases c <;> simp [Cmp.holds, lt_div_iff₀ this, le_div_iff₀ this, div_lt_iff₀ this, div_le_iff₀ this, eq_div_iff this.ne']

end

/-! ### the units with a standard size -/

set_option maxRecDepth 1000000

def hasCode : List Nat → Nat → Bool
  | [], _ => false
  | k :: l, n => bif Nat.beq k n then true else hasCode l n

theorem hasCode_mem {l : List Nat} {n : Nat} (h : n ∈ l) : hasCode l n = true := by
  induction l with
  | nil => cases h
  | cons k l ih =>
    rcases List.mem_cons.1 h with rfl | h
    · simp [hasCode]
    · simp only [hasCode, ih h]; cases Nat.beq k n <;> rfl

/-- the pairs of quantities that share conversions: the first has standard sizes -/
def sharing : List (Str × Str) := [(s!!"Area", s!!"Permeability"), (s!!"Force", s!!"Mass"), (s!!"Weight", s!!"Volume")]

theorem tables_only : (sharing.all fun p => rawDictionary.all fun e => if quantityOf e.1 = p.2 then
   (fun ts => (nodesOf (kindInstrs shippedPrefixes e.1 e.2)).all fun s => !(hasCode ts (code s 1)))
   ((sizeTables.filter fun t => t.1 == p.1).flatMap fun t => t.2.map fun u => code u.1 1) else true) = true := by decide +kernel

theorem tables_labels : (sizeTables.all fun e => e.2.all fun u => kindLabels.all fun k => some k.2 != labelOf u.1 ||
  k.1 == e.1 || (e.1 == s!!"Data" && (k.1 == s!!"dataBYTE" || k.1 == s!!"dataBIT")) || sharing.contains (e.1, k.1)) = true := by decide +kernel

/-- the names of a quantity -/
def allNames (q : Str) : List Str :=
  (rawDictionary.filter fun e => quantityOf e.1 == q).flatMap fun e => nodesOf (kindInstrs shippedPrefixes e.1 e.2)

theorem mem_allNames {q u : Str} (h : u ∈ allNames q) : BuiltIn q u := by
  obtain ⟨e, he, hu⟩ := List.mem_flatMap.1 h
  obtain ⟨h1, h2⟩ := List.mem_filter.1 he
  obtain ⟨i, hi, e2⟩ := List.mem_filterMap.1 hu
  refine ⟨e.1, ⟨e.2, h1, ?_⟩, by simpa using h2⟩
  cases i <;> simp at e2
  rw [← e2]; exact hi

theorem tables_built : (sizeTables.all fun e => (fun l => e.2.all fun u => l.contains u.1) (allNames e.1)) = true := by decide +kernel

theorem sizeTables_ok : ∀ e ∈ sizeTables, e.1 ∈ stdClasses ∧ e.1 ≠ s!!"Dimensionless" ∧
    ∀ u ∈ e.2, u.1 ∉ unlistedUnits ∧ u.1 ∉ ambiguousNames ∧ 0 < u.2 := by decide +kernel

theorem table_list : ∀ e ∈ sizeTables, e.2 ∈ standardSizes ∨
    e = (s!!"Pressure", pressureSizes) ∨ e = (s!!"Weight", weightSizes) := by decide +kernel

theorem table_only {n : Str} {l : List (Str × Rat)} (hn : (n, l) ∈ sizeTables) {u : Str} {s : Rat} (hu : (u, s) ∈ l) {q : Str}
    (hq : BuiltIn q u) : q = n := by
  obtain ⟨m, h1, b, h2, h3⟩ := builtIn_label hq
  have := List.all_eq_true.1 (List.all_eq_true.1 (List.all_eq_true.1 tables_labels _ hn) _ hu) _ h2
  simp only [Bool.or_eq_true, Bool.and_eq_true, beq_iff_eq, bne_iff_ne, ne_eq, List.contains_iff_mem, h1, not_true_eq_false,
    false_or] at this
  rcases this with (h4 | ⟨h4, h5⟩) | h4
  · rw [h3, if_neg]
    · exact h4
    · have : ∀ e ∈ sizeTables, ¬ (e.1 = s!!"dataBYTE" ∨ e.1 = s!!"dataBIT") := by decide +kernel
      rw [h4]; exact this _ hn
  · rw [h3, if_pos h5, h4]
  · exfalso
    have hb : ∀ p ∈ sharing, ¬ (p.2 = s!!"dataBYTE" ∨ p.2 = s!!"dataBIT") := by decide
    rw [if_neg (hb _ h4)] at h3
    obtain ⟨k, ⟨v, hv, hi⟩, e⟩ := hq
    have := List.all_eq_true.1 (List.all_eq_true.1 tables_only _ h4) _ hv
    simp only at this
    rw [if_pos (e.trans h3)] at this
    have := List.all_eq_true.1 this u (List.mem_filterMap.2 ⟨_, hi, rfl⟩)
    rw [hasCode_mem (List.mem_flatMap.2 ⟨(n, l), List.mem_filter.2 ⟨hn, by simp⟩, List.mem_map.2 ⟨(u, s), hu, rfl⟩⟩)] at this
    cases this

/-- the library works with the standard sizes -/
theorem gauged_table {w0 : World} (hw : Started w0) (hg : 17 ≤ w0.par.maxGenerations) (hφ : w0.fvf ≠ some 0) {n : Str}
    {l : List (Str × Rat)} (hn : (n, l) ∈ sizeTables) (size : Str → Rat) : Gauged w0 n (fun u => (u, size u) ∈ l) size := by
  have hl : SizeList l := by
    rcases table_list _ hn with h | h | h
    · exact Or.inl h
    · cases h; exact Or.inr (Or.inl rfl)
    · cases h; exact Or.inr (Or.inr rfl)
  have hb : ∀ u, (u, size u) ∈ l → BuiltIn n u := by
    intro u hu
    have := List.all_eq_true.1 (List.all_eq_true.1 tables_built _ hn) _ hu
    exact mem_allNames (List.contains_iff_mem.1 this)
  obtain ⟨o1, o2, o3⟩ := sizeTables_ok _ hn
  refine ⟨o1, hb, fun u hu => ⟨(o3 _ hu).1, (o3 _ hu).2.1⟩, fun u hu => sized_clean hl _ hu, fun u hu q => table_only hn hu, ?_,
    fun u hu => (o3 _ hu).2.2, ?_, ?_⟩
  · intro u hu
    exact plain_strip ((builtIn_writing (hb u hu)).1.resolve_right fun h => o2 h.2)
  · intro a b ha hb' cs hcs
    have ca := sized_clean hl _ ha
    have cb := sized_clean hl _ hb'
    have hnet := hw.shipped.network
    rcases table_list _ hn with h | h | h
    · obtain ⟨hi, q, ba, hq⟩ := standard_unit h ha hb'
      obtain ⟨_, q', bb, _⟩ := standard_unit h hb' ha
      exact C88_convertible_partial hw hcs ba hq ca cb ((hnet.reach_iff (builtIn_isName ba) (builtIn_isName bb)).2 hi) none
    · cases h
      exact C88_convertible_partial hw hcs (hb a ha) (by decide) ca cb (C87_connected_partial hnet (by decide) (hb a ha) (hb b hb')) none
    · cases h
      obtain ⟨k, _, h⟩ := weight_size
      obtain ⟨_, b1, i1, _⟩ := h _ ha
      obtain ⟨_, b2, i2, nd, _⟩ := h _ hb'
      exact weight_convertible hw hg hcs b1 b2 ca cb (fun _ h => nd h.2)
        ((hnet.reach_iff (builtIn_isName b1) (builtIn_isName b2)).2 (i1.trans i2.symm)) none
  · intro a b ha hb' cs hcs x
    rcases hl with hl | rfl | rfl
    · exact C76_exact hw hφ hcs hl ha hb' none x
    · exact C95_exact hw hφ hcs ha hb' none x
    · exact C93_exact hw hg hφ hcs ha hb' none x

/-- C97. A program that computes with quantities of one class, written with units that have a standard size, gives what it
means: after `import unyts` and any conversions and questions, its result is a quantity of that class in the unit of the
first operand, with the exact amount, and the library is left ready for the next program. -/
theorem C97_program_partial {w0 : World} (hw : Started w0) (hg : 17 ≤ w0.par.maxGenerations) (hφ : w0.fvf ≠ some 0) {n : Str}
    {l : List (Str × Rat)} (hn : (n, l) ∈ sizeTables) (size : Str → Rat) (e : Program) (he : ∀ u ∈ e.names, (u, size u) ∈ l)
    (hz : e.Defined) {L : Lib} (hL : Running w0 L) :
    ∃ L', e.run L = (.ok ⟨.std n, e.unit, e.amount size / size e.unit⟩, L') ∧ Running w0 L' :=
  ((gauged_table hw hg hφ hn size).run hw.fresh.wf e he hz hL).2

/-- C97 for comparisons: the results of two such programs compare as their amounts. -/
theorem C97_compare_partial {w0 : World} (hw : Started w0) (hg : 17 ≤ w0.par.maxGenerations) (hφ : w0.fvf ≠ some 0) {n : Str}
    {l : List (Str × Rat)} (hn : (n, l) ∈ sizeTables) (size : Str → Rat) (e f : Program)
    (he : ∀ u ∈ e.names ++ f.names, (u, size u) ∈ l) (hz : e.Defined ∧ f.Defined) (c : Cmp) {L : Lib} (hL : Running w0 L) :
    ∃ L', (do let p ← e.run; let q ← f.run; p.compare c q) L = (.ok (c.holds (e.amount size) (f.amount size)), L') ∧
      Running w0 L' := by
  have hG := gauged_table hw hg hφ hn size
  obtain ⟨pe, L1, e1, r1⟩ := hG.run hw.fresh.wf e (fun u hu => he u (List.mem_append_left _ hu)) hz.1 hL
  obtain ⟨pf, L2, e2, r2⟩ := hG.run hw.fresh.wf f (fun u hu => he u (List.mem_append_right _ hu)) hz.2 r1
  obtain ⟨L3, e3, r3⟩ := hG.compare hw.fresh.wf r2 pe pf c (e.amount size / size e.unit) (f.amount size / size f.unit)
  refine ⟨L3, ?_, r3⟩
  rw [PyM.run_bind_ok e1, PyM.run_bind_ok e2, e3, div_mul_cancel₀ _ (hG.pos _ pe).ne', div_mul_cancel₀ _ (hG.pos _ pf).ne']

/-- the library right after the import -/
theorem Spec.Started.running {w : World} (hw : Started w) : ∃ L, L.w = w ∧ Running w L := by
  obtain ⟨d, h1, h2⟩ := hw.shipped
  exact ⟨⟨w, d, [], [], fun _ => [], 0⟩, rfl, ⟨[], by simp, rfl⟩, _, h1, h2⟩

/-- `((units(3, 'mile') + units(100, 'yard')).to('foot') - units(1, 'inch')) / 2` -/
def walk : Program :=
  .divNum (.sub (.to (.add (.units 3 s!!"mile") (.units 100 s!!"yard")) s!!"foot") (.units 1 s!!"inch")) 2

/-- the sizes of lengths, by name -/
def lengthSize (u : Str) : Rat := (Py.dictGet standardSizes[0] u).getD 0

theorem walk_amount : walk.amount lengthSize / lengthSize walk.unit = 193679 / 24 := by
  have h1 : lengthSize s!!"mile" = 201168 / 125 := by decide +kernel
  have h2 : lengthSize s!!"yard" = 1143 / 1250 := by decide +kernel
  have h3 : lengthSize s!!"inch" = 127 / 5000 := by decide +kernel
  have h4 : lengthSize s!!"foot" = 381 / 1250 := by decide +kernel
  simp only [walk, Program.amount, Program.unit, h1, h2, h3, h4]
  norm_num

example : ∃ w L, Started w ∧ Running w L ∧ (walk.run L).1 = .ok ⟨.std s!!"Length", s!!"foot", 193679 / 24⟩ ∧
    ((do let p ← walk.run; let q ← (Program.units 2 s!!"nautical mile").run; p.compare .lt q) L).1 = .ok true := by
  obtain ⟨w, hw, hp, hf⟩ := started_ex
  obtain ⟨L, _, hL⟩ := hw.running
  have hn : ∀ u ∈ walk.names ++ (Program.units 2 s!!"nautical mile").names, (u, lengthSize u) ∈ standardSizes[0] := by decide +kernel
  obtain ⟨L1, h1, _⟩ := C97_program_partial hw (by rw [hp]; decide) (by rw [hf]; decide) (n := s!!"Length") (by decide +kernel)
    lengthSize walk (fun u hu => hn u (List.mem_append_left _ hu)) (by simp [walk, Program.Defined]) hL
  obtain ⟨L2, h2, _⟩ := C97_compare_partial hw (by rw [hp]; decide) (by rw [hf]; decide) (n := s!!"Length") (by decide +kernel)
    lengthSize walk (.units 2 s!!"nautical mile") hn (by simp [walk, Program.Defined]) .lt hL
  refine ⟨w, L, hw, hL, ?_, ?_⟩
  · rw [h1, walk_amount]; rfl
  · rw [h2]
    have h4 : lengthSize walk.unit = 381 / 1250 := by decide +kernel
    have h5 : lengthSize s!!"nautical mile" = 1852 := by decide +kernel
    have h6 := walk_amount
    rw [h4, div_eq_iff (by norm_num)] at h6
    rw [h6]
    simp only [Program.amount, h5, Cmp.holds]
    norm_num

/-! ### all the units of proportional classes -/

theorem amount_reads : (rawDictionary.all fun e => if amountQuantities.contains (quantityOf e.1) then
    (nodesOf (kindInstrs shippedPrefixes e.1 e.2)).all fun s => match readingOf s with
      | some r => decide (0 < r.s ∧ r.o = 0 ∧ r.e = 0 ∧ r.api = false)
      | none => false
    else true) = true := by decide +kernel

theorem amount_ok : ∀ n ∈ amountQuantities, n ∈ stdClasses ∧ n ∉ specialQuantities ∧ n ≠ s!!"Pressure" ∧ n ≠ s!!"Volume" ∧
    n ≠ s!!"Dimensionless" := by decide +kernel

theorem odd_names : ((unlistedUnits ++ ambiguousNames).all fun u => (basicNames s!!"Volume").contains u ||
    (basicNames s!!"Weight").contains u) = true := by decide +kernel

/-- the size of a unit: the scale of its reading -/
def scaleOf (u : Str) : Rat := ((readingOf u).map Reading.s).getD 0

theorem amount_reading {n u : Str} (hn : n ∈ amountQuantities) (hu : BuiltIn n u) :
    readingOf u = some ⟨scaleOf u, 0, 0, false⟩ ∧ 0 < scaleOf u := by
  obtain ⟨k, ⟨v, hv, hi⟩, rfl⟩ := hu
  have := List.all_eq_true.1 amount_reads _ hv
  rw [if_pos (List.contains_iff_mem.2 hn)] at this
  have := List.all_eq_true.1 this u (List.mem_filterMap.2 ⟨_, hi, rfl⟩)
  unfold scaleOf
  cases hr : readingOf u with
  | none => rw [hr] at this; cases this
  | some r =>
    rw [hr] at this
    simp only [decide_eq_true_eq] at this
    obtain ⟨h1, h2, h3, h4⟩ := this
    obtain ⟨s, o, e, api⟩ := r
    simp only at h1 h2 h3 h4
    subst h2 h3 h4
    exact ⟨rfl, h1⟩

theorem gauged_amount {w0 : World} (hw : Started w0) (hφ : w0.fvf ≠ some 0) {n : Str} (hn : n ∈ amountQuantities) {P : Str → Prop}
    (hP : ∀ u, P u → BuiltIn n u ∧ CleanName u ∧ ∀ q, BuiltIn q u → q = n)
    (hr : ∀ a b, P a → P b → Reach (LinkedName w0.net) a b) : Gauged w0 n P scaleOf := by
  obtain ⟨o1, o2, o3, o4, o5⟩ := amount_ok n hn
  have odd : ∀ u, P u → u ∉ unlistedUnits ++ ambiguousNames := by
    intro u hu hm
    have := List.all_eq_true.1 odd_names u hm
    rcases Bool.or_eq_true _ _ ▸ this with h | h
    · have := (hP u hu).2.2 _ (builtIn_mem h (by decide))
      exact o4 this.symm
    · have := (hP u hu).2.2 _ (builtIn_mem h (by decide))
      exact o2 (by rw [← this]; decide)
  refine ⟨o1, fun u hu => (hP u hu).1, fun u hu => ⟨fun h => odd u hu (List.mem_append_left _ h), fun h => odd u hu
    (List.mem_append_right _ h)⟩, fun u hu => (hP u hu).2.1, fun u hu => (hP u hu).2.2, fun u hu => ?_,
    fun u hu => (amount_reading hn (hP u hu).1).2, ?_, ?_⟩
  · exact plain_strip ((builtIn_writing (hP u hu).1).1.resolve_right fun h => o5 h.2)
  · intro a b ha hb cs hcs
    exact C88_convertible_partial hw hcs (hP a ha).1 o2 (hP a ha).2.1 (hP b hb).2.1 (hr a b ha hb) none
  · intro a b ha hb cs hcs x
    obtain ⟨hs, h32, h34⟩ := special_label (hP a ha).1 o2
    obtain ⟨y, h, e⟩ := shipped_answer hw hφ hcs (builtIn_isName (hP a ha).1) (builtIn_isName (hP b hb).1) hs h32 h34
      (fun h => o3 ((builtIn_numbers (hP a ha).1).2.2.2.2.2 h)) (hP a ha).2.1 (hP b hb).2.1 (hr a b ha hb) none x
    obtain ⟨ra, _⟩ := amount_reading hn (hP a ha).1
    obtain ⟨rb, nz⟩ := amount_reading hn (hP b hb).1
    simp only [shippedReading, ra, rb, Reading.at, Bool.false_eq_true, if_false, zpow_zero, mul_one, add_zero] at e
    rw [h, eq_div_of_mul_eq nz.ne' (show y * scaleOf b = x * scaleOf a by rw [mul_comm, e, mul_comm])]

/-- C97 for all the built-in units of the classes with proportional units, on single names that belong to one class: the
units have sizes, the same for every process and every history, such that every program whose units are joined by
built-in conversions gives what it means by these sizes. -/
theorem C97_sizes_partial : ∃ size : Str → Rat, (∀ n ∈ amountQuantities, ∀ u, BuiltIn n u → 0 < size u) ∧
    ∀ w0, Started w0 → w0.fvf ≠ some 0 → ∀ n ∈ amountQuantities, ∀ e : Program, e.Defined →
      (∀ u ∈ e.names, BuiltIn n u ∧ CleanName u ∧ ∀ q, BuiltIn q u → q = n) →
      (∀ a ∈ e.names, ∀ b ∈ e.names, Reach (LinkedName w0.net) a b) → ∀ L, Running w0 L →
      ∃ L', e.run L = (.ok ⟨.std n, e.unit, e.amount size / size e.unit⟩, L') ∧ Running w0 L' := by
  refine ⟨scaleOf, fun n hn u hu => (amount_reading hn hu).2, ?_⟩
  intro w0 hw hφ n hn e hz he hr L hL
  exact ((gauged_amount hw hφ hn (P := (· ∈ e.names)) he fun a b ha hb => hr a ha b hb).run hw.fresh.wf e (fun _ h => h) hz hL).2

theorem power_ex : onlyIn s!!"Power" s!!"Watt" = true ∧ onlyIn s!!"Power" s!!"Horsepower" = true := by decide +kernel

example : ∃ size : Str → Rat, 0 < size s!!"Horsepower" ∧ ∃ w L, Started w ∧ Running w L ∧
    ((Program.add (.units 3 s!!"Watt") (.units 2 s!!"Horsepower")).run L).1 =
      .ok ⟨.std s!!"Power", s!!"Watt", (3 * size s!!"Watt" + 2 * size s!!"Horsepower") / size s!!"Watt"⟩ := by
  obtain ⟨size, pos, h⟩ := C97_sizes_partial
  obtain ⟨w, hw, hp, hf⟩ := started_ex
  obtain ⟨L, _, hL⟩ := hw.running
  have h1 : BuiltIn s!!"Power" s!!"Watt" := builtIn_mem (by decide +kernel) (by decide)
  have h2 : BuiltIn s!!"Power" s!!"Horsepower" := builtIn_mem (by decide +kernel) (by decide)
  refine ⟨size, pos _ (by decide) _ h2, w, L, hw, hL, ?_⟩
  have hu : ∀ u ∈ [s!!"Watt", s!!"Horsepower"], BuiltIn s!!"Power" u ∧ CleanName u ∧ ∀ q, BuiltIn q u → q = s!!"Power" := by
    simp only [List.mem_cons, List.not_mem_nil, or_false]
    rintro u (rfl | rfl)
    · exact ⟨h1, Demo.cleanName_of (by decide), fun q => onlyIn_iff power_ex.1⟩
    · exact ⟨h2, Demo.cleanName_of (by decide), fun q => onlyIn_iff power_ex.2⟩
  obtain ⟨L', h3, _⟩ := h w hw (by rw [hf]; decide) s!!"Power" (by decide) (.add (.units 3 s!!"Watt") (.units 2 s!!"Horsepower"))
    ⟨trivial, trivial⟩ hu (fun a ha b hb => C87_connected_partial hw.shipped.network (by decide) (hu a ha).1 (hu b hb).1) L hL
  rw [h3]
  rfl

end Unyts
