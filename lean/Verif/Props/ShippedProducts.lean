import Verif.Props.ShippedQuantity
import Verif.Spec.Products
import Verif.Props.Operations
import Verif.Lemmas.ConvApart

/- C100: products and quotients of quantities on the shipped library. -/
namespace Unyts
open Spec Quantity
set_option maxRecDepth 1000000

/-! ### Questions about names that nothing joins -/

/-- the numbers of a quantity with a measure -/
theorem plain_label {q u : Str} (h : BuiltIn q u) (hq : q ∉ plainQuantities) : labelOf u ≠ some 32 ∧ labelOf u ≠ some 34 := by
  obtain ⟨_, _, h3, h4, _⟩ := builtIn_numbers h
  refine ⟨fun e => hq ?_, fun e => hq ?_⟩
  · have := h3.2 e
    simp only [plainQuantities, List.mem_cons, List.not_mem_nil, or_false] at this ⊢
    rcases this with h | h <;> simp [h]
  · simp [plainQuantities, h4.2 e]

/-- C88 for the question, about names that are not joined by conversions: the answer is no, for all quantities with a
measure. -/
theorem C88_convertible_apart {w : World} (hw : Started w) {cs : List Call} (hcs : ∀ c ∈ cs, Asks c) {q a b : Str}
    (ha : BuiltIn q a) (hq : q ∉ plainQuantities) (sa : Spec.SimpleName a) (sb : Spec.SimpleName b)
    (hr : ¬ Reach (LinkedName w.net) a b) (uc : Option Bool) : (convertible a b uc (session cs w)).1 = .ok false := by
  obtain ⟨h32, h34⟩ := plain_label ha hq
  have hbase := base_session hcs hw.fresh.wf
  refine convertible_apart (sound_of_reachable (hw.reachable hcs)) (by rw [hbase.par]; exact hw.algorithm) sa sb
    (by rw [hbase.dic]; exact hw.shipped.ordinary sa (builtIn_isName ha) h32 h34) ?_ ?_ uc
  · rintro rfl; exact hr ⟨_, .single _⟩
  · rw [hbase.net]
    rintro na nb ga gb ⟨p, hp⟩
    have := chain_linkedNames hp
    rw [(getNode_mem ga).2, (getNode_mem gb).2] at this
    exact hr ⟨_, this⟩

/-- C88 for the question, in both directions: `convertible` says yes exactly for the names that are joined by conversions. -/
theorem C88_convertible_exactly_partial {w : World} (hw : Started w) {cs : List Call} (hcs : ∀ c ∈ cs, Asks c) {q a b : Str}
    (ha : BuiltIn q a) (hq : q ∉ specialQuantities) (ca : CleanName a) (cb : CleanName b) (uc : Option Bool) :
    ∃ ans, (convertible a b uc (session cs w)).1 = .ok ans ∧ (ans = true ↔ Reach (LinkedName w.net) a b) := by
  by_cases hr : Reach (LinkedName w.net) a b
  · exact ⟨true, C88_convertible_partial hw hcs ha hq ca cb hr uc, by simp [hr]⟩
  exact ⟨false, C88_convertible_apart hw hcs ha (fun h => hq (by revert h; unfold plainQuantities specialQuantities; simp; tauto)) ca.2 cb.2 hr uc, by simp [hr]⟩

/-- C89 for the question: `convertible` says no about units of different quantities. -/
theorem C89_convertible_partial {w : World} (hw : Started w) {cs : List Call} (hcs : ∀ c ∈ cs, Asks c) {k l a b : Str}
    (ha : UnitOfKind k a) (hb : UnitOfKind l b) (hk : quantityOf k ∉ plainQuantities) (hkl : ¬ SameQuantity k l)
    (ca : CleanName a) (cb : CleanName b) (uc : Option Bool) : (convertible a b uc (session cs w)).1 = .ok false := by
  exact C88_convertible_apart hw hcs ⟨k, ha, rfl⟩ hk ca.2 cb.2 (C63_apart_partial hw.shipped.network ha hb hkl) uc

example : ∃ w, Started w ∧ (convertible s!!"km" s!!"ms" none (session [.convert (some 1) (some s!!"km") (some s!!"ft") none] w)).1 =
    .ok false := by
  obtain ⟨w, hw, _⟩ := started_ex
  have h1 : UnitOfKind s!!"Length_SI" s!!"km" := unitOfKind (by decide +kernel)
  have h2 : UnitOfKind s!!"Time_SI" s!!"ms" := unitOfKind (by decide +kernel)
  exact ⟨w, hw, C89_convertible_partial hw (by simp [Asks]) h1 h2 (by decide) (by unfold SameQuantity; decide +kernel)
    (Demo.cleanName_of (by decide)) (Demo.cleanName_of (by decide)) none⟩

/-! ### C100 -/

def unitlessList : List Str := [s!!"fraction", s!!"ratio", s!!"dimensionless", s!!"unitless", s!!"None", [], s!!"percentage", s!!"%",
  s!!"perc", s!!"percent", s!!"/100"]

theorem unitless_list : unitlessNames rawDictionary = unitlessList := by decide +kernel

/-- no other built-in unit is written like a dimensionless one -/
theorem not_unitless_check : (rawDictionary.all fun e => if quantityOf e.1 = s!!"Dimensionless" ∨ quantityOf e.1 = s!!"Percentage" then true
    else (nodesOf (kindInstrs shippedPrefixes e.1 e.2)).all fun u => !isUnitless unitlessList u) = true := by decide +kernel

section
variable {w0 : World} {L : Lib} {p q a b : Str}

theorem builtIn_notUnitless (h : BuiltIn q a) (h1 : q ≠ s!!"Dimensionless") (h2 : q ≠ s!!"Percentage") (hL : Operating w0 L) :
    isUnitless L.unitless a = false := by
  rw [hL.2.1, unitless_list]
  obtain ⟨k, ⟨v, hv, hi⟩, e⟩ := h
  have := List.all_eq_true.1 not_unitless_check _ hv
  rw [if_neg] at this
  · simpa using List.all_eq_true.1 this a (List.mem_filterMap.2 ⟨_, hi, rfl⟩)
  · rw [e]
    rintro (e | e)
    · exact h1 e
    · exact h2 e

theorem Spec.OneName.notUnitless (h : OneName q a) (hL : Operating w0 L) : isUnitless L.unitless a = false :=
  builtIn_notUnitless h.unit (fun e => h.ordinary (by rw [e]; decide)) (fun e => h.ordinary (by rw [e]; decide)) hL

theorem Spec.Operating.of_world (hg : WF w0.net) (h : Operating w0 L) {c : Call} (hc : Asks c) :
    Operating w0 { L with w := c.run L.w } := ⟨h.1.of_world hg hc, h.2⟩

/-- a question about two names leaves a library that asked about names only as it is -/
theorem Spec.AskedNames.ask (h : AskedNames w0 L) (ha : Spec.SimpleName a) (hb : Spec.SimpleName b) :
    AskedNames w0 { L with w := (Call.convertible a b none).run L.w } := by
  obtain ⟨h1, cs, h2, e⟩ := h
  refine ⟨h1, cs ++ [.convertible a b none], ?_, by rw [session_append, ← e]; rfl⟩
  intro c hc
  rcases List.mem_append.1 hc with hc | hc
  · exact h2 c hc
  · rw [List.mem_singleton.1 hc]; exact ⟨ha, hb, h1⟩

theorem Spec.Goes.trans {L1 L2 L3 : Lib} (h : Goes w0 L1 L2) (h' : Goes w0 L2 L3) : Goes w0 L1 L3 := ⟨h'.1, fun k => h'.2 (h.2 k)⟩

theorem Spec.OneName.odd (h : OneName q a) : a ∉ unlistedUnits ∧ a ∉ ambiguousNames := h.listed

theorem Spec.OneName.units (h : OneName q a) (hL : Operating w0 L) (x : Rat) : units x a L = (.ok ⟨.std q, a, x⟩, L) := by
  refine C81_class_partial hL.1.2 h.cls h.unit h.odd.1 h.odd.2 h.clean.2 h.only ?_ x
  exact plain_strip ((builtIn_writing h.unit).1.resolve_right fun e => h.ordinary (by rw [e.2]; decide))

/-- asking about two names that nothing joins -/
theorem Spec.Operating.apart (hw : Started w0) (hL : Operating w0 L) (ha : OneName p a) (hb : CleanName b)
    (hr : ¬ Reach (LinkedName w0.net) a b) : ∃ L', libConvertible a b L = (.ok false, L') ∧ Goes w0 L L' := by
  obtain ⟨cs, hcs, e⟩ := hL.1.1
  refine ⟨{ L with w := (Call.convertible a b none).run L.w }, ?_, hL.of_world hw.fresh.wf (c := .convertible a b none) trivial,
    fun h => h.ask ha.clean.2 hb.2⟩
  have h1 := C88_convertible_apart hw hcs ha.unit ha.ordinary ha.clean.2 hb.2 hr none
  unfold libConvertible onWorld
  rw [e, h1]
  rfl

theorem over_eq : over a b = a ++ '/' :: b := by simp [over]

theorem starred_eq : starred a b = a ++ '*' :: b := by simp [starred]

theorem skip_unitless (x y : Rat) : ∀ m1 m2 m3 m4 : PyM Lib Quantity,
    (if (⟨.std p, a, x⟩ : Quantity).unitless && !(⟨.std q, b, y⟩ : Quantity).unitless then m1
        else if (⟨.std p, a, x⟩ : Quantity).kind = .percentage && (⟨.std q, b, y⟩ : Quantity).unitless then m2
        else if (⟨.std q, b, y⟩ : Quantity).unitless then m3 else m4) L = m4 L := by
  intro m1 m2 m3 m4
  simp [unitless]

theorem baseFactor_apart {L1 L2 : Lib} (ha : BasicName a) (hb : BasicName b) (c : libConvertible b a L1 = (.ok false, L2)) :
    baseFactor a b L1 = (.ok none, L2) := by
  unfold baseFactor
  rw [unitBasePower_bare ha.1, unitBasePower_bare hb.1]
  rw [PyM.run_bind_ok (PyM.run_lift_ok _ _)]
  dsimp only
  rw [PyM.run_bind_ok (PyM.run_lift_ok _ _)]
  dsimp only
  rw [PyM.run_bind_ok c]
  rfl

/-- a division of quantities that nothing joins -/
theorem divLike_apart (hw : Started w0) (hL : Operating w0 L) (ha : OneName p a) (hb : OneName q b)
    (hr : ¬ Reach (LinkedName w0.net) a b) (op : Rat → Rat → Res Rat) (x y : Rat) :
    ∃ L2 L4, Operating w0 L2 ∧ Goes w0 L L4 ∧ divLike op ⟨.std p, a, x⟩ ⟨.std q, b, y⟩ L =
      match op x y with
      | .ok v => units v (over a b) L4
      | .error e => (.error e, L2) := by
  have hr' : ¬ Reach (LinkedName w0.net) b a := fun h => hr (C62_symmetric hw.shipped.network h)
  have hab : a ≠ b := by rintro rfl; exact hr ⟨_, .single _⟩
  obtain ⟨L1, c1, o1⟩ := hL.apart hw hb ha.clean hr'
  obtain ⟨L2, c2, o2⟩ := o1.1.apart hw hb ha.clean hr'
  obtain ⟨L3, c3, o3⟩ := o2.1.apart hw ha hb.clean hr
  obtain ⟨L4, c4, o4⟩ := o3.1.apart hw ha hb.clean hr
  refine ⟨L2, L4, o2.1, ((o1.trans o2).trans o3).trans o4, ?_⟩
  obtain ⟨d, hdep⟩ : ∃ d, L2.depth = d + 1 := ⟨L2.depth - 1, by have := o2.1.2.2; omega⟩
  have hdiv : libDivision a b L2 = (.ok (over a b), L4) := by
    unfold libDivision
    rw [hdep, over_eq]
    exact C37_division_names L2.unitless L2.sf libConvertible d a b ha.basic hb.basic hab (ha.notUnitless o2.1) (hb.notUnitless o2.1)
      L2 L3 L4 c3 c4
  unfold divLike
  refine (skip_unitless x y _ _ _ _).trans ?_
  dsimp only
  rw [if_neg hab, PyM.run_bind_ok c1, if_neg (by simp), PyM.run_bind_ok (baseFactor_apart ha.basic hb.basic c2)]
  dsimp only
  cases op x y with
  | ok v => rw [PyM.run_bind_ok (PyM.run_lift_ok _ _), PyM.run_bind_ok hdiv]
  | error e => rfl

/-- C100. After `import unyts`, dividing a quantity by one of another kind divides the numbers and writes the ratio of the
units: the result is the quantity `units` makes from them, for single names that no conversions join. -/
theorem C100_quotient_partial (hw : Started w0) (hL : Operating w0 L) (ha : OneName p a) (hb : OneName q b)
    (hr : ¬ Reach (LinkedName w0.net) a b) (hd : divTo (.std p) (.std q) = none) (x : Rat) {y : Rat} (hy : y ≠ 0) :
    ∃ L', Goes w0 L L' ∧ (do let p ← units x a; let q ← units y b; p.div q) L =
      (do return Obj.qty (← units (x / y) (over a b))) L' := by
  obtain ⟨_, L4, _, o4, h⟩ := divLike_apart hw hL ha hb hr pdiv x y
  refine ⟨L4, o4, ?_⟩
  rw [PyM.run_bind_ok (ha.units hL x), PyM.run_bind_ok (hb.units hL y)]
  simp only [pdiv, if_neg hy] at h
  unfold Quantity.div
  simp only [hd]
  simp only [bind, h]

/-- C100. A division by zero of such quantities is refused. -/
theorem C100_zero_partial (hw : Started w0) (hL : Operating w0 L) (ha : OneName p a) (hb : OneName q b)
    (hr : ¬ Reach (LinkedName w0.net) a b) (x : Rat) :
    ((do let p ← units x a; let q ← units 0 b; p.div q) L).1 = .error .zeroDivision := by
  obtain ⟨_, L4, _, o4, h⟩ := divLike_apart hw hL ha hb hr pdiv x 0
  rw [PyM.run_bind_ok (ha.units hL x), PyM.run_bind_ok (hb.units hL 0)]
  simp only [pdiv, if_true] at h
  unfold Quantity.div
  simp only [bind, h]

/-- C100. The whole part of such a quotient, in the ratio of the units. -/
theorem C100_floor_partial (hw : Started w0) (hL : Operating w0 L) (ha : OneName p a) (hb : OneName q b)
    (hr : ¬ Reach (LinkedName w0.net) a b) (x : Rat) {y : Rat} (hy : y ≠ 0) :
    ∃ L', Goes w0 L L' ∧ (do let p ← units x a; let q ← units y b; p.floordiv q) L =
      units (x / y).floor (over a b) L' := by
  obtain ⟨_, L4, _, o4, h⟩ := divLike_apart hw hL ha hb hr floorDiv x y
  refine ⟨L4, o4, ?_⟩
  rw [PyM.run_bind_ok (ha.units hL x), PyM.run_bind_ok (hb.units hL y)]
  simp only [floorDiv, if_neg hy] at h
  exact h

/-- C100. Multiplying two such quantities multiplies the numbers and writes the product of the units. -/
theorem C100_product_partial (hw : Started w0) (hL : Operating w0 L) (ha : OneName p a) (hb : OneName q b)
    (hr : ¬ Reach (LinkedName w0.net) a b) (hd : mulTo (.std p) (.std q) = none) (x y : Rat) :
    ∃ L', Goes w0 L L' ∧ (do let p ← units x a; let q ← units y b; p.mul q) L =
      (do return Obj.qty (← units (x * y) (starred a b))) L' := by
  have hr' : ¬ Reach (LinkedName w0.net) b a := fun h => hr (C62_symmetric hw.shipped.network h)
  have hab : a ≠ b := by rintro rfl; exact hr ⟨_, .single _⟩
  obtain ⟨L0, c0, o0⟩ := hL.apart hw hb ha.clean hr'
  obtain ⟨L1, c1, o1⟩ := o0.1.apart hw ha hb.clean hr
  obtain ⟨L2, c2, o2⟩ := o1.1.apart hw hb ha.clean hr'
  obtain ⟨L3, c3, o3⟩ := o2.1.apart hw ha hb.clean hr
  obtain ⟨L4, c4, o4⟩ := o3.1.apart hw ha hb.clean hr
  refine ⟨L4, (((o0.trans o1).trans o2).trans o3).trans o4, ?_⟩
  rw [PyM.run_bind_ok (ha.units hL x), PyM.run_bind_ok (hb.units hL y)]
  obtain ⟨d, hdep⟩ : ∃ d, L2.depth = d + 1 := ⟨L2.depth - 1, by have := o2.1.2.2; omega⟩
  have hprod : libProduct a b L2 = (.ok (starred a b), L4) := by
    unfold libProduct
    rw [hdep, starred_eq]
    exact C37_product_names L2.unitless L2.sf libConvertible d a b ha.basic hb.basic hab (ha.notUnitless o2.1) (hb.notUnitless o2.1)
      L2 L3 L4 c3 c4
  have hm : mulBase ⟨.std p, a, x⟩ ⟨.std q, b, y⟩ L = units (x * y) (starred a b) L4 := by
    unfold mulBase
    refine (skip_unitless x y _ _ _ _).trans ?_
    dsimp only
    rw [if_neg hab, PyM.run_bind_ok c0, if_neg (by simp), PyM.run_bind_ok c1, if_neg (by simp), PyM.run_bind_ok (baseFactor_apart ha.basic hb.basic c2)]
    dsimp only
    rw [PyM.run_bind_ok hprod]
  unfold Quantity.mul
  simp only [hd]
  simp only [bind, hm]

/-- C100. In particular, where the ratio of the two kinds is a kind of its own, the quotient is a quantity of that class. -/
theorem C100_class_partial (hw : Started w0) (hL : Operating w0 L) (ha : OneName p a) (hb : OneName q b)
    (hr : ¬ Reach (LinkedName w0.net) a b) (hd : divTo (.std p) (.std q) = none) {k : Str} (hT : (p, q, k) ∈ ratioTable)
    (hn : ∀ k', BuiltIn k' (over a b) → k' = k) (x : Rat) {y : Rat} (hy : y ≠ 0) :
    ∃ L', Goes w0 L L' ∧ (do let p ← units x a; let q ← units y b; p.div q) L = (.ok (.qty ⟨.std k, over a b, x / y⟩), L') := by
  obtain ⟨L', h1, h2⟩ := C100_quotient_partial hw hL ha hb hr hd x hy
  refine ⟨L', h1, h2.trans ?_⟩
  rw [PyM.run_bind_ok (C81_ratio_partial h1.1.1.2 hT ⟨ha.unit, ha.odd.1⟩ ⟨hb.unit, hb.odd.1⟩ ha.clean.2 hb.clean.2 hn (x / y))]
  rfl

section
variable {n : Str} {P : Str → Prop} {size : Str → Rat}

theorem Gauged.asks (h : Gauged w0 n P size) (hg : WF w0.net) (hL : Operating w0 L) (ha : P a) (hb : P b) :
    ∃ L', libConvertible a b L = (.ok true, L') ∧ Operating w0 L' := by
  obtain ⟨cs, hcs, e⟩ := hL.1.1
  refine ⟨{ L with w := (Call.convertible a b none).run L.w }, ?_, hL.of_world hg (c := .convertible a b none) trivial⟩
  unfold libConvertible onWorld
  rw [e, h.ask a b ha hb cs hcs]
  rfl

theorem Gauged.converts (h : Gauged w0 n P size) (hg : WF w0.net) (hL : Operating w0 L) (ha : P a) (hb : P b)
    (er : PyErr) (x : Rat) : ∃ L', libConvert er x a b L = (.ok (x * size a / size b), L') ∧ Operating w0 L' := by
  obtain ⟨cs, hcs, e⟩ := hL.1.1
  refine ⟨{ L with w := (Call.convert (some x) (some a) (some b) none).run L.w }, ?_,
    hL.of_world hg (c := .convert (some x) (some a) (some b) none) trivial⟩
  unfold libConvert
  rw [PyM.run_bind_ok (a := some (.num (x * size a / size b)))
    (s' := { L with w := (Call.convert (some x) (some a) (some b) none).run L.w })]
  · rfl
  · unfold onWorld
    rw [e, h.conv a b ha hb cs hcs]
    rfl

theorem Gauged.product (h : Gauged w0 n P size) (hg : WF w0.net) (hL : Operating w0 L) (ha : P a) (hb : P b) (ba : BasicName a)
    (bb : BasicName b) (h1 : n ≠ s!!"Dimensionless") (h2 : n ≠ s!!"Percentage") (hd : mulTo (.std n) (.std n) = none) (x y : Rat) :
    ∃ L', Operating w0 L' ∧ (do let p ← Unyts.units x a; let q ← Unyts.units y b; p.mul q) L =
      (do return Obj.qty (← Unyts.units (x * (y * size b / size a)) (a ++ ['2']))) L' := by
  have hm : ∃ L', Operating w0 L' ∧ mulBase ⟨.std n, a, x⟩ ⟨.std n, b, y⟩ L =
      Unyts.units (x * (y * size b / size a)) (a ++ ['2']) L' := by
    unfold mulBase
    by_cases hab : a = b
    · subst hab
      refine ⟨L, hL, (skip_unitless x y _ _ _ _).trans ?_⟩
      obtain ⟨d, hdep⟩ : ∃ d, L.depth = d + 1 := ⟨L.depth - 1, by have := hL.2.2; omega⟩
      dsimp only
      rw [if_pos rfl, mul_div_cancel_right₀ _ (h.pos a ha).ne']
      rw [PyM.run_bind_ok (a := a ++ ['2']) (s' := L)]
      unfold libProduct
      rw [hdep]
      exact C37_square _ _ _ d a ba (builtIn_notUnitless (h.built a ha) h1 h2 hL) L
    · obtain ⟨L1, c1, o1⟩ := h.asks hg hL hb ha
      obtain ⟨L2, c2, o2⟩ := h.converts hg o1 hb ha .typeError y
      obtain ⟨L3, c3, o3⟩ := h.asks hg o2 ha hb
      refine ⟨L3, o3, (skip_unitless x y _ _ _ _).trans ?_⟩
      obtain ⟨d, hdep⟩ : ∃ d, L2.depth = d + 2 := ⟨L2.depth - 2, by have := o2.2.2; omega⟩
      dsimp only
      rw [if_neg hab, PyM.run_bind_ok c1, if_pos rfl, PyM.run_bind_ok c2]
      rw [PyM.run_bind_ok (a := a ++ ['2']) (s' := L3)]
      unfold libProduct
      rw [hdep]
      exact C37_product_convertible _ _ _ d a b ba bb hab (builtIn_notUnitless (h.built a ha) h1 h2 o2)
        (builtIn_notUnitless (h.built b hb) h1 h2 o2) L2 L3 c3
  obtain ⟨L', o', hm⟩ := hm
  refine ⟨L', o', ?_⟩
  rw [PyM.run_bind_ok (h.units hL.1 ha x), PyM.run_bind_ok (h.units hL.1 hb y)]
  unfold Quantity.mul
  simp only [hd]
  simp only [bind, hm]

theorem Gauged.quotient (h : Gauged w0 n P size) (hg : WF w0.net) (hL : Operating w0 L) (ha : P a) (hb : P b) (ba : BasicName a)
    (bb : BasicName b) (h1 : n ≠ s!!"Dimensionless") (h2 : n ≠ s!!"Percentage") (hd : divTo (.std n) (.std n) = none) (x : Rat)
    {y : Rat} (hy : y ≠ 0) :
    ∃ L', Operating w0 L' ∧ (do let p ← Unyts.units x a; let q ← Unyts.units y b; p.div q) L =
      (do return Obj.qty (← Unyts.units (x * size a / (y * size b)) (over a a))) L' := by
  have pa := (h.pos a ha).ne'
  have pb := (h.pos b hb).ne'
  have hm : ∃ L', Operating w0 L' ∧ divLike pdiv ⟨.std n, a, x⟩ ⟨.std n, b, y⟩ L =
      Unyts.units (x * size a / (y * size b)) (over a a) L' := by
    unfold divLike
    by_cases hab : a = b
    · subst hab
      obtain ⟨L1, c1, o1⟩ := h.asks hg hL ha ha
      refine ⟨L1, o1, (skip_unitless x y _ _ _ _).trans ?_⟩
      obtain ⟨d, hdep⟩ : ∃ d, L.depth = d + 1 := ⟨L.depth - 1, by have := hL.2.2; omega⟩
      dsimp only
      rw [if_pos rfl, PyM.run_bind_ok (a := x / y) (s' := L) (by simp [pdiv, hy, PyM.lift]), mul_div_mul_right _ _ pa]
      rw [PyM.run_bind_ok (a := over a a) (s' := L1)]
      unfold libDivision
      rw [hdep, over_eq]
      exact division_self _ _ _ d a ba (builtIn_notUnitless (h.built a ha) h1 h2 hL) L L1 c1
    · obtain ⟨L1, c1, o1⟩ := h.asks hg hL hb ha
      obtain ⟨L2, c2, o2⟩ := h.converts hg o1 hb ha .typeError y
      obtain ⟨L3, c3, o3⟩ := h.asks hg o2 ha hb
      obtain ⟨L4, c4, o4⟩ := h.asks hg o3 ha ha
      refine ⟨L4, o4, (skip_unitless x y _ _ _ _).trans ?_⟩
      obtain ⟨d, hdep⟩ : ∃ d, L2.depth = d + 2 := ⟨L2.depth - 2, by have := o2.2.2; omega⟩
      dsimp only
      rw [if_neg hab, PyM.run_bind_ok c1, if_pos rfl, PyM.run_bind_ok c2]
      rw [PyM.run_bind_ok (a := x * size a / (y * size b)) (s' := L2)]
      · rw [PyM.run_bind_ok (a := over a a) (s' := L4)]
        unfold libDivision
        rw [hdep, over_eq]
        exact (C37_division_convertible _ _ _ d a b ba bb hab (builtIn_notUnitless (h.built a ha) h1 h2 o2)
          (builtIn_notUnitless (h.built b hb) h1 h2 o2) L2 L3 L4 c3 c4).1
      · have : y * size b / size a ≠ 0 := div_ne_zero (mul_ne_zero hy pb) pa
        simp only [pdiv, if_neg this]
        rw [div_div_eq_mul_div]
        rfl
  obtain ⟨L', o', hm⟩ := hm
  refine ⟨L', o', ?_⟩
  rw [PyM.run_bind_ok (h.units hL.1 ha x), PyM.run_bind_ok (h.units hL.1 hb y)]
  unfold Quantity.div
  simp only [hd]
  simp only [bind, hm]

end

theorem table_names : ∀ e ∈ sizeTables, e.1 ≠ s!!"Dimensionless" ∧ e.1 ≠ s!!"Percentage" ∧ mulTo (.std e.1) (.std e.1) = none ∧
    divTo (.std e.1) (.std e.1) = none := by decide +kernel

/-- C100. The product of two quantities of one class is the product of the amounts, in the square of the first unit. -/
theorem C100_square_partial (hw : Started w0) (hg : 17 ≤ w0.par.maxGenerations) (hφ : w0.fvf ≠ some 0) (hL : Operating w0 L)
    {n : Str} {l : List (Str × Rat)} (hn : (n, l) ∈ sizeTables) (size : Str → Rat) (ha : (a, size a) ∈ l) (hb : (b, size b) ∈ l)
    (ba : BasicName a) (bb : BasicName b) (x y : Rat) :
    ∃ L', Operating w0 L' ∧ (do let p ← units x a; let q ← units y b; p.mul q) L =
      (do return Obj.qty (← units (x * (y * size b / size a)) (a ++ ['2']))) L' := by
  obtain ⟨t1, t2, t3, _⟩ := table_names _ hn
  exact (gauged_table hw hg hφ hn size).product hw.fresh.wf hL ha hb ba bb t1 t2 t3 x y

/-- C100. The quotient of two quantities of one class is the quotient of the amounts. -/
theorem C100_ratio_partial (hw : Started w0) (hg : 17 ≤ w0.par.maxGenerations) (hφ : w0.fvf ≠ some 0) (hL : Operating w0 L)
    {n : Str} {l : List (Str × Rat)} (hn : (n, l) ∈ sizeTables) (size : Str → Rat) (ha : (a, size a) ∈ l) (hb : (b, size b) ∈ l)
    (ba : BasicName a) (bb : BasicName b) (x : Rat) {y : Rat} (hy : y ≠ 0) :
    ∃ L', Operating w0 L' ∧ (do let p ← units x a; let q ← units y b; p.div q) L =
      (do return Obj.qty (← units (x * size a / (y * size b)) (over a a))) L' := by
  obtain ⟨t1, t2, _, t4⟩ := table_names _ hn
  exact (gauged_table hw hg hφ hn size).quotient hw.fresh.wf hL ha hb ba bb t1 t2 t4 x hy

end

/-! ### concrete cases -/

theorem Spec.Started.operating {w : World} (hw : Started w) : ∃ L, L.w = w ∧ Operating w L := by
  obtain ⟨L, h1, h2⟩ := hw.running
  exact ⟨{ L with unitless := unitlessNames rawDictionary, depth := 900 }, h1, h2, rfl, by simp⟩

theorem km_name : OneName s!!"Length" s!!"km" where
  cls := by decide
  ordinary := by decide
  listed := by decide
  unit := builtIn_mem (by decide +kernel) (by decide)
  only := fun _ => onlyIn_iff (by decide +kernel)
  clean := Demo.cleanName_of (by decide)
  basic := by unfold BasicName BareName PlainName; decide

theorem day_name : OneName s!!"Time" s!!"day" where
  cls := by decide
  ordinary := by decide
  listed := by decide
  unit := builtIn_mem (by decide +kernel) (by decide)
  only := fun _ => onlyIn_iff (by decide +kernel)
  clean := Demo.cleanName_of (by decide)
  basic := by unfold BasicName BareName PlainName; decide

theorem km_day_apart {n : Net} (hn : ShippedNetwork n) : ¬ Reach (LinkedName n) s!!"km" s!!"day" := by
  rintro ⟨p, hc⟩
  exact absurd (hn.reach_label hc) (by decide +kernel)

/-- 90 km in 3 days is a velocity of 30 km/day and a zero time is refused; products are written, and 2 miles times 3 km are
square miles. -/
example : ∃ w L, Started w ∧ Operating w L ∧
    ((do let p ← units 90 s!!"km"; let q ← units 3 s!!"day"; p.div q) L).1 = .ok (.qty ⟨.std s!!"Velocity", s!!"km/day", 30⟩) ∧
    ((do let p ← units 90 s!!"km"; let q ← units 0 s!!"day"; p.div q) L).1 = .error .zeroDivision ∧
    (∃ L', Operating w L' ∧ (do let p ← units 7 s!!"km"; let q ← units 2 s!!"day"; p.floordiv q) L = units 3 s!!"km/day" L') ∧
    (∃ L', Operating w L' ∧ (do let p ← units 2 s!!"km"; let q ← units 3 s!!"day"; p.mul q) L =
      (do return Obj.qty (← units (2 * 3) s!!"km*day")) L') ∧
    (∃ L', Operating w L' ∧ (do let p ← units 2 s!!"mile"; let q ← units 3 s!!"km"; p.mul q) L =
      (do return Obj.qty (← units (2 * (3 * 1000 / (201168 / 125))) s!!"mile2")) L') ∧
    ∃ L', Operating w L' ∧ (do let p ← units 2 s!!"mile"; let q ← units 3 s!!"km"; p.div q) L =
      (do return Obj.qty (← units (2 * (201168 / 125) / (3 * 1000)) s!!"mile/mile")) L' := by
  obtain ⟨w, hw, hp, hf⟩ := started_ex
  obtain ⟨L, _, hL⟩ := hw.operating
  refine ⟨w, L, hw, hL, ?_, ?_, ?_, ?_, ?_, ?_⟩
  · obtain ⟨L', _, h⟩ := C100_class_partial hw hL km_name day_name (km_day_apart hw.shipped.network) rfl (k := s!!"Velocity") (by decide)
      (fun k' hk => (not_builtIn (by decide +kernel) ⟨_, hk⟩).elim) 90 (y := 3) (by norm_num)
    rw [h]
    norm_num [over]
  · exact C100_zero_partial hw hL km_name day_name (km_day_apart hw.shipped.network) 90
  · obtain ⟨L', g, h⟩ := C100_floor_partial hw hL km_name day_name (km_day_apart hw.shipped.network) 7 (y := 2) (by norm_num)
    refine ⟨L', g.1, h.trans ?_⟩
    have : (7 / 2 : ℚ).floor = 3 := by decide +kernel
    rw [this]
    rfl
  · obtain ⟨L', g, h⟩ := C100_product_partial hw hL km_name day_name (km_day_apart hw.shipped.network) rfl 2 3
    exact ⟨L', g.1, h⟩
  · have h1 : lengthSize s!!"mile" = 201168 / 125 := by decide +kernel
    have h2 : lengthSize s!!"km" = 1000 := by decide +kernel
    have := C100_square_partial hw (by rw [hp]; decide) (by rw [hf]; decide) hL (n := s!!"Length") (l := standardSizes[0])
      (by decide +kernel) lengthSize (a := s!!"mile") (b := s!!"km") (by decide +kernel) (by decide +kernel)
      (by unfold BasicName BareName PlainName; decide) (by unfold BasicName BareName PlainName; decide) 2 3
    rw [h1, h2] at this
    exact this
  · have h1 : lengthSize s!!"mile" = 201168 / 125 := by decide +kernel
    have h2 : lengthSize s!!"km" = 1000 := by decide +kernel
    have := C100_ratio_partial hw (by rw [hp]; decide) (by rw [hf]; decide) hL (n := s!!"Length") (l := standardSizes[0])
      (by decide +kernel) lengthSize (a := s!!"mile") (b := s!!"km") (by decide +kernel) (by decide +kernel)
      (by unfold BasicName BareName PlainName; decide) (by unfold BasicName BareName PlainName; decide) 2 (y := 3) (by norm_num)
    rw [h1, h2] at this
    exact this

theorem stb_name : OneName s!!"Volume" s!!"stb" where
  cls := by decide
  ordinary := by decide
  listed := by decide
  unit := builtIn_mem (by decide +kernel) (by decide)
  only := fun _ => onlyIn_iff (by decide +kernel)
  clean := Demo.cleanName_of (by decide)
  basic := by unfold BasicName BareName PlainName; decide

theorem kg_name : OneName s!!"Weight" s!!"kg" where
  cls := by decide
  ordinary := by decide
  listed := by decide
  unit := builtIn_mem (by decide +kernel) (by decide)
  only := fun _ => onlyIn_iff (by decide +kernel)
  clean := Demo.cleanName_of (by decide)
  basic := by unfold BasicName BareName PlainName; decide

theorem stb_day_apart {n : Net} (hn : ShippedNetwork n) : ¬ Reach (LinkedName n) s!!"stb" s!!"day" ∧ ¬ Reach (LinkedName n) s!!"kg" s!!"day" := by
  constructor <;>
  · rintro ⟨p, hc⟩
    exact absurd (hn.reach_label hc) (by decide +kernel)

/-- 5000 barrels in 2 days are a rate of 2500 stb/day, 900 kg in 6 days 150 kg/day; a barrel does not
convert to a day. -/
example : ∃ w L, Started w ∧ Operating w L ∧
    ((do let p ← units 5000 s!!"stb"; let q ← units 2 s!!"day"; p.div q) L).1 = .ok (.qty ⟨.std s!!"Rate", s!!"stb/day", 2500⟩) ∧
    ((do let p ← units 900 s!!"kg"; let q ← units 6 s!!"day"; p.div q) L).1 = .ok (.qty ⟨.std s!!"Rate", s!!"kg/day", 150⟩) ∧
    ∀ uc, (convertible s!!"stb" s!!"day" uc w).1 = .ok false := by
  obtain ⟨w, hw, hp, hf⟩ := started_ex
  obtain ⟨L, _, hL⟩ := hw.operating
  refine ⟨w, L, hw, hL, ?_, ?_, fun uc => ?_⟩
  · obtain ⟨L', _, h⟩ := C100_class_partial hw hL stb_name day_name (stb_day_apart hw.shipped.network).1 rfl (k := s!!"Rate") (by decide)
      (fun k' hk => onlyIn_iff (by decide +kernel) hk) 5000 (y := 2) (by norm_num)
    rw [h]
    norm_num [over]
  · obtain ⟨L', _, h⟩ := C100_class_partial hw hL kg_name day_name (stb_day_apart hw.shipped.network).2 rfl (k := s!!"Rate") (by decide)
      (fun k' hk => (not_builtIn (by decide +kernel) ⟨_, hk⟩).elim) 900 (y := 6) (by norm_num)
    rw [h]
    norm_num [over]
  · exact C88_convertible_apart hw (cs := []) (by simp) stb_name.unit (by decide) stb_name.clean.2 day_name.clean.2
      (stb_day_apart hw.shipped.network).1 uc

end Unyts
