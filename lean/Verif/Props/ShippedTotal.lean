import Verif.Lemmas.ShippedOrdinary
import Verif.Props.ShippedConvert
import Verif.Props.Library

/-
C87, C88, C89: which built-in units convert into each other, and that `convert` answers exactly for those. The
versions of C64 and C76 in which the answers are found rather than assumed.
-/
namespace Unyts
open Spec
set_option maxRecDepth 1000000

/-! ### C87 -/

theorem Spec.ShippedNetwork.joined_reach {n : Net} (h : ShippedNetwork n) {a b : Str} (hj : Joined a b) :
    Reach (LinkedName n) a b := by
  rcases hj with hj | ⟨c, hj⟩
  · exact ⟨_, .step (h.linked.2 (Or.inl hj)) (.single _)⟩
  · exact C62_symmetric h ⟨_, .step (h.linked.2 (Or.inl ⟨c, hj⟩)) (.single _)⟩

theorem Spec.ShippedNetwork.hub {n : Net} (h : ShippedNetwork n) {u : Str} (hu : IsName u) :
    ∃ i hub, islandOf u = some i ∧ hubs[i]? = some hub ∧ Reach (LinkedName n) u hub := by
  have hr := isName_ranked hu
  unfold ranked at hr
  split at hr
  · cases hr
  · next j i d he =>
    obtain ⟨_, hub, hh, p, hp, -⟩ := climb hu he
    refine ⟨i, hub, by simp [islandOf, he], hh, ?_⟩
    clear hh hr he hu
    induction hp with
    | single => exact ⟨_, .single _⟩
    | step e _ ih => exact (h.joined_reach e).trans ih

theorem hub_islands : (List.range 53).all (fun i => match hubs[i]? with | some s => islandOf s == some i | none => false) = true ∧
    hubs.length = 53 := by decide +kernel

theorem hub_island {i : Nat} {s : Str} (h : hubs[i]? = some s) : islandOf s = some i := by
  have hi : i < 53 := by
    rw [← hub_islands.2]
    exact (List.getElem?_eq_some_iff.1 h).1
  have := List.all_eq_true.1 hub_islands.1 i (List.mem_range.2 hi)
  rw [h] at this
  simpa using this

/-- two names convert into each other when they are on the same island -/
theorem Spec.ShippedNetwork.reach_iff {n : Net} (h : ShippedNetwork n) {a b : Str} (ha : IsName a) (hb : IsName b) :
    Reach (LinkedName n) a b ↔ islandOf a = islandOf b := by
  refine ⟨h.reach_island, fun e => ?_⟩
  obtain ⟨i, x, i1, h1, r1⟩ := h.hub ha
  obtain ⟨j, y, j1, h2, r2⟩ := h.hub hb
  rw [i1, j1] at e
  cases e
  rw [h1] at h2
  cases h2
  exact r1.trans (C62_symmetric h r2)

/-- C87: the built-in units fall into 53 parts, one for each of the hubs: every unit converts into exactly one hub. -/
theorem C87_one_hub {n : Net} (h : ShippedNetwork n) {q u : Str} (hu : BuiltIn q u) :
    ∃ x ∈ hubs, Reach (LinkedName n) u x ∧ Reach (LinkedName n) x u ∧ ∀ y ∈ hubs, Reach (LinkedName n) u y → y = x := by
  obtain ⟨i, x, i1, h1, r⟩ := h.hub (builtIn_isName hu)
  refine ⟨x, List.mem_of_getElem? h1, r, C62_symmetric h r, ?_⟩
  intro y hy hr
  obtain ⟨j, hj⟩ := List.mem_iff_getElem?.1 hy
  have e := h.reach_island hr
  rw [i1, hub_island hj] at e
  cases e
  rw [h1] at hj
  exact (Option.some.inj hj).symm

/-- the islands of the connected quantities -/
def quantityIslands : List (Str × Nat) :=
    [(s!!"Time", 0), (s!!"Temperature", 1), (s!!"Capacitance", 1), (s!!"Length", 10), (s!!"Area", 11),
   (s!!"Permeability", 11), (s!!"Pressure", 12), (s!!"Velocity", 30), (s!!"Data", 31), (s!!"Energy", 34), (s!!"Power",
   35), (s!!"Voltage", 36), (s!!"Current", 37), (s!!"Resistance", 38), (s!!"Impedance", 38), (s!!"Conductance", 39),
   (s!!"Charge", 40), (s!!"Inductance", 41), (s!!"Dimensionless", 49), (s!!"Percentage", 49), (s!!"Date", 50)]

theorem connected_islands : (rawDictionary.all fun e => match Py.dictGet quantityIslands (quantityOf e.1) with
    | some i => (nodesOf (kindInstrs shippedPrefixes e.1 e.2)).all fun s => islandOf s == some i
    | none => true) = true := by
  decide +kernel

theorem connected_island {q : Str} (hq : q ∈ connectedQuantities) : ∃ i, ∀ u, BuiltIn q u → islandOf u = some i := by
  have : ∀ q ∈ connectedQuantities, (Py.dictGet quantityIslands q).isSome := by decide +kernel
  obtain ⟨i, hi⟩ := Option.isSome_iff_exists.1 (this q hq)
  refine ⟨i, ?_⟩
  rintro u ⟨k, ⟨v, hv, hn⟩, rfl⟩
  have := List.all_eq_true.1 connected_islands _ hv
  simp only [hi] at this
  have := List.all_eq_true.1 this u (List.mem_filterMap.2 ⟨_, hn, rfl⟩)
  simpa using this

/-- C87: any two built-in units of one of these 21 quantities convert into each other. -/
theorem C87_connected_partial {n : Net} (h : ShippedNetwork n) {q a b : Str} (hq : q ∈ connectedQuantities)
    (ha : BuiltIn q a) (hb : BuiltIn q b) : Reach (LinkedName n) a b := by
  obtain ⟨i, hi⟩ := connected_island hq
  exact (h.reach_iff (builtIn_isName ha) (builtIn_isName hb)).2 ((hi a ha).trans (hi b hb).symm)

theorem apart_check : (apartUnits.all fun e => (basicNames e.1).contains e.2.1 && (basicNames e.1).contains e.2.2 &&
    !(islandOf e.2.1 == islandOf e.2.2) && e.1 != s!!"dataBYTE" && e.1 != s!!"dataBIT") = true := by decide +kernel

/-- C87 fails for eleven of the other quantities: a Hertz and a turn per minute, a centipoise and a Poise, a kilogram
force and a Newton do not convert. -/
theorem C87_apart_fails {n : Net} (h : ShippedNetwork n) {q a b : Str} (he : (q, a, b) ∈ apartUnits) :
    BuiltIn q a ∧ BuiltIn q b ∧ ¬ Reach (LinkedName n) a b := by
  have := List.all_eq_true.1 apart_check _ he
  simp only [Bool.and_eq_true, bne_iff_ne, ne_eq, Bool.not_eq_true', beq_eq_false_iff_ne] at this
  obtain ⟨⟨⟨⟨h1, h2⟩, h3⟩, h4⟩, h5⟩ := this
  exact ⟨builtIn_mem h1 ⟨h4, h5⟩, builtIn_mem h2 ⟨h4, h5⟩, fun hr => h3 (h.reach_island hr)⟩

example : ∃ n, ShippedNetwork n ∧ BuiltIn s!!"Length" s!!"nautical mile" ∧ BuiltIn s!!"Length" s!!"thou" ∧
    ¬ LinkedName n s!!"nautical mile" s!!"thou" ∧ Reach (LinkedName n) s!!"nautical mile" s!!"thou" := by
  obtain ⟨n, h⟩ := ShippedNetwork.ex
  have h1 : BuiltIn s!!"Length" s!!"nautical mile" := builtIn_mem (by decide +kernel) (by decide)
  have h2 : BuiltIn s!!"Length" s!!"thou" := builtIn_mem (by decide +kernel) (by decide)
  refine ⟨n, h, h1, h2, ?_, C87_connected_partial h (by decide) h1 h2⟩
  rw [h.linked]
  have key : ∀ {a b : Str} {c : Cv}, (a, b, c) ∈ shipped → (a, b) ≠ (s!!"nautical mile", s!!"thou") ∧ (a, b) ≠ (s!!"thou", s!!"nautical mile") := by
    intro a b c hm
    rcases List.mem_append.1 hm with hm | hm
    · obtain ⟨e, he, hm⟩ := List.mem_flatMap.1 hm
      have : (rawDictionary.all fun e => (declsOf (kindInstrs shippedPrefixes e.1 e.2)).all fun d =>
        (d.1, d.2.1) != (s!!"nautical mile", s!!"thou") && (d.1, d.2.1) != (s!!"thou", s!!"nautical mile")) = true := by
        decide +kernel
      have := List.all_eq_true.1 (List.all_eq_true.1 this e he) _ hm
      simpa using this
    · obtain ⟨e, he, hm⟩ := List.mem_map.1 hm
      cases hm
      have : (explicitConversions.all fun d =>
        (d.1, d.2.1) != (s!!"nautical mile", s!!"thou") && (d.1, d.2.1) != (s!!"thou", s!!"nautical mile")) = true := by
        decide +kernel
      have := List.all_eq_true.1 this e he
      simpa using this
  rintro (⟨c, hc⟩ | ⟨_, _, c, hc⟩)
  · exact (key hc).1 rfl
  · exact (key hc).2 rfl

/-! ### C88 -/

theorem special_label {q u : Str} (h : BuiltIn q u) (hq : q ∉ specialQuantities) :
    Smooth u ∧ labelOf u ≠ some 32 ∧ labelOf u ≠ some 34 := by
  obtain ⟨h1, h2, h3, h4, _⟩ := builtIn_numbers h
  refine ⟨⟨fun e => hq ?_, fun e => hq ?_⟩, fun e => hq ?_, fun e => hq ?_⟩
  · have := h1.2 e; simp only [specialQuantities, List.mem_cons, List.not_mem_nil, or_false] at this ⊢; rcases this with h | h <;> simp [h]
  · have := h2.2 e; simp only [specialQuantities, List.mem_cons, List.not_mem_nil, or_false] at this ⊢; rcases this with h | h <;> simp [h]
  · have := h3.2 e; simp only [specialQuantities, List.mem_cons, List.not_mem_nil, or_false] at this ⊢; rcases this with h | h <;> simp [h]
  · have := h4.2 e; simp [specialQuantities, this]

theorem asks_ample {cs : List Call} (hcs : ∀ c ∈ cs, Asks c) : ∀ c ∈ cs, KeepsAmple c := by
  intro c hc; have := hcs c hc; cases c <;> trivial

theorem Spec.Started.reachable {w : World} (hw : Started w) {cs : List Call} (hcs : ∀ c ∈ cs, Asks c) :
    Reachable (session cs w) := ⟨w, cs, hw.fresh, asks_ample hcs, rfl⟩

theorem builtIn_ne_nil {q u : Str} (h : BuiltIn q u) (hq : labelOf u ≠ some 32) : u ≠ [] := by
  rintro rfl
  exact hq (by decide +kernel)

/-- C88: after `import unyts` and any conversions and questions, `convert` answers a number for every two single names
that are joined by conversions, when the first is a unit of any of the ordinary quantities. -/
theorem C88_answers_partial {w : World} (hw : Started w) {cs : List Call} (hcs : ∀ c ∈ cs, Asks c) {q a b : Str}
    (ha : BuiltIn q a) (hq : q ∉ specialQuantities) (ca : CleanName a) (cb : CleanName b)
    (hr : Reach (LinkedName w.net) a b) (uc : Option Bool) (x : Rat) :
    ∃ y w', convert (some x) (some a) (some b) uc (session cs w) = (.ok (some (.num y)), w') := by
  obtain ⟨hs, h32, h34⟩ := special_label ha hq
  have hbase := base_session hcs hw.fresh.wf
  have hn := hw.shipped.network
  have hd : ¬ DensityPair (session cs w).dic a b := by rw [hbase.dic]; exact hw.shipped.noDensity ca.2 hs.1
  by_cases hab : a = b
  · subst hab
    obtain ⟨c, hc⟩ := List.exists_mem_of_ne_nil _ (builtIn_ne_nil ha h32)
    refine ⟨x, _, Prod.ext (C11_self _ (hw.reachable hcs) a ca.1 ⟨c, hc, ?_, ?_⟩ hd uc x) rfl⟩
    · rintro rfl; exact ca.2.2 hc
    · rintro rfl; exact ca.2.1 hc
  · obtain ⟨na, nb, g1, g2, e1, e2, hl⟩ := reach_nodes hw.fresh.wf hn.distinct hr hab
    have hsb : Smooth b := by
      obtain ⟨p, hp⟩ := hr
      unfold Smooth; rw [← hn.reach_label hp]; exact hs
    exact convert_totalOn (findsInv_session hcs (hw.shipped.finds hw.fresh hw.algorithm hw.edges hw.generations))
      (by rw [hbase.net, hbase.fvf]; exact hn.totalOn _) ca cb ⟨⟨ca.2, hs⟩, cb.2, hsb⟩
      (by rw [hbase.dic]; exact hw.shipped.ordinary ca.2 (builtIn_isName ha) h32 h34) hd
      (by rw [hbase.net]; exact g1) (by rw [hbase.net]; exact g2) (by rw [e1]; exact hs) (by rw [hbase.net]; exact hl) uc x

/-- an answer needs a chain of conversions -/
theorem answer_reach {w : World} (hw : Reachable w) {a b : Str} (ca : CleanName a) (cb : CleanName b) (oa : Ordinary w.dic a)
    (hd : ¬ DensityPair w.dic a b) {uc : Option Bool} {v : Option Rat} {c : Conv} {w' : World}
    (h : convert v (some a) (some b) uc w = (.ok (some c), w')) : Reach (LinkedName w.net) a b := by
  obtain ⟨f, p, _, h2⟩ := convert_simple (sound_of_reachable hw) ca cb oa hd h
  rcases h2 with ⟨rfl, _⟩ | ⟨na, nb, q, g1, g2, hp, _⟩
  · exact ⟨_, .single _⟩
  · have := chain_linkedNames hp.1
    rw [(getNode_mem g1).2, (getNode_mem g2).2] at this
    exact ⟨_, this⟩

/-- C88: it answers exactly for the names that are joined by conversions. -/
theorem C88_exactly_partial {w : World} (hw : Started w) {cs : List Call} (hcs : ∀ c ∈ cs, Asks c) {q a b : Str}
    (ha : BuiltIn q a) (hq : q ∉ specialQuantities) (ca : CleanName a) (cb : CleanName b) (uc : Option Bool) (x : Rat) :
    (∃ y w', convert (some x) (some a) (some b) uc (session cs w) = (.ok (some (.num y)), w')) ↔
      Reach (LinkedName w.net) a b := by
  refine ⟨?_, fun hr => C88_answers_partial hw hcs ha hq ca cb hr uc x⟩
  rintro ⟨y, w', h⟩
  obtain ⟨hs, h32, h34⟩ := special_label ha hq
  have hbase := base_session hcs hw.fresh.wf
  have := answer_reach (hw.reachable hcs) ca cb (by rw [hbase.dic]; exact hw.shipped.ordinary ca.2 (builtIn_isName ha) h32 h34)
    (by rw [hbase.dic]; exact hw.shipped.noDensity ca.2 hs.1) h
  rwa [hbase.net] at this

/-- C88: any two single-name units of an ordinary connected quantity convert. -/
theorem C88_quantity_partial {w : World} (hw : Started w) {cs : List Call} (hcs : ∀ c ∈ cs, Asks c) {q a b : Str}
    (hc : q ∈ connectedQuantities) (hq : q ∉ specialQuantities) (ha : BuiltIn q a) (hb : BuiltIn q b) (ca : CleanName a)
    (cb : CleanName b) (uc : Option Bool) (x : Rat) :
    ∃ y w', convert (some x) (some a) (some b) uc (session cs w) = (.ok (some (.num y)), w') :=
  C88_answers_partial hw hcs ha hq ca cb (C87_connected_partial hw.shipped.network hc ha hb) uc x

/-- C88 for the question: `convertible` says yes, whatever was converted or asked before. -/
theorem C88_convertible_partial {w : World} (hw : Started w) {cs : List Call} (hcs : ∀ c ∈ cs, Asks c) {q a b : Str}
    (ha : BuiltIn q a) (hq : q ∉ specialQuantities) (ca : CleanName a) (cb : CleanName b)
    (hr : Reach (LinkedName w.net) a b) (uc : Option Bool) :
    (convertible a b uc (session cs w)).1 = .ok true := by
  by_cases hab : a = b
  · subst hab; exact C11_convertible _ (hw.reachable hcs) a ca.2 uc
  obtain ⟨hs, h32, h34⟩ := special_label ha hq
  have hn := hw.shipped.network
  obtain ⟨na, nb, g1, g2, e1, e2, hl⟩ := reach_nodes hw.fresh.wf hn.distinct hr hab
  have hsb : Smooth b := by
    obtain ⟨p, hp⟩ := hr
    unfold Smooth; rw [← hn.reach_label hp]; exact hs
  exact convertible_session (askInv_fresh hw.fresh (hw.shipped.finds hw.fresh hw.algorithm hw.edges hw.generations))
    (hn.totalOn _) ⟨⟨ca.2, hs⟩, cb.2, hsb⟩ (hw.shipped.ordinary ca.2 (builtIn_isName ha) h32 h34) g1 g2
    (by rw [e1]; exact hs) hl hcs uc

/-- a process right after the import, with the default settings -/
theorem started_ex : ∃ w, Started w ∧ w.par = {} ∧ w.fvf = none := by
  obtain ⟨n, d, h⟩ := shipped_library
  let w : World := { net := n, dic := converterDict d }
  have hf : Fresh w := ⟨h.network.wf, rfl, rfl, by constructor <;> simp [w]⟩
  exact ⟨w, ⟨hf, ⟨d, h, rfl⟩, by simp [w], rfl, by simp [w]⟩, rfl, rfl⟩

example : ∃ w, Started w ∧ ∀ x, ∃ y w', convert (some x) (some s!!"nautical mile") (some s!!"thou") none
    (session [.convert (some 1) (some s!!"Celsius") (some s!!"thou") none] w) = (.ok (some (.num y)), w') := by
  obtain ⟨w, hw, _⟩ := started_ex
  exact ⟨w, hw, fun x => C88_quantity_partial hw (by simp [Asks]) (q := s!!"Length") (by decide) (by decide)
    (builtIn_mem (by decide +kernel) (by decide)) (builtIn_mem (by decide +kernel) (by decide))
    (Demo.cleanName_of (by decide)) (Demo.cleanName_of (by decide)) none x⟩

example : ∃ w, Started w ∧ (convertible s!!"nautical mile" s!!"thou" none (session
    [.convertible s!!"nautical mile" s!!"thou" none, .convertible s!!"thou" s!!"Celsius" none] w)).1 = .ok true := by
  obtain ⟨w, hw, _⟩ := started_ex
  have h1 : BuiltIn s!!"Length" s!!"nautical mile" := builtIn_mem (by decide +kernel) (by decide)
  have h2 : BuiltIn s!!"Length" s!!"thou" := builtIn_mem (by decide +kernel) (by decide)
  exact ⟨w, hw, C88_convertible_partial hw (by simp [Asks]) h1 (by decide) (Demo.cleanName_of (by decide))
    (Demo.cleanName_of (by decide)) (C87_connected_partial hw.shipped.network (by decide) h1 h2) none⟩

/-! ### C89 -/

/-- C89: a built-in unit of an ordinary quantity is never converted into a unit of another quantity: whatever session
came before, with new units and conversions but on the shipped network, `convert` does not answer. -/
theorem C89_refuses_partial {w : World} (hw : Reachable w) (hs : ShippedWorld w) {k l a b : Str} (ha : UnitOfKind k a)
    (hb : UnitOfKind l b) (hk : quantityOf k ∉ specialQuantities) (hkl : ¬ SameQuantity k l) (ca : CleanName a)
    (cb : CleanName b) (uc : Option Bool) (v : Option Rat) (c : Conv) (w' : World) :
    convert v (some a) (some b) uc w ≠ (.ok (some c), w') := by
  intro h
  obtain ⟨h3, h32, h34⟩ := special_label ⟨k, ha, rfl⟩ hk
  exact C63_apart_partial hs.network ha hb hkl (answer_reach hw ca cb (hs.ordinary ca.2 (unit_isName ha) h32 h34)
    (hs.noDensity ca.2 h3.1) h)

example : ∃ w, Reachable w ∧ ShippedWorld w ∧ UnitOfKind s!!"Length_SI" s!!"km" ∧ UnitOfKind s!!"Time_SI" s!!"ms" ∧
    ∀ w', convert (some 1) (some s!!"km") (some s!!"ms") none w ≠ (.ok (some (.num 1)), w') := by
  obtain ⟨w, hw, _⟩ := started_ex
  have h1 : UnitOfKind s!!"Length_SI" s!!"km" := unitOfKind (by decide +kernel)
  have h2 : UnitOfKind s!!"Time_SI" s!!"ms" := unitOfKind (by decide +kernel)
  exact ⟨w, hw.reachable (cs := []) (by simp), hw.shipped, h1, h2, fun w' => C89_refuses_partial
    (hw.reachable (cs := []) (by simp)) hw.shipped h1 h2 (by decide) (by unfold SameQuantity; decide +kernel)
    (Demo.cleanName_of (by decide)) (Demo.cleanName_of (by decide)) none _ _ w'⟩

/-- C89 fails for capacitances: a Farad is converted into degrees Celsius, because 'F' names both a Farad and a degree
Fahrenheit. -/
theorem C89_capacitance_fails {w : World} (hw : Started w) {cs : List Call} (hcs : ∀ c ∈ cs, Asks c) (uc : Option Bool) (x : Rat) :
    BuiltIn s!!"Capacitance" s!!"Farad" ∧ BuiltIn s!!"Temperature" s!!"Celsius" ∧
      ∃ y w', convert (some x) (some s!!"Farad") (some s!!"Celsius") uc (session cs w) = (.ok (some (.num y)), w') := by
  have h1 : BuiltIn s!!"Capacitance" s!!"Farad" := builtIn_mem (by decide +kernel) (by decide)
  have h2 : BuiltIn s!!"Temperature" s!!"Celsius" := builtIn_mem (by decide +kernel) (by decide)
  refine ⟨h1, h2, C88_answers_partial hw hcs h1 (by decide) (Demo.cleanName_of (by decide)) (Demo.cleanName_of (by decide)) ?_ uc x⟩
  exact (hw.shipped.network.reach_iff (builtIn_isName h1) (builtIn_isName h2)).2 (by decide +kernel)

/-! ### C64, C76 with the answers found -/

/-- C64, with the answers found: any two joined units of an ordinary quantity other than pressure convert there and
back to the same number. -/
theorem C64_there_and_back_partial {w : World} (hw : Started w) (hφ : w.fvf ≠ some 0) {cs ds : List Call}
    (hcs : ∀ c ∈ cs, Asks c) (hds : ∀ c ∈ ds, Asks c) {q q' a b : Str} (ha : BuiltIn q a) (hb : BuiltIn q' b)
    (hq : q ∉ specialQuantities) (hp : q ≠ s!!"Pressure") (ca : CleanName a) (cb : CleanName b)
    (hr : Reach (LinkedName w.net) a b) (uc uc' : Option Bool) (x : Rat) :
    ∃ y w1 w2, convert (some x) (some a) (some b) uc (session cs w) = (.ok (some (.num y)), w1) ∧
      convert (some y) (some b) (some a) uc' (session ds w) = (.ok (some (.num x)), w2) := by
  have hn := hw.shipped.network
  obtain ⟨hs, h32, h34⟩ := special_label ha hq
  have hl : labelOf b = labelOf a := by obtain ⟨p, hp⟩ := hr; exact (hn.reach_label hp).symm
  have hq' : q' ∉ specialQuantities := by
    obtain ⟨h1, h2, h3, h4, _⟩ := builtIn_numbers hb
    rw [hl] at h1 h2 h3 h4
    intro hm
    simp only [specialQuantities, List.mem_cons, List.not_mem_nil, or_false] at hm
    rcases hm with rfl | rfl | rfl | rfl | rfl | rfl | rfl
    · exact hs.1 (h1.1 (by simp))
    · exact hs.1 (h1.1 (by simp))
    · exact hs.2 (h2.1 (by simp))
    · exact hs.2 (h2.1 (by simp))
    · exact h32 (h3.1 (by simp))
    · exact h32 (h3.1 (by simp))
    · exact h34 (h4.1 rfl)
  have h6 : labelOf a ≠ some 6 := fun e => hp ((builtIn_numbers ha).2.2.2.2.2 e)
  obtain ⟨y, w1, r1⟩ := C88_answers_partial hw hcs ha hq ca cb hr uc x
  obtain ⟨z, w2, r2⟩ := C88_answers_partial hw hds hb hq' cb ca (C62_symmetric hn hr) uc' y
  obtain ⟨k, ka, rfl⟩ := ha
  obtain ⟨k', kb, rfl⟩ := hb
  have sk : ∀ {k u : Str}, UnitOfKind k u → labelOf u ≠ some 3 → labelOf u ≠ some 6 → SoundKind k := by
    intro k u hu h3 h6 hm
    obtain ⟨l, e1, e2⟩ := unit_label hu
    have := kind_numbers _ e2
    simp only [unsoundKinds, List.mem_cons, List.not_mem_nil, or_false] at hm
    rcases hm with hm | hm | hm
    · exact h6 (by rw [e1]; exact congrArg some (this.2.2.2.2.1 hm))
    · exact h3 (by rw [e1]; exact congrArg some (this.1.1 (by simp [hm])))
    · exact h3 (by rw [e1]; exact congrArg some (this.1.1 (by simp [hm])))
  have e := C64_round_trip_partial (hw.reachable (cs := []) (by simp)) hn hφ ka (sk ka hs.1 h6) kb
    (sk kb (hl ▸ hs.1) (hl ▸ h6)) ca cb (hw.shipped.ordinary ca.2 (unit_isName ka) h32 h34)
    (hw.shipped.ordinary cb.2 (unit_isName kb) (hl ▸ h32) (hl ▸ h34)) (hw.shipped.noDensity ca.2 hs.1) hcs hds r1 r2
  cases e
  exact ⟨y, w1, w2, r1, r2⟩

/-- the kinds of the units of the lists of standard sizes -/
def standardKinds : List (List Str) :=
  [[s!!"Length"], [s!!"Time"], [s!!"Area"], [s!!"Energy"], [s!!"dataBIT", s!!"dataBYTE"], [s!!"Velocity"], [s!!"Force"]]

theorem standard_units : standardSizes.length = standardKinds.length ∧
    ((standardSizes.zip standardKinds).all fun x => match x.1.head? with
      | none => true
      | some h => x.1.all fun e => islandOf e.1 == islandOf h.1 && x.2.any fun b => (basicNames b).contains e.1) = true := by
  decide +kernel

theorem standardKinds_ok : ∀ l ∈ standardKinds, ∀ b ∈ l, quantityOf b ∉ specialQuantities ∧ kindBase b = b := by decide +kernel

theorem standard_unit {l : List (Str × Rat)} (hl : l ∈ standardSizes) {e e' : Str × Rat} (he : e ∈ l) (he' : e' ∈ l) :
    islandOf e.1 = islandOf e'.1 ∧ ∃ q, BuiltIn q e.1 ∧ q ∉ specialQuantities := by
  obtain ⟨i, hi⟩ := List.mem_iff_getElem?.1 hl
  obtain ⟨ks, hks⟩ : ∃ ks, standardKinds[i]? = some ks := by
    have : i < standardKinds.length := by rw [← standard_units.1]; exact (List.getElem?_eq_some_iff.1 hi).1
    exact ⟨_, List.getElem?_eq_getElem this⟩
  have hm : (l, ks) ∈ standardSizes.zip standardKinds :=
    List.mem_iff_getElem?.2 ⟨i, by rw [List.getElem?_zip_eq_some]; exact ⟨hi, hks⟩⟩
  have := List.all_eq_true.1 standard_units.2 _ hm
  cases l with
  | nil => cases he
  | cons h t =>
    simp only [List.head?_cons] at this
    have h1 := List.all_eq_true.1 this e he
    have h2 := List.all_eq_true.1 this e' he'
    simp only [Bool.and_eq_true, beq_iff_eq] at h1 h2
    refine ⟨h1.1.trans h2.1.symm, ?_⟩
    obtain ⟨b, hb, h3⟩ := List.any_eq_true.1 h1.2
    obtain ⟨k, hk, rfl⟩ := mem_basicNames.1 (List.contains_iff_mem.1 h3)
    have ok := standardKinds_ok _ (List.mem_of_getElem? hks) _ hb
    refine ⟨quantityOf k, ⟨k, hk, rfl⟩, ?_⟩
    have : quantityOf (kindBase k) = quantityOf k := by unfold quantityOf; rw [ok.2]
    rw [← this]; exact ok.1

/-- C76, with the answer found: after `import unyts` and any conversions and questions, converting `x` from `a` to `b`,
two units of one list of standard sizes, returns `x` times the size of `a` over the size of `b`. -/
theorem C76_exact {w : World} (hw : Started w) (hφ : w.fvf ≠ some 0) {cs : List Call} (hcs : ∀ c ∈ cs, Asks c)
    {l : List (Str × Rat)} (hl : l ∈ standardSizes) {a b : Str} {sa sb : Rat} (ma : (a, sa) ∈ l) (mb : (b, sb) ∈ l)
    (uc : Option Bool) (x : Rat) :
    (convert (some x) (some a) (some b) uc (session cs w)).1 = .ok (some (.num (x * sa / sb))) := by
  have clean : ∀ l ∈ standardSizes, ∀ e ∈ l, '(' ∉ e.1 ∧ ')' ∉ e.1 ∧
    (∀ c ∈ e.1.head?.toList ++ e.1.getLast?.toList, c ∉ [' ', '"', '\'']) ∧ e.1 ≠ s!!"Empty" ∧ '/' ∉ e.1 ∧ '*' ∉ e.1 := by
    decide +kernel
  have hn := hw.shipped.network
  obtain ⟨hi, q, ha, hq⟩ := standard_unit hl ma mb
  obtain ⟨_, q', hb, _⟩ := standard_unit hl mb ma
  have ca := Demo.cleanName_of (clean l hl _ ma)
  have cb := Demo.cleanName_of (clean l hl _ mb)
  obtain ⟨y, w', hr⟩ := C88_answers_partial hw hcs ha hq ca cb
    ((hn.reach_iff (builtIn_isName ha) (builtIn_isName hb)).2 hi) uc x
  have hbase := base_session hcs hw.fresh.wf
  obtain ⟨hs, h32, h34⟩ := special_label ha hq
  have := C76_standard_partial (hw.reachable hcs) (by rw [hbase.net]; exact hn) (by rw [hbase.fvf]; exact hφ) hl ma mb
    (by rw [hbase.dic]; exact hw.shipped.ordinary ca.2 (builtIn_isName ha) h32 h34)
    (by rw [hbase.dic]; exact hw.shipped.noDensity ca.2 hs.1) hr
  rw [hr, this]

example : ∃ w, Started w ∧ ∀ uc, numOf (convert (some 3) (some s!!"mile") (some s!!"in") uc w).1 = some 190080 := by
  obtain ⟨w, hw, _, hf⟩ := started_ex
  refine ⟨w, hw, fun uc => ?_⟩
  have := C76_exact hw (by rw [hf]; decide) (cs := []) (by simp) (l := standardSizes[0]) (List.getElem_mem _) (a := s!!"mile")
    (b := s!!"in") (sa := 201168 / 125) (sb := 127 / 5000) (by decide +kernel) (by decide +kernel) uc 3
  rw [show session [] w = w from rfl] at this
  rw [this]
  simp only [numOf]
  norm_num

end Unyts
