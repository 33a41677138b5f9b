import Verif.Lemmas.ConvParts
import Verif.Lemmas.ConvSelf
import Verif.Spec.DemoWorld

/-
C20, C24, C26, C27: how unit names may be written, and units with a rule of their own.
-/
namespace Unyts
open Spec

/-! ### C20 -/

theorem decoration_mem {p : Str} (h : Decoration p) : ∀ c ∈ p, c ∈ ['(', ' ', '\'', ')', '"'] := by
  obtain ⟨p1, p2, p3, rfl, h1, h2, h3⟩ := h
  intro c hc
  rw [List.mem_append, List.mem_append] at hc
  rcases hc with (hc | hc) | hc
  · have := h1 c hc; simp only [List.mem_cons, List.not_mem_nil, or_false] at this ⊢; tauto
  · have := h2 c hc; simp only [List.mem_cons, List.not_mem_nil, or_false] at this ⊢; tauto
  · simp [h3 c hc]

/-- decorating cannot produce the reserved word -/
theorem decorated_not_reserved {p b q : Str} (hp : Decoration p) (hq : Decoration q.reverse) (hb : b ≠ s!!"Empty") :
    p ++ b ++ q ≠ s!!"Empty" := by
  intro e
  have hfree : ∀ c ∈ s!!"Empty", c ∉ ['(', ' ', '\'', ')', '"'] := by decide
  have hp' : p = [] := by
    cases p with
    | nil => rfl
    | cons c p =>
      exact absurd (decoration_mem hp c (by simp)) (hfree c (by rw [← e]; simp))
  have hq' : q = [] := by
    cases q with
    | nil => rfl
    | cons c q =>
      exact absurd (decoration_mem hq c (by simp)) (hfree c (by rw [← e]; simp))
  subst hp' hq'
  simp at e
  exact hb e

/-- C20. Whatever blanks, quotes and parentheses are written around the unit names (on each side, different before and
after), `convert` does exactly what it does with the bare names: same answer, same exception, same state afterwards.
The bare names may be any strings that neither start nor end with a decoration. -/
theorem C20_decoration (w : World) (v : Option Rat) (uc : Option Bool) (a b p q p' q' : Str)
    (ha : BareEnds a) (hb : BareEnds b) (hne : b ≠ s!!"Empty") (hp : Decoration p) (hq : Decoration q.reverse)
    (hp' : Decoration p') (hq' : Decoration q'.reverse) :
    convert v (some (p ++ a ++ q)) (some (p' ++ b ++ q')) uc w = convert v (some a) (some b) uc w := by
  have none : Decoration [] := ⟨[], [], [], rfl, by simp, by simp, by simp⟩
  have sa := stripName_decorated ha none (q := []) none
  have sb := stripName_decorated hb none (q := []) none
  simp only [List.nil_append, List.append_nil] at sa sb
  have hc : cleanInput w.par (some (p ++ a ++ q)) (some (p' ++ b ++ q')) = cleanInput w.par (some a) (some b) := by
    unfold cleanInput
    have e1 : ¬ (some (p' ++ b ++ q') = some s!!"Empty") := fun e => decorated_not_reserved hp' hq' hne (Option.some.inj e)
    have e2 : ¬ (some b = some s!!"Empty") := fun e => hne (Option.some.inj e)
    rw [if_neg e1, if_neg e2]
    simp only [cleanName, stripName_decorated ha hp hq, stripName_decorated hb hp' hq', sa, sb]
  unfold convert
  rw [PyM.run_bind_ok (PyM.run_get _), PyM.run_bind_ok (PyM.run_get _), hc]

example : BareEnds s!!"mi" ∧ Decoration s!!" ('" ∧ Decoration s!!" \"'" ∧
    numOf (convert (some 2) (some s!!" ('mi'\" )") (some s!!"\t in".tail) none Demo.world).1 = some 126720 := by
  refine ⟨⟨by decide, ?_⟩, ⟨s!!" ('", [], [], rfl, by decide, by simp, by simp⟩, ⟨s!!" ", s!!"\"", s!!"'", rfl, by decide, by decide, by decide⟩,
    by decide +kernel⟩
  rintro c (h | h) <;> · simp at h; subst h; decide

/-- C20, the limit: a closing parenthesis that belongs to the unit is taken for decoration too, and the unit that is
left is rejected, although `reduce_parentheses` would accept the unit as written. -/
theorem C20_final_parenthesis :
    (convert (some 1) (some s!!"in/(ft*g)") (some s!!"in/(ft*g)") none Demo.world).1.map (fun _ => ()) =
      .error .valueError ∧
    reduceParentheses s!!"in/(ft*g)" = .ok s!!"in/ft/g" := by decide +kernel

/-! ### C24 -/

/-- C24. Between a ratio and the same ratio upside down (and not of two temperatures) the number is inverted; zero
raises ZeroDivisionError. The pair must not have been noted before, or the cache not be used. -/
theorem C24_inverted (w : World) (hw : Reachable w) (a b : Str) (ha : CleanName a) (hb : CleanName b) (na : a ≠ [])
    (nb : b ≠ []) (hab : a ≠ b) (oa : Ordinary w.dic (a ++ '/' :: b)) (ob : Ordinary w.dic (b ++ '/' :: a))
    (ht : ¬ (a ∈ w.dic.temperature ∧ b ∈ w.dic.temperature))
    (hd : ¬ DensityPair w.dic (a ++ '/' :: b) (b ++ '/' :: a)) (uc : Option Bool)
    (hm : uc.getD w.par.cache = false ∨ Py.dictGet w.memory (a ++ '/' :: b, b ++ '/' :: a) = none) (x : Rat) :
    (convert (some x) (some (a ++ '/' :: b)) (some (b ++ '/' :: a)) uc w).1 =
      if x = 0 then .error .zeroDivision else .ok (some (.num (1 / x))) := by
  have hne : a ++ '/' :: b ≠ b ++ '/' :: a := by
    intro e
    have h1 := ratioParts_ratio ha.2.1 hb.2.1
    rw [e, ratioParts_ratio hb.2.1 ha.2.1] at h1
    simp only [Option.some.injEq, Prod.mk.injEq] at h1
    exact hab h1.2
  have hsw : Swapped (a ++ '/' :: b) (b ++ '/' :: a) :=
    ⟨a, b, b, a, ha.2.1, hb.2.1, hb.2.1, ha.2.1, rfl, rfl, rfl, rfl⟩
  have htp : tempParts w.dic (a ++ '/' :: b) (b ++ '/' :: a) = none := by
    unfold tempParts
    rw [ratioParts_ratio ha.2.1 hb.2.1, ratioParts_ratio hb.2.1 ha.2.1]
    simp only
    rw [if_neg ht]
  rw [convert_rule (sound_of_reachable hw) (cleanUnit_ratio ha hb na nb '/' (Or.inl rfl))
    (cleanUnit_ratio hb ha nb na '/' (Or.inl rfl)) hd (memHit_none hm)
    (Or.inr ⟨htp, quick_swapped hne oa ob hsw⟩)]
  simp only [pdiv]
  split <;> rfl

example : Reachable Demo.world ∧ CleanName s!!"ft" ∧
    numOf (convert (some 8) (some s!!"ft/g") (some s!!"g/ft") none Demo.world).1 = some (1 / 8) :=
  ⟨Demo.reachable, Demo.clean_ft, by decide +kernel⟩

/-- C24, two limits. When the pair was noted as impossible (here at the end of the recursion limit) the parts are
converted instead, and the number is not inverted any more; and between two ratios of temperatures the rule for
gradients is used. -/
theorem C24_not_always :
    (let w := session [.settings { algorithm := .bfs, maxRecursion := 0 },
        .convert (some 1) (some s!!"ft/in") (some s!!"in/ft") none, .settings { algorithm := .bfs }] Demo.world
     numOf (convert (some 8) (some s!!"ft/in") (some s!!"in/ft") none w).1 = some (8 * 144)) ∧
    numOf (convert (some 8) (some s!!"ft/in") (some s!!"in/ft") none
      { Demo.world with dic := { temperature := [s!!"ft", s!!"in"], tempRatio := [((s!!"ft", s!!"in"), 12)] } }).1 =
      some (8 * 12 / (1 / 12)) := by decide +kernel

/-! ### C26 -/

theorem quick1_percent {d : Dict} {g : Net} {a b : Str} (hne : a ≠ b) (hdate : ¬ (a ∈ d.date ∧ b ∈ d.date))
    (h1 : Py.lower a ∈ d.dimensionless) (h2 : Py.lower b ∈ d.percentage) :
    quick1 d g a b = some (fun _ x => .ok (x * 100), [.str ['*'], .num 100]) := by
  unfold quick1; rw [if_neg hne, if_neg hdate, if_pos ⟨h1, h2⟩]

theorem quick1_fraction {d : Dict} {g : Net} {a b : Str} (hne : a ≠ b) (hdate : ¬ (a ∈ d.date ∧ b ∈ d.date))
    (hn : ¬ (Py.lower a ∈ d.dimensionless ∧ Py.lower b ∈ d.percentage))
    (h1 : Py.lower a ∈ d.percentage) (h2 : Py.lower b ∈ d.dimensionless) :
    quick1 d g a b = some (fun _ x => .ok (x / 100), [.str ['/'], .num 100]) := by
  unfold quick1; rw [if_neg hne, if_neg hdate, if_neg hn, if_pos ⟨h1, h2⟩]

/-- nothing is remembered about a pair of names that has a rule -/
theorem memHit_rule {w : World} (h : Sound w) {a b : Str} (ha : SimpleName a) (hb : SimpleName b)
    (hr : quick1 w.dic w.net a b ≠ none) (uc : Option Bool) : memHit w uc a b = none :=
  memHit_none (Or.inr (h.rules a b ha hb (byRule_of hr)))

/-- C26. In every state a session left, a fraction converts to a percentage by multiplying by 100 and a percentage to
a fraction by dividing by 100, for all spellings whose lower case is in the dictionary; so each undoes the other. -/
theorem C26_percentage (w : World) (hw : Reachable w) (a b : Str) (ha : CleanName a) (hb : CleanName b) (hne : a ≠ b)
    (h1 : Py.lower a ∈ w.dic.dimensionless) (h2 : Py.lower b ∈ w.dic.percentage)
    (h3 : ¬ (Py.lower b ∈ w.dic.dimensionless ∧ Py.lower a ∈ w.dic.percentage))
    (hdate : ¬ (a ∈ w.dic.date ∧ b ∈ w.dic.date)) (hd : ¬ DensityPair w.dic a b) (uc : Option Bool) (x : Rat) :
    (convert (some x) (some a) (some b) uc w).1 = .ok (some (.num (x * 100))) ∧
    (convert (some x) (some b) (some a) uc w).1 = .ok (some (.num (x / 100))) ∧
    (∀ w1, (convert (some x) (some a) (some b) uc w).2 = w1 →
      (convert (some (x * 100)) (some b) (some a) uc w1).1 = .ok (some (.num x))) := by
  have key1 : ∀ {w : World}, SoundAmple w → Py.lower a ∈ w.dic.dimensionless → Py.lower b ∈ w.dic.percentage →
      ¬ (a ∈ w.dic.date ∧ b ∈ w.dic.date) → ¬ DensityPair w.dic a b → ∀ x,
      (convert (some x) (some a) (some b) uc w).1 = .ok (some (.num (x * 100))) := by
    intro w hs h1 h2 hdate hd x
    have hq := quick1_percent (g := w.net) hne hdate h1 h2
    rw [convert_rule hs ha.1 hb.1 hd (memHit_rule hs.1 ha.2 hb.2 (by rw [hq]; simp) uc) (Or.inl hq)]
    rfl
  have key2 : ∀ {w : World}, SoundAmple w → Py.lower a ∈ w.dic.dimensionless → Py.lower b ∈ w.dic.percentage →
      ¬ (Py.lower b ∈ w.dic.dimensionless ∧ Py.lower a ∈ w.dic.percentage) →
      ¬ (a ∈ w.dic.date ∧ b ∈ w.dic.date) → ¬ DensityPair w.dic a b → ∀ x,
      (convert (some x) (some b) (some a) uc w).1 = .ok (some (.num (x / 100))) := by
    intro w hs h1 h2 h3 hdate hd x
    have hq := quick1_fraction (g := w.net) (Ne.symm hne) (fun h => hdate h.symm) h3 h2 h1
    have hd' : ¬ DensityPair w.dic b a := by rintro ⟨u1, u2, h⟩; exact hd ⟨u2, u1, h.symm⟩
    rw [convert_rule hs hb.1 ha.1 hd' (memHit_rule hs.1 hb.2 ha.2 (by rw [hq]; simp) uc) (Or.inl hq)]
    rfl
  have hs := sound_of_reachable hw
  refine ⟨key1 hs h1 h2 hdate hd x, key2 hs h1 h2 h3 hdate hd x, ?_⟩
  rintro w1 rfl
  have hb1 := base_convert hs.1.wf (some x) (some a) (some b) uc
  have hs1 : SoundAmple (convert (some x) (some a) (some b) uc w).2 := soundAmple_convert hs (Prod.ext rfl rfl)
  rw [key2 hs1 (by rw [hb1.dic]; exact h1) (by rw [hb1.dic]; exact h2) (by rw [hb1.dic]; exact h3)
    (by rw [hb1.dic]; exact hdate) (by rw [hb1.dic]; exact hd)]
  rw [show x * 100 / 100 = x by ring]

/-- a process with some dimensionless and percentage names -/
def ratioWorld : World :=
  { Demo.world with dic := { dimensionless := [s!!"fraction", s!!"ratio", []], percentage := [s!!"%", s!!"percent"] } }

theorem ratioWorld_reachable : Reachable ratioWorld :=
  ⟨ratioWorld, [], ⟨Demo.wf, rfl, rfl, by unfold Ample; decide⟩, by simp, rfl⟩

example : Reachable ratioWorld ∧ CleanName s!!"Percent" ∧ Py.lower s!!"Percent" ∈ ratioWorld.dic.percentage ∧
    CleanName [] ∧ Py.lower [] ∈ ratioWorld.dic.dimensionless ∧
    numOf (convert (some (1/4)) (some []) (some s!!"Percent") none ratioWorld).1 = some 25 ∧
    numOf (convert (some 25) (some s!!"Percent") (some s!!"FRACTION") none ratioWorld).1 = some (1/4) :=
  ⟨ratioWorld_reachable, Demo.cleanName_of (by decide), by decide, Demo.cleanName_of (by decide), by decide,
    by decide +kernel⟩

/-! ### C27 -/

/-- C27. In every state a session left, a dimensionless number converts to any single name that is not a percentage,
known to the library or not, unchanged. -/
theorem C27_any_name (w : World) (hw : Reachable w) (a b : Str) (ha : CleanName a) (hb : CleanName b)
    (h1 : Py.lower a ∈ w.dic.dimensionless) (h2 : Py.lower b ∉ w.dic.percentage)
    (h3 : ¬ (Py.lower a ∈ w.dic.percentage ∧ Py.lower b ∈ w.dic.dimensionless))
    (hd : ¬ DensityPair w.dic a b) (uc : Option Bool) (x : Rat) :
    (convert (some x) (some a) (some b) uc w).1 = .ok (some (.num x)) := by
  have hs := sound_of_reachable hw
  have hq : ∃ p, quick1 w.dic w.net a b = some (idFn, p) := by
    unfold quick1
    split
    · exact ⟨_, rfl⟩
    · split
      · exact ⟨_, rfl⟩
      · simp only [h1, h2, hb.2.1, not_false_eq_true, and_true, and_false, if_true, if_false] at h3 ⊢
        exact ⟨_, rfl⟩
  obtain ⟨p, hq⟩ := hq
  rw [convert_rule hs ha.1 hb.1 hd (memHit_rule hs.1 ha.2 hb.2 (by rw [hq]; simp) uc) (Or.inl hq)]
  rfl

/-- C27 for products: any target without '/', when nothing is remembered about the pair or the cache is not used. -/
theorem C27_any_product (w : World) (hw : Reachable w) (a b : Str) (ha : CleanUnit a) (hb : CleanUnit b)
    (hns : '/' ∉ b) (h1 : Py.lower a ∈ w.dic.dimensionless) (h2 : Py.lower b ∉ w.dic.percentage)
    (h3 : ¬ (Py.lower a ∈ w.dic.percentage ∧ Py.lower b ∈ w.dic.dimensionless))
    (hd : ¬ DensityPair w.dic a b) (uc : Option Bool)
    (hm : uc.getD w.par.cache = false ∨ Py.dictGet w.memory (a, b) = none) (x : Rat) :
    (convert (some x) (some a) (some b) uc w).1 = .ok (some (.num x)) := by
  have hs := sound_of_reachable hw
  have hq : ∃ p, quick1 w.dic w.net a b = some (idFn, p) := by
    unfold quick1
    split
    · exact ⟨_, rfl⟩
    · split
      · exact ⟨_, rfl⟩
      · simp only [h1, h2, hns, not_false_eq_true, and_true, and_false, if_true, if_false] at h3 ⊢
        exact ⟨_, rfl⟩
  obtain ⟨p, hq⟩ := hq
  rw [convert_rule hs ha hb hd (memHit_none hm) (Or.inl hq)]
  rfl

example : numOf (convert (some 7) (some s!!"Ratio") (some s!!"furlong") none ratioWorld).1 = some 7 ∧
    numOf (convert (some 7) (some s!!"Ratio") (some s!!"furlong*ft") none ratioWorld).1 = some 7 ∧
    CleanName s!!"Ratio" ∧ CleanUnit s!!"furlong*ft" ∧
    Py.dictGet ratioWorld.memory (s!!"Ratio", s!!"furlong*ft") = none :=
  ⟨by decide +kernel, by decide +kernel, Demo.cleanName_of (by decide), Demo.cleanUnit_of (by decide), rfl⟩

/-- C27, beyond the property: a dimensionless number also takes a ratio as its unit, through the first term of it. -/
theorem C27_ratios_too :
    numOf (convert (some 7) (some s!!"ratio") (some s!!"ft/g") none ratioWorld).1 = some 7 := by decide +kernel

end Unyts
