import Verif.Lemmas.ConvHistory
import Verif.Spec.Session

/- `_clean_input` -/
namespace Unyts
open Spec

namespace Py

theorem lstrip_of_head {cs : List Char} {s : Str} (h : ∀ c, s.head? = some c → c ∉ cs) : lstrip cs s = s := by
  cases s with
  | nil => rfl
  | cons x xs => exact lstrip_of_head_not_mem (h x rfl)

theorem strip_of_ends {cs : List Char} {s : Str} (h : ∀ c, s.head? = some c ∨ s.getLast? = some c → c ∉ cs) :
    strip cs s = s := by
  unfold strip rstrip
  rw [lstrip_of_head (fun c hc => h c (Or.inl hc)), lstrip_of_head, List.reverse_reverse]
  intro c hc
  rw [List.head?_reverse] at hc
  exact h c (Or.inr hc)

end Py

theorem clean_bareEnds {u : Str} (h : CleanUnit u) (hne : u ≠ []) : BareEnds u := by
  refine ⟨hne, fun c hc => ?_⟩
  have h1 := h.ends c hc
  have hm : c ∈ u := by
    rcases hc with hc | hc
    · exact List.mem_of_head? hc
    · exact List.mem_of_getLast? hc
  simp only [List.mem_cons, List.not_mem_nil, or_false, not_or] at h1 ⊢
  exact ⟨h1.1, h1.2.1, h1.2.2, fun e => h.noOpen (e ▸ hm), fun e => h.noClose (e ▸ hm)⟩

theorem lstrip_append_bare {cs : List Char} {p t : Str} (h : ∀ c, t.head? = some c → c ∉ cs) :
    Py.lstrip cs (p ++ t) = Py.lstrip cs p ++ t := by
  induction p with
  | nil => simp [Py.lstrip_of_head h, Py.lstrip]
  | cons x xs ih =>
    simp only [List.cons_append, Py.lstrip]
    split
    · exact ih
    · rfl

theorem strip_around {cs : List Char} {p u q : Str} (hne : u ≠ [])
    (h : ∀ c, u.head? = some c ∨ u.getLast? = some c → c ∉ cs) :
    Py.strip cs (p ++ u ++ q) = Py.lstrip cs p ++ u ++ (Py.lstrip cs q.reverse).reverse := by
  unfold Py.strip Py.rstrip
  have hh : (u ++ q).head? = u.head? := by
    cases u with
    | nil => exact absurd rfl hne
    | cons x xs => rfl
  rw [List.append_assoc, lstrip_append_bare (fun c hc => h c (Or.inl (hh ▸ hc)))]
  have : (Py.lstrip cs p ++ (u ++ q)).reverse = q.reverse ++ (u.reverse ++ (Py.lstrip cs p).reverse) := by simp
  rw [this, lstrip_append_bare]
  · simp
  · intro c hc
    refine h c (Or.inr ?_)
    rw [← List.head?_reverse]
    have hr : u.reverse ≠ [] := by simpa using hne
    cases hu : u.reverse with
    | nil => exact absurd hu hr
    | cons x xs => rw [hu] at hc; exact hc

theorem lstrip_layers {p : Str} (h : Decoration p) :
    Py.lstrip ['\''] (Py.lstrip ['(', ' ', '"', ')'] (Py.lstrip ['(', ' ', '\'', ')'] p)) = [] := by
  obtain ⟨p1, p2, p3, rfl, h1, h2, h3⟩ := h
  rw [List.append_assoc, Py.lstrip_append h1]
  have h3' : Py.lstrip ['\''] p3 = [] := Py.lstrip_all (by simpa using h3)
  have h3a : Py.lstrip ['(', ' ', '\'', ')'] p3 = [] := Py.lstrip_all (fun c hc => by simp [h3 c hc])
  have step : ∀ q : Str, (∀ c ∈ q, c ∈ ['(', ' ', '"', ')']) →
      Py.lstrip ['\''] (Py.lstrip ['(', ' ', '"', ')'] (q ++ p3)) = [] := by
    intro q hq
    rw [Py.lstrip_append hq]
    cases p3 with
    | nil => rfl
    | cons x xs =>
      have := h3 x (by simp)
      subst this
      rw [Py.lstrip_of_head_not_mem (by decide)]
      exact h3'
  clear h1
  induction p2 with
  | nil => rw [List.nil_append, h3a]; rfl
  | cons x xs ih =>
    rw [List.cons_append, Py.lstrip]
    split
    · exact ih (fun c hc => h2 c (List.mem_cons_of_mem _ hc))
    · exact step (x :: xs) h2

theorem stripName_decorated {u p q : Str} (h : BareEnds u) (hp : Decoration p) (hq : Decoration q.reverse) :
    stripName (p ++ u ++ q) = u := by
  obtain ⟨hne, hends⟩ := h
  have hx : ∃ x, u.head? = some x := by
    cases u with
    | nil => exact absurd rfl hne
    | cons x xs => exact ⟨x, rfl⟩
  obtain ⟨x, hx⟩ := hx
  have hxm : x ∈ p ++ u ++ q := by simp [List.mem_of_head? hx]
  have hxn := hends x (Or.inl hx)
  simp only [List.mem_cons, List.not_mem_nil, or_false, not_or] at hxn
  have hn1 : p ++ u ++ q ≠ ['"'] := by
    intro e; rw [e] at hxm; simp at hxm; exact hxn.2.1 hxm
  have hn2 : p ++ u ++ q ≠ ['\''] := by
    intro e; rw [e] at hxm; simp at hxm; exact hxn.2.2.1 hxm
  have sub : ∀ cs : List Char, (∀ c ∈ cs, c ∈ [' ', '"', '\'', '(', ')']) →
      ∀ c, u.head? = some c ∨ u.getLast? = some c → c ∉ cs := fun cs hcs c hc hm => hends c hc (hcs c hm)
  unfold stripName
  rw [if_pos ⟨hn1, hn2⟩, strip_around hne (sub _ (by decide)), strip_around hne (sub _ (by decide)),
    strip_around hne (sub _ (by decide))]
  simp only [List.reverse_reverse]
  rw [lstrip_layers hp, lstrip_layers hq]
  simp

theorem stripName_clean {u : Str} (h : CleanUnit u) : stripName u = u := by
  by_cases hne : u = []
  · subst hne; decide
  have := stripName_decorated (p := []) (q := []) (clean_bareEnds h hne) ⟨[], [], [], rfl, by simp, by simp, by simp⟩
    ⟨[], [], [], rfl, by simp, by simp, by simp⟩
  simpa using this

theorem reduceParentheses_none {u : Str} (h1 : '(' ∉ u) (h2 : ')' ∉ u) : reduceParentheses u = .ok u := by
  unfold reduceParentheses
  rw [if_pos ⟨h1, h2⟩]

theorem cleanInput_clean (par : Params) {a b : Str} (ha : CleanUnit a) (hb : CleanUnit b) :
    cleanInput par (some a) (some b) = .ok (a, b) := by
  unfold cleanInput
  rw [if_neg (by intro e; exact hb.notEmpty (Option.some.inj e))]
  simp only [cleanName, stripName_clean ha, stripName_clean hb, reduceParentheses_none ha.noOpen ha.noClose,
    reduceParentheses_none hb.noOpen hb.noClose, bind, Except.bind, pure, Except.pure]
  split <;> rfl

theorem convert_clean {a b : Str} (ha : CleanUnit a) (hb : CleanUnit b) (v : Option Rat) (uc : Option Bool) (w : World) :
    convert v (some a) (some b) uc w = convertClean uc v a b w := by
  unfold convert
  rw [PyM.run_bind_ok (PyM.run_get _), cleanInput_clean _ ha hb, PyM.run_bind_ok (PyM.run_lift_ok _ _)]

/-! ### `convert` without density -/

theorem density_none {w : World} {a b : Str} (h : ¬ DensityPair w.dic a b) (uc : Option Bool) (v : Option Rat) :
    densityConversion uc v a b w = (.ok none, w) := by
  unfold densityConversion
  rw [PyM.run_bind_ok (PyM.run_get _), if_neg, if_neg]
  · rfl
  · rintro ⟨u1, u2, h1, h2⟩; exact h ⟨u1, u2, Or.inr ⟨h1, h2⟩⟩
  · rintro ⟨u1, u2, h1, h2⟩; exact h ⟨u1, u2, Or.inl ⟨h1, h2⟩⟩

/-- what `convert` makes of the answer of `_converter` -/
def finish (raiseError : Bool) : Res (Option (Conv × Path)) → Res (Option Conv)
  | .ok (some (c, _)) => .ok (some c)
  | .ok none => if raiseError then .error .noConversionFound else .ok none
  | .error e => .error e

theorem convertClean_eq {w : World} (hg : WF w.net) {a b : Str} (h : ¬ DensityPair w.dic a b) (uc : Option Bool)
    (v : Option Rat) : convertClean uc v a b w =
      (finish w.par.raiseError (converterTop uc v a b { w with previous := [] }).1,
        (converterTop uc v a b { w with previous := [] }).2) := by
  unfold convertClean
  rw [PyM.run_bind_ok (PyM.run_modify _ _), PyM.run_bind_ok (density_none (w := { w with previous := [] }) h uc v)]
  simp only
  cases hr : converterTop uc v a b { w with previous := [] } with
  | mk r w1 =>
    cases r with
    | error e => rw [PyM.run_bind_error hr]; rfl
    | ok r =>
      rw [PyM.run_bind_ok hr]
      cases r with
      | some cp => rfl
      | none =>
        have hb : SameBase { w with previous := [] } w1 := by
          have := base_converter (w := { w with previous := [] }) hg (topBudget w.par) uc v a b
          rw [converterTop_eq] at hr
          rw [show topBudget ({ w with previous := [] } : World).par = topBudget w.par from rfl] at hr
          rw [hr] at this
          exact this
        simp only
        rw [PyM.run_bind_ok (PyM.run_get _), hb.par]
        simp only [finish]
        split <;> rfl

/-! ### the state -/

theorem sound_of_reachable {w : World} (h : Reachable w) : SoundAmple w := by
  obtain ⟨w0, cs, hf, hc, rfl⟩ := h
  exact soundAmple_session cs hc ⟨sound_fresh hf.wf hf.memory, hf.ample⟩

end Unyts
