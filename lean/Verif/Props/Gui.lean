import Verif.Spec.Gui
import Verif.Props.ShippedTotal
import Verif.Props.PathText
import Mathlib.Tactic.Linarith
import Mathlib.Tactic.NormNum
import Mathlib.Tactic.FieldSimp

/- C110: what is typed in a row. C111: the button. C112: the dialogs. C113: the elapsed time. C114: the moving text. -/
open Unyts.Spec Unyts.Gui.Spec

namespace Unyts.Gui

/-! ### reading a row -/

theorem readRow_filled {T : Texts} {u : Str} {x : Rat} {b : Row} (h : Filled T u x b) :
    readRow T b = (some u, .num x, ⟨u, T.show' x⟩) := by
  cases h with
  | valueRight ht hu =>
    obtain ⟨⟨t0, t1, t2⟩, tn, rfl⟩ := ht
    obtain ⟨⟨u0, u1, u2⟩, un⟩ := hu
    simp only [readRow, t2, u1]
    rw [if_neg (fun h => t0 h.1), if_neg (fun h => u0 h.1), if_pos ⟨tn, un⟩]
    rfl
  | valueLeft ht hu =>
    obtain ⟨⟨t0, t1, t2⟩, tn, rfl⟩ := ht
    obtain ⟨⟨u0, u1, u2⟩, un⟩ := hu
    simp only [readRow, t1, u2]
    rw [if_neg (fun h => u0 h.1), if_neg (fun h => t0 h.1), if_neg (fun h => by simp [un] at h), if_pos ⟨un, tn⟩]
    rfl

theorem _root_.Unyts.Gui.Spec.Filled.text {T : Texts} {u : Str} {x : Rat} {b : Row} (h : Filled T u x b) : UnitText T u := by
  cases h <;> assumption

theorem _root_.Unyts.Gui.Spec.JustUnit.text {T : Texts} {u : Str} {b : Row} (h : JustUnit T u b) : UnitText T u := by
  cases h <;> assumption

theorem cleanValue_nil : cleanValue [] = [] := by decide

theorem readRow_justUnit {T : Texts} {u : Str} {b : Row} (h : JustUnit T u b) :
    readRow T b = (some u, .text [], ⟨u, []⟩) := by
  have e : Py.stripWs [] = [] := rfl
  cases h with
  | left hu =>
    obtain ⟨⟨u0, u1, u2⟩, un⟩ := hu
    simp only [readRow, cleanValue_nil, u1]
    rw [if_pos ⟨trivial, u0, un⟩]
    rfl
  | right hu =>
    obtain ⟨⟨u0, u1, u2⟩, un⟩ := hu
    simp only [readRow, u2, e]
    rw [if_neg (fun h => u0 h.1), if_pos ⟨trivial, u0, un⟩]
    rfl

/-- C110. A number and a unit are recognised in whichever boxes of a row they are typed: both ways are read alike, and the row
is left with the unit first. -/
theorem C110_either {T : Texts} {u t : Str} {x : Rat} (ht : NumberText T t x) (hu : UnitText T u) :
    readRow T ⟨u, t⟩ = (some u, .num x, ⟨u, T.show' x⟩) ∧ readRow T ⟨t, u⟩ = readRow T ⟨u, t⟩ := by
  have := readRow_filled (.valueLeft ht hu)
  exact ⟨readRow_filled (.valueRight ht hu), this.trans (readRow_filled (.valueRight ht hu)).symm⟩

/-- C110, for a row with a unit alone. -/
theorem C110_unit {T : Texts} {u : Str} (hu : UnitText T u) :
    readRow T ⟨u, []⟩ = (some u, .text [], ⟨u, []⟩) ∧ readRow T ⟨[], u⟩ = readRow T ⟨u, []⟩ :=
  ⟨readRow_justUnit (.left hu), (readRow_justUnit (.right hu)).trans (readRow_justUnit (.left hu)).symm⟩

/-- C110: spaces around what is typed do not matter. -/
theorem C110_spaces (T : Texts) (b : Row) : readRow T ⟨Py.stripWs b.unit, Py.stripWs b.value⟩ = readRow T b := by
  have e : cleanValue (Py.stripWs b.value) = cleanValue b.value := by unfold cleanValue; rw [stripWs_idem]
  unfold readRow
  simp only [e, stripWs_idem]

/-- C110 fails for two texts that are not numbers: the message 'wrong number format' (gui.py:143) is overwritten at once
(gui.py:146), and both boxes read 'None', whatever was typed. -/
theorem C110_message_fails {T : Texts} {u v : Str} (hu : UnitText T u) (hv : UnitText T v) :
    (readRow T ⟨u, v⟩).2.2 = ⟨s!!"None", s!!"None"⟩ ∧ (readRow T ⟨u, v⟩).2.2.value ≠ wrongNumberText := by
  obtain ⟨⟨u0, u1, u2⟩, un⟩ := hu
  obtain ⟨⟨v0, v1, v2⟩, vn⟩ := hv
  have : (readRow T ⟨u, v⟩).2.2 = ⟨s!!"None", s!!"None"⟩ := by
    simp only [readRow, u1, v2]
    rw [if_neg (fun h => v0 h.1), if_neg (fun h => u0 h.1), if_neg (fun h => by simp [vn] at h),
      if_neg (fun h => by simp [un] at h), if_pos ⟨vn, un⟩]
    rfl
  exact ⟨this, by rw [this]; decide⟩

/-- what a row reads never is an empty text unless its unit is not a number -/
theorem readRow_empty {T : Texts} (hT : Sane T) {b : Row} {o : Option Str} {s : Row} (h : readRow T b = (o, .text [], s)) :
    ∃ u, s = ⟨u, []⟩ ∧ T.isNumeric u = false := by
  unfold readRow at h
  simp only at h
  split at h
  · rename_i c
    simp only [Option.getD_some, Prod.mk.injEq, Typed.text.injEq] at h
    obtain ⟨_, h2, h3⟩ := h
    exact ⟨_, by rw [← h3, c.1]; rfl, c.2.2⟩
  · split at h
    · rename_i c
      simp only [Option.getD_some, Prod.mk.injEq, Typed.text.injEq] at h
      obtain ⟨_, h2, h3⟩ := h
      exact ⟨_, by rw [← h3, h2]; rfl, c.2.2⟩
    · split at h
      · simp at h
      · split at h
        · simp at h
        · split at h
          · simp at h
          · rename_i c1 c2 c3
            simp only [Option.getD_some, Prod.mk.injEq, Typed.text.injEq] at h
            obtain ⟨_, h2, h3⟩ := h
            rw [h2, hT.empty] at c1 c2 c3
            simp only [Bool.false_eq_true, false_and, not_false_eq_true, true_and, Bool.not_eq_false, Bool.not_eq_true] at c1 c2 c3
            rw [c2] at c3
            simp at c3

/-- such a row is not read as a number -/
theorem readRow_again {T : Texts} (hT : Sane T) {u : Str} (hu : T.isNumeric u = false) :
    (readRow T ⟨u, []⟩).2.1.numeric T = false := by
  have hs : T.isNumeric (Py.stripWs u) = false := by rw [hT.spaces, hu]
  simp only [readRow, cleanValue_nil]
  by_cases h0 : Py.stripWs u = []
  · rw [if_neg (fun h => h.2.1 h0), if_neg (fun h => h.2.1 rfl), if_neg (fun h => by simp [hT.empty] at h),
      if_neg (fun h => by simp [hs] at h), if_pos ⟨hT.empty, hs⟩]
    rfl
  · rw [if_pos ⟨trivial, h0, hs⟩]
    exact hT.empty

/-! ### the button -/

/-- C111. Pressing the button never raises, whatever is typed, in every state of the library: the direction changes once at
most. -/
theorem C111_total {T : Texts} (hT : Sane T) (f : Window) (w : World) : ∃ g w', pressConvert T f w = (.ok g, w') := by
  have last : ∀ (n : Nat) (f : Window) (w : World), ¬ ((readRow T f.src).2.1 = .text [] ∧ (readRow T f.dst).2.1.numeric T = true) →
      ∃ g w', calculate T (n + 1) f w = (.ok g, w') := by
    intro n f w h
    unfold calculate
    simp only
    split
    · exact ⟨_, _, rfl⟩
    · split <;> exact ⟨_, _, rfl⟩
  unfold pressConvert
  by_cases h : (readRow T f.src).2.1 = .text [] ∧ (readRow T f.dst).2.1.numeric T = true
  · unfold calculate
    simp only
    split
    · exact ⟨_, _, rfl⟩
    · obtain ⟨u, hu, hn⟩ := readRow_empty hT (b := f.src) (o := (readRow T f.src).1) (s := (readRow T f.src).2.2) (by rw [← h.1])
      have := readRow_again hT hn
      obtain ⟨g, w', hg⟩ := last 0 ⟨(readRow T f.dst).2.2, (readRow T f.src).2.2, f.again, s!!" "⟩ w (fun c => by
        rw [show (Window.mk (readRow T f.dst).2.2 (readRow T f.src).2.2 f.again s!!" ").dst = ⟨u, []⟩ from hu, this] at c
        simp at c)
      rw [hg]
      exact ⟨_, _, rfl⟩
  · exact last 1 f w h

/-- the target row: a unit, with or without the value of an earlier conversion -/
def Target (T : Texts) (b : Str) (r : Row) : Prop := JustUnit T b r ∨ ∃ y, Filled T b y r

theorem readRow_target {T : Texts} {b : Str} {r : Row} (h : Target T b r) :
    ∃ v s, readRow T r = (some b, v, ⟨b, s⟩) := by
  rcases h with h | ⟨y, h⟩
  · exact ⟨_, _, readRow_justUnit h⟩
  · exact ⟨_, _, readRow_filled h⟩

theorem press_filled {T : Texts} {a b : Str} {x : Rat} {f : Window} (hs : Filled T a x f.src) (hd : Target T b f.dst)
    (n : Nat) (w : World) :
    calculate T (n + 1) f w =
      match convert (some x) (some a) (some b) (if f.again then some false else none) w with
      | (.ok r, w) => (.ok ⟨⟨a, T.show' x⟩, ⟨b, showResult T r⟩, false, []⟩, w)
      | (.error .noConversionFound, w) => (.ok ⟨⟨a, T.show' x⟩, ⟨b, []⟩, f.again, noConversionText⟩, w)
      | (.error .needsInput, w) => (.ok ⟨⟨a, T.show' x⟩, ⟨b, []⟩, true, noFvfText⟩, w)
      | (.error _, w) => (.ok ⟨⟨a, T.show' x⟩, ⟨b, []⟩, true, s!!"Unknown error."⟩, w) := by
  obtain ⟨v, s, hr⟩ := readRow_target hd
  unfold calculate
  simp only [readRow_filled hs, hr]
  rw [if_neg (fun h => by simp at h), if_neg (fun h => by simp at h)]
  rfl

/-- C111. With a number and a unit in the first row, in either order, and a unit in the second one, the button shows what
`convert` answers, in the row of the target; the first row keeps its number and its unit, the search is not repeated next time,
and the library is left as `convert` leaves it. -/
theorem C111_shows {T : Texts} {a b : Str} {x y : Rat} {f : Window} (hs : Filled T a x f.src) (hd : Target T b f.dst)
    {w w' : World} (h : convert (some x) (some a) (some b) (if f.again then some false else none) w = (.ok (some (.num y)), w')) :
    pressConvert T f w = (.ok ⟨⟨a, T.show' x⟩, ⟨b, T.show' y⟩, false, []⟩, w') := by
  unfold pressConvert
  rw [press_filled hs hd, h]
  rfl

/-- C111. With a number in the second row only, the same button converts back: it shows in the first row what `convert` answers
for the way from the second unit to the first. -/
theorem C111_back {T : Texts} {a b : Str} {x y : Rat} {f : Window} (hs : JustUnit T a f.src) (hd : Filled T b y f.dst)
    (hy : NumberText T (T.show' y) y) {w w' : World}
    (h : convert (some y) (some b) (some a) (if f.again then some false else none) w = (.ok (some (.num x)), w')) :
    pressConvert T f w = (.ok ⟨⟨a, T.show' x⟩, ⟨b, T.show' y⟩, false, []⟩, w') := by
  have ha : UnitText T a := hs.text
  have hb : UnitText T b := hd.text
  unfold pressConvert calculate
  simp only [readRow_justUnit hs, readRow_filled hd]
  rw [if_neg (fun h => by simp at h), if_pos ⟨trivial, rfl⟩,
    press_filled (f := ⟨⟨b, T.show' y⟩, ⟨a, []⟩, f.again, s!!" "⟩) (.valueRight hy hb) (.inl (.left ha)), h]
  rfl

/-- C111. When there is no conversion the value of the target is emptied and the window says so; the rest stays. -/
theorem C111_none {T : Texts} {a b : Str} {x : Rat} {f : Window} (hs : Filled T a x f.src) (hd : Target T b f.dst)
    {w w' : World} (h : convert (some x) (some a) (some b) (if f.again then some false else none) w = (.error .noConversionFound, w')) :
    pressConvert T f w = (.ok ⟨⟨a, T.show' x⟩, ⟨b, []⟩, f.again, noConversionText⟩, w') := by
  unfold pressConvert
  rw [press_filled hs hd, h]

/-- C111. After any other failure no value is left in the target, and the next search starts anew. -/
theorem C111_error {T : Texts} {a b : Str} {x : Rat} {f : Window} (hs : Filled T a x f.src) (hd : Target T b f.dst)
    {w w' : World} {e : PyErr} (h : convert (some x) (some a) (some b) (if f.again then some false else none) w = (.error e, w'))
    (he : e ≠ .noConversionFound) :
    ∃ msg, msg ≠ [] ∧ pressConvert T f w = (.ok ⟨⟨a, T.show' x⟩, ⟨b, []⟩, true, msg⟩, w') := by
  unfold pressConvert
  rw [press_filled hs hd, h]
  cases e <;> first | exact absurd rfl he | exact ⟨_, by decide, rfl⟩

/-- C111. An empty window stays empty, and nothing is searched. -/
theorem C111_empty {T : Texts} (hT : Sane T) (again : Bool) (msg : Str) (w : World) :
    pressConvert T ⟨⟨[], []⟩, ⟨[], []⟩, again, msg⟩ w = (.ok ⟨⟨[], []⟩, ⟨[], []⟩, again, s!!" "⟩, w) := by
  have : readRow T ⟨[], []⟩ = (none, .nothing, ⟨s!!"None", s!!"None"⟩) := by
    have e : Py.stripWs [] = [] := rfl
    simp only [readRow, cleanValue_nil, e, hT.empty]
    simp [showTyped]
  unfold pressConvert calculate
  simp only [this]
  simp

/-- C111. All the button does to the library is to call `convert`, once at most. -/
theorem C111_calls {T : Texts} (hT : Sane T) (f : Window) (w : World) :
    ∃ cs : List Call, cs.length ≤ 1 ∧ (∀ c ∈ cs, Asks c) ∧ (pressConvert T f w).2 = session cs w := by
  have none' : ∃ cs : List Call, cs.length ≤ 1 ∧ (∀ c ∈ cs, Asks c) ∧ w = session cs w := ⟨[], by simp, by simp, rfl⟩
  have last : ∀ (n : Nat) (f : Window), ¬ ((readRow T f.src).2.1 = .text [] ∧ (readRow T f.dst).2.1.numeric T = true) →
      ∃ cs : List Call, cs.length ≤ 1 ∧ (∀ c ∈ cs, Asks c) ∧ (calculate T (n + 1) f w).2 = session cs w := by
    intro n f h
    unfold calculate
    simp only
    split
    · exact none'
    · cases hv : (readRow T f.src).2.1.arg with
      | error e => cases e <;> exact none'
      | ok x =>
        refine ⟨[.convert x (readRow T f.src).1 (readRow T f.dst).1 (if f.again then some false else none)], by simp, by simp [Asks], ?_⟩
        simp only [session, List.foldl_cons, List.foldl_nil, Call.run]
        generalize convert x (readRow T f.src).1 (readRow T f.dst).1 (if f.again then some false else none) w = r
        obtain ⟨r, w1⟩ := r
        cases r with
        | ok r => rfl
        | error e => cases e <;> rfl
  unfold pressConvert
  by_cases h : (readRow T f.src).2.1 = .text [] ∧ (readRow T f.dst).2.1.numeric T = true
  · unfold calculate
    simp only
    split
    · exact none'
    · obtain ⟨u, hu, hn⟩ := readRow_empty hT (b := f.src) (o := (readRow T f.src).1) (s := (readRow T f.src).2.2) (by rw [← h.1])
      have := readRow_again hT hn
      obtain ⟨cs, c1, c2, c3⟩ := last 0 ⟨(readRow T f.dst).2.2, (readRow T f.src).2.2, f.again, s!!" "⟩ (fun c => by
        rw [show (Window.mk (readRow T f.dst).2.2 (readRow T f.src).2.2 f.again s!!" ").dst = ⟨u, []⟩ from hu, this] at c
        simp at c)
      refine ⟨cs, c1, c2, ?_⟩
      rw [← c3]
      generalize calculate T (0 + 1) ⟨(readRow T f.dst).2.2, (readRow T f.src).2.2, f.again, s!!" "⟩ w = r
      obtain ⟨r, w1⟩ := r
      cases r <;> rfl
  · exact last 1 f h

/-- C111, on the shipped library: between units of the nine tables of standard sizes, after any calls, the window shows the
number of target units that is the same amount. -/
theorem C111_exact {T : Texts} {w : World} (hw : Started w) (hφ : w.fvf ≠ some 0) {cs : List Call}
    (hcs : ∀ c ∈ cs, Asks c) {l : List (Str × Rat)} (hl : l ∈ standardSizes) {a b : Str} {sa sb : Rat} (ma : (a, sa) ∈ l)
    (mb : (b, sb) ∈ l) {x : Rat} {f : Window} (hs : Filled T a x f.src) (hd : Target T b f.dst) :
    (pressConvert T f (session cs w)).1 = .ok ⟨⟨a, T.show' x⟩, ⟨b, T.show' (x * sa / sb)⟩, false, []⟩ := by
  have h := C76_exact hw hφ hcs hl ma mb (if f.again then some false else none) x
  rw [C111_shows hs hd (Prod.ext h rfl)]

theorem standard_pos : ∀ l ∈ standardSizes, ∀ e ∈ l, e.2 ≠ 0 := by decide +kernel

/-- C111, the way back: with the first value deleted the same button gives the number back. -/
theorem C111_return {T : Texts} {w : World} (hw : Started w) (hφ : w.fvf ≠ some 0) {cs : List Call}
    (hcs : ∀ c ∈ cs, Asks c) {l : List (Str × Rat)} (hl : l ∈ standardSizes) {a b : Str} {sa sb : Rat} (ma : (a, sa) ∈ l)
    (mb : (b, sb) ∈ l) (ha : UnitText T a) (hb : UnitText T b) {x : Rat}
    (hy : NumberText T (T.show' (x * sa / sb)) (x * sa / sb)) (again : Bool) (msg : Str) :
    (pressConvert T ⟨⟨a, []⟩, ⟨b, T.show' (x * sa / sb)⟩, again, msg⟩ (session cs w)).1 =
      .ok ⟨⟨a, T.show' x⟩, ⟨b, T.show' (x * sa / sb)⟩, false, []⟩ := by
  have h := C76_exact hw hφ hcs hl mb ma (if again then some false else none) (x * sa / sb)
  have e : x * sa / sb * sb / sa = x := by
    have := standard_pos l hl _ ma
    have := standard_pos l hl _ mb
    field_simp
  rw [e] at h
  rw [C111_back (f := ⟨⟨a, []⟩, ⟨b, T.show' (x * sa / sb)⟩, again, msg⟩) (.left ha) (.valueRight hy hb) hy (Prod.ext h rfl)]

/-! ### the dialogs -/

theorem fvfLoop_refused {T : Texts} {prev : Setting} {unit : Option Str} {w : World} {p : Setting} (pre : List Str)
    (h : ∀ s ∈ pre, Refused T s) (r : List (Option Str)) :
    fvfLoop T prev (pre.map some ++ r) unit w p = fvfLoop T prev r unit w p := by
  induction pre with
  | nil => rfl
  | cons s l ih =>
    rw [← ih (fun s hs => h s (by simp [hs]))]
    simp only [List.map_cons, List.cons_append]
    conv => lhs; unfold fvfLoop
    cases h s (by simp) with
    | word hw hn =>
      rw [if_neg (fun e => by rw [e] at hw; cases hw), hw]
      simp only
      rw [if_neg hn]
    | phrase h0 h1 h2 =>
      rw [if_neg h0]
      split
      · rename_i t ht; rw [ht] at h1; simp at h1
      · rename_i t u ht; rw [ht] at h2; simp at h2
      · rfl

/-- C112. A positive number, alone, is taken as the formation volume factor, in the converter and in the settings; answers that
are no such number, before it, are asked again and change nothing. -/
theorem C112_number (T : Texts) (pre : List Str) (hpre : ∀ s ∈ pre, Refused T s) {t : Str} {x : Rat} (ht : words t = [t])
    (hn : T.isNumeric t = true) (hx : T.getNumber t = x) (h0 : 0 < x) (r : List (Option Str)) (w : World) (p : Setting) :
    askFvf T (pre.map some ++ some t :: r) w p = (.ok (.set x), { w with fvf := some x }, .num x) := by
  have hne : t ≠ [] := fun e => by rw [e] at ht; cases ht
  subst hx
  unfold askFvf
  rw [fvfLoop_refused pre hpre]
  simp [fvfLoop, hne, ht, hn, h0, closeDialog, setNetFvf]

/-- C112. A positive number with a unit: the factor is what `convert` gives for it in 'sm3/sm3', computed with a factor of 1. -/
theorem C112_unit (T : Texts) {s t u : Str} {x y : Rat} (hs : words s = [t, u]) (hu : Py.lower u ≠ volVol) (hn : T.isNumeric t = true)
    (hx : T.getNumber t = x) (h0 : 0 < x) (r : List (Option Str)) {w w' : World} (p : Setting)
    (hc : convert (some x) (some u) (some sm3sm3) none { w with fvf := some 1 } = (.ok (some (.num y)), w')) :
    ∃ note, askFvf T (some s :: r) w p = (.ok note, { w' with fvf := some y }, .num y) := by
  have hne : s ≠ [] := fun e => by rw [e] at hs; cases hs
  subst hx
  have : fvfLoop T p (some s :: r) none w p = (.ok (.num y, .num (T.getNumber t), some u), w', .num 1) := by
    unfold fvfLoop
    rw [if_neg hne, hs]
    simp only [if_neg hu]
    rw [if_pos ⟨hn, h0⟩, show setNetFvf (.num 1) w = { w with fvf := some 1 } from rfl, hc]
  simp only [askFvf, this, setNetFvf, closeDialog]
  by_cases e : T.getNumber t = y
  · exact ⟨_, by rw [if_pos e]⟩
  · exact ⟨_, by rw [if_neg e]⟩

/-- C112. Whatever was answered before: when the dialog ends with a number, the converter and the settings have that number. -/
theorem C112_agree (T : Texts) (answers : List (Option Str)) (w : World) (p : Setting) {w' : World} {x : Rat} {note : Res Note}
    (h : askFvf T answers w p = (note, w', .num x)) (hn : ∃ n, note = .ok n) : w'.fvf = some x := by
  unfold askFvf at h
  obtain ⟨n, rfl⟩ := hn
  split at h
  · cases h
  · simp only [Prod.mk.injEq] at h
    obtain ⟨_, rfl, h3⟩ := h
    rw [h3]
    rfl

/-- C112 fails when the dialog is cancelled: it raises (`unit` has no value, gui.py:441), after storing False as the factor in
the settings. -/
theorem C112_cancel_fails (T : Texts) (r : List (Option Str)) (w : World) (p : Setting) :
    askFvf T (none :: r) w p = (.error .nameError, w, .off) ∧ askDensity T (none :: r) w p = (.error .nameError, w, .off) ∧
    askFvf T (some [] :: r) w p = (.error .nameError, w, .off) := ⟨rfl, rfl, rfl⟩

/-- C112 fails when a unit is refused: without an earlier factor the converter is left with a factor of 1, although the dialog
is cancelled next. -/
theorem C112_refused_fails (T : Texts) {s t u : Str} {x : Rat} (hs : words s = [t, u]) (hu : Py.lower u ≠ volVol)
    (hn : T.isNumeric t = true) (hx : T.getNumber t = x) (h0 : 0 < x) (r : List (Option Str)) {w w' : World} (hg : WF w.net)
    (hc : convert (some x) (some u) (some sm3sm3) none { w with fvf := some 1 } = (.error .noConversionFound, w')) :
    (askFvf T (some s :: none :: r) w .unset).2.1.fvf = some 1 := by
  have hne : s ≠ [] := fun e => by rw [e] at hs; cases hs
  subst hx
  have : fvfLoop T .unset (some s :: none :: r) none w .unset = (.ok (.off, .nothing, some u), w', .unset) := by
    unfold fvfLoop
    rw [if_neg hne, hs]
    simp only [if_neg hu]
    rw [if_pos ⟨hn, h0⟩, show setNetFvf (.num 1) w = { w with fvf := some 1 } from rfl, hc]
    rfl
  simp only [askFvf, this, setNetFvf]
  have hb := base_asks (c := .convert (some (T.getNumber t)) (some u) (some sm3sm3) none) trivial (w := { w with fvf := some 1 }) hg
  have := hb.fvf
  simp only [Call.run, hc] at this
  exact this

/-- C112. Accepting what the dialog proposes, the factor in use followed by 'vol/vol', leaves that factor, in every state that
any session leaves. -/
theorem C112_proposal (T : Texts) {s t : Str} {q : Rat} (hs : words s = [t, volVol]) (hn : T.isNumeric t = true)
    (hq : T.getNumber t = q) (h0 : 0 < q) (r : List (Option Str)) {w : World} (hw : Reachable w)
    (hd : ¬ DensityPair w.dic sm3sm3 sm3sm3) (p : Setting) :
    (askFvf T (some s :: r) w p).1 = .ok (.set q) ∧ (askFvf T (some s :: r) w p).2.1.fvf = some q ∧
      (askFvf T (some s :: r) w p).2.2 = .num q := by
  have hne : s ≠ [] := fun e => by rw [e] at hs; cases hs
  subst hq
  have hr : Reachable { w with fvf := some 1 } := by
    obtain ⟨w0, cs, hf, hc, rfl⟩ := hw
    refine ⟨w0, cs ++ [.setFvf 1], hf, ?_, ?_⟩
    · intro c hc'
      rcases List.mem_append.1 hc' with h | h
      · exact hc c h
      · simp only [List.mem_singleton] at h
        subst h; exact trivial
    · rw [session_append]; rfl
  have hcl : CleanUnit sm3sm3 := Demo.cleanUnit_of (by decide)
  have hc := C11_self _ hr sm3sm3 hcl ⟨'s', by decide, by decide, by decide⟩ hd none (T.getNumber t)
  have hl : Py.lower volVol = volVol := by decide
  have : ∃ w', fvfLoop T p (some s :: r) none w p = (.ok (.num (T.getNumber t), .num (T.getNumber t), some sm3sm3), w', .num 1) := by
    refine ⟨(convert (some (T.getNumber t)) (some sm3sm3) (some sm3sm3) none { w with fvf := some 1 }).2, ?_⟩
    unfold fvfLoop
    rw [if_neg hne, hs]
    simp only [hl, if_true]
    rw [if_pos ⟨hn, h0⟩, show setNetFvf (.num 1) w = { w with fvf := some 1 } from rfl,
      show convert (some (T.getNumber t)) (some sm3sm3) (some sm3sm3) none { w with fvf := some 1 } = (.ok (some (.num (T.getNumber t))), _)
        from Prod.ext hc rfl]
  obtain ⟨w', this⟩ := this
  simp [askFvf, this, setNetFvf, closeDialog]

/-- C112. The density, likewise: a positive number alone is g/cm3, with a unit it is converted. -/
theorem C112_density (T : Texts) {t : Str} {x : Rat} (ht : words t = [t]) (hn : T.isNumeric t = true) (hx : T.getNumber t = x) (h0 : 0 < x)
    (r : List (Option Str)) (w : World) (p : Setting) :
    askDensity T (some t :: r) w p = (.ok (.set x), { w with par := { w.par with density := some x } }, .num x) := by
  have hne : t ≠ [] := fun e => by rw [e] at ht; cases ht
  subst hx
  simp [askDensity, densityLoop, hne, ht, hn, h0, closeDialog]

/-- C112, for a density with a unit. -/
theorem C112_density_unit (T : Texts) {s t u : Str} {x y : Rat} (hs : words s = [t, u]) (hn : T.isNumeric t = true)
    (hx : T.getNumber t = x) (h0 : 0 < x) (r : List (Option Str)) {w w' : World} (p : Setting)
    (hc : convert (some x) (some u) (some gcm3) none w = (.ok (some (.num y)), w')) :
    ∃ note, askDensity T (some s :: r) w p = (.ok note, { w' with par := { w'.par with density := some y } }, .num y) := by
  have hne : s ≠ [] := fun e => by rw [e] at hs; cases hs
  subst hx
  have : densityLoop T (some s :: r) none w = (.ok (.num y, .num (T.getNumber t), some u), w') := by
    unfold densityLoop
    rw [if_neg hne, hs]
    simp only
    rw [if_pos ⟨hn, h0⟩, hc]
  simp only [askDensity, this, closeDialog]
  by_cases e : T.getNumber t = y
  · exact ⟨_, by rw [if_pos e]⟩
  · exact ⟨_, by rw [if_neg e]⟩

/-! ### the elapsed time -/

/-- C113. Up to a minute the elapsed time shown is right, up to rounding. -/
theorem C113_time_partial {r : Rat → Nat → Rat} (hr : Rounds r) {t : Rat} (ht : t ≤ 60) :
    |seconds (elapsed r t) - t| ≤ 1 / 200 := by
  unfold elapsed
  by_cases h1 : t < 1
  · rw [if_pos h1]
    have := hr (t * 1000) 0
    simp only [seconds, if_true]
    rw [abs_le] at this ⊢
    norm_num at this ⊢
    constructor <;> linarith [this.1, this.2]
  · rw [if_neg h1, if_neg (by linarith), if_neg (by linarith)]
    have := hr t 2
    have e : ¬ (s!!"seconds" = s!!"milliseconds") := by decide
    simp only [seconds, if_neg e]
    norm_num at this ⊢
    exact this

/-- C113 fails above a minute: two minutes are shown as '2:118'. -/
theorem C113_minutes_fails {r : Rat → Nat → Rat} (hr : ∀ z : Int, r z 0 = z) : elapsed r 120 = (2, some 118, s!!"minutes:seconds") := by
  have e : ((120 : Rat) / 60).floor = 2 := by decide +kernel
  have := hr 118
  norm_num at this
  unfold elapsed
  rw [if_neg (by norm_num), if_pos (by norm_num), e]
  norm_num
  exact this

/-- C113 fails: hours are never shown. -/
theorem C113_hours_fails (r : Rat → Nat → Rat) (t : Rat) : (elapsed r t).2.2 ≠ s!!"hours:minutes" := by
  unfold elapsed
  split
  · simp
  · split
    · simp
    · rw [if_neg (by linarith)]
      simp

example : Rounds fun q _ => q := fun q n => by rw [sub_self, abs_zero]; exact div_nonneg (by norm_num) (pow_nonneg (by norm_num) _)

/-! ### the moving text -/

/-- C114. While the same path is shown the moving text always shows 53 neighbouring characters of it, and it never leaves the
path. -/
theorem C114_within {path : Str} (hl : maxLen ≤ path.length) (n : Nat) (m : Marquee) (hm : m.first + maxLen ≤ path.length) :
    (∀ s ∈ (marqueeRun path path.length n m).1, s.length = maxLen ∧ ∃ i, s = (path.drop i).take maxLen) ∧
    (marqueeRun path path.length n m).2.first + maxLen ≤ path.length := by
  induction n generalizing m with
  | zero => exact ⟨by simp [marqueeRun], hm⟩
  | succ n ih =>
    have hs : (marqueeStep path path.length m).1 = (path.drop m.first).take maxLen ∧
        (marqueeStep path path.length m).2.first + maxLen ≤ path.length := by
      unfold marqueeStep
      rw [if_neg (by omega)]
      simp only
      have e : (path.take (m.first + maxLen)).drop m.first = (path.drop m.first).take maxLen := by
        rw [List.drop_take]; congr 1; omega
      rw [e]
      split
      · split
        · exact ⟨rfl, by simp only; omega⟩
        · exact ⟨rfl, hm⟩
      · split
        · exact ⟨rfl, by simp only; omega⟩
        · exact ⟨rfl, hm⟩
    obtain ⟨i1, i2⟩ := ih _ hs.2
    refine ⟨?_, i2⟩
    intro s h
    rw [marqueeRun] at h
    simp only [List.mem_cons] at h
    rcases h with rfl | h
    · exact ⟨by rw [hs.1]; simp; omega, _, hs.1⟩
    · exact i1 s h

/-- C114. From the beginning, every character of the path is shown: the text shown by call number `k` starts at
character `k`, as far as the end. -/
theorem C114_all {path : Str} (hl : maxLen ≤ path.length) (n k : Nat) (hn : k < n) (hk : k + maxLen ≤ path.length) :
    (marqueeRun path path.length n ⟨0, true⟩).1[k]? = some ((path.drop k).take maxLen) := by
  have : ∀ (n i k : Nat), k < n → i + k + maxLen ≤ path.length →
      (marqueeRun path path.length n ⟨i, true⟩).1[k]? = some ((path.drop (i + k)).take maxLen) := by
    intro n
    induction n with
    | zero => intro i k h; omega
    | succ n ih =>
      intro i k hk hi
      have e : (path.take (i + maxLen)).drop i = (path.drop i).take maxLen := by rw [List.drop_take]; congr 1; omega
      cases k with
      | zero =>
        simp only [marqueeRun, List.getElem?_cons_zero, Nat.add_zero]
        unfold marqueeStep
        rw [if_neg (by omega)]
        simp only [if_true]
        split <;> rw [e]
      | succ k =>
        have hstep : (marqueeStep path path.length ⟨i, true⟩).2 = ⟨i + 1, true⟩ := by
          unfold marqueeStep
          rw [if_neg (by omega)]
          simp only [if_true]
          rw [if_pos (by omega)]
        simp only [marqueeRun, List.getElem?_cons_succ, hstep]
        rw [ih (i + 1) k (by omega) (by omega)]
        congr 3
        omega
  simpa using this n 0 k hn (by omega)

/-- C114. A short path is shown whole. -/
theorem C114_short {path : Str} (h : path.length < maxLen) (len : Nat) (m : Marquee) : marqueeStep path len m = (path, m) := by
  unfold marqueeStep
  rw [if_pos h]

/-- C114 fails for a new path: the place reached in the old one is kept (gui.py:301-309), so a shorter path may be shown only in
part, from its middle. -/
theorem C114_next_fails : ∃ (old new : Str) (n : Nat),
    let (_, len, m) := startMarquee old 0 ⟨0, true⟩
    let (_, m) := marqueeRun old len n m
    let (_, len, m) := startMarquee new len m
    new.length ≥ maxLen ∧ (marqueeStep new len m).1.length < maxLen := by
  refine ⟨List.replicate 100 'a', List.replicate 60 'b', 47, ?_⟩
  decide +kernel

/-! ### concrete cases -/

/-- texts of natural numbers -/
def demoTexts : Texts where
  isNumeric s := !(Py.stripWs s).isEmpty && (Py.stripWs s).all (·.isDigit)
  getNumber s := ((Py.stripWs s).foldl (fun n c => n * 10 + (c.toNat - 48)) 0 : Nat)
  show' x := Nat.toDigits 10 x.num.toNat
  showFn := s!!"<function>"

theorem demoSane : Sane demoTexts where
  empty := by decide
  spaces s := by simp only [demoTexts, stripWs_idem]

theorem demoTidy {s : Str} (h : s ≠ [] ∧ Py.stripWs s = s ∧ cleanValue s = s) : Tidy s := ⟨h.1, h.2.1, h.2.2⟩

theorem demoMile : UnitText demoTexts s!!"mile" := ⟨demoTidy (by decide +kernel), by decide +kernel⟩
theorem demoFoot : UnitText demoTexts s!!"foot" := ⟨demoTidy (by decide +kernel), by decide +kernel⟩
theorem demoThree : NumberText demoTexts s!!"3" 3 := ⟨demoTidy (by decide +kernel), by decide +kernel, by decide +kernel⟩
theorem demoFeet : NumberText demoTexts s!!"15840" 15840 := ⟨demoTidy (by decide +kernel), by decide +kernel, by decide +kernel⟩

/-- '3' and 'mile' in the first row, in the wrong boxes, 'foot' in the second one: the button shows '15840'; with the '3'
deleted, it comes back. -/
example {w : World} (hw : Started w) (hφ : w.fvf ≠ some 0) :
    (pressConvert demoTexts ⟨⟨s!!"3", s!!"mile"⟩, ⟨s!!"foot", []⟩, true, []⟩ (session [] w)).1 =
      .ok ⟨⟨s!!"mile", s!!"3"⟩, ⟨s!!"foot", s!!"15840"⟩, false, []⟩ ∧
    (pressConvert demoTexts ⟨⟨s!!"mile", []⟩, ⟨s!!"foot", s!!"15840"⟩, false, []⟩ (session [] w)).1 =
      .ok ⟨⟨s!!"mile", s!!"3"⟩, ⟨s!!"foot", s!!"15840"⟩, false, []⟩ := by
  have hl : standardSizes.headD [] ∈ standardSizes := by decide +kernel
  have ma : (s!!"mile", (201168 : Rat) / 125) ∈ standardSizes.headD [] := by decide +kernel
  have mb : (s!!"foot", (381 : Rat) / 1250) ∈ standardSizes.headD [] := by decide +kernel
  have e : (3 : Rat) * (201168 / 125) / (381 / 1250) = 15840 := by norm_num
  have s3 : demoTexts.show' 3 = s!!"3" := by decide +kernel
  have s1 : demoTexts.show' 15840 = s!!"15840" := by decide +kernel
  have h1 := C111_exact (T := demoTexts) hw hφ (cs := []) (by simp) hl ma mb (x := 3)
    (f := ⟨⟨s!!"3", s!!"mile"⟩, ⟨s!!"foot", []⟩, true, []⟩) (.valueLeft demoThree demoMile) (.inl (.left demoFoot))
  have h2 := C111_return (T := demoTexts) hw hφ (cs := []) (by simp) hl ma mb demoMile demoFoot (x := 3)
    (by rw [e, s1]; exact demoFeet) false []
  rw [e, s3, s1] at h1 h2
  exact ⟨h1, h2⟩

theorem notFound {r : Res (Option Conv)} (h : (match r with | .error .noConversionFound => true | _ => false) = true) :
    r = .error .noConversionFound := by
  split at h
  · rfl
  · cases h

/-- a unit the library does not know: the dialog is cancelled, and the factor is 1 -/
example : (askFvf demoTexts [some s!!"2 foo*bar", none] Demo.world .unset).2.1.fvf = some 1 :=
  C112_refused_fails demoTexts (s := s!!"2 foo*bar") (t := s!!"2") (u := s!!"foo*bar") (x := 2) (by decide +kernel) (by decide +kernel)
    (by decide +kernel) (by decide +kernel) (by decide +kernel) [] (w' := (convert (some 2) (some s!!"foo*bar") (some sm3sm3) none { Demo.world with fvf := some 1 }).2)
    Demo.wf (Prod.ext (notFound (by decide +kernel)) rfl)

example : askFvf demoTexts [some s!!"0", some s!!"a b c", some s!!"2"] Demo.world .unset =
    (.ok (.set 2), { Demo.world with fvf := some 2 }, .num 2) :=
  C112_number demoTexts [s!!"0", s!!"a b c"] (by
      intro s hs
      simp only [List.mem_cons, List.not_mem_nil, or_false] at hs
      rcases hs with rfl | rfl
      · exact .word (t := s!!"0") (by decide +kernel) (by decide +kernel)
      · exact .phrase (by decide +kernel) (by decide +kernel) (by decide +kernel))
    (t := s!!"2") (by decide +kernel) (by decide +kernel) (by decide +kernel) (by decide +kernel) [] _ _

example : (askFvf demoTexts [some s!!"2 vol/vol"] Demo.world (.num 2)).2.1.fvf = some 2 :=
  (C112_proposal demoTexts (s := s!!"2 vol/vol") (t := s!!"2") (by decide +kernel) (by decide +kernel) (by decide +kernel)
    (by decide +kernel) [] Demo.reachable (by unfold DensityPair; decide +kernel) (.num 2)).2.1

example : (askDensity demoTexts [some s!!"3"] Demo.world .unset).2.1.par.density = some 3 := by
  rw [C112_density demoTexts (t := s!!"3") (by decide +kernel) (by decide +kernel) rfl (by decide +kernel)]
  decide +kernel

example : readRow demoTexts ⟨s!!"mile", s!!"foot"⟩ = (none, .nothing, ⟨s!!"None", s!!"None"⟩) := by decide +kernel

/-- the message of an earlier search does not disturb -/
example : readRow demoTexts ⟨s!!" mile", s!!"no conversion found! "⟩ = (some s!!"mile", .text [], ⟨s!!"mile", []⟩) := by decide +kernel

end Unyts.Gui
