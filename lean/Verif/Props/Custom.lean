import Verif.Spec.Custom
import Verif.Props.SetConversion

/-
C125: what set_conversion accepts, what it refuses, what it leaves alone, and what it finds out too late.
-/
namespace Unyts
open Spec

/-- set_conversion on accepted arguments is set_conversion on the names and the functions -/
theorem setConversionUser_ok {a b : UnitArg} {f : ConvArg} {r : Option ConvArg} (hb : ¬ BadArgument a b f r) {x y : Str}
    (ha : Names a x) (hy : Names b y) (w : World) :
    setConversionUser a b f r w = setConversionW x y (ConvArg.called f) (r.map ConvArg.called) w := by
  unfold BadArgument at hb
  cases ha <;> cases hy <;> rcases f with f | _ | _ <;> rcases r with _ | r | _ | _ <;>
    first | rfl | (exfalso; exact hb (by simp))

theorem exists_names {a : UnitArg} (h : a ≠ .other) : ∃ x, Names a x := by
  cases a with
  | str s => exact ⟨s, .str s⟩
  | qty s => exact ⟨s, .qty s⟩
  | other => exact absurd rfl h

theorem setConversionUser_bad {a b : UnitArg} {f : ConvArg} {r : Option ConvArg} (hb : BadArgument a b f r) (w : World) :
    setConversionUser a b f r w = (.error .typeError, w) := by
  unfold BadArgument at hb
  cases a <;> cases b <;> rcases f with f | _ | _ <;> rcases r with _ | r | _ | _ <;>
    first | rfl | (exfalso; simp at hb)

/-- C125. set_conversion raises exactly when a unit is neither text nor a quantity, or when a conversion can be
subscripted but not called; the error is a TypeError and the library is as it was before. -/
theorem C125_refused (w : World) (hg : WF w.net) (a b : UnitArg) (f : ConvArg) (r : Option ConvArg) :
    (∀ e w1, setConversionUser a b f r w = (.error e, w1) → e = .typeError ∧ w1 = w) ∧
    ((∃ e w1, setConversionUser a b f r w = (.error e, w1)) ↔ BadArgument a b f r) := by
  by_cases hb : BadArgument a b f r
  · rw [setConversionUser_bad hb]
    refine ⟨fun e w1 h => ?_, iff_of_true ⟨_, _, rfl⟩ hb⟩
    cases h
    exact ⟨rfl, rfl⟩
  · have hn := hb
    unfold BadArgument at hn
    push Not at hn
    obtain ⟨x, hx⟩ := exists_names hn.1
    obtain ⟨y, hy⟩ := exists_names hn.2.1
    obtain ⟨g', _, _, h1, _⟩ := setConversion_spec hg x y (ConvArg.called f) (r.map ConvArg.called)
    rw [setConversionUser_ok hb hx hy]
    simp [setConversionW, h1, hb]

/-- C125. A quantity given to set_conversion stands for its unit, whatever the other arguments are: the library is left
as by the call with the texts. -/
theorem C125_quantity (w : World) (a b a' b' : UnitArg) (x y : Str) (ha : Names a x) (ha' : Names a' x)
    (hb : Names b y) (hb' : Names b' y) (f : ConvArg) (r : Option ConvArg) :
    setConversionUser a b f r w = setConversionUser a' b' f r w := by
  cases ha <;> cases ha' <;> cases hb <;> cases hb' <;> rfl

/-- C125. When set_conversion accepts its arguments the two names are known to the library afterwards; names keep their
meaning; the direct conversions of before are all kept, the conversion and the reverse are added where there was no
direct one, and nothing else: what is remembered, the settings, the dictionary and the formation volume factor are as
they were. -/
theorem C125_accepted (w : World) (hg : WF w.net) (a b : UnitArg) (x y : Str) (ha : Names a x) (hb : Names b y)
    (f : ConvArg) (r : Option ConvArg) (hbad : ¬ BadArgument a b f r) :
    ∃ g na nb, setConversionUser a b f r w = (.ok (), { w with net := g }) ∧ WF g ∧
      g.getNode x = .ok na ∧ g.getNode y = .ok nb ∧
      (∀ s n, w.net.getNode s = .ok n → g.getNode s = .ok n) ∧
      ∀ c d h, Direct g c d h ↔ Direct w.net c d h ∨
        (c = na ∧ d = nb ∧ h = ConvArg.called f ∧ ¬ Linked w.net na nb) ∨
        (c = nb ∧ d = na ∧ h = reverseCalled f r ∧ ¬ Linked w.net nb na ∧ na ≠ nb) := by
  obtain ⟨g, na, nb, h1, h2, _, h3, h4, h5, h6⟩ :=
    setConversion_spec hg x y (ConvArg.called f) (r.map ConvArg.called)
  refine ⟨g, na, nb, ?_, h2, h3, h4, h5, fun c d h => ?_⟩
  · rw [setConversionUser_ok hbad ha hb]
    simp [setConversionW, h1]
  · rw [h6, reverse_eq]
where
  reverse_eq {f : ConvArg} {r : Option ConvArg} :
      (r.map ConvArg.called).getD (revFn (ConvArg.called f)) = reverseCalled f r := by
    cases r with
    | some r => rfl
    | none =>
      funext fvf x
      show revFn (ConvArg.called f) fvf x = match ConvArg.called f fvf 1 with
        | .ok k => if k = 0 then .error .zeroDivision else .ok (x / k)
        | .error e => .error e
      unfold revFn
      cases ConvArg.called f fvf 1 <;> rfl

/-- C125. With BFS, for two names without a direct conversion and nothing remembered about them: after set_conversion
with accepted arguments, converting a number is calling the conversion, and converting back is calling the reverse. An
argument that is no function is not noticed by set_conversion; it makes each of the later conversions a TypeError. -/
theorem C125_called (w : World) (hg : WF w.net) (hp : Ample w.par) (halg : w.par.algorithm = .bfs) (a b : UnitArg)
    (x y : Str) (hx : Names a x) (hy : Names b y) (ha : CleanName x) (hb : CleanName y) (hab : x ≠ y)
    (oa : Ordinary w.dic x) (ob : Ordinary w.dic y) (hd : ¬ DensityPair w.dic x y) (hnd : NoDirect w.net x y)
    (f : ConvArg) (r : Option ConvArg) (hbad : ¬ BadArgument a b f r) (uc : Option Bool)
    (hm : uc = some false ∨ Py.dictGet w.memory (x, y) = none ∧ Py.dictGet w.memory (y, x) = none) :
    ∃ w1, setConversionUser a b f r w = (.ok (), w1) ∧ ∀ v,
      (convert (some v) (some x) (some y) uc w1).1 = (ConvArg.called f w.fvf v).map (fun z => some (.num z)) ∧
      (convert (some v) (some y) (some x) uc w1).1 = (reverseCalled f r w.fvf v).map (fun z => some (.num z)) := by
  obtain ⟨w1, h1, h2⟩ := C09_bfs_partial w hg hp halg x y ha hb hab oa ob hd hnd (ConvArg.called f)
    (r.map ConvArg.called) uc hm
  refine ⟨w1, by rw [setConversionUser_ok hbad hx hy, h1], fun v => ⟨(h2 v).1, ?_⟩⟩
  rw [(h2 v).2]
  exact congrArg (fun k : Fn => (k w.fvf v).map fun z => some (Conv.num z)) C125_accepted.reverse_eq

/-- C125, the late refusal: set_conversion(a, b, 1000) is accepted, and from then on converting between the two units
is a TypeError in both directions, for every number. -/
theorem C125_number_accepted (w : World) (hg : WF w.net) (hp : Ample w.par) (halg : w.par.algorithm = .bfs) (x y : Str)
    (ha : CleanName x) (hb : CleanName y) (hab : x ≠ y)
    (oa : Ordinary w.dic x) (ob : Ordinary w.dic y) (hd : ¬ DensityPair w.dic x y) (hnd : NoDirect w.net x y) :
    ∃ w1, setConversionUser (.str x) (.str y) .neither none w = (.ok (), w1) ∧ ∀ v,
      (convert (some v) (some x) (some y) (some false) w1).1 = .error .typeError ∧
      (convert (some v) (some y) (some x) (some false) w1).1 = .error .typeError := by
  obtain ⟨w1, h1, h2⟩ := C125_called w hg hp halg (.str x) (.str y) x y (.str x) (.str y) ha hb hab oa ob hd hnd .neither
    none (by simp [BadArgument]) (some false) (Or.inl rfl)
  exact ⟨w1, h1, fun v => h2 v⟩

/-- the names 'g' and 'in' of the small library, one as a quantity; the wrong arguments; and the number that is found
out when it is too late -/
example :
    ¬ BadArgument (.qty s!!"g") (.str s!!"in") (.callable (Demo.times 5)) none ∧
    (let w := (setConversionUser (.qty s!!"g") (.str s!!"in") (.callable (Demo.times 5)) none Demo.world).2
     numOf (convert (some 2) (some s!!"g") (some s!!"in") none w).1 = some 10 ∧
     numOf (convert (some 10) (some s!!"in") (some s!!"g") none w).1 = some 2) ∧
    (let w := (setConversionUser (.str s!!"g") (.str s!!"in") (.callable (Demo.times 5)) (some .neither) Demo.world).2
     numOf (convert (some 2) (some s!!"g") (some s!!"in") none w).1 = some 10 ∧
     (convert (some 2) (some s!!"in") (some s!!"g") none w).1.map (fun _ => ()) = .error .typeError) ∧
    (let w := (setConversionUser (.str s!!"g") (.str s!!"in") .neither none Demo.world).2
     (convert (some 2) (some s!!"g") (some s!!"in") none w).1.map (fun _ => ()) = .error .typeError) ∧
    (convert (some 2) (some s!!"g") (some s!!"in") none Demo.world).1.map (fun _ => ()) = .error .noConversionFound ∧
    (setConversionUser (.str s!!"g") (.str s!!"in") .subscriptable none Demo.world).1 = .error .typeError ∧
    (setConversionUser .other (.str s!!"in") (.callable (Demo.times 5)) none Demo.world).1 = .error .typeError := by
  refine ⟨by simp [BadArgument], by decide +kernel, by decide +kernel, by decide +kernel, by decide +kernel, rfl, rfl⟩

end Unyts
