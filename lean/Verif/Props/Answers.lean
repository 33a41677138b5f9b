import Verif.Props.Repeat
import Verif.Props.Rules

/-! C20 (parentheses inside), C69, C70, C73: how the public functions answer. -/
namespace Unyts
open Spec

/-! ### C20: parentheses inside units -/

/-- C20, parentheses inside the units: with `reduce_parentheses` on, `convert` does with units in parentheses what it
does with the units that `reduce_parentheses` makes of them (whose meaning is C33's), on both sides. -/
theorem C20_parentheses (w : World) (hr : w.par.reduceParens = true) (v : Option Rat) (uc : Option Bool)
    (a b a' b' : Str) (ha : BareEnds a) (hb : BareEnds b) (hne : b ≠ s!!"Empty") (h1 : reduceParentheses a = .ok a')
    (h2 : reduceParentheses b = .ok b') (ca : CleanUnit a') (cb : CleanUnit b') :
    convert v (some a) (some b) uc w = convert v (some a') (some b') uc w := by
  rw [convert_clean ca cb]
  unfold convert
  have none : Decoration [] := ⟨[], [], [], rfl, by simp, by simp, by simp⟩
  have sa := stripName_decorated ha none (q := []) none
  have sb := stripName_decorated hb none (q := []) none
  simp only [List.nil_append, List.append_nil] at sa sb
  have hc : cleanInput w.par (some a) (some b) = .ok (a', b') := by
    unfold cleanInput
    rw [if_neg (fun e => hne (Option.some.inj e)), hr]
    simp only [cleanName, sa, sb, h1, h2, bind, Except.bind, pure, Except.pure, if_true]
  rw [PyM.run_bind_ok (PyM.run_get _), hc, PyM.run_bind_ok (PyM.run_lift_ok _ _)]

example : Demo.world.par.reduceParens = true ∧
    reduceParentheses s!!"mi/(yd*g)*ft" = .ok s!!"mi/yd/g*ft" ∧ reduceParentheses s!!"in/(yd*g)*ft" = .ok s!!"in/yd/g*ft" ∧
    numOf (convert (some 1) (some s!!"mi/(yd*g)*ft") (some s!!"in/(yd*g)*ft") none Demo.world).1 = some 63360 := by
  decide +kernel

/-! ### C73: what converts is convertible -/

/-- With the cache in use, on two names, once `_converter` has answered the pair is not noted as tried. -/
theorem converterTop_previous {w w' : World} (hg : WF w.net) (hp : Ample w.par) {uc : Option Bool} {v : Option Rat}
    {a b : Str} (ha : SimpleName a) (hb : SimpleName b) (hpr : (a, b) ∉ w.previous) {r : Conv × Path}
    (h : converterTop uc v a b w = (.ok (some r), w')) : w'.previous = w.previous := by
  obtain ⟨n, hn⟩ := ample_budget hp
  rw [converterTop_eq, hn] at h
  rcases converter_simple hg ha hb n uc v hpr with ⟨h1, _⟩ | ⟨_, w2, _, _, _, h1⟩
  · rw [h1] at h
    have := (getConv_direct hg n uc v (tempParts_noSlash ha.1) (rfl : getConv (n + 1) uc v a b w = _)).2.1
    rw [h] at this
    exact this
  · rw [h1] at h; cases h

/-- C73. With the cache in use, when convert(1, a, b) returned a number for two names that are not a volume and a
weight, convertible(a, b) called next answers True. Missing: ratios and products, see `C73_ratio_fails`. -/
theorem C73_names_partial (w w1 : World) (hg : WF w.net) (hp : Ample w.par) (uc : Option Bool)
    (hc : uc.getD w.par.cache = true) (a b : Str) (ha : CleanName a) (hb : CleanName b)
    (hd : ¬ DensityPair w.dic a b) (y : Rat)
    (h : convert (some 1) (some a) (some b) uc w = (.ok (some (.num y)), w1)) :
    convertible a b uc w1 = (.ok true, w1) := by
  rw [convert_clean ha.1 hb.1, convertClean_eq hg hd] at h
  obtain ⟨h1, h2⟩ := Prod.mk.inj h
  obtain ⟨p, hp'⟩ := finish_ok h1
  have hr : converterTop uc (some 1) a b { w with previous := [] } = (.ok (some (.num y, p)), w1) := Prod.ext hp' h2
  obtain ⟨_, f, e, again⟩ := converterTop_repeat (w := { w with previous := [] }) hg hc hr
  have hpv := converterTop_previous (w := { w with previous := [] }) hg hp ha.2 hb.2 (by simp) hr
  unfold convertible
  rw [again w1 (.refl w1) (by rw [hpv]; simp) (some 1), show w.fvf = ({ w with previous := [] } : World).fvf from rfl, e]
  rfl

/-- C73 is false of ratios: converting notes the pair as tried, and then it is not convertible. -/
theorem C73_ratio_fails :
    numOf (convert (some 1) (some s!!"mi/g") (some s!!"in/g") none Demo.world).1 = some 63360 ∧
    (convertible s!!"mi/g" s!!"in/g" none
      (convert (some 1) (some s!!"mi/g") (some s!!"in/g") none Demo.world).2).1 = .ok false := by decide +kernel

example : WF Demo.world.net ∧ Ample Demo.world.par ∧ CleanName s!!"mi" ∧ CleanName s!!"in" ∧
    numOf (convert (some 1) (some s!!"mi") (some s!!"in") none Demo.world).1 = some 63360 :=
  ⟨Demo.wf, Demo.fresh.ample, Demo.clean_mi, Demo.clean_in, by decide +kernel⟩

/-! ### C69: convert_for_SimPandas -/

/-- C69. With the cache in use, whatever the units are: if the library says that they are not convertible the value
comes back unchanged. -/
theorem C69_not_convertible (w w1 : World) (v : Rat) (a b : Str) (uc : Option Bool)
    (h : convertible a b none w = (.ok false, w1)) : convertForSimPandas v a b uc w = (.ok v, w1) := by
  unfold convertForSimPandas
  rw [PyM.run_bind_ok h, if_neg (by simp)]
  rfl

/-- On names, `use_cache=True` is the same as the setting. -/
theorem getConv_useCache {w : World} {uc uc' : Option Bool} (h : resolveCache w uc = resolveCache w uc') {a b : Str}
    (ha : SimpleName a) (n : Nat) (v : Option Rat) : getConv (n + 1) uc v a b w = getConv (n + 1) uc' v a b w := by
  rw [getConv_eq n uc v w (tempParts_noSlash ha.1), getConv_eq n uc' v w (tempParts_noSlash ha.1)]
  unfold memHit
  rw [h]

/-- C69. With the cache in use, on two names that are not a volume and a weight and that the library says to be
convertible, `convert_for_SimPandas` does what `convert`, called next, does. Missing: ratios and products, see
`C69_ratio_fails`. -/
theorem C69_names_partial (w w1 : World) (hg : WF w.net) (hp : Ample w.par) (uc : Option Bool)
    (hc : w.par.cache = true) (hc' : uc.getD w.par.cache = true) (a b : Str) (ha : CleanName a) (hb : CleanName b)
    (hd : ¬ DensityPair w.dic a b) (v : Rat) (h : convertible a b none w = (.ok true, w1)) :
    (convertForSimPandas v a b uc w).1.map (fun y => some (.num y)) = (convert (some v) (some a) (some b) uc w1).1 := by
  have hc0 : resolveCache w none = true := hc
  unfold convertForSimPandas
  rw [PyM.run_bind_ok h, if_pos rfl]
  unfold convertible at h
  cases hr : converterTop none (some 1) a b w with
  | mk r w' =>
    rw [hr] at h
    match r with
    | .error e => cases e <;> simp at h
    | .ok none => simp at h
    | .ok (some (c, p)) =>
      obtain rfl : w' = w1 := (Prod.mk.inj h).2
      obtain ⟨hb1, f, h1, h2⟩ := converterTop_repeat hg hc0 hr
      obtain ⟨n, hn⟩ := ample_budget hp
      have hpr : (a, b) ∉ w.previous := by
        intro hpr
        rw [converterTop_eq, hn, converter] at hr
        dsimp only at hr
        rw [if_pos hpr] at hr
        cases hr
      have hpv := converterTop_previous hg hp ha.2 hb.2 hpr hr
      -- with either setting of the cache, in the states that follow
      have top : ∀ w2, Alike w' w2 → (a, b) ∉ w2.previous → ∀ v',
          converterTop uc v' a b w2 = (ansRes v' f p w.fvf, w2) := by
        intro w2 ha2 hp2 v'
        have hg2 : WF w2.net := by rw [ha2.net, hb1.net]; exact hg
        have e := h2 w2 ha2 hp2 v'
        rw [converterTop_eq, ha2.par, hb1.par, hn] at e
        have e2 : getConv (n + 1) none v' a b w2 = (ansRes v' f p w.fvf, w2) := by
          rcases converter_simple hg2 ha.2 hb.2 n none v' hp2 with ⟨h1, _⟩ | ⟨_, w3, _, _, _, h1⟩
          · rw [← h1]; exact e
          · rw [h1] at e
            exact absurd (Prod.mk.inj e).1.symm (ansRes_not_none _ _ _ _)
        rw [converterTop_eq, ha2.par, hb1.par, hn]
        refine converter_of_getConv hp2 (ansRes_not_none _ _ _ _) ?_
        rw [← e2]
        refine getConv_useCache ?_ ha.2 n v'
        unfold resolveCache at hc0 ⊢
        rw [ha2.par, hb1.par, hc', hc0]
      rw [convert_clean ha.1 hb.1, convertClean_eq (by rw [hb1.net]; exact hg) (by rw [hb1.dic]; exact hd),
        top { w' with previous := [] } (alike_prev w' []) (by simp) (some v)]
      have e := top w' (.refl w') (by rw [hpv]; exact hpr) (some v)
      dsimp only
      cases hf : f w.fvf v with
      | error er =>
        have ea : ansRes (some v) f p w.fvf = .error er := by simp [ansRes, hf, Except.map]
        rw [ea] at e ⊢
        rw [PyM.run_bind_error e]
        rfl
      | ok y =>
        have ea : ansRes (some v) f p w.fvf = .ok (some (.num y, p)) := by simp [ansRes, hf, Except.map]
        rw [ea] at e ⊢
        rw [PyM.run_bind_ok e]
        rfl

/-- C69 is false of ratios: the question whether they are convertible notes the pair as tried, the conversion then
finds nothing, and the value comes back as it was, although it can be converted. -/
theorem C69_ratio_fails :
    (convertForSimPandas 5 s!!"mi/g" s!!"in/g" none Demo.world).1 = .ok 5 ∧
    (convertible s!!"mi/g" s!!"in/g" none Demo.world).1 = .ok true ∧
    numOf (convert (some 5) (some s!!"mi/g") (some s!!"in/g") none Demo.world).1 = some 316800 := by decide +kernel

example : (convertForSimPandas 5 s!!"mi" s!!"in" none Demo.world).1 = .ok 316800 ∧
    (convertible s!!"mi" s!!"in" none Demo.world).1 = .ok true ∧
    (convertForSimPandas 5 s!!"mi" s!!"g" none Demo.world).1 = .ok 5 := by decide +kernel

/-! ### C70: raise_error -/

/-- the same state with the switch `raise_error` at `r` -/
def withRaise (r : Bool) (w : World) : World := { w with par := { w.par with raiseError := r } }

/-- C70. With `raise_error` on, `convert` never returns None, whatever the arguments and the state. -/
theorem C70_never_none (w : World) (hg : WF w.net) (hr : w.par.raiseError = true) (v : Option Rat) (a b : Option Str)
    (uc : Option Bool) : (convert v a b uc w).1 ≠ .ok none := by
  intro h
  have hb := base_convert hg v a b uc
  obtain ⟨x, y, _, h1⟩ := convert_ok (Prod.ext h rfl : convert v a b uc w = (.ok none, (convert v a b uc w).2))
  unfold convertClean at h1
  rw [PyM.run_bind_ok (PyM.run_modify _ _)] at h1
  obtain ⟨r0, w1, _, h2⟩ := PyM.bind_ok h1
  have fin : ∀ (r : Option (Conv × Path)) (w2 : World), ((match r with
      | some (c, _) => pure (some c)
      | none => do
        let w ← PyM.get
        if w.par.raiseError then PyM.raise .noConversionFound else pure none : PyM World (Option Conv)) w2) =
        (.ok none, (convert v a b uc w).2) → False := by
    intro r w2 h3
    cases r with
    | some r => obtain ⟨c, p⟩ := r; cases h3
    | none =>
      dsimp only at h3
      rw [PyM.run_bind_ok (PyM.run_get _)] at h3
      split at h3
      · cases h3
      · rename_i hf
        have : w2 = (convert v a b uc w).2 := (Prod.mk.inj h3).2
        rw [this, hb.par] at hf
        exact hf hr
  cases r0 with
  | some r0 =>
    obtain ⟨r, w2, _, h3⟩ := PyM.bind_ok h2
    exact fin r w2 h3
  | none =>
    obtain ⟨r, w2, _, h3⟩ := PyM.bind_ok h2
    exact fin r w2 h3

theorem search_withRaise (r : Bool) (w : World) (a b : Str) :
    searchNetwork a b (withRaise r w) = ((searchNetwork a b w).1, withRaise r (searchNetwork a b w).2) := by
  have e1 : (withRaise r w).net = w.net := rfl
  have e2 : (withRaise r w).snap = withRaise r w.snap := rfl
  have e3 : (withRaise r w).par.algorithm = w.par.algorithm := rfl
  have e4 : (withRaise r w).par.maxGenerations = w.par.maxGenerations := rfl
  unfold searchNetwork
  simp only [e1, e2, e3, e4]
  split
  · split
    · cases w.par.algorithm with
      | bfs => rfl
      | lean => dsimp only; split <;> rfl
      | dfs => dsimp only; split <;> rfl
      | hybrid => dsimp only; split <;> rfl
      | other => rfl
    · rfl
    · rfl
  · rfl

theorem network_withRaise (r : Bool) (w : World) (v : Option Rat) (a b : Str) :
    (networkConversion v a b (withRaise r w)).1 = (networkConversion v a b w).1 := by
  have hs := search_withRaise r w a b
  unfold networkConversion
  cases hw : searchNetwork a b w with
  | mk x w1 =>
    rw [hw] at hs
    cases x with
    | error e => rw [PyM.run_bind_error hs, PyM.run_bind_error hw]
    | ok x =>
      rw [PyM.run_bind_ok hs, PyM.run_bind_ok hw]
      cases x with
      | none => rfl
      | some p =>
        dsimp only
        rw [PyM.run_bind_ok (PyM.run_get _), PyM.run_bind_ok (PyM.run_get _)]
        have e1 : (withRaise r w1).net = w1.net := rfl
        have e2 : (withRaise r w1).fvf = w1.fvf := rfl
        simp only [e1, e2]
        cases hl : lambdaConversion w1.net p with
        | error e => rfl
        | ok f =>
          rw [PyM.run_bind_ok (PyM.run_lift_ok _ _), PyM.run_bind_ok (PyM.run_lift_ok _ _),
            PyM.run_bind_ok (PyM.run_modify _ _), PyM.run_bind_ok (PyM.run_modify _ _)]
          cases v with
          | none => rfl
          | some x =>
            dsimp only
            cases applyConversion w1.net w1.fvf x p <;> rfl

theorem top_withRaise (r : Bool) (w : World) (hg : WF w.net) (hp : Ample w.par) (hpr : w.previous = []) (v : Option Rat)
    {a b : Str} (ha : SimpleName a) (hb : SimpleName b) (uc : Option Bool) :
    (converterTop uc v a b (withRaise r w)).1 = (converterTop uc v a b w).1 := by
  obtain ⟨n, hn⟩ := ample_budget hp
  have hg1 : (getConv (n + 1) uc v a b (withRaise r w)).1 = (getConv (n + 1) uc v a b w).1 := by
    rw [getConv_eq n uc v (withRaise r w) (tempParts_noSlash ha.1), getConv_eq n uc v w (tempParts_noSlash ha.1)]
    have e1 : memHit (withRaise r w) uc a b = memHit w uc a b := rfl
    have e2 : quick (withRaise r w) a b = quick w a b := rfl
    rw [e1, e2]
    cases memHit w uc a b with
    | some e =>
      cases e with
      | none => rfl
      | some fp => obtain ⟨f, p⟩ := fp; simp only [answer_eq]; rfl
    | none =>
      cases quick w a b with
      | some fp => obtain ⟨f, p⟩ := fp; simp only [answer_eq]; rfl
      | none => exact network_withRaise r w v a b
  have step : ∀ (w : World), WF w.net → topBudget w.par = n + 2 → w.previous = [] →
      (converterTop uc v a b w).1 = (getConv (n + 1) uc v a b w).1 := by
    intro w hg hn hpr
    rw [converterTop_eq, hn]
    rcases converter_simple hg ha hb n uc v (by rw [hpr]; simp) with ⟨h1, _⟩ | ⟨h0, w3, _, _, _, h1⟩
    · rw [h1]
    · rw [h1, h0]
  rw [step w hg hn hpr, step (withRaise r w) hg hn hpr, hg1]

/-- C70. On two names that are not a volume and a weight: where `convert` returns None with `raise_error` off, it raises
NoConversionFoundError with `raise_error` on, and in all other cases it does the same in both settings. Missing:
compound units, see `C70_gradients_fail`. -/
theorem C70_names_partial (w : World) (hg : WF w.net) (hp : Ample w.par) (v : Option Rat) (a b : Str) (ha : CleanName a)
    (hb : CleanName b) (hd : ¬ DensityPair w.dic a b) (uc : Option Bool) :
    ((convert v (some a) (some b) uc (withRaise false w)).1 = .ok none →
      (convert v (some a) (some b) uc (withRaise true w)).1 = .error .noConversionFound) ∧
    ((convert v (some a) (some b) uc (withRaise false w)).1 ≠ .ok none →
      (convert v (some a) (some b) uc (withRaise true w)).1 = (convert v (some a) (some b) uc (withRaise false w)).1) := by
  have e : ∀ r, (convert v (some a) (some b) uc (withRaise r w)).1 =
      finish r (converterTop uc v a b { w with previous := [] }).1 := by
    intro r
    rw [convert_clean ha.1 hb.1, convertClean_eq (w := withRaise r w) hg hd]
    exact congrArg (finish r) (top_withRaise r { w with previous := [] } hg hp rfl v ha.2 hb.2 uc)
  rw [e true, e false]
  cases (converterTop uc v a b { w with previous := [] }).1 with
  | error e => simp [finish]
  | ok x => cases x <;> simp [finish]

example : (convert (some 5) (some s!!"mi") (some s!!"g") none (withRaise false Demo.world)).1.toOption.map (·.isSome) = some false ∧
    numOf (convert (some 5) (some s!!"mi") (some s!!"in") none (withRaise false Demo.world)).1 = some 316800 := by
  decide +kernel

/-- C70 is false of temperature gradients: with `raise_error` off the search goes on, and ends in a ValueError. -/
theorem C70_gradients_fail :
    let w : World := { Demo.world with dic := { temperature := [s!!"ft", s!!"in"], tempRatio := [((s!!"ft", s!!"in"), 12)] } }
    (convert (some 5) (some s!!"ft/g") (some s!!"in/s") none (withRaise true w)).1.map (fun _ => ()) =
      .error .noConversionFound ∧
    (convert (some 5) (some s!!"ft/g") (some s!!"in/s") none (withRaise false w)).1.map (fun _ => ()) =
      .error .valueError := by decide +kernel

end Unyts
