import Verif.Lemmas.ConvParts
import Verif.Lemmas.ConvSelf
import Verif.Spec.DemoWorld

/-
C15, C16, C20 to C24, C26, C27: units made of several names, and units with a rule of their own.
-/
namespace Unyts
open Spec

/-! ### C15, C16 -/

theorem readFactors_ne (s : Str) (den : Bool) (cur : Str) : readFactors den cur s ≠ [] := by
  induction s generalizing den cur with
  | nil => simp [readFactors]
  | cons c s ih =>
    rw [readFactors]
    split
    · simp
    · split
      · simp
      · exact ih _ _

/-- C16. In any state a session left, when the library knows no conversion of the whole unit and every factor of `a`
converts to the corresponding factor of `b` (any number of factors), the product of the numbers so obtained is the one
factor by which every value is multiplied; in particular zero converts to zero. -/
theorem C16_by_parts (w w2 : World) (hw : Reachable w) (a b : Str) (ha : CleanUnit a) (hb : CleanUnit b)
    (uc : Option Bool) (hn : NotWhole w uc a b) (ks : List Rat)
    (hp : PartsConvert uc w (factors a) (factors b) ks w2) (hna : ∀ f ∈ factors a, f.2 ≠ [])
    (hnb : ∀ f ∈ factors b, f.2 ≠ []) :
    ∃ w3, ∀ x, convert (some x) (some a) (some b) uc w = (.ok (some (.num (x * ks.prod))), w3) := by
  have fa : ∀ {l : List Factor}, (∀ f ∈ l, f.2 ≠ []) → l.filter (fun f => decide (f.2 ≠ [])) = l := by
    intro l h
    exact List.filter_eq_self.2 fun f hf => by simpa using h f hf
  obtain ⟨w3, p, _, _, h⟩ := convert_parts (sound_of_reachable hw) ha hb hn (by rw [fa hna, fa hnb]; exact hp) (by
    have hne : factors a ≠ [] := readFactors_ne a false []
    generalize factors a = fa, factors b = fb at hp hne
    cases hp with
    | nil => exact absurd rfl hne
    | cons => simp)
  exact ⟨w3, h⟩


theorem factors_ratio {a b : Str} (ha : SimpleName a) (hb : SimpleName b) :
    factors (a ++ '/' :: b) = [(false, a), (true, b)] := by
  rw [factors, readFactors_sep '/' (Or.inr rfl) ha.2 ha.1, readFactors_simple hb.2 hb.1]
  simp

/-- C15. In any state a session left: when one unit of `a` converts to `k1` units of `c` and then one unit of `b`
converts to `k2` units of `d`, every value converts from `a/b` to `c/d` by multiplying by `k1` and dividing by `k2`,
provided the library has no other conversion of the whole ratio. -/
theorem C15_ratio (w w1 w2 : World) (hw : Reachable w) (a b c d : Str) (ha : CleanName a) (hb : CleanName b)
    (hc : CleanName c) (hd : CleanName d) (na : a ≠ []) (nb : b ≠ []) (nc : c ≠ []) (nd : d ≠ [])
    (uc : Option Bool) (hn : NotWhole w uc (a ++ '/' :: b) (c ++ '/' :: d))
    (d1 : ¬ DensityPair w.dic a c) (d2 : ¬ DensityPair w.dic b d) (k1 k2 : Rat) (hk : k2 ≠ 0)
    (h1 : convert (some 1) (some a) (some c) uc w = (.ok (some (.num k1)), w1))
    (h2 : convert (some 1) (some b) (some d) uc w1 = (.ok (some (.num k2)), w2)) (x : Rat) :
    (convert (some x) (some (a ++ '/' :: b)) (some (c ++ '/' :: d)) uc w).1 = .ok (some (.num (x * k1 / k2))) := by
  have hb1 : SameBase w w1 := by
    have := base_convert (sound_of_reachable hw).1.wf (some 1) (some a) (some c) uc; rw [h1] at this; exact this
  obtain ⟨w3, h⟩ := C16_by_parts w w2 hw _ _ (cleanUnit_ratio ha hb na nb '/' (Or.inl rfl))
    (cleanUnit_ratio hc hd nc nd '/' (Or.inl rfl)) uc hn [k1, 1 / k2]
    (by
      rw [factors_ratio ha.2 hb.2, factors_ratio hc.2 hd.2]
      refine .cons (den := false) ha hc d1 h1 (by simp) ?_
      exact .cons (den := true) hb hd (by rw [hb1.dic]; exact d2) h2 (fun _ => hk) (.nil _))
    (by rw [factors_ratio ha.2 hb.2]; simp [na, nb]) (by rw [factors_ratio hc.2 hd.2]; simp [nc, nd])
  rw [h x]
  simp only [List.prod_cons, List.prod_nil, mul_one]
  rw [show x * (k1 * (1 / k2)) = x * k1 / k2 by ring]

/-- a process for the examples on compound units: the names are all ordinary -/
theorem demo_notWhole {uc : Option Bool} {a b : Str} (h : a ≠ b ∧ ¬ (a ∈ Demo.net.nodes.map (·.name)))
    (hs : ¬ Swapped a b) : NotWhole Demo.world uc a b where
  ne := h.1
  ordA := Demo.ordinary _
  ordB := Demo.ordinary _
  notSwapped := hs
  notTemp := by rintro ⟨_, _, _, _, _, _, _, _, _, _, h, _⟩; exact List.not_mem_nil h
  notDensity := Demo.noDensity _ _
  unknown := by rintro ⟨⟨n, hn, e⟩, _⟩; exact h.2 (List.mem_map.2 ⟨n, hn, e⟩)
  forgotten := Or.inr rfl

example : Reachable Demo.world ∧ NotWhole Demo.world none s!!"mi/yd" s!!"in/ft" ∧ CleanName s!!"mi" ∧
    (let r1 := convert (some 1) (some s!!"mi") (some s!!"in") none Demo.world
     let r2 := convert (some 1) (some s!!"yd") (some s!!"ft") none r1.2
     numOf r1.1 = some 63360 ∧ numOf r2.1 = some 3 ∧
     numOf (convert (some 2) (some s!!"mi/yd") (some s!!"in/ft") none Demo.world).1 = some (2 * 63360 / 3)) :=
  ⟨Demo.reachable, demo_notWhole (by decide) (fun h => absurd (swappedB_of h) (by decide)), Demo.clean_mi,
    by decide +kernel⟩

/-- C15, what is not checked: parts of the target that nothing converts to are ignored, and a '*' may answer to a '/',
so that units of different dimensions convert: 5 ft "are" 5 ft/g, and 5 ft/g "are" 5 ft*g. -/
theorem C15_dimension_not_checked :
    numOf (convert (some 5) (some s!!"ft") (some s!!"ft/g") none Demo.world).1 = some 5 ∧
    numOf (convert (some 5) (some s!!"ft/g") (some s!!"ft*g") none Demo.world).1 = some 5 := by decide +kernel

theorem isRatio_of {a : Str} (h : (ratioParts a).isSome = true) : IsRatio a := by
  obtain ⟨⟨x, y⟩, hxy⟩ := Option.isSome_iff_exists.1 h
  obtain ⟨rfl, h1, h2⟩ := ratioParts_slash hxy
  exact ⟨x, y, h1, h2, rfl⟩

/-- C16, stated on the answers: for units of several names that are not both ratios of two terms, and that the library
knows no conversion of as a whole, either there is one factor for all values, or no value converts (always the same
exception, or always None). -/
theorem C16_proportional (w : World) (hw : Reachable w) (a b : Str) (ha : CleanUnit a) (hb : CleanUnit b)
    (sa : ¬ SimpleName a) (sb : ¬ SimpleName b) (hr : ¬ (IsRatio a ∧ IsRatio b)) (uc : Option Bool)
    (hn : NotWhole w uc a b) :
    (∃ k w3, ∀ x, convert (some x) (some a) (some b) uc w = (.ok (some (.num (x * k))), w3)) ∨
    (∃ e w3, ∀ x, convert (some x) (some a) (some b) uc w = (.error e, w3)) ∨
    ∃ w3, ∀ x, convert (some x) (some a) (some b) uc w = (.ok none, w3) := by
  have hs := sound_of_reachable hw
  obtain ⟨n, hbud⟩ := ample_budget hs.2
  have hpair : ∀ {u : Str}, ¬ SimpleName u → isPair u = true := by
    intro u hu
    cases h : isPair u with
    | true => rfl
    | false => exact absurd (simple_iff_not_isPair.2 h) hu
  have start : ∀ x, converter (n + 2) uc (some x) a b { w with previous := [] } =
      indirect (getConv (n + 1) uc) (converter (n + 1) uc) (converter (n + 1) none) (some x) a b
        (w.withPrev [(a, b)]) := by
    intro x
    rw [converter]
    dsimp only
    rw [if_neg (by simp)]
    unfold converterBody
    have hgn : getConv (n + 1) uc (some x) a b { w with previous := [] } = (.ok none, { w with previous := [] }) :=
      getConv_notWhole hn n (some x) []
    rw [PyM.run_bind_ok hgn]
    simp only
    rw [PyM.run_bind_ok (PyM.run_modify _ _)]
    rfl
  have top : ∀ x, convert (some x) (some a) (some b) uc w =
      (finish w.par.raiseError (converter (n + 2) uc (some x) a b { w with previous := [] }).1,
        (converter (n + 2) uc (some x) a b { w with previous := [] }).2) := by
    intro x
    rw [convert_clean ha hb, convertClean_eq hs.1.wf hn.notDensity, converterTop_eq]
    show (finish _ (converter (topBudget w.par) _ _ _ _ _).1, (converter (topBudget w.par) _ _ _ _ _).2) = _
    rw [hbud]
  cases hsp : splitStage (getConv (n + 1) uc) a b (w.withPrev [(a, b)]) with
  | mk r w1 =>
    cases r with
    | error e =>
      refine Or.inr (Or.inl ⟨e, w1, fun x => ?_⟩)
      rw [top, start]
      unfold indirect
      rw [PyM.run_bind_error hsp]
      rfl
    | ok r =>
      cases r with
      | some fp =>
        obtain ⟨f, p⟩ := fp
        have hf : ∃ k, f = scaleFn k := by
          unfold splitStage at hsp
          obtain ⟨l, w0, _, hl⟩ := PyM.bind_ok hsp
          match l with
          | none => simp at hl
          | some [] => simp at hl
          | some ((k, p) :: l) =>
            simp only [PyM.run_pure, Prod.mk.injEq, Except.ok.injEq, Option.some.injEq] at hl
            exact ⟨_, hl.1.1.symm⟩
        obtain ⟨k, rfl⟩ := hf
        refine Or.inl ⟨k, w1.remember a b (some (scaleFn k, p)), fun x => ?_⟩
        rw [top, start]
        unfold indirect
        rw [PyM.run_bind_ok hsp]
        simp only [storeAnswer]
        rw [PyM.run_bind_ok (PyM.run_modify _ _), answer_eq]
        rfl
      | none =>
        have h2 : pairStage (converter (n + 1) uc) a b w1 = (.ok none, w1) := by
          unfold pairStage
          rw [PyM.run_bind_ok (PyM.run_get _), hpair sa, hpair sb]
          rfl
        have h3 : ratioStage (converter (n + 1) none) a b w1 = (.ok none, w1) := by
          unfold ratioStage
          rw [if_neg]
          · rfl
          · intro hc
            rw [Bool.and_eq_true] at hc
            exact hr ⟨isRatio_of hc.1, isRatio_of hc.2⟩
        have fin : ∀ x, converter (n + 2) uc (some x) a b { w with previous := [] } = (.ok none, w1.remember a b none) := by
          intro x
          rw [start]
          unfold indirect
          rw [PyM.run_bind_ok hsp]
          simp only
          rw [PyM.run_bind_ok h2]
          simp only
          rw [PyM.run_bind_ok h3]
          simp only
          rw [PyM.run_bind_ok (PyM.run_modify _ _)]
          rfl
        cases hre : w.par.raiseError with
        | true => exact Or.inr (Or.inl ⟨_, _, fun x => by rw [top, fin, hre]; rfl⟩)
        | false => exact Or.inr (Or.inr ⟨_, fun x => by rw [top, fin, hre]; rfl⟩)

example : ¬ SimpleName s!!"mi*yd*g" ∧ NotWhole Demo.world none s!!"mi*yd*g" s!!"ft*in*g" ∧
    ¬ (IsRatio s!!"mi*yd*g" ∧ IsRatio s!!"ft*in*g") ∧
    numOf (convert (some 2) (some s!!"mi*yd*g") (some s!!"ft*in*g") none Demo.world).1 = some (2 * (5280 * 36 * 1)) ∧
    numOf (convert (some 0) (some s!!"mi*yd*g") (some s!!"ft*in*g") none Demo.world).1 = some 0 :=
  ⟨by unfold SimpleName; decide, demo_notWhole (by decide) (fun h => absurd (swappedB_of h) (by decide)),
    by rintro ⟨⟨x, y, _, _, h⟩, _⟩
       have : '/' ∈ s!!"mi*yd*g" := by rw [h]; simp
       exact absurd this (by decide), by decide +kernel, by decide +kernel⟩

end Unyts
