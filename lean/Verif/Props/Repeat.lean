import Verif.Lemmas.ConvAgain
import Verif.Spec.DemoWorld

/-
C12, C17, C18, C19: asking again.
-/
namespace Unyts
open Spec

/-- `convert` cleans its arguments and goes on -/
theorem convert_ok {v : Option Rat} {a b : Option Str} {uc : Option Bool} {w w1 : World} {c : Option Conv}
    (h : convert v a b uc w = (.ok c, w1)) :
    ∃ x y, cleanInput w.par a b = .ok (x, y) ∧ convertClean uc v x y w = (.ok c, w1) := by
  unfold convert at h
  rw [PyM.run_bind_ok (PyM.run_get _)] at h
  cases hc : cleanInput w.par a b with
  | error e => rw [hc] at h; cases h
  | ok xy => rw [hc, PyM.run_bind_ok (PyM.run_lift_ok _ _)] at h; exact ⟨xy.1, xy.2, rfl, h⟩

theorem convert_of_clean {a b : Option Str} {w : World} {x y : Str} (h : cleanInput w.par a b = .ok (x, y))
    (v : Option Rat) (uc : Option Bool) : convert v a b uc w = convertClean uc v x y w := by
  unfold convert
  rw [PyM.run_bind_ok (PyM.run_get _), h, PyM.run_bind_ok (PyM.run_lift_ok _ _)]

/-! ### C12 -/

/-- C12. With the cache in use, for all units (names, products, ratios, volumes and weights, however they are
written): when convert(None, a, b) returned the function g, then convert(x, a, b) returns g(x) for every x for which
g returns a number. -/
theorem C12_function_and_number (w : World) (hg : WF w.net) (uc : Option Bool) (hc : uc.getD w.par.cache = true)
    (a b : Option Str) (g : Fn) (w1 : World) (h : convert none a b uc w = (.ok (some (.fn g)), w1)) :
    w1.fvf = w.fvf ∧ ∀ x y, g w.fvf x = .ok y → (convert (some x) a b uc w1).1 = .ok (some (.num y)) := by
  obtain ⟨s, t, hcl, hcc⟩ := convert_ok h
  obtain ⟨hb, f, p, h1, h2⟩ := convertClean_again hg hc hcc
  refine ⟨hb.fvf, fun x y hy => ?_⟩
  rw [convert_of_clean (by rw [hb.par]; exact hcl)]
  simp only [ansRes, Except.ok.injEq, Option.some.injEq, Prod.mk.injEq, Conv.fn.injEq] at h1
  obtain ⟨rfl, _⟩ := h1
  rw [h2 w1 (.refl _) x y hy]

/-- C12, exceptions included: between units that are not a volume and a weight, convert(x, a, b) does exactly what g(x)
does, also when g(x) raises. -/
theorem C12_function_and_exception (w : World) (hg : WF w.net) (uc : Option Bool) (hc : uc.getD w.par.cache = true)
    (a b : Str) (ha : CleanUnit a) (hb : CleanUnit b) (hd : ¬ DensityPair w.dic a b) (g : Fn) (w1 : World)
    (h : convert none (some a) (some b) uc w = (.ok (some (.fn g)), w1)) :
    w1.fvf = w.fvf ∧ ∀ x, (convert (some x) (some a) (some b) uc w1).1 = (g w.fvf x).map fun y => some (.num y) := by
  rw [convert_clean ha hb] at h
  obtain ⟨hb1, f, p, h1, h2⟩ := convertClean_repeat hg hc hd h
  refine ⟨hb1.fvf, fun x => ?_⟩
  simp only [ansRes, Except.ok.injEq, Option.some.injEq, Prod.mk.injEq, Conv.fn.injEq] at h1
  obtain ⟨rfl, _⟩ := h1
  rw [convert_clean ha hb, h2 w1 (.refl _) (some x), finish_map]

/-- whether a call returned a function, and what it gives -/
def fnAt (r : Res (Option Conv)) (x : Rat) : Option (Res Rat) :=
  match r with
  | .ok (some (.fn f)) => some (f none x)
  | _ => none

example : fnAt (convert none (some s!!"mi") (some s!!" in") none Demo.world).1 2 = some (.ok 126720) ∧
    fnAt (convert none (some s!!"mi/g") (some s!!"in/g") none Demo.world).1 2 = some (.ok 126720) ∧
    numOf (convert (some 2) (some s!!"mi/g") (some s!!"in/g") none
      (convert none (some s!!"mi/g") (some s!!"in/g") none Demo.world).2).1 = some 126720 := by decide +kernel

/-! ### C17 -/

/-- C17. With the cache in use, in any state and for all units, if convert(x, a, b) returned a number then, after any
number of further calls that convert or ask about pairs of single names, the same call returns the same number. -/
theorem C17_same_again (w : World) (hg : WF w.net) (hp : Ample w.par) (uc : Option Bool)
    (hc : uc.getD w.par.cache = true) (a b : Option Str) (x y : Rat) (w1 : World)
    (h : convert (some x) a b uc w = (.ok (some (.num y)), w1)) (cs : List Call) (hcs : ∀ c ∈ cs, AsksNames w c) :
    (convert (some x) a b uc (session cs w1)).1 = .ok (some (.num y)) := by
  obtain ⟨s, t, hcl, hcc⟩ := convert_ok h
  obtain ⟨hb, f, p, h1, h2⟩ := convertClean_again hg hc hcc
  have hcs1 : ∀ c ∈ cs, AsksNames w1 c := by
    intro c hcm
    have := hcs c hcm
    cases c with
    | convert v a b uc =>
      cases a <;> cases b <;> first | exact this.elim | (unfold AsksNames at *; rw [hb.dic, hb.par]; exact this)
    | convertible a b uc => unfold AsksNames at *; rw [hb.par]; exact this
    | simPandas v a b uc => unfold AsksNames at *; rw [hb.par]; exact this
    | search => trivial
    | _ => exact this.elim
  have hal := alike_session (w := w1) (by rw [hb.net]; exact hg) (by rw [hb.par]; exact hp) hcs1
  rw [convert_of_clean (by rw [hal.par, hb.par]; exact hcl)]
  obtain ⟨_, hh⟩ := ansRes_ok h1
  rcases hh with ⟨hh, _⟩ | ⟨x', y', hx, hf, hy⟩
  · cases hh
  · cases hx; cases hy
    rw [h2 _ hal x y hf]

/-- C17 at once: no condition on the limits is needed. -/
theorem C17_same_at_once (w : World) (hg : WF w.net) (uc : Option Bool) (hc : uc.getD w.par.cache = true)
    (a b : Option Str) (x y : Rat) (w1 : World) (h : convert (some x) a b uc w = (.ok (some (.num y)), w1)) :
    (convert (some x) a b uc w1).1 = .ok (some (.num y)) := by
  obtain ⟨s, t, hcl, hcc⟩ := convert_ok h
  obtain ⟨hb, f, p, h1, h2⟩ := convertClean_again hg hc hcc
  rw [convert_of_clean (by rw [hb.par]; exact hcl)]
  obtain ⟨_, hh⟩ := ansRes_ok h1
  rcases hh with ⟨hh, _⟩ | ⟨x', y', hx, hf, hy⟩
  · cases hh
  · cases hx; cases hy
    rw [h2 _ (.refl _) x y hf]

example : numOf (convert (some 2) (some s!!"mi/g") (some s!!"in/g") none Demo.world).1 = some 126720 ∧
    AsksNames Demo.world (.convertible s!!"mi" s!!"g" none) ∧
    AsksNames Demo.world (.convert (some 1) (some s!!"mi") (some s!!"in") none) ∧
    numOf (convert (some 2) (some s!!"mi/g") (some s!!"in/g") none
      (session [.convertible s!!"mi" s!!"g" none, .convert (some 1) (some s!!"mi") (some s!!"in") none]
        (convert (some 2) (some s!!"mi/g") (some s!!"in/g") none Demo.world).2)).1 = some 126720 :=
  ⟨by decide +kernel, ⟨by unfold SimpleName; decide, by unfold SimpleName; decide, rfl⟩,
    ⟨Demo.clean_mi, Demo.clean_in, Demo.noDensity _ _, rfl⟩, by decide +kernel⟩

/-- a single name next to a ratio of the network, and nothing else -/
def knot : Net where
  edges := [(⟨0, s!!"kn"⟩, [(⟨1, s!!"m/s"⟩, Demo.times 2)]), (⟨1, s!!"m/s"⟩, [(⟨0, s!!"kn"⟩, Demo.times (1/2))])]
  nextId := 2

/-- C17 does not extend to further conversions of ratios: with recursion_limit(1) a failing conversion in between makes
the library forget an answer it gave before. -/
theorem C17_not_after_ratios :
    (let w : World := { net := knot, par := { algorithm := .bfs, maxRecursion := 1 } }
     let w1 := (convert (some 1) (some s!!"kn") (some s!!"m/s") none w).2
     let w2 := (convert (some 1) (some s!!"kn") (some s!!"x/y") none w1).2
     numOf (convert (some 1) (some s!!"kn") (some s!!"m/s") none w).1 = some 2 ∧
     numOf (convert (some 1) (some s!!"kn") (some s!!"m/s") none w1).1 = some 2 ∧
     (convert (some 1) (some s!!"kn") (some s!!"m/s") none w2).1.map (fun _ => ()) = .error .noConversionFound) := by
  decide +kernel

/-! ### C19 -/

/-- C19. With the cache in use, when convertible(a, b) answers True, there is one function, defined at 1, such that
convert(x, a, b) called next does for every x what that function does at x: in particular the library never says then
that there is no conversion (units without decoration, not a volume and a weight). -/
theorem C19_convertible_converts (w : World) (hg : WF w.net) (uc : Option Bool) (hc : uc.getD w.par.cache = true)
    (a b : Str) (ha : CleanUnit a) (hb : CleanUnit b) (hd : ¬ DensityPair w.dic a b) (w1 : World)
    (h : convertible a b uc w = (.ok true, w1)) :
    ∃ g : Fn, (∃ y, g w.fvf 1 = .ok y) ∧
      ∀ x, (convert (some x) (some a) (some b) uc w1).1 = (g w.fvf x).map fun y => some (.num y) := by
  unfold convertible at h
  cases hr : converterTop uc (some 1) a b w with
  | mk r w' =>
    rw [hr] at h
    match r with
    | .error e => cases e <;> simp at h
    | .ok none => simp at h
    | .ok (some (c, p)) =>
      have hw : w' = w1 := (Prod.mk.inj h).2
      subst hw
      obtain ⟨hb1, f, h1, h2⟩ := converterTop_repeat hg hc hr
      obtain ⟨_, hh⟩ := ansRes_ok h1
      refine ⟨f, ?_, fun x => ?_⟩
      · rcases hh with ⟨hh, _⟩ | ⟨x', y', hx, hf, _⟩
        · cases hh
        · cases hx; exact ⟨y', hf⟩
      · rw [convert_clean ha hb, convertClean_eq (by rw [hb1.net]; exact hg) (by rw [hb1.dic]; exact hd),
          h2 { w' with previous := [] } (alike_prev w' []) (by simp) (some x)]
        exact finish_map _ _ p _ (some x)

example : (convertible s!!"mi/g" s!!"in/g" none Demo.world).1 = .ok true ∧
    numOf (convert (some 2) (some s!!"mi/g") (some s!!"in/g") none
      (convertible s!!"mi/g" s!!"in/g" none Demo.world).2).1 = some 126720 := by decide +kernel

/-! ### C18 -/

/-- the pairs already tried are not forgotten during a question -/
def Tried (k : Str × Str) (w : World) : Prop := WF w.net ∧ k ∈ w.previous

theorem tried_basic (k : Str × Str) : Basic (Tried k) where
  snap := fun _ h => h
  tick := fun _ h => h
  prev := fun _ _ _ h => ⟨h.1, List.mem_append_left _ h.2⟩

theorem tried_remember (k : Str × Str) (w : World) (a b : Str) (e) (h : Tried k w) : Tried k (w.remember a b e) := h

theorem tried_indirect (k : Str × Str) (n : Nat) (uc : Option Bool) (v : Option Rat) (a b : Str) :
    Inv (Tried k) (indirect (getConv n uc) (converter n uc) (converter n none) v a b) := by
  have hw : NeedsWF (Tried k) := fun _ h => h.1
  have hp : KeepsPaths (Tried k) := fun w a b _ _ _ _ h _ _ _ _ _ _ => tried_remember k w a b _ h
  have hcp : KeepsCompound (Tried k) := fun a b _ w e h => tried_remember k w a b e h
  have hat : ∀ a b, KeepsAt (Tried k) a b := fun a b w e h => tried_remember k w a b e h
  exact inv_indirect (tried_basic k) (fun v a b => inv_getConv (tried_basic k) hw hp n uc v a b)
    (fun v a b _ => inv_converter (tried_basic k) hw hp hcp n uc v a b (hat a b) fun _ h => ⟨h.1, List.mem_append_left _ h.2⟩)
    (fun v a b _ => inv_converter (tried_basic k) hw hp hcp n none v a b (hat a b) fun _ h => ⟨h.1, List.mem_append_left _ h.2⟩) v (hat a b)

/-- C18, the half that always holds: with the cache in use, when convertible(a, b) answers False it goes on answering
False, for all units. -/
theorem C18_no_stays_no (w : World) (hg : WF w.net) (uc : Option Bool) (hc : uc.getD w.par.cache = true) (a b : Str)
    (w1 : World) (h : convertible a b uc w = (.ok false, w1)) : (convertible a b uc w1).1 = .ok false := by
  have hbase : SameBase w w1 := by
    have := (inv_convertible (inv_base w) a b uc w ⟨hg, .refl w⟩).2
    rw [h] at this; exact this
  -- the answer of `_converter` in a state where the pair has been tried
  have htried : (a, b) ∈ w1.previous → (convertible a b uc w1).1 = .ok false := by
    intro ht
    unfold convertible
    rw [converterTop_eq]
    cases topBudget w1.par with
    | zero => rfl
    | succ n => rw [converter]; dsimp only; rw [if_pos ht]; rfl
  unfold convertible at h
  rw [converterTop_eq] at h
  cases hn : topBudget w.par with
  | zero =>
    unfold convertible
    rw [converterTop_eq, hbase.par, hn]
    rfl
  | succ n =>
    rw [hn] at h
    by_cases hpr : (a, b) ∈ w.previous
    · have : converter (n + 1) uc (some 1) a b w = (.ok none, w) := by
        rw [converter]; dsimp only; rw [if_pos hpr]
      rw [this] at h
      have hw : w = w1 := (Prod.mk.inj h).2
      subst hw
      exact htried hpr
    · have hconv : converter (n + 1) uc (some 1) a b w =
          converterBody (getConv n) (converter n) uc (some 1) a b w := by
        rw [converter]; dsimp only; rw [if_neg hpr]
      unfold converterBody at hconv
      cases hgc : getConv n uc (some 1) a b w with
      | mk r w' =>
        cases r with
        | error e =>
          rw [PyM.run_bind_error hgc] at hconv
          rw [hconv] at h
          have he : e = .noConversionFound ∧ w' = w1 := by
            cases e <;> simp_all
          obtain ⟨rfl, rfl⟩ := he
          by_cases ht : (a, b) ∈ w'.previous
          · exact htried ht
          · have hagain := getConv_error_again hg hc hgc
            unfold convertible
            rw [converterTop_eq, hbase.par, hn]
            cases hg2 : getConv n uc (some 1) a b w' with
            | mk r2 w2 =>
              rw [hg2] at hagain
              dsimp only at hagain
              subst hagain
              rw [converter_of_getConv ht (by simp) hg2]
        | ok r =>
          rw [PyM.run_bind_ok hgc] at hconv
          cases r with
          | some cp =>
            simp only at hconv
            rw [hconv] at h
            simp at h
          | none =>
            simp only at hconv
            rw [PyM.run_bind_ok (PyM.run_modify _ _)] at hconv
            have hgw : WF w'.net := by
              have := base_getConv hg n uc (some 1) a b; rw [hgc] at this; rw [this.net]; exact hg
            have := tried_indirect (a, b) n uc (some 1) a b { w' with previous := w'.previous ++ [(a, b)] }
              ⟨hgw, by simp⟩
            rw [hconv] at h
            cases hin : indirect (getConv n uc) (converter n uc) (converter n none) (some 1) a b
                { w' with previous := w'.previous ++ [(a, b)] } with
            | mk r3 w3 =>
              rw [hin] at h this
              have hw : w3 = w1 := by
                match r3 with
                | .ok _ => exact (Prod.mk.inj h).2
                | .error e => cases e <;> exact (Prod.mk.inj h).2
              subst hw
              exact htried this.2

/-- C18 for single names: with the cache in use, the second answer is the first one, be it True, False or an exception.
Partial: for products and ratios see `C18_ratio_yes_then_no`. -/
theorem C18_names_partial (w : World) (hg : WF w.net) (hp : Ample w.par) (uc : Option Bool)
    (hc : uc.getD w.par.cache = true) (a b : Str) (ha : SimpleName a) (hb : SimpleName b) :
    (convertible a b uc (convertible a b uc w).2).1 = (convertible a b uc w).1 := by
  by_cases hno : (convertible a b uc w).1 = .ok false
  · rw [hno]; exact C18_no_stays_no w hg uc hc a b _ (Prod.ext hno rfl)
  · by_cases hpr : (a, b) ∈ w.previous
    · refine absurd ?_ hno
      unfold convertible
      rw [converterTop_eq]
      cases topBudget w.par with
      | zero => rfl
      | succ n => rw [converter]; dsimp only; rw [if_pos hpr]; rfl
    · obtain ⟨n, hn⟩ := ample_budget hp
      rcases converter_simple hg ha hb n uc (some 1) hpr with ⟨h1, h0⟩ | ⟨_, w2, _, _, _, h1⟩
      · cases hgc : getConv (n + 1) uc (some 1) a b w with
        | mk r w' =>
          rw [hgc] at h0 h1
          dsimp only at h0
          have hbase : SameBase w w' := by
            have := base_getConv hg (n + 1) uc (some 1) a b; rw [hgc] at this; exact this
          have hprev : w'.previous = w.previous :=
            (getConv_direct hg n uc (some 1) (tempParts_noSlash ha.1) hgc).2.1
          have hagain := getConv_direct_again hg hc (tempParts_noSlash ha.1) hgc
          have hst : (convertible a b uc w).2 = w' := by
            unfold convertible
            rw [converterTop_eq, hn, h1]
            match r with
            | .ok _ => rfl
            | .error e => cases e <;> rfl
          rw [hst]
          unfold convertible
          rw [converterTop_eq, converterTop_eq, hbase.par, hn, h1]
          cases hg2 : getConv (n + 1) uc (some 1) a b w' with
          | mk r2 w2 =>
            rw [hg2] at hagain
            dsimp only at hagain
            subst hagain
            rw [converter_of_getConv (by rw [hprev]; exact hpr) h0 hg2]
            match r2 with
            | .ok _ => rfl
            | .error e => cases e <;> rfl
      · refine absurd ?_ hno
        unfold convertible
        rw [converterTop_eq, hn, h1]
        rfl

/-- C18 fails for ratios: True, then False. -/
theorem C18_ratio_yes_then_no :
    (convertible s!!"mi/g" s!!"in/g" none Demo.world).1 = .ok true ∧
    (convertible s!!"mi/g" s!!"in/g" none (convertible s!!"mi/g" s!!"in/g" none Demo.world).2).1 = .ok false := by
  decide +kernel

example : WF Demo.world.net ∧ Ample Demo.world.par ∧ SimpleName s!!"mi" ∧
    (convertible s!!"mi" s!!"in" none Demo.world).1 = .ok true ∧
    (convertible s!!"mi" s!!"g" none Demo.world).1 = .ok false :=
  ⟨Demo.wf, Demo.fresh.ample, by unfold SimpleName; decide, by decide +kernel, by decide +kernel⟩

end Unyts
