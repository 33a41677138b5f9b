import Verif.Lemmas.Weightless
import Verif.Spec.Densities
import Verif.Props.Constants

/- C119: the density in the course of a session. -/
namespace Unyts
open Spec

theorem givenC_state (x : Rat) (r : Res (Option (Conv × Path)) × World) : (givenC x r).2 = r.2 := by
  rcases r with ⟨_ | ⟨_ | ⟨_ | _, _⟩⟩, _⟩ <;> rfl

theorem top_state (uc : Option Bool) (d : Rat) (a b : Str) (w : World) :
    (converterTop uc (some d) a b w).2 = (converterTop uc none a b w).2 := by
  unfold converterTop
  rw [converter_given, givenC_state]

theorem pair_finish {uc : Option Bool} {v : Option Rat} {a b u : Str} {w : World} {d : Rat} {g : Option (Conv × Path) → Fn}
    {p : Option (Conv × Path) → Path}
    (h : densityConversion uc v a b { w with previous := [] } =
      ((do let r ← converterTop uc (some d) gcm3 u; answer v (g r) (p r)) : CallM) { w with previous := [] }) :
    (convertClean uc v a b w).2 = (converterTop uc none gcm3 u { w with previous := [] }).2 := by
  unfold convertClean
  rw [PyM.run_bind_ok (PyM.run_modify _ _), ← top_state uc d]
  cases hr : converterTop uc (some d) gcm3 u { w with previous := [] } with
  | mk r w1 =>
  cases r with
  | error e =>
    rw [PyM.run_bind_error hr] at h
    rw [PyM.run_bind_error h]
  | ok r =>
    rw [PyM.run_bind_ok hr] at h
    cases v with
    | none =>
      rw [PyM.run_bind_ok (show densityConversion uc none a b _ = (.ok (some (.fn (g r), p r)), w1) from h)]
      rfl
    | some x =>
      have h : densityConversion uc (some x) a b { w with previous := [] } =
        ((g r w1.fvf x).map fun y => some (Conv.num y, p r), w1) := h
      cases hg : g r w1.fvf x with
      | error e =>
        rw [hg] at h
        rw [PyM.run_bind_error (show densityConversion uc (some x) a b _ = (.error e, w1) from h)]
      | ok y =>
        rw [hg] at h
        rw [PyM.run_bind_ok (show densityConversion uc (some x) a b _ = (.ok (some (.num y, p r)), w1) from h)]
        rfl

theorem pair_state {dic : Dict} {a b : Str} (h : DensityPair dic a b) (uc : Option Bool) (v : Option Rat) :
    ∃ u, ∀ (w : World) (d : Rat), w.dic = dic → w.par.density = some d →
        (convertClean uc v a b w).2 = (converterTop uc none gcm3 u { w with previous := [] }).2 := by
  by_cases h1 : a ∉ dic.uncertain ∧ b ∉ dic.uncertain ∧ a ∈ dic.volume ∧ b ∈ dic.weight
  · refine ⟨b ++ '/' :: a, fun w d hw hd => pair_finish (d := d) (g := timesDensity) (p := fun r => [.str ['*'], densityStep r]) ?_⟩
    subst hw
    unfold densityConversion
    rw [PyM.run_bind_ok (PyM.run_get _)]
    simp only [if_pos h1, hd]
  · have h2 : a ∉ dic.uncertain ∧ b ∉ dic.uncertain ∧ b ∈ dic.volume ∧ a ∈ dic.weight := by
      obtain ⟨x, y, z | z⟩ := h
      · exact absurd ⟨x, y, z⟩ h1
      · exact ⟨x, y, z⟩
    refine ⟨a ++ '/' :: b, fun w d hw hd => pair_finish (d := d) (g := fun _ _ _ => .error .typeError)
      (p := fun _ => [.str ['/'], .str s!!"tuple"]) ?_⟩
    subst hw
    unfold densityConversion
    rw [PyM.run_bind_ok (PyM.run_get _)]
    simp only [if_neg h1, if_pos h2, hd]

theorem density_skipped {w : World} {a b : Str} (h : ¬ DensityPair w.dic a b) (uc : Option Bool) (v : Option Rat) :
    densityConversion uc v a b w = (.ok none, w) := density_none h uc v

theorem blind_plain {a b : Str} {w : World} (h : ¬ DensityPair w.dic a b) (uc : Option Bool) (v : Option Rat) (d : Option Rat) :
    convertClean uc v a b (w.weighing d) = ((convertClean uc v a b w).1, (convertClean uc v a b w).2.weighing d) := by
  have e : ∀ w : World, ¬ DensityPair w.dic a b → convertClean uc v a b w = ((do
      PyM.modify (fun w : World => { w with previous := [] })
      let r ← converterTop uc v a b
      match r with
      | some (c, _) => pure (some c)
      | none =>
        let w ← PyM.get
        if w.par.raiseError then PyM.raise .noConversionFound else pure none) : PyM World (Option Conv)) w := by
    intro w h
    unfold convertClean
    rw [PyM.run_bind_ok (PyM.run_modify _ _), PyM.run_bind_ok (PyM.run_modify _ _),
      PyM.run_bind_ok (density_skipped (w := { w with previous := [] }) h uc v)]
    rfl
  rw [e w h, e (w.weighing d) h]
  refine (?_ : Blind d _) w
  refine blind_bind (blind_modify fun _ => rfl) fun _ => blind_bind (blind_top _ _ _ _) fun r => ?_
  cases r with
  | some e => exact blind_pure _
  | none =>
    refine blind_get (fun w => ?_) fun w => rfl
    split
    · exact blind_raise _
    · exact blind_pure _

/-- C119, in every state, for every number, every pair of units that is not a volume and a weight: the answer of `convert`
does not depend on the density, and what the library remembers neither. -/
theorem C119_nothing_else (w : World) (v : Option Rat) {a b : Str} (ha : CleanUnit a) (hb : CleanUnit b)
    (h : ¬ DensityPair w.dic a b) (uc : Option Bool) (d : Option Rat) :
    let r := convert v (some a) (some b) uc w
    convert v (some a) (some b) uc { w with par := { w.par with density := d } } =
      (r.1, { r.2 with par := { r.2.par with density := d } }) := by
  intro r
  have := blind_plain h uc v d
  rw [convert_clean ha hb]
  simp only [show r = convertClean uc v a b w from convert_clean ha hb v uc w]
  exact this

theorem weighing_ask {c : Call} (hc : Asks c) {w : World} {d0 : Rat} (hd : w.par.density = some d0) (d : Rat) :
    c.run (w.weighing (some d)) = (c.run w).weighing (some d) := by
  cases c with
  | convertible a b uc => exact congrArg Prod.snd (blind_convertible (d := some d) a b uc w)
  | simPandas v a b uc => exact congrArg Prod.snd (blind_simPandas (d := some d) v a b uc w)
  | search a b => exact congrArg Prod.snd (blind_search (d := some d) a b w)
  | convert v a b uc =>
    show (convert v a b uc (w.weighing (some d))).2 = (convert v a b uc w).2.weighing (some d)
    unfold convert
    rw [PyM.run_bind_ok (PyM.run_get _), PyM.run_bind_ok (PyM.run_get _)]
    show ((PyM.lift (cleanInput w.par a b) >>= _) _).2 = _
    cases cleanInput w.par a b with
    | error e => rfl
    | ok xy =>
      rw [PyM.run_bind_ok (PyM.run_lift_ok _ _), PyM.run_bind_ok (PyM.run_lift_ok _ _)]
      by_cases h : DensityPair w.dic xy.1 xy.2
      · obtain ⟨u, hu⟩ := pair_state h uc v
        rw [show (convertClean uc v xy.1 xy.2 (w.weighing (some d))).2 = _ from hu _ d rfl rfl, hu w d0 rfl hd]
        exact congrArg Prod.snd (blind_top (d := some d) uc none gcm3 u { w with previous := [] })
      · exact congrArg Prod.snd (blind_plain h uc v (some d))
  | setUnit | setConversion | setFvf | cleanMemory | settings => exact absurd hc id

theorem ask_density {c : Call} (hc : Asks c) {w : World} (hg : WF w.net) : (c.run w).par = w.par ∧ WF (c.run w).net := by
  have h := base_asks hc hg
  exact ⟨h.par, by rw [h.net]; exact hg⟩

theorem weighing_session {cs : List Call} (hcs : ∀ c ∈ cs, Asks c) (d : Rat) : ∀ {w : World} {d0 : Rat}, WF w.net →
    w.par.density = some d0 → session cs (w.weighing (some d)) = (session cs w).weighing (some d) := by
  induction cs with
  | nil => intro w d0 _ _; rfl
  | cons c cs ih =>
    intro w d0 hg hd
    obtain ⟨h1, h2⟩ := ask_density (hcs c (by simp)) hg
    show session cs (c.run (w.weighing (some d))) = _
    rw [weighing_ask (hcs c (by simp)) hd d]
    exact ih (fun c hc => hcs c (by simp [hc])) h2 (by rw [h1]; exact hd)

/-- C119, whatever was asked and whatever densities were set, in any order, once a density is set: the library is as if the
density set last had been set in the beginning. So no conversion remembers a density. -/
theorem C119_last {l : List Doing} {L : Lib} {d0 : Rat} (hg : WF L.w.net) (hd : L.w.par.density = some d0)
    (hl : ∀ c ∈ questions l, Asks c) :
    (history l L).w = session (questions l) { L.w with par := { L.w.par with density := some (lastDensity d0 l) } } ∧
      (history l L).dict = L.dict := by
  induction l generalizing L d0 with
  | nil =>
    refine ⟨?_, rfl⟩
    show L.w = { L.w with par := { L.w.par with density := some d0 } }
    rw [← hd]
  | cons x l ih =>
    cases x with
    | ask c =>
      obtain ⟨h1, h2⟩ := ask_density (hl c (by simp [questions])) hg
      obtain ⟨i1, i2⟩ := ih (L := { L with w := c.run L.w }) h2 (by rw [h1]; exact hd) (fun c hc => hl c (by simp [questions, hc]))
      refine ⟨i1.trans ?_, i2⟩
      show session (questions l) ((c.run L.w).weighing _) = session (questions l) (c.run (L.w.weighing _))
      rw [weighing_ask (hl c (by simp [questions])) hd]
      rfl
    | weigh d =>
      have e : (Doing.weigh d).run L = { L with w := { L.w with par := { L.w.par with density := some d } } } :=
        congrArg Prod.snd (C119_stored d (u := s!!"g/cm3") (by decide) L)
      show (history l ((Doing.weigh d).run L)).w = _ ∧ (history l ((Doing.weigh d).run L)).dict = _
      rw [e]
      exact ih (L := { L with w := { L.w with par := { L.w.par with density := some d } } }) hg rfl hl

end Unyts
