import Verif.Lemmas.ConvParts
import Verif.Lemmas.ConvSelf
import Verif.Model.Temperature
import Verif.Spec.DemoWorld
import Mathlib.Tactic.FieldSimp
import Mathlib.Tactic.NormNum
import Mathlib.Tactic.Linarith

/-
C21, C22, C23, C54: density, formation volume factor, temperatures.
-/
namespace Unyts
open Spec

/-! ### C21 -/

/-- C21, from volume to weight: when the density `d` (in g/cm3) converts to `k` in the unit "weight over volume", every
volume converts to `k` times as much weight, for every setting of the density and in every state. -/
theorem C21_volume_to_weight_partial (w w1 : World) (hg : WF w.net) (a b : Str) (ha : CleanName a) (hb : CleanName b)
    (na : a ≠ []) (nb : b ≠ []) (ua : a ∉ w.dic.uncertain) (ub : b ∉ w.dic.uncertain) (hv : a ∈ w.dic.volume)
    (hwt : b ∈ w.dic.weight) (d : Rat) (hden : w.par.density = some d)
    (hn : ¬ DensityPair w.dic s!!"g/cm3" (b ++ '/' :: a)) (uc : Option Bool) (k : Rat)
    (hk : convert (some d) (some s!!"g/cm3") (some (b ++ '/' :: a)) uc w = (.ok (some (.num k)), w1)) (x : Rat) :
    convert (some x) (some a) (some b) uc w = (.ok (some (.num (x * k))), w1) := by
  have hgc : CleanUnit s!!"g/cm3" := Demo.cleanUnit_of (by decide)
  rw [convert_clean hgc (cleanUnit_ratio hb ha nb na '/' (Or.inl rfl)), convertClean_eq hg hn] at hk
  simp only [Prod.mk.injEq] at hk
  obtain ⟨p, hp⟩ := finish_ok hk.1
  have hct : converterTop uc (some d) gcm3 (b ++ '/' :: a) { w with previous := [] } = (.ok (some (.num k, p)), w1) :=
    Prod.ext hp hk.2
  rw [convert_clean ha.1 hb.1]
  unfold convertClean
  rw [PyM.run_bind_ok (PyM.run_modify _ _)]
  have hdc : densityConversion uc (some x) a b { w with previous := [] } =
      (.ok (some (.num (x * k), [.str ['*'], .num k])), w1) := by
    unfold densityConversion
    rw [PyM.run_bind_ok (PyM.run_get _), if_pos ⟨ua, ub, hv, hwt⟩]
    simp only [hden]
    rw [PyM.run_bind_ok hct, answer_eq]
    rfl
  rw [PyM.run_bind_ok hdc]
  rfl

/-- C21, from weight to volume: the property fails for every density, every number, every state and every pair of
units. The code divides by the pair (factor, path) it should have taken apart: no number is ever returned; once the
density itself has been converted the exception is TypeError. -/
theorem C21_weight_to_volume_fails (w : World) (a b : Str) (ha : CleanName a) (hb : CleanName b)
    (ua : a ∉ w.dic.uncertain) (ub : b ∉ w.dic.uncertain) (hv : b ∈ w.dic.volume) (hwt : a ∈ w.dic.weight)
    (hother : ¬ (a ∈ w.dic.volume ∧ b ∈ w.dic.weight)) (uc : Option Bool) (x : Rat) :
    ∃ e, (convert (some x) (some a) (some b) uc w).1 = .error e ∧
      (∀ d r w1, w.par.density = some d →
        converterTop uc (some d) s!!"g/cm3" (a ++ '/' :: b) { w with previous := [] } = (.ok r, w1) →
        e = .typeError) := by
  rw [convert_clean ha.1 hb.1]
  unfold convertClean
  rw [PyM.run_bind_ok (PyM.run_modify _ _)]
  have hdc : ∃ e w1, densityConversion uc (some x) a b { w with previous := [] } = (.error e, w1) ∧
      (∀ d r w1, w.par.density = some d →
        converterTop uc (some d) gcm3 (a ++ '/' :: b) { w with previous := [] } = (.ok r, w1) → e = .typeError) := by
    unfold densityConversion
    rw [PyM.run_bind_ok (PyM.run_get _), if_neg (fun h => hother ⟨h.2.2.1, h.2.2.2⟩), if_pos ⟨ua, ub, hv, hwt⟩]
    cases hd : w.par.density with
    | none =>
      simp only
      exact ⟨_, _, rfl, by intro d r w1 h; cases h⟩
    | some d =>
      simp only
      cases hct : converterTop uc (some d) gcm3 (a ++ '/' :: b) { w with previous := [] } with
      | mk r w1 =>
        cases r with
        | error e =>
          rw [PyM.run_bind_error hct]
          refine ⟨e, w1, rfl, ?_⟩
          intro d' r w2 h h2
          cases h
          rw [hct] at h2
          cases h2
        | ok r =>
          rw [PyM.run_bind_ok hct, answer_eq]
          exact ⟨_, _, rfl, fun _ _ _ _ _ => rfl⟩
  obtain ⟨e, w1, h1, h2⟩ := hdc
  rw [PyM.run_bind_error h1]
  exact ⟨e, rfl, h2⟩

/-- a process with volumes and weights: 1 lb = 500 g, 1 L = 1000 cm3 -/
def denseWorld (d : Rat) : World where
  net := { edges := [(⟨0, s!!"g"⟩, [(⟨1, s!!"lb"⟩, Demo.times (1/500))]), (⟨1, s!!"lb"⟩, [(⟨0, s!!"g"⟩, Demo.times 500)]),
                     (⟨2, s!!"cm3"⟩, [(⟨3, s!!"L"⟩, Demo.times (1/1000))]), (⟨3, s!!"L"⟩, [(⟨2, s!!"cm3"⟩, Demo.times 1000)])]
           nextId := 4 }
  par := { algorithm := .bfs, density := some d }
  dic := { volume := [s!!"cm3", s!!"L"], weight := [s!!"g", s!!"lb"] }

example : numOf (convert (some (4/5)) (some s!!"g/cm3") (some s!!"lb/L") none (denseWorld (4/5))).1 = some (8/5) ∧
    numOf (convert (some 10) (some s!!"L") (some s!!"lb") none (denseWorld (4/5))).1 = some 16 ∧
    (convert (some 16) (some s!!"lb") (some s!!"L") none (denseWorld (4/5))).1.map (fun _ => ()) = .error .typeError := by
  decide +kernel

/-! ### C22 -/

/-- C22 for names: after set_fvf(b), in any state a session left, whatever has been remembered before, a conversion
between two names that answers a number answers what the direct conversions along some path give when evaluated with
the factor b. -/
theorem C22_names_partial (w : World) (hw : Reachable w) (β : Rat) (a c : Str) (ha : CleanName a) (hc : CleanName c)
    (hne : a ≠ c) (oa : Ordinary w.dic a) (hd : ¬ DensityPair w.dic a c) (uc : Option Bool) (x y : Rat) (w1 : World)
    (h : convert (some x) (some a) (some c) uc (setFvf β w).2 = (.ok (some (.num y)), w1)) :
    ∃ na nc p f, w.net.getNode a = .ok na ∧ w.net.getNode c = .ok nc ∧ IsPath (Linked w.net) na nc p ∧
      Along w.net p f ∧ f (some β) x = .ok y := by
  have hs : SoundAmple (setFvf β w).2 := soundAmple_call (c := .setFvf β) trivial (sound_of_reachable hw)
  obtain ⟨f, p, h1, h2⟩ := convert_simple hs ha hc oa hd h
  obtain ⟨_, h3⟩ := ansRes_ok h1
  rcases h3 with ⟨h3, _⟩ | ⟨x', y', hx, hf, hy⟩
  · cases h3
  · cases hx
    cases hy
    rcases h2 with ⟨e, _⟩ | ⟨na, nc, q, hna, hnc, hq, hal, _⟩
    · exact absurd e hne
    · exact ⟨na, nc, q, f, hna, hnc, hq, hal, hf⟩

/-- C22 on a consistent network: the answer is the one of the factor in force, on every scale that the direct
conversions respect when evaluated with that factor. -/
theorem C22_value_partial (w : World) (hw : Reachable w) (β : Rat) (B : UNode → Rat → Rat)
    (hB : Consistent w.net (some β) B) (a c : Str) (ha : CleanName a) (hc : CleanName c) (hne : a ≠ c)
    (oa : Ordinary w.dic a) (hd : ¬ DensityPair w.dic a c) (uc : Option Bool) (x y : Rat) (w1 : World)
    (h : convert (some x) (some a) (some c) uc (setFvf β w).2 = (.ok (some (.num y)), w1)) :
    ∃ na nc, w.net.getNode a = .ok na ∧ w.net.getNode c = .ok nc ∧ B nc y = B na x := by
  obtain ⟨na, nc, p, f, h1, h2, h3, h4, h5⟩ := C22_names_partial w hw β a c ha hc hne oa hd uc x y w1 h
  obtain ⟨e1, e2⟩ := isPath_ends h3
  exact ⟨na, nc, h1, h2, Along.reads hB h4 e1 e2 h5⟩

def rm3 : UNode := ⟨0, s!!"reservoir cubic meter"⟩
def rb : UNode := ⟨1, s!!"reservoir barrel"⟩
def sm3 : UNode := ⟨2, s!!"standard cubic meter"⟩
def sb : UNode := ⟨3, s!!"standard barrel"⟩

/-- `lambda v: v / network.get_fvf()` (database.py:459-460, network.py:173-198); without a factor the library asks the
user -/
def overFvf : Fn := fun fvf v => match fvf with
  | none => .error .needsInput
  | some b => pdiv v b

/-- the four volumes of database.py:452-460 with the reversed conversions the loader adds -/
def reservoirNet : Net where
  edges := [
    (rm3, [(rb, Demo.times (6289814/1000000)), (sm3, overFvf)]),
    (rb, [(rm3, revFn (Demo.times (6289814/1000000)))]),
    (sm3, [(sb, Demo.times (6289814/1000000)), (rm3, revFn overFvf)]),
    (sb, [(sm3, revFn (Demo.times (6289814/1000000)))])]
  nextId := 4

def reservoirWorld : World := { net := reservoirNet, par := { algorithm := .bfs } }

theorem reservoir_cases {a b : UNode} {f : Fn} (h : Direct reservoirNet a b f) :
    (a = rm3 ∧ b = rb ∧ f = Demo.times (6289814/1000000)) ∨ (a = rm3 ∧ b = sm3 ∧ f = overFvf) ∨
    (a = rb ∧ b = rm3 ∧ f = revFn (Demo.times (6289814/1000000))) ∨
    (a = sm3 ∧ b = sb ∧ f = Demo.times (6289814/1000000)) ∨ (a = sm3 ∧ b = rm3 ∧ f = revFn overFvf) ∨
    (a = sb ∧ b = sm3 ∧ f = revFn (Demo.times (6289814/1000000))) := by
  obtain ⟨l, hl, hf⟩ := h
  simp only [reservoirNet, List.mem_cons, List.not_mem_nil, or_false, Prod.mk.injEq] at hl
  rcases hl with ⟨rfl, rfl⟩ | ⟨rfl, rfl⟩ | ⟨rfl, rfl⟩ | ⟨rfl, rfl⟩ <;>
    simp only [List.mem_cons, List.not_mem_nil, or_false, Prod.mk.injEq] at hf
  · rcases hf with hf | hf <;> simp [hf]
  · simp [hf]
  · rcases hf with hf | hf <;> simp [hf]
  · simp [hf]

theorem reservoir_wf : WF reservoirNet where
  keys := by decide
  old := by decide
  closed := by
    intro a b f h
    rcases reservoir_cases h with h | h | h | h | h | h <;> obtain ⟨rfl, rfl, _⟩ := h <;> decide
  single := by
    intro a l hl
    simp only [reservoirNet, List.mem_cons, List.not_mem_nil, or_false, Prod.mk.injEq] at hl
    rcases hl with ⟨rfl, rfl⟩ | ⟨rfl, rfl⟩ | ⟨rfl, rfl⟩ | ⟨rfl, rfl⟩ <;>
      simp only [List.map_cons, List.map_nil] <;> decide

/-- each volume in reservoir cubic meters -/
def reservoirSize (β : Rat) (n : UNode) : Rat :=
  if n = rm3 then 1 else if n = rb then 1000000/6289814 else if n = sm3 then β else if n = sb then β * (1000000/6289814)
  else 1

theorem reservoir_consistent {β : Rat} (hβ : β ≠ 0) :
    Consistent reservoirNet (some β) (fun n x => x * reservoirSize β n) where
  inj := by
    intro n x y h
    refine mul_right_cancel₀ (b := reservoirSize β n) ?_ h
    unfold reservoirSize
    repeat' split
    · decide
    · norm_num
    · exact hβ
    · exact mul_ne_zero hβ (by norm_num)
    · decide
  edge := by
    intro a b f x y h hf
    have s1 : reservoirSize β rm3 = 1 := rfl
    have s2 : reservoirSize β rb = 1000000/6289814 := rfl
    have s3 : reservoirSize β sm3 = β := rfl
    have s4 : reservoirSize β sb = β * (1000000/6289814) := rfl
    have e1 : pdiv 1 β = .ok (1 / β) := by simp [pdiv, hβ]
    have r1 : revFn overFvf (some β) x = .ok (x * β) := by
      unfold revFn overFvf
      simp only [e1]
      show pdiv x (1 / β) = _
      rw [pdiv, if_neg (by simp [hβ])]
      congr 1
      field_simp
    have r2 : revFn (Demo.times (6289814/1000000)) (some β) x = .ok (x * (1000000/6289814)) := by
      unfold revFn Demo.times
      show pdiv x (1 * (6289814/1000000)) = _
      rw [pdiv, if_neg (by norm_num)]
      congr 1
      ring
    have r3 : overFvf (some β) x = .ok (x / β) := by simp [overFvf, pdiv, hβ]
    rcases reservoir_cases h with h | h | h | h | h | h <;> obtain ⟨rfl, rfl, rfl⟩ := h <;>
      simp only [r1, r2, r3, Demo.times, Except.ok.injEq] at hf <;> subst hf <;> simp only [s1, s2, s3, s4] <;>
      field_simp

/-- C22, for the volumes of the library: in every state a session can leave with these units, after set_fvf(b) with
b not zero, a reservoir volume converts to the standard volume b times smaller, and back to the volume b times larger,
whatever factors were in force before. -/
theorem C22_reservoir_partial (w : World) (hw : Reachable w) (hnet : w.net = reservoirNet) (hdic : w.dic = {})
    (β : Rat) (hβ : β ≠ 0) (uc : Option Bool) (x y : Rat) (w1 : World) :
    (convert (some x) (some s!!"reservoir cubic meter") (some s!!"standard cubic meter") uc (setFvf β w).2 =
      (.ok (some (.num y)), w1) → y = x / β) ∧
    (convert (some x) (some s!!"standard barrel") (some s!!"reservoir barrel") uc (setFvf β w).2 =
      (.ok (some (.num y)), w1) → y = x * β) := by
  have hB : Consistent w.net (some β) (fun n x => x * reservoirSize β n) := hnet ▸ reservoir_consistent hβ
  constructor
  · intro h
    obtain ⟨na, nc, h1, h2, h3⟩ := C22_value_partial w hw β _ hB _ _ (Demo.cleanName_of (by decide))
      (Demo.cleanName_of (by decide)) (by decide) (hdic ▸ Demo.ordinary _) (hdic ▸ Demo.noDensity _ _) uc x y w1 h
    rw [hnet] at h1 h2
    have e1 : na = rm3 := by
      have : reservoirNet.getNode s!!"reservoir cubic meter" = .ok rm3 := by decide
      rw [this] at h1; cases h1; rfl
    have e2 : nc = sm3 := by
      have : reservoirNet.getNode s!!"standard cubic meter" = .ok sm3 := by decide
      rw [this] at h2; cases h2; rfl
    subst e1 e2
    have s1 : reservoirSize β rm3 = 1 := rfl
    have s3 : reservoirSize β sm3 = β := rfl
    simp only [s1, s3] at h3
    rw [eq_div_iff hβ, h3, mul_one]
  · intro h
    obtain ⟨na, nc, h1, h2, h3⟩ := C22_value_partial w hw β _ hB _ _ (Demo.cleanName_of (by decide))
      (Demo.cleanName_of (by decide)) (by decide) (hdic ▸ Demo.ordinary _) (hdic ▸ Demo.noDensity _ _) uc x y w1 h
    rw [hnet] at h1 h2
    have e1 : na = sb := by
      have : reservoirNet.getNode s!!"standard barrel" = .ok sb := by decide
      rw [this] at h1; cases h1; rfl
    have e2 : nc = rb := by
      have : reservoirNet.getNode s!!"reservoir barrel" = .ok rb := by decide
      rw [this] at h2; cases h2; rfl
    subst e1 e2
    have s1 : reservoirSize β rb = 1000000/6289814 := rfl
    have s3 : reservoirSize β sb = β * (1000000/6289814) := rfl
    simp only [s1, s3] at h3
    have : y * (1000000/6289814) = (x * β) * (1000000/6289814) := by rw [h3]; ring
    exact mul_right_cancel₀ (by norm_num) this

/-- Not for ratios: their factor is remembered as a number, and the factor in force when it was first asked stays. -/
theorem C22_not_for_ratios :
    (let w1 := (setFvf 2 reservoirWorld).2
     let u := s!!"reservoir cubic meter/standard barrel"
     let v := s!!"standard cubic meter/standard barrel"
     let r1 := convert (some 10) (some u) (some v) none w1
     let w2 := (setFvf 5 r1.2).2
     numOf r1.1 = some 5 ∧ numOf (convert (some 10) (some u) (some v) none w2).1 = some 5 ∧
       numOf (convert (some 10) (some u) (some v) (some false) w2).1 = some 2 ∧
       numOf (convert (some 10) (some s!!"reservoir cubic meter") (some s!!"standard cubic meter") none w2).1 =
         some 2) := by
  decide +kernel

example : Reachable reservoirWorld :=
  ⟨reservoirWorld, [], ⟨reservoir_wf, rfl, rfl, by unfold Ample; decide⟩, by simp, rfl⟩

example :
    (let w1 := (convert (some 10) (some s!!"reservoir cubic meter") (some s!!"standard cubic meter") none
        (setFvf 2 reservoirWorld).2)
     numOf w1.1 = some 5 ∧
       numOf (convert (some 10) (some s!!"reservoir cubic meter") (some s!!"standard cubic meter") none
        (setFvf 4 w1.2).2).1 = some (5/2)) := by
  decide +kernel

end Unyts
