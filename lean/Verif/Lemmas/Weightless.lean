import Verif.Lemmas.Given

/- The converter does not look at the density: only `_density_conversion` does. -/
namespace Unyts
open Spec

/-- the state with another density -/
def World.weighing (w : World) (d : Option Rat) : World := { w with par := { w.par with density := d } }

/-- what `m` does is the same whatever the density -/
def Blind {α : Type} (d : Option Rat) (m : PyM World α) : Prop := ∀ w, m (w.weighing d) = ((m w).1, (m w).2.weighing d)

variable {d : Option Rat} {α β : Type}

theorem blind_pure (a : α) : Blind d (pure a : PyM World α) := fun _ => rfl
theorem blind_raise (e : PyErr) : Blind d (PyM.raise e : PyM World α) := fun _ => rfl
theorem blind_lift (r : Res α) : Blind d (PyM.lift r : PyM World α) := fun _ => rfl
theorem blind_modify {f : World → World} (h : ∀ w, f (w.weighing d) = (f w).weighing d) : Blind d (PyM.modify f) :=
  fun w => Prod.ext rfl (h w)

theorem blind_bind {m : PyM World α} {k : α → PyM World β} (hm : Blind d m) (hk : ∀ a, Blind d (k a)) : Blind d (m >>= k) := by
  intro w
  have h := hm w
  cases hr : m w with
  | mk r w1 =>
  rw [hr] at h
  cases r with
  | error e => rw [PyM.run_bind_error h, PyM.run_bind_error hr]
  | ok a => rw [PyM.run_bind_ok h, PyM.run_bind_ok hr]; exact hk a w1

theorem blind_get {k : World → PyM World β} (hk : ∀ w, Blind d (k w)) (he : ∀ w, k (w.weighing d) = k w) :
    Blind d (PyM.get >>= k) := by
  intro w
  rw [PyM.run_bind_ok (PyM.run_get _), PyM.run_bind_ok (PyM.run_get _), he]
  exact hk w w

theorem blind_answer (v : Option Rat) (f : Fn) (p : Path) : Blind d (answer v f p) := by
  intro w; cases v <;> rfl

theorem blind_store (v : Option Rat) (a b : Str) (f : Fn) (p : Path) : Blind d (storeAnswer v a b f p) :=
  blind_bind (blind_modify fun _ => rfl) fun _ => blind_answer v f p

theorem weighing_net (w : World) : (w.weighing d).net = w.net := rfl
theorem weighing_dic (w : World) : (w.weighing d).dic = w.dic := rfl
theorem weighing_memory (w : World) : (w.weighing d).memory = w.memory := rfl
theorem weighing_cache (w : World) (uc : Option Bool) : resolveCache (w.weighing d) uc = resolveCache w uc := rfl

theorem weighing_algorithm (w : World) : (w.weighing d).par.algorithm = w.par.algorithm := rfl
theorem weighing_generations (w : World) : (w.weighing d).par.maxGenerations = w.par.maxGenerations := rfl

theorem blind_search (a b : Str) : Blind d (searchNetwork a b) := by
  intro w
  unfold searchNetwork
  simp only [weighing_net]
  by_cases hc : (w.net.hasName a && w.net.hasName b) = true
  case neg =>
    rw [Bool.not_eq_true] at hc
    simp only [hc, Bool.false_eq_true, if_false]
  case pos =>
    simp only [hc, if_true]
    cases w.net.getNode a with
    | error e => rfl
    | ok na =>
      cases w.net.getNode b with
      | error e => rfl
      | ok nb =>
        simp only [weighing_algorithm, weighing_generations]
        cases w.par.algorithm with
        | bfs => rfl
        | lean => by_cases h : 0 ≤ w.par.maxGenerations <;> simp only [h, if_true, if_false] <;> rfl
        | dfs => by_cases h : 0 < w.par.maxGenerations ∧ dfsSnaps w.net na = true <;> simp only [h, if_true, if_false] <;> rfl
        | hybrid => by_cases h : 0 ≤ w.par.maxGenerations <;> simp only [h, if_true, if_false] <;> rfl
        | other => rfl

theorem blind_network (v : Option Rat) (a b : Str) : Blind d (networkConversion v a b) := by
  unfold networkConversion
  refine blind_bind (blind_search a b) fun r => ?_
  cases r with
  | none => exact blind_pure _
  | some p =>
    refine blind_get (fun w => ?_) (fun w => rfl)
    refine blind_bind (blind_lift _) fun f => blind_bind (blind_modify fun _ => rfl) fun _ => ?_
    cases v with
    | none => exact blind_pure _
    | some x => exact blind_bind (blind_lift _) fun _ => blind_pure _

theorem blind_temp {inner : Option Rat → Str → Str → CallM} (hi : ∀ v a b, Blind d (inner v a b)) (v : Option Rat) (t1 d1 t2 d2 : Str) :
    Blind d (tempConversion inner v t1 d1 t2 d2) := by
  unfold tempConversion
  refine blind_get (fun w => ?_) (fun w => rfl)
  cases Py.dictGet w.dic.tempRatio (t1, t2) with
  | none => exact blind_raise _
  | some k =>
    refine blind_bind (hi _ _ _) fun r => ?_
    cases r with
    | none => 
      dsimp only
      split
      · exact blind_raise _
      · exact blind_pure _
    | some e => exact blind_bind (blind_lift _) fun _ => blind_answer _ _ _

theorem blind_getConv (n : Nat) : ∀ (uc : Option Bool) (v : Option Rat) (a b : Str), Blind d (getConv n uc v a b) := by
  induction n with
  | zero => exact fun _ _ _ _ => blind_pure _
  | succ n ih =>
    intro uc v a b w
    simp only [getConv]
    unfold getConvBody
    simp only [weighing_net, weighing_dic, weighing_memory, weighing_cache]
    by_cases h : resolveCache w uc = true
    · simp only [h, if_true]
      cases Py.dictGet w.memory (a, b) with
      | some e =>
        cases e with
        | none => rfl
        | some e => exact blind_answer v e.1 e.2 w
      | none =>
        cases quick1 w.dic w.net a b with
        | some e => exact blind_answer v e.1 e.2 w
        | none =>
          cases tempParts w.dic a b with
          | some t => exact blind_temp (ih _) v _ _ _ _ w
          | none =>
            cases quick2 w.dic a b with
            | some e => exact blind_answer v e.1 e.2 w
            | none => exact blind_network v a b w
    · simp only [h, if_false, Bool.false_eq_true]
      cases quick1 w.dic w.net a b with
      | some e => exact blind_answer v e.1 e.2 w
      | none =>
        cases tempParts w.dic a b with
        | some t => exact blind_temp (ih _) v _ _ _ _ w
        | none =>
          cases quick2 w.dic a b with
          | some e => exact blind_answer v e.1 e.2 w
          | none => exact blind_network v a b w

theorem blind_matchPart {gc : Option Rat → Str → Str → CallM} (hg : ∀ v a b, Blind d (gc v a b)) (nf : Bool) (f : Bool × Str) :
    ∀ ts, Blind d (matchPart gc nf f ts)
  | [] => blind_pure _
  | t :: ts => by
    unfold matchPart
    refine blind_bind (hg _ _ _) fun r => ?_
    cases r with
    | none =>
      refine blind_bind (blind_matchPart hg nf f ts) fun r => ?_
      cases r <;> exact blind_pure _
    | some e =>
      refine blind_bind (blind_lift _) fun k => ?_
      dsimp only
      split
      · exact blind_bind (blind_lift _) fun _ => blind_pure _
      · exact blind_pure _

theorem blind_matchParts {gc : Option Rat → Str → Str → CallM} (hg : ∀ v a b, Blind d (gc v a b)) :
    ∀ nf fs ts, Blind d (matchParts gc nf fs ts)
  | _, [], _ => by unfold matchParts; exact blind_pure _
  | nf, f :: fs, ts => by
    unfold matchParts
    refine blind_bind (blind_matchPart hg nf f ts) fun r => ?_
    cases r with
    | none => exact blind_pure _
    | some e =>
      refine blind_bind (blind_matchParts hg true fs _) fun r => ?_
      cases r <;> exact blind_pure _

theorem blind_split {gc : Option Rat → Str → Str → CallM} (hg : ∀ v a b, Blind d (gc v a b)) (a b : Str) : Blind d (splitStage gc a b) := by
  unfold splitStage
  refine blind_bind (blind_matchParts hg _ _ _) fun r => ?_
  split <;> exact blind_pure _

theorem blind_pairs {cv : Option Rat → Str → Str → CallM} (hg : ∀ v a b, Blind d (cv v a b)) (a b : Str) : Blind d (pairStage cv a b) := by
  unfold pairStage
  refine blind_get (fun w => ?_) (fun w => rfl)
  split
  · refine blind_bind (blind_lift _) fun r => ?_
    cases r with
    | none => exact blind_pure _
    | some c =>
      refine blind_bind (hg _ _ _) fun x => blind_bind (hg _ _ _) fun y => ?_
      rcases x with _ | ⟨f, p⟩ <;> rcases y with _ | ⟨g, q⟩ <;> exact blind_pure _
  · split
    · refine blind_bind (blind_lift _) fun r => ?_
      cases r with
      | none => exact blind_pure _
      | some c =>
        refine blind_bind (hg _ _ _) fun x => blind_bind (hg _ _ _) fun y => ?_
        rcases x with _ | ⟨f, p⟩ <;> rcases y with _ | ⟨g, q⟩ <;> exact blind_pure _
    · exact blind_pure _

theorem blind_desc (u : Str) (g : Int) : Blind d (descM u g) := by
  intro w
  unfold descM
  simp only [weighing_net]
  by_cases h : 0 < g ∧ snapsF w.net.hasName (u.length + 1) u = true <;> simp only [h, if_true, if_false] <;> rfl

theorem blind_genLoop (a b : Str) : ∀ n g, Blind d (genLoop a b n g)
  | 0, _ => by unfold genLoop; exact blind_pure _
  | n + 1, g => by
    unfold genLoop
    refine blind_bind (blind_desc _ _) fun x => blind_bind (blind_desc _ _) fun y => ?_
    split
    · exact blind_pure _
    · exact blind_genLoop a b n (g + 1)

theorem blind_total (a b : Str) : ∀ us, Blind d (totalGenerations a b us)
  | [] => blind_pure _
  | u :: us => by
    unfold totalGenerations
    exact blind_bind (blind_genLoop _ _ _ _) fun x => blind_bind (blind_genLoop _ _ _ _) fun y =>
      blind_bind (blind_total a b us) fun r => blind_pure _

theorem blind_ratioLoop {cv : Option Rat → Str → Str → CallM} (hg : ∀ v a b, Blind d (cv v a b)) (a b : Str) (m : Option Nat) :
    ∀ l p s best last, Blind d (ratioLoop cv a b m l p s best last)
  | [], _, _, _, _ => by unfold ratioLoop; exact blind_pure _
  | (g, c) :: r, p, s, best, last => by
    unfold ratioLoop
    split
    · exact blind_pure _
    · refine blind_bind (hg _ _ _) fun x => blind_bind (hg _ _ _) fun y => ?_
      rcases x with _ | ⟨f, p'⟩ <;> rcases y with _ | ⟨g', q'⟩
      · exact blind_ratioLoop hg a b m r _ _ _ _
      · exact blind_ratioLoop hg a b m r _ _ _ _
      · exact blind_ratioLoop hg a b m r _ _ _ _
      · dsimp only
        split
        · exact blind_pure _
        · exact blind_ratioLoop hg a b m r _ _ _ _

theorem blind_ratio {cv : Option Rat → Str → Str → CallM} (hg : ∀ v a b, Blind d (cv v a b)) (a b : Str) : Blind d (ratioStage cv a b) := by
  unfold ratioStage
  split
  · unfold ratioConversion
    refine blind_get (fun w => ?_) (fun w => rfl)
    refine blind_bind (blind_desc _ _) fun f1 => blind_bind (blind_desc _ _) fun f2 => blind_bind (blind_total _ _ _) fun gens => ?_
    split
    · exact blind_raise _
    · refine blind_bind (blind_ratioLoop hg _ _ _ _ _ _ _ _) fun r => ?_
      obtain ⟨best, fr, tt⟩ := r
      cases best <;> exact blind_pure _
  · exact blind_pure _

theorem blind_indirect {gc cv cvDef : Option Rat → Str → Str → CallM} (h1 : ∀ v a b, Blind d (gc v a b)) (h2 : ∀ v a b, Blind d (cv v a b))
    (h3 : ∀ v a b, Blind d (cvDef v a b)) (v : Option Rat) (a b : Str) : Blind d (indirect gc cv cvDef v a b) := by
  unfold indirect
  refine blind_bind (blind_split h1 a b) fun r => ?_
  cases r with
  | some e => exact blind_store _ _ _ _ _
  | none =>
    refine blind_bind (blind_pairs h2 a b) fun r => ?_
    cases r with
    | some e => exact blind_store _ _ _ _ _
    | none =>
      refine blind_bind (blind_ratio h3 a b) fun r => ?_
      cases r with
      | some e => exact blind_store _ _ _ _ _
      | none => exact blind_bind (blind_modify fun _ => rfl) fun _ => blind_pure _

theorem blind_converter (n : Nat) : ∀ (uc : Option Bool) (v : Option Rat) (a b : Str), Blind d (converter n uc v a b) := by
  induction n with
  | zero => exact fun _ _ _ _ => blind_pure _
  | succ n ih =>
    intro uc v a b w
    simp only [converter]
    by_cases h : (a, b) ∈ w.previous
    · simp only [show (w.weighing d).previous = w.previous from rfl, if_pos h]
    · simp only [show (w.weighing d).previous = w.previous from rfl, if_neg h]
      refine (?_ : Blind d (converterBody (getConv n) (converter n) uc v a b)) w
      unfold converterBody
      refine blind_bind (blind_getConv n _ _ _ _) fun r => ?_
      cases r with
      | some r => exact blind_pure _
      | none =>
        exact blind_bind (blind_modify fun _ => rfl) fun _ => blind_indirect (blind_getConv n uc) (ih uc) (ih none) v a b

theorem blind_top (uc : Option Bool) (v : Option Rat) (a b : Str) : Blind d (converterTop uc v a b) := fun w =>
  blind_converter (topBudget w.par) uc v a b w

theorem blind_convertible (a b : Str) (uc : Option Bool) : Blind d (convertible a b uc) := by
  intro w
  unfold convertible
  rw [blind_top]
  cases converterTop uc (some 1) a b w with
  | mk r w1 =>
  cases r with
  | ok r => rfl
  | error e => cases e <;> rfl

theorem blind_simPandas (v : Rat) (a b : Str) (uc : Option Bool) : Blind d (convertForSimPandas v a b uc) := by
  unfold convertForSimPandas
  refine blind_bind (blind_convertible a b none) fun r => ?_
  cases r with
  | false => exact blind_pure _
  | true =>
    simp only [if_true]
    refine blind_bind (blind_top _ _ _ _) fun r => ?_
    cases r with
    | none => exact blind_pure _
    | some e => exact blind_lift _

end Unyts
