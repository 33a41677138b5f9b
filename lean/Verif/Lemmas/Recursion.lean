import Verif.Model.Recursion
import Verif.Lemmas.Conv

/- The budget of nested calls and `_get_recursion_limit`. -/
namespace Unyts

/-- From the states where `I` holds the two programs do the same, and `I` holds again afterwards. -/
def EqOn (I : World → Prop) (m1 m2 : PyM World α) : Prop := ∀ w, I w → m1 w = m2 w ∧ I (m2 w).2

namespace EqOn
variable {I : World → Prop}

theorem pure (a : α) : EqOn I (Pure.pure a) (Pure.pure a) := fun _ h => ⟨rfl, h⟩
theorem lift (r : Res α) : EqOn I (PyM.lift r) (PyM.lift r) := fun _ h => ⟨rfl, h⟩
theorem raise (e : PyErr) : EqOn I (PyM.raise e : PyM World α) (PyM.raise e) := fun _ h => ⟨rfl, h⟩
theorem get : EqOn I (PyM.get : PyM World World) PyM.get := fun _ h => ⟨rfl, h⟩
theorem modify {f : World → World} (hf : ∀ w, I w → I (f w)) : EqOn I (PyM.modify f) (PyM.modify f) :=
  fun w h => ⟨rfl, hf w h⟩

theorem bind {m1 m2 : PyM World α} {f1 f2 : α → PyM World β} (hm : EqOn I m1 m2) (hf : ∀ a, EqOn I (f1 a) (f2 a)) :
    EqOn I (m1 >>= f1) (m2 >>= f2) := by
  intro w h
  obtain ⟨e, h2⟩ := hm w h
  rw [PyM.run_bind, PyM.run_bind, e]
  cases hr : m2 w with
  | mk r w1 =>
    rw [hr] at h2
    cases r with
    | ok a => exact hf a w1 h2
    | error x => exact ⟨rfl, h2⟩

end EqOn

/-- the settings are `P` -/
def ParIs (P : Params) (w : World) : Prop := w.par = P

section
variable {P : Params}

theorem eqOn_quiet {m : PyM World α} (h : ∀ w, (m w).2.par = w.par) : EqOn (ParIs P) m m :=
  fun w hw => ⟨rfl, (h w).trans hw⟩

theorem eqOn_answer (v : Option Rat) (f : Fn) (p : Path) : EqOn (ParIs P) (answer v f p) (answer v f p) :=
  eqOn_quiet fun w => by rw [answer_state]

theorem eqOn_search (a b : Str) : EqOn (ParIs P) (searchNetwork a b) (searchNetwork a b) :=
  eqOn_quiet fun w => (searchNetwork_quiet a b w).par

theorem eqOn_network (v : Option Rat) (a b : Str) : EqOn (ParIs P) (networkConversion v a b) (networkConversion v a b) := by
  unfold networkConversion
  refine .bind (eqOn_search a b) fun r => ?_
  cases r with
  | none => exact .pure _
  | some p =>
    refine .bind .get fun w => .bind (.lift _) fun f => .bind (.modify fun _ h => h) fun _ => ?_
    cases v with
    | none => exact .pure _
    | some x => exact .bind (.lift _) fun _ => .pure _

theorem eqOn_temp {i1 i2 : Option Rat → Str → Str → CallM} (h : ∀ v a b, EqOn (ParIs P) (i1 v a b) (i2 v a b))
    (v : Option Rat) (t1 d1 t2 d2 : Str) :
    EqOn (ParIs P) (tempConversion i1 v t1 d1 t2 d2) (tempConversion i2 v t1 d1 t2 d2) := by
  unfold tempConversion
  refine .bind .get fun w => ?_
  cases Py.dictGet w.dic.tempRatio (t1, t2) with
  | none => exact .raise _
  | some k =>
    refine .bind (h _ _ _) fun r => ?_
    match r with
    | none => dsimp only; split <;> first | exact .raise _ | exact .pure _
    | some (c, p) => exact .bind (.lift _) fun _ => eqOn_answer _ _ _

theorem eqOn_getConvBody {i1 i2 : Option Bool → Option Rat → Str → Str → CallM}
    (h : ∀ uc v a b, EqOn (ParIs P) (i1 uc v a b) (i2 uc v a b)) (uc : Option Bool) (v : Option Rat) (a b : Str) :
    EqOn (ParIs P) (getConvBody i1 uc v a b) (getConvBody i2 uc v a b) := by
  intro w hw
  unfold getConvBody
  split
  · exact ⟨rfl, hw⟩
  · exact eqOn_answer _ _ _ w hw
  · split
    · exact eqOn_answer _ _ _ w hw
    · split
      · exact eqOn_temp (h _) v _ _ _ _ w hw
      · split
        · exact eqOn_answer _ _ _ w hw
        · exact eqOn_network v a b w hw

theorem eqOn_matchPart {g1 g2 : Option Rat → Str → Str → CallM} (h : ∀ v a b, EqOn (ParIs P) (g1 v a b) (g2 v a b))
    (nf : Bool) (f : Bool × Str) (ts : List (Bool × Str)) :
    EqOn (ParIs P) (matchPart g1 nf f ts) (matchPart g2 nf f ts) := by
  induction ts with
  | nil => exact .pure _
  | cons t ts ih =>
    rw [matchPart, matchPart]
    refine .bind (h _ _ _) fun r => ?_
    match r with
    | some (c, p) =>
      refine .bind (.lift _) fun k => ?_
      dsimp only
      split
      · exact .bind (.lift _) fun _ => .pure _
      · exact .pure _
    | none =>
      refine .bind ih fun r => ?_
      match r with
      | none => exact .pure _
      | some (k, p, rest) => exact .pure _

theorem eqOn_matchParts {g1 g2 : Option Rat → Str → Str → CallM} (h : ∀ v a b, EqOn (ParIs P) (g1 v a b) (g2 v a b))
    (nf : Bool) (fs ts : List (Bool × Str)) : EqOn (ParIs P) (matchParts g1 nf fs ts) (matchParts g2 nf fs ts) := by
  induction fs generalizing nf ts with
  | nil => exact .pure _
  | cons f fs ih =>
    rw [matchParts, matchParts]
    refine .bind (eqOn_matchPart h _ _ _) fun r => ?_
    match r with
    | none => exact .pure _
    | some (k, p, rest) =>
      refine .bind (ih _ _) fun r => ?_
      cases r with
      | none => exact .pure _
      | some l => exact .pure _

theorem eqOn_split {g1 g2 : Option Rat → Str → Str → CallM} (h : ∀ v a b, EqOn (ParIs P) (g1 v a b) (g2 v a b))
    (a b : Str) : EqOn (ParIs P) (splitStage g1 a b) (splitStage g2 a b) := by
  unfold splitStage
  refine .bind (eqOn_matchParts h _ _ _) fun r => ?_
  split <;> exact .pure _

theorem eqOn_pair {g1 g2 : Option Rat → Str → Str → CallM} (h : ∀ v a b, EqOn (ParIs P) (g1 v a b) (g2 v a b))
    (a b : Str) : EqOn (ParIs P) (pairStage g1 a b) (pairStage g2 a b) := by
  unfold pairStage
  refine .bind .get fun w => ?_
  split
  · refine .bind (.lift _) fun r => ?_
    cases r with
    | none => exact .pure _
    | some c =>
      refine .bind (h _ _ _) fun r1 => .bind (h _ _ _) fun r2 => ?_
      split <;> exact .pure _
  · split
    · refine .bind (.lift _) fun r => ?_
      cases r with
      | none => exact .pure _
      | some c =>
        refine .bind (h _ _ _) fun r1 => .bind (h _ _ _) fun r2 => ?_
        split <;> exact .pure _
    · exact .pure _

theorem eqOn_desc (u : Str) (gens : Int) : EqOn (ParIs P) (descM u gens) (descM u gens) :=
  eqOn_quiet fun w => by unfold descM; dsimp only; split <;> rfl

theorem eqOn_genLoop (a b : Str) (n g : Nat) : EqOn (ParIs P) (genLoop a b n g) (genLoop a b n g) := by
  induction n generalizing g with
  | zero => exact .pure _
  | succ n ih =>
    rw [genLoop]
    refine .bind (eqOn_desc _ _) fun da => .bind (eqOn_desc _ _) fun db => ?_
    split
    · exact .pure _
    · exact ih _

theorem eqOn_total (a b : Str) (l : List Str) : EqOn (ParIs P) (totalGenerations a b l) (totalGenerations a b l) := by
  induction l with
  | nil => exact .pure _
  | cons u us ih =>
    rw [totalGenerations]
    exact .bind (eqOn_genLoop _ _ _ _) fun _ => .bind (eqOn_genLoop _ _ _ _) fun _ => .bind ih fun _ => .pure _

theorem eqOn_ratioLoop {g1 g2 : Option Rat → Str → Str → CallM} (h : ∀ v a b, EqOn (ParIs P) (g1 v a b) (g2 v a b))
    (a b : Str) (m : Option Nat) (l : List (Option Nat × Str)) (path sh : Nat) (best : Option Path)
    (last : Option Conv × Option Conv) :
    EqOn (ParIs P) (ratioLoop g1 a b m l path sh best last) (ratioLoop g2 a b m l path sh best last) := by
  induction l generalizing path sh best last with
  | nil => exact .pure _
  | cons e l ih =>
    obtain ⟨g, child⟩ := e
    rw [ratioLoop, ratioLoop]
    split
    · exact .pure _
    · refine .bind (h _ _ _) fun r1 => .bind (h _ _ _) fun r2 => ?_
      dsimp only
      split
      · split
        · exact .pure _
        · exact ih _ _ _ _
      · exact ih _ _ _ _

theorem eqOn_ratio {g1 g2 : Option Rat → Str → Str → CallM} (h : ∀ v a b, EqOn (ParIs P) (g1 v a b) (g2 v a b))
    (a b : Str) : EqOn (ParIs P) (ratioStage g1 a b) (ratioStage g2 a b) := by
  unfold ratioStage
  split
  · unfold ratioConversion
    refine .bind .get fun w => .bind (eqOn_desc _ _) fun f1 => .bind (eqOn_desc _ _) fun f2 =>
      .bind (eqOn_total _ _ _) fun gens => ?_
    split
    · exact .raise _
    · refine .bind (eqOn_ratioLoop h _ _ _ _ _ _ _ _) fun r => ?_
      obtain ⟨best, fr, to⟩ := r
      dsimp only
      split <;> exact .pure _
  · exact .pure _

theorem eqOn_store (v : Option Rat) (a b : Str) (f : Fn) (p : Path) :
    EqOn (ParIs P) (storeAnswer v a b f p) (storeAnswer v a b f p) :=
  .bind (.modify fun _ h => h) fun _ => eqOn_answer _ _ _

theorem eqOn_converterBody {g1 g2 c1 c2 : Option Bool → Option Rat → Str → Str → CallM}
    (hg : ∀ uc v a b, EqOn (ParIs P) (g1 uc v a b) (g2 uc v a b))
    (hc : ∀ uc v a b, EqOn (ParIs P) (c1 uc v a b) (c2 uc v a b)) (uc : Option Bool) (v : Option Rat) (a b : Str) :
    EqOn (ParIs P) (converterBody g1 c1 uc v a b) (converterBody g2 c2 uc v a b) := by
  unfold converterBody
  refine .bind (hg _ _ _ _) fun r => ?_
  cases r with
  | some r => exact .pure _
  | none =>
    refine .bind (.modify fun _ h => h) fun _ => ?_
    unfold indirect
    refine .bind (eqOn_split (hg _) a b) fun r => ?_
    match r with
    | some (f, p) => exact eqOn_store _ _ _ _ _
    | none =>
      refine .bind (eqOn_pair (hc _) a b) fun r => ?_
      match r with
      | some (f, p) => exact eqOn_store _ _ _ _ _
      | none =>
        refine .bind (eqOn_ratio (hc _) a b) fun r => ?_
        match r with
        | some (f, p) => exact eqOn_store _ _ _ _ _
        | none => exact .bind (.modify fun _ h => h) fun _ => .pure _

/-- The limit passed down loses one unit per level. -/
theorem recLimit_down {k : Int} (h0 : 0 ≤ k) (h : k ≤ P.pyLimit - 15) : recLimit P (some k) = k - 1 := by
  simp only [recLimit]
  split
  · omega
  · split
    · omega
    · rfl

theorem down {m n : Nat} {c : Prop} (h : m + 1 < n + 1 ∨ m + 1 ≤ n + 1 ∧ c) : m < n ∨ m ≤ n ∧ c := by
  rcases h with h | ⟨h, hc⟩
  · left; omega
  · right; exact ⟨by omega, hc⟩

theorem eqOn_getConv (beyond : CallM) (m n : Nat) (hmn : m < n ∨ m ≤ n ∧ beyond = Pure.pure none) (r : Option Int) (hm : m = (recLimit P r + 1).toNat)
    (hl : recLimit P r ≤ P.pyLimit - 15) (uc : Option Bool) (v : Option Rat) (a b : Str) :
    EqOn (ParIs P) (getConvDeep beyond n r uc v a b) (getConv m uc v a b) := by
  induction n generalizing m r uc v a b with
  | zero =>
    obtain ⟨h1, rfl⟩ : m ≤ 0 ∧ beyond = Pure.pure none := by
      rcases hmn with h | h
      · omega
      · exact h
    obtain rfl : m = 0 := by omega
    exact .pure _
  | succ n ih =>
    intro w hw
    have hp : w.par = P := hw
    rw [getConvDeep]
    dsimp only
    rw [hp]
    by_cases hk : recLimit P r < 0
    · rw [if_pos hk]
      have : m = 0 := by omega
      subst this
      exact ⟨rfl, hw⟩
    · rw [if_neg hk]
      obtain ⟨m, rfl⟩ : ∃ m', m = m' + 1 := ⟨m - 1, by omega⟩
      rw [getConv]
      have hd := recLimit_down (P := P) (k := recLimit P r) (by omega) hl
      exact eqOn_getConvBody (fun uc v a b => ih m (down hmn) (some (recLimit P r)) (by rw [hd]; omega)
        (by rw [hd]; omega) uc v a b) uc v a b w hw

theorem eqOn_converter (beyond : CallM) (m n : Nat) (hmn : m < n ∨ m ≤ n ∧ beyond = Pure.pure none) (r : Option Int) (hm : m = (recLimit P r + 1).toNat)
    (hl : recLimit P r ≤ P.pyLimit - 15) (uc : Option Bool) (v : Option Rat) (a b : Str) :
    EqOn (ParIs P) (converterDeep beyond n r uc v a b) (converter m uc v a b) := by
  induction n generalizing m r uc v a b with
  | zero =>
    obtain ⟨h1, rfl⟩ : m ≤ 0 ∧ beyond = Pure.pure none := by
      rcases hmn with h | h
      · omega
      · exact h
    obtain rfl : m = 0 := by omega
    exact .pure _
  | succ n ih =>
    intro w hw
    have hp : w.par = P := hw
    rw [converterDeep]
    dsimp only
    rw [hp]
    by_cases hk : recLimit P r < 0
    · rw [if_pos hk]
      have : m = 0 := by omega
      subst this
      rw [ite_self]
      exact ⟨rfl, hw⟩
    · rw [if_neg hk]
      obtain ⟨m, rfl⟩ : ∃ m', m = m' + 1 := ⟨m - 1, by omega⟩
      rw [converter]
      dsimp only
      split
      · exact ⟨rfl, hw⟩
      · have hd := recLimit_down (P := P) (k := recLimit P r) (by omega) hl
        exact eqOn_converterBody
          (fun uc v a b => eqOn_getConv beyond m n (down hmn) (some (recLimit P r)) (by rw [hd]; omega)
            (by rw [hd]; omega) uc v a b)
          (fun uc v a b => ih m (down hmn) (some (recLimit P r)) (by rw [hd]; omega) (by rw [hd]; omega) uc v a b)
          uc v a b w hw

end
end Unyts
