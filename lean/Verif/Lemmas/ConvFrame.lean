import Verif.Lemmas.Conv

/- What conversions may change: invariants of the whole converter. -/
namespace Unyts
open Spec

/-- `m` keeps `I` whether it returns or raises. -/
def Inv (I : σ → Prop) (m : PyM σ α) : Prop := ∀ w, I w → I (m w).2

namespace Inv
variable {I : σ → Prop}

theorem pure (a : α) : Inv I (Pure.pure a : PyM σ α) := fun _ h => h
theorem lift (r : Res α) : Inv I (PyM.lift r) := fun _ h => h
theorem raise (e : PyErr) : Inv I (PyM.raise e : PyM σ α) := fun _ h => h
theorem get : Inv I (PyM.get : PyM σ σ) := fun _ h => h
theorem modify {f : σ → σ} (hf : ∀ w, I w → I (f w)) : Inv I (PyM.modify f) := fun w h => hf w h

theorem bind {m : PyM σ α} {f : α → PyM σ β} (hm : Inv I m) (hf : ∀ a, Inv I (f a)) : Inv I (m >>= f) := by
  intro w h
  have := hm w h
  cases hr : m w with
  | mk r w1 =>
    rw [hr] at this
    cases r with
    | ok a => rw [PyM.run_bind_ok hr]; exact hf a w1 this
    | error e => rw [PyM.run_bind_error hr]; exact this

theorem bind_lift {r : Res α} {f : α → PyM σ β} (hf : ∀ a, r = .ok a → Inv I (f a)) :
    Inv I (PyM.lift r >>= f) := by
  intro w h
  cases r with
  | ok a => rw [PyM.run_bind_ok (PyM.run_lift_ok _ _)]; exact hf a rfl w h
  | error e => exact h

end Inv

/-- The changes of state that converting can make, other than to the memory. -/
structure Basic (I : World → Prop) : Prop where
  snap : ∀ w, I w → I w.snap
  tick : ∀ w, I w → I w.tick
  prev : ∀ w x, ¬ (SimpleName x.1 ∧ SimpleName x.2) → I w → I { w with previous := w.previous ++ [x] }

/-- Remembering a path found in the network keeps `I`. -/
def KeepsPaths (I : World → Prop) : Prop :=
  ∀ w a b p f na nb, I w → quick1 w.dic w.net a b = none → w.net.getNode a = .ok na → w.net.getNode b = .ok nb →
    IsPath (Linked w.net) na nb p → (∃ w0, SameBase w w0 ∧ (searchNetwork a b w0).1 = .ok (some p)) → Along w.net p f →
    I (w.remember a b (some (f, p.map Step.node)))

/-- Remembering anything for the pair `a`, `b` keeps `I`. -/
def KeepsAt (I : World → Prop) (a b : Str) : Prop := ∀ w e, I w → I (w.remember a b e)

/-- Remembering anything for a pair that is not a pair of simple names keeps `I`. -/
def KeepsCompound (I : World → Prop) : Prop := ∀ a b, ¬ (SimpleName a ∧ SimpleName b) → KeepsAt I a b

/-- `I` holds only of well-formed networks. -/
def NeedsWF (I : World → Prop) : Prop := ∀ w, I w → WF w.net

section
variable {I : World → Prop}

theorem inv_searchNetwork (hI : Basic I) (a b : Str) : Inv I (searchNetwork a b) := by
  intro w h
  have ite : ∀ (c : Prop) [Decidable c], I (if c then w.snap else w) := by
    intro c _; split
    · exact hI.snap w h
    · exact h
  unfold searchNetwork
  split
  · split
    · simp only
      split
      · exact h
      · exact ite _
      · exact ite _
      · exact hI.tick _ (ite _)
      · exact h
    · exact h
    · exact h
  · exact h

theorem inv_answer (v : Option Rat) (f : Fn) (p : Path) : Inv I (answer v f p) := by
  intro w h; rw [answer_state]; exact h

theorem inv_network (hI : Basic I) (hw : NeedsWF I) (hp : KeepsPaths I) (v : Option Rat) (a b : Str) (w : World) (h : I w)
    (hq : quick1 w.dic w.net a b = none) : I (networkConversion v a b w).2 := by
  have hs := inv_searchNetwork hI a b w h
  have hb := searchNetwork_quiet a b w
  rcases networkConversion_spec (hw w h) v a b with ⟨e, _, h2⟩ | ⟨_, h2⟩ | ⟨p, f, na, nb, h1, h2, h3, h4, h5, h6⟩
  · rw [h2]; exact hs
  · rw [h2]; exact hs
  · rw [h6]
    unfold storeAnswer
    rw [PyM.run_bind_ok (PyM.run_modify _ _), answer_state]
    refine hp _ a b p f na nb hs ?_ ?_ ?_ ?_ ?_ ?_
    · rw [hb.dic, hb.net]; exact hq
    · rw [hb.net]; exact h2
    · rw [hb.net]; exact h3
    · rw [hb.net]; exact h4
    · exact ⟨w, ⟨hb.net.symm, hb.fvf.symm, hb.par.symm, hb.dic.symm, hb.es.symm⟩, h1⟩
    · rw [hb.net]; exact h5

theorem inv_temp {inner : Option Rat → Str → Str → CallM} (hin : ∀ v a b, Inv I (inner v a b)) (v : Option Rat)
    (t1 d1 t2 d2 : Str) : Inv I (tempConversion inner v t1 d1 t2 d2) := by
  unfold tempConversion
  refine .bind .get fun w => ?_
  cases Py.dictGet w.dic.tempRatio (t1, t2) with
  | none => exact .raise _
  | some k =>
    refine .bind (hin _ _ _) fun r => ?_
    match r with
    | none => dsimp only; split <;> first | exact .raise _ | exact .pure _
    | some (c, p) => exact .bind (.lift _) fun _ => inv_answer _ _ _

theorem inv_getConv (hI : Basic I) (hw : NeedsWF I) (hp : KeepsPaths I) (n : Nat) (uc : Option Bool) (v : Option Rat)
    (a b : Str) : Inv I (getConv n uc v a b) := by
  induction n generalizing uc v a b with
  | zero => exact .pure _
  | succ n ih =>
    intro w h
    rw [getConv, getConvBody]
    split
    · exact h
    · rw [answer_state]; exact h
    · split
      · rw [answer_state]; exact h
      · next hq =>
        split
        · exact inv_temp (fun v a b => ih _ v a b) v _ _ _ _ w h
        · split
          · rw [answer_state]; exact h
          · exact inv_network hI hw hp v a b w h hq

theorem inv_matchPart {gc : Option Rat → Str → Str → CallM} (h : ∀ v a b, Inv I (gc v a b)) (nf : Bool) (f : Bool × Str)
    (ts : List (Bool × Str)) : Inv I (matchPart gc nf f ts) := by
  induction ts with
  | nil => exact .pure _
  | cons t ts ih =>
    rw [matchPart]
    refine .bind (h _ _ _) fun r => ?_
    match r with
    | some (c, p) =>
      refine .bind (.lift _) fun k => ?_
      simp only
      split
      · exact .bind (.lift _) fun _ => .pure _
      · exact .pure _
    | none =>
      refine .bind ih fun r => ?_
      match r with
      | none => exact .pure _
      | some (k, p, rest) => exact .pure _

theorem inv_matchParts {gc : Option Rat → Str → Str → CallM} (h : ∀ v a b, Inv I (gc v a b)) (nf : Bool)
    (fs ts : List (Bool × Str)) : Inv I (matchParts gc nf fs ts) := by
  induction fs generalizing nf ts with
  | nil => exact .pure _
  | cons f fs ih =>
    rw [matchParts]
    refine .bind (inv_matchPart h _ _ _) fun r => ?_
    match r with
    | none => exact .pure _
    | some (k, p, rest) =>
      refine .bind (ih _ _) fun r => ?_
      match r with
      | none => exact .pure _
      | some l => exact .pure _

theorem inv_splitStage {gc : Option Rat → Str → Str → CallM} (h : ∀ v a b, Inv I (gc v a b)) (a b : Str) :
    Inv I (splitStage gc a b) := by
  unfold splitStage
  refine .bind (inv_matchParts h _ _ _) fun r => ?_
  match r with
  | none => exact .pure _
  | some [] => exact .pure _
  | some ((k, p) :: l) => exact .pure _

theorem firstShortest_mem {l : List Str} {x : Str} (h : firstShortest l = some x) : x ∈ l := by
  induction l generalizing x with
  | nil => simp [firstShortest] at h
  | cons y ys ih =>
    rw [firstShortest] at h
    split at h
    · cases h; simp
    · next z hz =>
      split at h
      · cases h; exact List.mem_cons_of_mem _ (ih hz)
      · cases h; simp

theorem getPairChild_isPair {g : Net} {u c : Str} (h : getPairChild g u = .ok (some c)) : isPair c = true := by
  have hgc : ∀ ks : List UNode, pairGrandchild g ks = .ok (some c) → isPair c = true := by
    intro ks
    induction ks with
    | nil => intro h; simp [pairGrandchild] at h
    | cons k ks ih =>
      intro h
      rw [pairGrandchild] at h
      cases hk : g.childrenOf k with
      | error e => rw [hk] at h; cases h
      | ok l =>
        rw [hk] at h
        simp only [bind, Except.bind] at h
        split at h
        · next u hu => cases h; exact (List.mem_filter.1 (firstShortest_mem hu)).2
        · exact ih h
  unfold getPairChild at h
  cases hn : g.getNode u with
  | error e => rw [hn] at h; cases h
  | ok n =>
    rw [hn] at h
    simp only [bind, Except.bind] at h
    cases hk : g.childrenOf n with
    | error e => rw [hk] at h; cases h
    | ok l =>
      rw [hk] at h
      simp only at h
      split at h
      · next u hu => cases h; exact (List.mem_filter.1 (firstShortest_mem hu)).2
      · exact hgc _ h

theorem simple_iff_not_isPair {u : Str} : SimpleName u ↔ isPair u = false := by
  unfold SimpleName isPair
  simp

theorem inv_pairStage {cv : Option Rat → Str → Str → CallM}
    (h : ∀ v a b, ¬ (SimpleName a ∧ SimpleName b) → Inv I (cv v a b)) (a b : Str) : Inv I (pairStage cv a b) := by
  have pairNot : ∀ {c : Str}, isPair c = true → ¬ SimpleName c := by
    intro c hc hs
    rw [simple_iff_not_isPair] at hs
    rw [hs] at hc; cases hc
  unfold pairStage
  refine .bind .get fun w => ?_
  split
  · refine .bind_lift fun r hr => ?_
    match r with
    | none => exact .pure _
    | some c =>
      have hc := pairNot (getPairChild_isPair hr)
      refine .bind (h _ _ _ (fun hh => hc hh.2)) fun r1 => .bind (h _ _ _ (fun hh => hc hh.1)) fun r2 => ?_
      match r1, r2 with
      | some (f, p), some (g, q) => exact .pure _
      | none, _ => exact .pure _
      | some _, none => exact .pure _
  · split
    · refine .bind_lift fun r hr => ?_
      match r with
      | none => exact .pure _
      | some c =>
        have hc := pairNot (getPairChild_isPair hr)
        refine .bind (h _ _ _ (fun hh => hc hh.1)) fun r1 => .bind (h _ _ _ (fun hh => hc hh.2)) fun r2 => ?_
        match r2, r1 with
        | some (f, p), some (g, q) => exact .pure _
        | none, _ => exact .pure _
        | some _, none => exact .pure _
    · exact .pure _

theorem inv_descM (hI : Basic I) (u : Str) (g : Int) : Inv I (descM u g) := by
  intro w h
  unfold descM
  simp only
  split
  · exact hI.snap w h
  · exact h

theorem inv_genLoop (hI : Basic I) (a b : Str) (n g : Nat) : Inv I (genLoop a b n g) := by
  induction n generalizing g with
  | zero => exact .pure _
  | succ n ih =>
    rw [genLoop]
    refine .bind (inv_descM hI _ _) fun da => .bind (inv_descM hI _ _) fun db => ?_
    split
    · exact .pure _
    · exact ih _

theorem inv_totalGenerations (hI : Basic I) (a b : Str) (l : List Str) : Inv I (totalGenerations a b l) := by
  induction l with
  | nil => exact .pure _
  | cons u us ih =>
    rw [totalGenerations]
    exact .bind (inv_genLoop hI _ _ _ _) fun _ => .bind (inv_genLoop hI _ _ _ _) fun _ => .bind ih fun _ => .pure _

theorem inv_ratioLoop {cv : Option Rat → Str → Str → CallM} {a b : Str} (ha : ¬ SimpleName a) (hb : ¬ SimpleName b)
    (h : ∀ v a b, ¬ (SimpleName a ∧ SimpleName b) → Inv I (cv v a b)) (m : Option Nat) (l : List (Option Nat × Str))
    (path sh : Nat) (best : Option Path) (last : Option Conv × Option Conv) :
    Inv I (ratioLoop cv a b m l path sh best last) := by
  induction l generalizing path sh best last with
  | nil => exact .pure _
  | cons x r ih =>
    obtain ⟨g, child⟩ := x
    rw [ratioLoop]
    split
    · exact .pure _
    · refine .bind (h _ _ _ (fun hh => ha hh.1)) fun r1 => .bind (h _ _ _ (fun hh => hb hh.2)) fun r2 => ?_
      match r1, r2 with
      | some (c, p), some (d, q) =>
        dsimp only
        split
        · exact .pure _
        · exact ih _ _ _ _
      | none, _ => exact ih _ _ _ _
      | some _, none => exact ih _ _ _ _

theorem ratioParts_slash {u : Str} {x y : Str} (h : ratioParts u = some (x, y)) :
    u = x ++ '/' :: y ∧ '/' ∉ x ∧ '/' ∉ y := by
  unfold ratioParts at h
  split at h
  · next x' y' hsp =>
    simp only [Option.some.injEq, Prod.mk.injEq] at h
    obtain ⟨rfl, rfl⟩ := h
    have hj := Py.join_splitOn '/' u
    rw [hsp] at hj
    refine ⟨hj.symm, ?_, ?_⟩
    · exact Py.mem_splitOn_no_sep (s := u) (by rw [hsp]; simp)
    · exact Py.mem_splitOn_no_sep (s := u) (by rw [hsp]; simp)
  · cases h

theorem ratioParts_not_simple {u : Str} (h : (ratioParts u).isSome = true) : ¬ SimpleName u := by
  obtain ⟨⟨x, y⟩, hxy⟩ := Option.isSome_iff_exists.1 h
  obtain ⟨rfl, _, _⟩ := ratioParts_slash hxy
  intro hs
  exact hs.1 (by simp)

theorem inv_ratioStage (hI : Basic I) {cv : Option Rat → Str → Str → CallM}
    (h : ∀ v a b, ¬ (SimpleName a ∧ SimpleName b) → Inv I (cv v a b)) (a b : Str) : Inv I (ratioStage cv a b) := by
  unfold ratioStage
  split
  · next hc =>
    simp only [Bool.and_eq_true] at hc
    have ha := ratioParts_not_simple hc.1
    have hb := ratioParts_not_simple hc.2
    unfold ratioConversion
    refine .bind .get fun w => .bind (inv_descM hI _ _) fun f1 => .bind (inv_descM hI _ _) fun f2 =>
      .bind (inv_totalGenerations hI _ _ _) fun gens => ?_
    split
    · exact .raise _
    · refine .bind (inv_ratioLoop ha hb h _ _ _ _ _ _) fun r => ?_
      obtain ⟨best, fr, to⟩ := r
      cases best with
      | none => exact .pure _
      | some p => exact .pure _
  · exact .pure _

theorem inv_storeAnswer (v : Option Rat) {a b : Str} (hab : KeepsAt I a b) (f : Fn) (p : Path) : Inv I (storeAnswer v a b f p) := by
  unfold storeAnswer
  exact .bind (.modify fun w h => hab w _ h) fun _ => inv_answer _ _ _

theorem inv_indirect (hI : Basic I) {gc cv cvDef : Option Rat → Str → Str → CallM}
    (hgc : ∀ v a b, Inv I (gc v a b)) (hcv : ∀ v a b, ¬ (SimpleName a ∧ SimpleName b) → Inv I (cv v a b))
    (hcd : ∀ v a b, ¬ (SimpleName a ∧ SimpleName b) → Inv I (cvDef v a b)) (v : Option Rat) {a b : Str}
    (hab : KeepsAt I a b) : Inv I (indirect gc cv cvDef v a b) := by
  unfold indirect
  refine .bind (inv_splitStage hgc _ _) fun r => ?_
  match r with
  | some (f, p) => exact inv_storeAnswer v hab f p
  | none =>
    refine .bind (inv_pairStage hcv _ _) fun r => ?_
    match r with
    | some (f, p) => exact inv_storeAnswer v hab f p
    | none =>
      refine .bind (inv_ratioStage hI hcd _ _) fun r => ?_
      match r with
      | some (f, p) => exact inv_storeAnswer v hab f p
      | none => exact .bind (.modify fun w h => hab w _ h) fun _ => .pure _

/-- The converter keeps every such invariant, whatever its budget, if remembering something for its own pair and noting
that it was tried do. -/
theorem inv_converter (hI : Basic I) (hw : NeedsWF I) (hp : KeepsPaths I) (hc : KeepsCompound I) (n : Nat)
    (uc : Option Bool) (v : Option Rat) (a b : Str) (hab : KeepsAt I a b)
    (hpr : ∀ w, I w → I { w with previous := w.previous ++ [(a, b)] }) : Inv I (converter n uc v a b) := by
  induction n generalizing uc v a b with
  | zero => exact .pure _
  | succ n ih =>
    intro w h
    rw [converter]
    dsimp only
    split
    · exact h
    · refine Inv.bind (inv_getConv hI hw hp n uc v a b) (fun r => ?_) w h
      match r with
      | some r => exact .pure _
      | none =>
        exact .bind (.modify fun w h => hpr w h) fun _ =>
          inv_indirect hI (fun v a b => inv_getConv hI hw hp n uc v a b) (fun v a b hh => ih uc v a b (hc a b hh) fun w h => hI.prev w (a, b) hh h)
            (fun v a b hh => ih none v a b (hc a b hh) fun w h => hI.prev w (a, b) hh h) v hab

/-- The part of the state that conversions never change. -/
def Base (w0 : World) (w : World) : Prop := WF w.net ∧ SameBase w0 w

theorem base_basic (w0 : World) : Basic (Base w0) where
  snap := fun w h => ⟨h.1, h.2.trans (quiet_snap w).toSameBase⟩
  tick := fun w h => ⟨h.1, h.2.trans (quiet_tick w).toSameBase⟩
  prev := fun _ _ _ h => ⟨h.1, h.2.trans ⟨rfl, rfl, rfl, rfl, rfl⟩⟩

theorem base_wf (w0 : World) : NeedsWF (Base w0) := fun _ h => h.1

theorem base_remember {w0 w : World} (h : Base w0 w) (a b : Str) (e) : Base w0 (w.remember a b e) :=
  ⟨h.1, h.2.trans (remember_base w a b e)⟩

theorem base_getConv {w : World} (hg : WF w.net) (n : Nat) (uc : Option Bool) (v : Option Rat) (a b : Str) :
    SameBase w (getConv n uc v a b w).2 :=
  (inv_getConv (base_basic w) (base_wf w) (fun _ _ _ _ _ _ _ h _ _ _ _ _ _ => base_remember h _ _ _) n uc v a b w
    ⟨hg, .refl w⟩).2

theorem base_converter {w : World} (hg : WF w.net) (n : Nat) (uc : Option Bool) (v : Option Rat) (a b : Str) :
    SameBase w (converter n uc v a b w).2 :=
  (inv_converter (base_basic w) (base_wf w) (fun _ _ _ _ _ _ _ h _ _ _ _ _ _ => base_remember h _ _ _)
    (fun _ _ _ _ _ h => base_remember h _ _ _) n uc v a b (fun _ _ h => base_remember h _ _ _)
    (fun _ h => ⟨h.1, h.2.trans ⟨rfl, rfl, rfl, rfl, rfl⟩⟩) w ⟨hg, .refl w⟩).2

end
end Unyts
