import Verif.Lemmas.ConvSimple

/- `_converter`, `convert` and `convertible`: what is remembered, and what a second call answers. -/
namespace Unyts
open Spec

/-! ### without budget nothing is found -/

theorem matchParts_none {gc : Option Rat → Str → Str → CallM} (h : ∀ v a b w, gc v a b w = (.ok none, w)) (nf : Bool)
    (fs ts : List (Bool × Str)) (w : World) :
    matchParts gc nf fs ts w = (.ok (if fs = [] then some [] else none), w) := by
  cases fs with
  | nil => rfl
  | cons f fs =>
    have hm : ∀ ts, matchPart gc nf f ts w = (.ok none, w) := by
      intro ts
      induction ts with
      | nil => rfl
      | cons t ts ih =>
        rw [matchPart, PyM.run_bind_ok (h _ _ _ _)]
        simp only
        rw [PyM.run_bind_ok ih]
        rfl
    rw [matchParts, PyM.run_bind_ok (hm ts)]
    rfl

theorem splitStage_none {gc : Option Rat → Str → Str → CallM} (h : ∀ v a b w, gc v a b w = (.ok none, w)) (a b : Str)
    (w : World) : splitStage gc a b w = (.ok none, w) := by
  unfold splitStage
  rw [PyM.run_bind_ok (matchParts_none h _ _ _ _)]
  split <;> first | rfl | (next he => split at he <;> simp at he)

theorem pairStage_none {cv : Option Rat → Str → Str → CallM} (h : ∀ v a b w, cv v a b w = (.ok none, w)) (a b : Str)
    (w w' : World) (r : Fn × Path) : pairStage cv a b w ≠ (.ok (some r), w') := by
  intro hr
  unfold pairStage at hr
  rw [PyM.run_bind_ok (PyM.run_get _)] at hr
  split at hr
  · obtain ⟨c, w1, h1, h2⟩ := PyM.bind_ok hr
    cases c with
    | none => simp at h2
    | some c =>
      simp only at h2
      rw [PyM.run_bind_ok (h _ _ _ _), PyM.run_bind_ok (h _ _ _ _)] at h2
      simp at h2
  · split at hr
    · obtain ⟨c, w1, h1, h2⟩ := PyM.bind_ok hr
      cases c with
      | none => simp at h2
      | some c =>
        simp only at h2
        rw [PyM.run_bind_ok (h _ _ _ _), PyM.run_bind_ok (h _ _ _ _)] at h2
        simp at h2
    · simp at hr

theorem ratioLoop_none {cv : Option Rat → Str → Str → CallM} (h : ∀ v a b w, cv v a b w = (.ok none, w)) (a b : Str)
    (m : Option Nat) (l : List (Option Nat × Str)) (path sh : Nat) (last : Option Conv × Option Conv) (w : World) :
    ∃ x, ratioLoop cv a b m l path sh none last w = (.ok (none, x), w) := by
  induction l generalizing path last with
  | nil => exact ⟨last, rfl⟩
  | cons y r ih =>
    obtain ⟨g, child⟩ := y
    rw [ratioLoop]
    simp only [Option.isSome_none, Bool.false_and, Bool.false_eq_true, if_false]
    rw [PyM.run_bind_ok (h _ _ _ _), PyM.run_bind_ok (h _ _ _ _)]
    exact ih _ _

theorem ratioStage_none {cv : Option Rat → Str → Str → CallM} (h : ∀ v a b w, cv v a b w = (.ok none, w)) (a b : Str)
    (w w' : World) (r : Fn × Path) : ratioStage cv a b w ≠ (.ok (some r), w') := by
  intro hr
  unfold ratioStage at hr
  split at hr
  · unfold ratioConversion at hr
    obtain ⟨_, w1, _, hr⟩ := PyM.bind_ok hr
    obtain ⟨_, w2, _, hr⟩ := PyM.bind_ok hr
    obtain ⟨_, w3, _, hr⟩ := PyM.bind_ok hr
    obtain ⟨_, w4, _, hr⟩ := PyM.bind_ok hr
    split at hr
    · simp [PyM.raise] at hr
    · obtain ⟨x, hx⟩ := ratioLoop_none h a b (minGens _) (sortPairs _) 0 9999 (none, none) w4
      rw [PyM.run_bind_ok hx] at hr
      simp at hr
  · simp at hr

theorem indirect_none {gc cv cvDef : Option Rat → Str → Str → CallM} (h1 : ∀ v a b w, gc v a b w = (.ok none, w))
    (h2 : ∀ v a b w, cv v a b w = (.ok none, w)) (h3 : ∀ v a b w, cvDef v a b w = (.ok none, w)) (v : Option Rat)
    (a b : Str) (w w' : World) (r : Conv × Path) : indirect gc cv cvDef v a b w ≠ (.ok (some r), w') := by
  intro hr
  unfold indirect at hr
  rw [PyM.run_bind_ok (splitStage_none h1 a b w)] at hr
  simp only at hr
  obtain ⟨x, w1, hx, hr⟩ := PyM.bind_ok hr
  cases x with
  | some fp => exact pairStage_none h2 _ _ _ _ _ hx
  | none =>
    simp only at hr
    obtain ⟨y, w2, hy, hr⟩ := PyM.bind_ok hr
    cases y with
    | some fp => exact ratioStage_none h3 _ _ _ _ _ hy
    | none =>
      simp only at hr
      rw [PyM.run_bind_ok (PyM.run_modify _ _)] at hr
      simp at hr

/-- An indirect conversion that answered has just been remembered. -/
theorem indirect_ok {gc cv cvDef : Option Rat → Str → Str → CallM} {v : Option Rat} {a b : Str} {w w' : World}
    {c : Conv} {p : Path} (h : indirect gc cv cvDef v a b w = (.ok (some (c, p)), w')) :
    ∃ (f : Fn) (w1 : World), w' = w1.remember a b (some (f, p)) ∧ ansRes v f p w'.fvf = .ok (some (c, p)) := by
  have st : ∀ f q w1, storeAnswer v a b f q w1 = (.ok (some (c, p)), w') →
      ∃ (f : Fn) (w1 : World), w' = w1.remember a b (some (f, p)) ∧ ansRes v f p w'.fvf = .ok (some (c, p)) := by
    intro f q w1 h
    unfold storeAnswer at h
    rw [PyM.run_bind_ok (PyM.run_modify _ _), answer_eq] at h
    simp only [Prod.mk.injEq] at h
    obtain ⟨h1, rfl⟩ := h
    obtain ⟨rfl, _⟩ := ansRes_ok h1
    exact ⟨f, w1, rfl, h1⟩
  unfold indirect at h
  obtain ⟨x, w1, hx, h⟩ := PyM.bind_ok h
  cases x with
  | some fp => exact st _ _ _ h
  | none =>
    obtain ⟨x, w2, hx, h⟩ := PyM.bind_ok h
    cases x with
    | some fp => exact st _ _ _ h
    | none =>
      obtain ⟨x, w3, hx, h⟩ := PyM.bind_ok h
      cases x with
      | some fp => exact st _ _ _ h
      | none =>
        simp only at h
        rw [PyM.run_bind_ok (PyM.run_modify _ _)] at h
        simp at h

/-! ### a second call -/

/-- With the cache on, once `_converter` has answered, `_get_conversion` with the same budget answers in the same way
for every value and changes nothing. -/
theorem converter_repeat {w w' : World} (hg : WF w.net) {n : Nat} {uc : Option Bool} (hc : resolveCache w uc = true)
    {v : Option Rat} {a b : Str} {c : Conv} {p : Path} (h : converter (n + 1) uc v a b w = (.ok (some (c, p)), w')) :
    SameBase w w' ∧ ∃ f, ansRes v f p w.fvf = .ok (some (c, p)) ∧
      ∀ w2, Alike w' w2 → ∀ v', getConv n uc v' a b w2 = (ansRes v' f p w.fvf, w2) := by
  have hb : SameBase w w' := by have := base_converter hg (n + 1) uc v a b; rw [h] at this; exact this
  refine ⟨hb, ?_⟩
  rw [converter] at h
  dsimp only at h
  split at h
  · simp at h
  · unfold converterBody at h
    obtain ⟨x, w1, hx, h⟩ := PyM.bind_ok h
    cases x with
    | some r =>
      simp only [PyM.run_pure, Prod.mk.injEq] at h
      obtain ⟨h1, rfl⟩ := h
      cases h1
      obtain ⟨f, h1, _, h3⟩ := getConv_repeat hg hc hx
      exact ⟨f, h1, h3⟩
    | none =>
      simp only at h
      rw [PyM.run_bind_ok (PyM.run_modify _ _)] at h
      obtain ⟨f, w2, rfl, h2⟩ := indirect_ok h
      rw [hb.fvf] at h2
      refine ⟨f, h2, fun w3 h3 v' => ?_⟩
      cases n with
      | zero => exact absurd h (indirect_none (fun _ _ _ _ => rfl) (fun _ _ _ _ => rfl) (fun _ _ _ _ => rfl) v a b _ _ _)
      | succ n =>
        rw [getConv, getConvBody]
        have : (if resolveCache w3 uc then Py.dictGet w3.memory (a, b) else none) = some (some (f, p)) := by
          have hc3 : resolveCache w3 uc = true := by
            unfold resolveCache at *; rw [h3.par, hb.par]; exact hc
          rw [hc3, h3.pos _ _ (remember_get _ _ _ _)]
          rfl
        rw [this]
        simp only [answer_eq, h3.fvf, hb.fvf]

/-- `_converter` answers what `_get_conversion` answers. -/
theorem converter_of_getConv {w w' : World} {n : Nat} {uc : Option Bool} {v : Option Rat} {a b : Str}
    {r : Res (Option (Conv × Path))} (hp : (a, b) ∉ w.previous) (hr : r ≠ .ok none)
    (h : getConv n uc v a b w = (r, w')) : converter (n + 1) uc v a b w = (r, w') := by
  rw [converter]
  dsimp only
  rw [if_neg hp]
  unfold converterBody
  cases r with
  | error e => exact PyM.run_bind_error h
  | ok x =>
    cases x with
    | none => exact absurd rfl hr
    | some x => rw [PyM.run_bind_ok h]; rfl

theorem converterTop_eq (uc : Option Bool) (v : Option Rat) (a b : Str) (w : World) :
    converterTop uc v a b w = converter (topBudget w.par) uc v a b w := rfl

/-- With the cache on, once a top-level call of `_converter` has answered, another one answers in the same way for
every value, and changes nothing, provided the pair is not in `previous`. -/
theorem converterTop_repeat {w w' : World} (hg : WF w.net) {uc : Option Bool} (hc : resolveCache w uc = true)
    {v : Option Rat} {a b : Str} {c : Conv} {p : Path} (h : converterTop uc v a b w = (.ok (some (c, p)), w')) :
    SameBase w w' ∧ ∃ f, ansRes v f p w.fvf = .ok (some (c, p)) ∧
      ∀ w2, Alike w' w2 → (a, b) ∉ w2.previous → ∀ v', converterTop uc v' a b w2 = (ansRes v' f p w.fvf, w2) := by
  rw [converterTop_eq] at h
  cases hn : topBudget w.par with
  | zero => rw [hn] at h; simp [converter] at h
  | succ n =>
    rw [hn] at h
    obtain ⟨hb, f, h1, h2⟩ := converter_repeat hg hc h
    refine ⟨hb, f, h1, fun w2 ha hp v' => ?_⟩
    rw [converterTop_eq, ha.par, hb.par, hn]
    exact converter_of_getConv hp (ansRes_not_none _ _ _ _) (h2 w2 ha v')

end Unyts
