import Verif.Lemmas.ConvValue
import Mathlib.Algebra.Order.Field.Rat

/- A unit converted to itself, whatever is remembered. -/
namespace Unyts
open Spec

/-- The memory never says that converting a unit to itself changes the number. -/
structure SelfOK (w : World) : Prop where
  sound : Sound w
  same : ∀ u, operands [] (splitUnit u) ≠ [] → ∀ f p, Py.dictGet w.memory (u, u) = some (some (f, p)) →
    ∀ fvf x, f fvf x = .ok x

theorem getConv_self {w : World} {u : Str} (n : Nat) (uc : Option Bool) (v : Option Rat) (h : memHit w uc u u = none) :
    getConv (n + 1) uc v u u w = (ansRes v idFn [nodeOrName w.net u] w.fvf, w) := by
  rw [getConv, getConvBody]
  show (match memHit w uc u u with
    | some none => _
    | some (some (f, p)) => _
    | none => _) = _
  rw [h]
  simp only [quick1, if_true, answer_eq]

/-- when the memory answers -/
theorem getConv_hit_none {w : World} {a b : Str} (n : Nat) (uc : Option Bool) (v : Option Rat)
    (h : memHit w uc a b = some none) : getConv (n + 1) uc v a b w = (.ok none, w) := by
  rw [getConv, getConvBody]
  show (match memHit w uc a b with
    | some none => _
    | some (some (f, p)) => _
    | none => _) = _
  rw [h]

theorem getConv_hit_some {w : World} {a b : Str} (n : Nat) (uc : Option Bool) (v : Option Rat) {f : Fn} {p : Path}
    (h : memHit w uc a b = some (some (f, p))) : getConv (n + 1) uc v a b w = answer v f p w := by
  rw [getConv, getConvBody]
  show (match memHit w uc a b with
    | some none => _
    | some (some (f, p)) => _
    | none => _) = _
  rw [h]

theorem memHit_self_simple {w : World} (h : Sound w) {u : Str} (hu : SimpleName u) (uc : Option Bool) :
    memHit w uc u u = none := by
  unfold memHit; rw [h.self u hu]; simp

theorem matchParts_self {w : World} (h : Sound w) (n : Nat) (uc : Option Bool) (nf : Bool) (fs : List (Bool × Str))
    (hs : ∀ f ∈ fs, SimpleName f.2) : ∃ l : List (Rat × Path), l.length = fs.length ∧ (∀ e ∈ l, e.1 = 1) ∧
      matchParts (getConv (n + 1) uc) nf fs fs w = (.ok (some l), w) := by
  induction fs generalizing nf with
  | nil => exact ⟨[], rfl, by simp, rfl⟩
  | cons f fs ih =>
    obtain ⟨l, h1, h2, h3⟩ := ih true (fun g hg => hs g (List.mem_cons_of_mem _ hg))
    have hget := getConv_self n uc (some 1) (memHit_self_simple h (hs f List.mem_cons_self) uc)
    have hp : ∃ p, matchPart (getConv (n + 1) uc) nf f (f :: fs) w = (.ok (some (1, p, fs)), w) := by
      rw [matchPart, PyM.run_bind_ok hget]
      simp only [Conv.toNum]
      rw [PyM.run_bind_ok (PyM.run_lift_ok _ _)]
      split
      · have : pdiv 1 1 = .ok 1 := by simp [pdiv]
        rw [this, PyM.run_bind_ok (PyM.run_lift_ok _ _)]
        exact ⟨_, rfl⟩
      · exact ⟨_, rfl⟩
    obtain ⟨p, hp⟩ := hp
    refine ⟨(1, p) :: l, by simp [h1], by simpa using h2, ?_⟩
    rw [matchParts, PyM.run_bind_ok hp]
    simp only
    rw [PyM.run_bind_ok h3]
    rfl

theorem foldl_ones {l : List (Rat × Path)} (h : ∀ e ∈ l, e.1 = 1) (k : Rat) :
    l.foldl (fun acc e => acc * e.1) k = k := by
  induction l generalizing k with
  | nil => rfl
  | cons e l ih =>
    rw [List.foldl_cons, h e List.mem_cons_self, mul_one]
    exact ih (fun e' he => h e' (List.mem_cons_of_mem _ he)) k

theorem splitStage_self {w : World} (h : Sound w) (n : Nat) (uc : Option Bool) {u : Str}
    (hu : operands [] (splitUnit u) ≠ []) :
    ∃ p, splitStage (getConv (n + 1) uc) u u w = (.ok (some (scaleFn 1, p)), w) := by
  obtain ⟨l, h1, h2, h3⟩ := matchParts_self h n uc false (operands [] (splitUnit u)) (fun f hf => operand_simple hf)
  unfold splitStage
  rw [PyM.run_bind_ok h3]
  cases l with
  | nil => exact absurd (List.length_eq_zero_iff.1 h1.symm) hu
  | cons e l =>
    obtain ⟨k, p⟩ := e
    have hk : k = 1 := h2 (k, p) List.mem_cons_self
    subst hk
    simp only
    rw [foldl_ones (fun e he => h2 e (List.mem_cons_of_mem _ he))]
    exact ⟨_, rfl⟩

theorem scale_one (fvf : Option Rat) (x : Rat) : scaleFn 1 fvf x = .ok x := by simp [scaleFn]

/-! ### the invariant -/

theorem self_basic : Basic SelfOK where
  snap := fun w h => ⟨sound_basic.snap w h.sound, h.same⟩
  tick := fun w h => ⟨sound_basic.tick w h.sound, h.same⟩
  prev := fun w x hx h => ⟨sound_basic.prev w x hx h.sound, h.same⟩

theorem self_prev (w : World) (pv : List (Str × Str)) (h : SelfOK w) : SelfOK { w with previous := pv } :=
  ⟨sound_prev w pv h.sound, h.same⟩

theorem self_wf : NeedsWF SelfOK := fun _ h => h.sound.wf

theorem self_paths : KeepsPaths SelfOK := by
  intro w a b p f na nb h hq h1 h2 h3 hc h4
  refine ⟨sound_paths w a b p f na nb h.sound hq h1 h2 h3 hc h4, ?_⟩
  intro u hu g q hm
  rw [remember_get_ne] at hm
  · exact h.same u hu g q hm
  · intro e
    simp only [Prod.mk.injEq] at e
    have : a = b := e.1.symm.trans e.2
    simp [quick1, this] at hq

/-- anything may be remembered for a compound pair of different units -/
theorem self_ne {a b : Str} (hab : ¬ (SimpleName a ∧ SimpleName b)) (hne : a ≠ b ∨ operands [] (splitUnit a) = []) :
    KeepsAt SelfOK a b := by
  intro w e h
  refine ⟨sound_compound a b hab w e h.sound, ?_⟩
  intro u hu g q hm
  rw [remember_get_ne] at hm
  · exact h.same u hu g q hm
  · intro e
    simp only [Prod.mk.injEq] at e
    rcases hne with hne | hne
    · exact hne (e.1.symm.trans e.2)
    · rw [e.1] at hu; exact hu hne

theorem self_one {w : World} (h : SelfOK w) {u : Str} (hu : ¬ SimpleName u) (e : Option (Fn × Path))
    (he : ∀ f p, e = some (f, p) → ∀ fvf x, f fvf x = .ok x) : SelfOK (w.remember u u e) := by
  refine ⟨sound_compound u u (fun hh => hu hh.1) w e h.sound, ?_⟩
  intro x hx g q hm
  by_cases exu : x = u
  · subst exu
    rw [remember_get] at hm
    cases hm
    exact he g q rfl
  · rw [remember_get_ne] at hm
    · exact h.same x hx g q hm
    · intro e; simp only [Prod.mk.injEq] at e; exact exu e.1

theorem pairStage_self (cv : Option Rat → Str → Str → CallM) (u : Str) (w : World) :
    pairStage cv u u w = (.ok none, w) := by
  unfold pairStage
  rw [PyM.run_bind_ok (PyM.run_get _)]
  cases isPair u <;> rfl

theorem self_indirect {n : Nat} (uc : Option Bool) (v : Option Rat) {u : Str} (hu : ¬ SimpleName u)
    (hcv : ∀ uc v a b, ¬ (SimpleName a ∧ SimpleName b) → Inv SelfOK (converter n uc v a b))
    (hz : n = 0 → operands [] (splitUnit u) ≠ []) :
    Inv SelfOK (indirect (getConv n uc) (converter n uc) (converter n none) v u u) := by
  by_cases hop : operands [] (splitUnit u) = []
  · exact inv_indirect self_basic (fun v a b => inv_getConv self_basic self_wf self_paths n uc v a b)
      (fun v a b hh => hcv uc v a b hh) (fun v a b hh => hcv none v a b hh) v
      (self_ne (fun hh => hu hh.1) (Or.inr hop))
  · intro w h
    cases n with
    | zero =>
      unfold indirect
      rw [PyM.run_bind_ok (splitStage_none (gc := getConv 0 uc) (fun _ _ _ _ => rfl) u u w)]
      simp only
      rw [PyM.run_bind_ok (pairStage_self _ u w)]
      simp only
      have hr := inv_ratioStage self_basic (fun v a b hh => hcv none v a b hh) u u w h
      cases hs : ratioStage (converter 0 none) u u w with
      | mk r w1 =>
        rw [hs] at hr
        cases r with
        | error e => rw [PyM.run_bind_error hs]; exact hr
        | ok r =>
          cases r with
          | some fp => exact absurd hs (ratioStage_none (cv := converter 0 none) (fun _ _ _ _ => rfl) u u w w1 fp)
          | none =>
            rw [PyM.run_bind_ok hs]
            simp only
            rw [PyM.run_bind_ok (PyM.run_modify _ _)]
            exact self_one hr hu none (by simp)
    | succ n =>
      obtain ⟨p, hp⟩ := splitStage_self h.sound n uc hop
      unfold indirect
      rw [PyM.run_bind_ok hp]
      simp only
      unfold storeAnswer
      rw [PyM.run_bind_ok (PyM.run_modify _ _), answer_state]
      refine self_one h hu _ ?_
      intro f q e
      simp only [Option.some.injEq, Prod.mk.injEq] at e
      rw [← e.1]
      exact scale_one

theorem self_converter (n : Nat) (uc : Option Bool) (v : Option Rat) (a b : Str)
    (hab : ¬ (SimpleName a ∧ SimpleName b)) : Inv SelfOK (converter n uc v a b) := by
  induction n generalizing uc v a b with
  | zero => exact .pure _
  | succ n ih =>
    intro w h
    rw [converter]
    dsimp only
    split
    · exact h
    · refine Inv.bind (inv_getConv self_basic self_wf self_paths n uc v a b) (fun r => ?_) w h
      match r with
      | some r => exact .pure _
      | none =>
        refine .bind (.modify fun w h => self_prev w _ h) fun _ => ?_
        by_cases hne : a = b
        · subst hne
          by_cases hop : operands [] (splitUnit a) = []
          · exact inv_indirect self_basic (fun v a b => inv_getConv self_basic self_wf self_paths n uc v a b)
              (fun v a b hh => ih uc v a b hh) (fun v a b hh => ih none v a b hh) v (self_ne hab (Or.inr hop))
          · exact self_indirect uc v (fun hh => hab ⟨hh, hh⟩) (fun uc v a b hh => ih uc v a b hh) (fun _ => hop)
        · exact inv_indirect self_basic (fun v a b => inv_getConv self_basic self_wf self_paths n uc v a b)
            (fun v a b hh => ih uc v a b hh) (fun v a b hh => ih none v a b hh) v (self_ne hab (Or.inl hne))

def SelfAmple (w : World) : Prop := SelfOK w ∧ Ample w.par

theorem self_converterTop (uc : Option Bool) (v : Option Rat) (a b : Str) : Inv SelfAmple (converterTop uc v a b) := by
  intro w h
  have hs := inv_converterTop uc v a b w ⟨h.1.sound, h.2⟩
  refine ⟨?_, hs.2⟩
  by_cases hab : SimpleName a ∧ SimpleName b
  · refine ⟨hs.1, ?_⟩
    -- only the entry of this simple pair changes
    have other : ∀ u, ¬ SimpleName u →
        Py.dictGet (converterTop uc v a b w).2.memory (u, u) = Py.dictGet w.memory (u, u) := by
      intro u hu
      have hne : (u, u) ≠ (a, b) := by intro e; simp only [Prod.mk.injEq] at e; exact hu (e.1 ▸ hab.1)
      rw [converterTop_eq]
      obtain ⟨n, hn⟩ := ample_budget h.2
      rw [hn]
      by_cases hpr : (a, b) ∈ w.previous
      · rw [converter]; dsimp only; rw [if_pos hpr]
      · rcases converter_simple h.1.sound.wf hab.1 hab.2 n uc v hpr with ⟨h1, _⟩ | ⟨_, w2, _, hm, _, h2⟩
        · rw [h1]
          exact (getConv_direct h.1.sound.wf n uc v (tempParts_noSlash hab.1.1) rfl).1 u u hne
        · rw [h2]
          show Py.dictGet (w2.remember a b none).memory (u, u) = _
          rw [remember_get_ne _ _ hne, hm]
    intro u hu f p hm
    by_cases hsu : SimpleName u
    · rw [hs.1.self u hsu] at hm; cases hm
    · rw [other u hsu] at hm
      exact h.1.same u hu f p hm
  · exact self_converter _ uc v a b hab w h.1

theorem self_call {c : Call} (hc : KeepsAmple c) {w : World} (h : SelfAmple w) : SelfAmple (c.run w) := by
  have hp : ∀ (w : World) pv, SelfAmple w → SelfAmple { w with previous := pv } :=
    fun w pv h => ⟨self_prev w pv h.1, h.2⟩
  cases c with
  | convert v a b uc => exact inv_convert self_converterTop hp v a b uc w h
  | convertible a b uc => exact inv_convertible self_converterTop a b uc w h
  | simPandas v a b uc => exact inv_simPandas self_converterTop v a b uc w h
  | search a b => exact ⟨inv_searchNetwork self_basic a b w h.1, (searchNetwork_quiet a b w).par ▸ h.2⟩
  | setUnit a =>
    have := soundAmple_call (c := .setUnit a) trivial ⟨h.1.sound, h.2⟩
    refine ⟨⟨this.1, ?_⟩, this.2⟩
    have e : (Call.run (.setUnit a) w).memory = w.memory := by
      simp only [Call.run, setUnitW]; split <;> rfl
    rw [e]; exact h.1.same
  | setConversion a b f rev =>
    have := soundAmple_call (c := .setConversion a b f rev) trivial ⟨h.1.sound, h.2⟩
    refine ⟨⟨this.1, ?_⟩, this.2⟩
    have e : (Call.run (.setConversion a b f rev) w).memory = w.memory := by
      simp only [Call.run, setConversionW]; split <;> rfl
    rw [e]; exact h.1.same
  | setFvf b => exact ⟨⟨sound_of_same h.1.sound rfl rfl rfl, h.1.same⟩, h.2⟩
  | cleanMemory =>
    have := soundAmple_call (c := .cleanMemory) trivial ⟨h.1.sound, h.2⟩
    exact ⟨⟨this.1, by intro u _ f p hm; cases hm⟩, this.2⟩
  | settings p => exact ⟨⟨sound_of_same h.1.sound rfl rfl rfl, h.1.same⟩, hc⟩

theorem self_session (cs : List Call) (hc : ∀ c ∈ cs, KeepsAmple c) {w : World} (h : SelfAmple w) :
    SelfAmple (session cs w) := by
  induction cs generalizing w with
  | nil => exact h
  | cons c cs ih =>
    exact ih (fun c' h' => hc c' (List.mem_cons_of_mem _ h')) (self_call (hc c List.mem_cons_self) h)

theorem self_of_reachable {w : World} (h : Reachable w) : SelfAmple w := by
  obtain ⟨w0, cs, hf, hc, rfl⟩ := h
  exact self_session cs hc ⟨⟨sound_fresh hf.wf hf.memory, by
    intro u _ f p hm; rw [hf.memory] at hm; cases hm⟩, hf.ample⟩

/-- `_converter` on a unit and itself returns the number. -/
theorem converterTop_self {w : World} (h : SelfAmple w) {u : Str} (hu : operands [] (splitUnit u) ≠ [])
    (hpr : (u, u) ∉ w.previous) (uc : Option Bool) (x : Rat) :
    ∃ p, (converterTop uc (some x) u u w).1 = .ok (some (.num x, p)) := by
  rw [converterTop_eq]
  obtain ⟨n, hn⟩ := ample_budget h.2
  rw [hn]
  have hget : (∃ p, getConv (n + 1) uc (some x) u u w = (.ok (some (.num x, p)), w)) ∨
      getConv (n + 1) uc (some x) u u w = (.ok none, w) := by
    cases hm : memHit w uc u u with
    | none => left; rw [getConv_self n uc (some x) hm]; exact ⟨_, rfl⟩
    | some e =>
      cases e with
      | none => exact Or.inr (getConv_hit_none n uc (some x) hm)
      | some fp =>
        obtain ⟨f, p⟩ := fp
        rw [getConv_hit_some n uc (some x) hm]
        left
        have hd : Py.dictGet w.memory (u, u) = some (some (f, p)) := by
          unfold memHit at hm
          split at hm
          · exact hm
          · cases hm
        simp only [answer_eq, ansRes, h.1.same u hu f p hd w.fvf x]
        exact ⟨p, rfl⟩
  rcases hget with ⟨p, hp⟩ | hnone
  · rw [converter_of_getConv hpr (by simp) hp]
    exact ⟨p, rfl⟩
  · rw [converter]
    dsimp only
    rw [if_neg hpr]
    unfold converterBody
    rw [PyM.run_bind_ok hnone]
    simp only
    rw [PyM.run_bind_ok (PyM.run_modify _ _)]
    obtain ⟨p, hp⟩ := splitStage_self (w := { w with previous := w.previous ++ [(u, u)] })
      (sound_prev w _ h.1.sound) n uc hu
    unfold indirect
    rw [PyM.run_bind_ok hp]
    simp only
    unfold storeAnswer
    rw [PyM.run_bind_ok (PyM.run_modify _ _), answer_eq]
    simp only [ansRes, scale_one]
    exact ⟨p, rfl⟩

theorem operands_ne_nil {u : Str} (h : ∃ c ∈ u, c ≠ '*' ∧ c ≠ '/') : operands [] (splitUnit u) ≠ [] := by
  rw [operands_eq]
  have key : ∀ (s : Str) (den : Bool) (cur : Str), (cur ≠ [] ∨ ∃ c ∈ s, c ≠ '*' ∧ c ≠ '/') →
      (readFactors den cur s).filter (fun f => decide (f.2 ≠ [])) ≠ [] := by
    intro s
    induction s with
    | nil =>
      intro den cur h
      rcases h with h | ⟨c, hc, _⟩
      · simp [readFactors, h]
      · cases hc
    | cons c s ih =>
      intro den cur h
      rw [readFactors]
      by_cases hcur : cur = []
      · subst hcur
        have hs : ∃ x ∈ c :: s, x ≠ '*' ∧ x ≠ '/' := by
          rcases h with h | h
          · exact absurd rfl h
          · exact h
        obtain ⟨x, hx, hx1, hx2⟩ := hs
        split
        · next e =>
          have : x ∈ s := by
            rcases List.mem_cons.1 hx with rfl | hx
            · exact absurd e hx1
            · exact hx
          rw [List.filter_cons]
          simpa using ih false [] (Or.inr ⟨x, this, hx1, hx2⟩)
        · split
          · next e =>
            have : x ∈ s := by
              rcases List.mem_cons.1 hx with rfl | hx
              · exact absurd e hx2
              · exact hx
            rw [List.filter_cons]
            simpa using ih true [] (Or.inr ⟨x, this, hx1, hx2⟩)
          · exact ih den [c] (Or.inl (by simp))
      · split
        · rw [List.filter_cons]; simp [hcur]
        · split
          · rw [List.filter_cons]; simp [hcur]
          · exact ih den _ (Or.inl (by simp))
  exact key u false [] (Or.inr h)

end Unyts
