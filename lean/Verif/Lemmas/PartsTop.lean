import Verif.Lemmas.ConvParts
import Verif.Lemmas.ConvRepeat

/- Questions about products and ratios of units, and the pairs noted as tried. -/
namespace Unyts
open Spec

theorem prev_converterTop {w : World} (hg : WF w.net) (hp : Ample w.par) {a b : Str} (ha : SimpleName a) (hb : SimpleName b)
    (uc : Option Bool) (v : Option Rat) {e : Str × Str} (he : e ∈ (converterTop uc v a b w).2.previous) :
    e ∈ w.previous ∨ e = (a, b) := by
  rw [converterTop_eq] at he
  obtain ⟨n, hn⟩ := ample_budget hp
  rw [hn] at he
  by_cases hpr : (a, b) ∈ w.previous
  · rw [converter] at he; dsimp only at he; rw [if_pos hpr] at he; exact Or.inl he
  · rcases converter_simple hg ha hb n uc v hpr with ⟨h1, _⟩ | ⟨_, w2, _, _, hm, h2⟩
    · rw [h1, (getConv_direct hg n uc v (tempParts_noSlash ha.1) rfl).2.1] at he
      exact Or.inl he
    · rw [h2] at he
      have : e ∈ w.previous ++ [(a, b)] := hm ▸ he
      simpa using this

theorem prev_convertible {w : World} (hg : WF w.net) (hp : Ample w.par) {a b : Str} (ha : SimpleName a) (hb : SimpleName b)
    (uc : Option Bool) {e : Str × Str} (he : e ∈ (convertible a b uc w).2.previous) : e ∈ w.previous ∨ e = (a, b) := by
  refine prev_converterTop hg hp ha hb uc (some 1) ?_
  unfold convertible at he
  cases hr : converterTop uc (some 1) a b w with
  | mk r w1 =>
    rw [hr] at he
    match r with
    | .ok r => exact he
    | .error e => cases e <;> exact he

/-- asking about names leaves no other pair noted as tried -/
theorem prev_call {c : Call} {w : World} (hg : WF w.net) (hp : Ample w.par) (hc : AsksNames w c) {e : Str × Str}
    (he : e ∈ (c.run w).previous) : e ∈ w.previous ∨ SimpleName e.1 ∧ SimpleName e.2 := by
  have sw : ∀ {a b : Str}, SimpleName a → SimpleName b → ∀ {l : List (Str × Str)}, e ∈ l ∨ e = (a, b) →
      e ∈ l ∨ SimpleName e.1 ∧ SimpleName e.2 := by
    rintro a b ha hb l (h | rfl)
    · exact Or.inl h
    · exact Or.inr ⟨ha, hb⟩
  cases c with
  | convert v a b uc =>
    cases a with
    | none => exact hc.elim
    | some a =>
      cases b with
      | none => exact hc.elim
      | some b =>
        obtain ⟨ha, hb, hd, hcache⟩ := hc
        change e ∈ (convert v (some a) (some b) uc w).2.previous at he
        rw [convert_clean ha.1 hb.1, convertClean_eq hg hd] at he
        right
        rcases sw ha.2 hb.2 (prev_converterTop (w := { w with previous := [] }) hg hp ha.2 hb.2 uc v he) with h | h
        · cases h
        · exact h
  | convertible a b uc => exact sw hc.1 hc.2.1 (prev_convertible hg hp hc.1 hc.2.1 uc he)
  | simPandas v a b uc =>
    obtain ⟨ha, hb, hcache, hpc⟩ := hc
    have h1 := alike_convertible hg hp ha hb (uc := none) (w := w) hpc
    change e ∈ (convertForSimPandas v a b uc w).2.previous at he
    unfold convertForSimPandas at he
    cases hr : convertible a b none w with
    | mk r w1 =>
      have hq : e ∈ w1.previous → e ∈ w.previous ∨ SimpleName e.1 ∧ SimpleName e.2 := fun h =>
        sw ha hb (prev_convertible hg hp ha hb none (by rw [hr]; exact h))
      rw [hr] at h1
      cases r with
      | error e' => rw [PyM.run_bind_error hr] at he; exact hq he
      | ok r =>
        rw [PyM.run_bind_ok hr] at he
        cases r with
        | false => exact hq he
        | true =>
          simp only [if_true] at he
          cases hr2 : converterTop uc (some v) a b w1 with
          | mk r2 w2 =>
            have h2 : e ∈ w2.previous → e ∈ w.previous ∨ SimpleName e.1 ∧ SimpleName e.2 := fun h => by
              rcases prev_converterTop (w := w1) (by rw [h1.net]; exact hg) (by rw [h1.par]; exact hp) ha hb uc (some v)
                (by rw [hr2]; exact h) with h | rfl
              · exact hq h
              · exact Or.inr ⟨ha, hb⟩
            cases r2 with
            | error e' => rw [PyM.run_bind_error hr2] at he; exact h2 he
            | ok r2 =>
              rw [PyM.run_bind_ok hr2] at he
              match r2 with
              | none => exact h2 he
              | some (c, p) => exact h2 he
  | search a b =>
    left
    rw [← (searchNetwork_quiet a b w).previous]
    exact he
  | _ => exact hc.elim

theorem prev_session {cs : List Call} {w : World} (hg : WF w.net) (hp : Ample w.par) (hc : ∀ c ∈ cs, AsksNames w c)
    {e : Str × Str} (he : e ∈ (session cs w).previous) : e ∈ w.previous ∨ SimpleName e.1 ∧ SimpleName e.2 := by
  induction cs generalizing w with
  | nil => exact Or.inl he
  | cons c cs ih =>
    have h1 := alike_call hg hp (hc c List.mem_cons_self)
    rcases ih (w := c.run w) (by rw [h1.net]; exact hg) (by rw [h1.par]; exact hp)
      (fun c' h' => asksNames_congr h1 (hc c' (List.mem_cons_of_mem _ h'))) he with h | h
    · exact prev_call hg hp (hc c List.mem_cons_self) h
    · exact Or.inr h

/-- the converter on a unit whose factors convert one by one: the answer is noted, and so is the pair -/
theorem converterTop_unfound {w w2 : World} (hs : SoundAmple w) {a b : Str} {uc : Option Bool} (hw : Unfound w uc a b)
    (hpr : (a, b) ∉ w.previous) {ks : List Rat}
    (hp : PartsConvert uc (searchNetwork a b w).2 ((factors a).filter fun f => decide (f.2 ≠ [])) ((factors b).filter fun f => decide (f.2 ≠ [])) ks w2)
    (hne : ks ≠ []) : ∃ w3 p, SameBase w w3 ∧ Py.dictGet w3.memory (a, b) = some (some (scaleFn ks.prod, p)) ∧
      (a, b) ∈ w3.previous ∧ ∀ x, converterTop uc (some x) a b w = (.ok (some (.num (x * ks.prod), p)), w3) := by
  obtain ⟨n, hn⟩ := ample_budget hs.2
  obtain ⟨l, hl, hm⟩ := matchParts_parts hp (soundAmple_call (c := .search a b) trivial hs) n (w.previous ++ [(a, b)]) false
  rw [← operands_eq, ← operands_eq] at hm
  have hsp : ∃ p, splitStage (getConv (n + 1) uc) a b ((searchNetwork a b w).2.withPrev (w.previous ++ [(a, b)])) =
      (.ok (some (scaleFn ks.prod, p)), w2.withPrev (w.previous ++ [(a, b)])) := by
    unfold splitStage
    rw [PyM.run_bind_ok hm]
    cases l with
    | nil => exact absurd (by simpa using hl.symm) hne
    | cons e l =>
      refine ⟨e.2 ++ l.flatMap (·.2), ?_⟩
      have : ks.prod = l.foldl (fun acc e => acc * e.1) e.1 := by
        rw [foldl_prod, ← hl]; simp
      rw [this]
      rfl
  obtain ⟨p, hsp⟩ := hsp
  have key : ∀ x, converterTop uc (some x) a b w =
      (.ok (some (.num (x * ks.prod), p)), (w2.withPrev (w.previous ++ [(a, b)])).remember a b (some (scaleFn ks.prod, p))) := by
    intro x
    rw [converterTop_eq, hn, converter]
    dsimp only
    rw [if_neg hpr]
    unfold converterBody
    have hgn : getConv (n + 1) uc (some x) a b w =
        (.ok none, (searchNetwork a b w).2.withPrev w.previous) := getConv_unfound hw n (some x) w.previous
    rw [PyM.run_bind_ok hgn]
    simp only
    rw [PyM.run_bind_ok (PyM.run_modify _ _)]
    unfold indirect
    show (splitStage (getConv (n + 1) uc) a b >>= _) ((searchNetwork a b w).2.withPrev (w.previous ++ [(a, b)])) = _
    rw [PyM.run_bind_ok hsp]
    simp only [storeAnswer]
    rw [PyM.run_bind_ok (PyM.run_modify _ _), answer_eq]
    rfl
  refine ⟨_, p, ?_, remember_get _ _ _ _, ?_, key⟩
  · have := base_convertTop hs.1.wf uc (some 0) a b
    rw [key 0] at this
    exact this
  · show (a, b) ∈ w.previous ++ [(a, b)]
    simp

theorem converterTop_parts {w w2 : World} (hs : SoundAmple w) {a b : Str} {uc : Option Bool} (hw : NotWhole w uc a b)
    (hpr : (a, b) ∉ w.previous) {ks : List Rat}
    (hp : PartsConvert uc w ((factors a).filter fun f => decide (f.2 ≠ [])) ((factors b).filter fun f => decide (f.2 ≠ [])) ks w2)
    (hne : ks ≠ []) : ∃ w3 p, SameBase w w3 ∧ Py.dictGet w3.memory (a, b) = some (some (scaleFn ks.prod, p)) ∧
      (a, b) ∈ w3.previous ∧ ∀ x, converterTop uc (some x) a b w = (.ok (some (.num (x * ks.prod), p)), w3) :=
  converterTop_unfound hs hw.unfound hpr (by rw [hw.search]; exact hp) hne

/-- a noted answer is used again -/
theorem converterTop_hit {w : World} (hp : Ample w.par) {a b : Str} {uc : Option Bool} (hc : resolveCache w uc = true)
    (ht : ¬ TempRatios w.dic a b) {f : Fn} {p : Path} (hm : Py.dictGet w.memory (a, b) = some (some (f, p)))
    (hpr : (a, b) ∉ w.previous) (v : Option Rat) : converterTop uc v a b w = (ansRes v f p w.fvf, w) := by
  obtain ⟨n, hn⟩ := ample_budget hp
  rw [converterTop_eq, hn, converter]
  dsimp only
  rw [if_neg hpr]
  have hmh : memHit w uc a b = some (some (f, p)) := by unfold memHit; rw [hc, hm]; rfl
  have hg : getConv (n + 1) uc v a b w = (ansRes v f p w.fvf, w) := by
    rw [getConv_eq n uc v w (tempParts_none ht), hmh]
    simp only [answer_eq]
  unfold converterBody
  cases hr : ansRes v f p w.fvf with
  | error e => rw [hr] at hg; rw [PyM.run_bind_error hg]
  | ok r =>
    rw [hr] at hg
    rw [PyM.run_bind_ok hg]
    cases r with
    | none => exact absurd hr (ansRes_not_none _ _ _ _)
    | some r => rfl

/-- a pair noted as tried is refused -/
theorem convertible_tried {w : World} {a b : Str} (h : (a, b) ∈ w.previous) (uc : Option Bool) :
    convertible a b uc w = (.ok false, w) := by
  unfold convertible
  rw [converterTop_eq]
  cases topBudget w.par with
  | zero => rfl
  | succ n => rw [converter]; dsimp only; rw [if_pos h]; rfl

end Unyts
