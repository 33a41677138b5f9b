import Verif.Lemmas.ConvSelf

/- Calling again with the cache on. -/
namespace Unyts
open Spec

theorem alike_prev (w : World) (pv : List (Str × Str)) : Alike w { w with previous := pv } :=
  .of_memory rfl rfl rfl rfl rfl

theorem finish_map (r : Bool) (f : Fn) (p : Path) (fvf : Option Rat) (v : Option Rat) :
    finish r (ansRes v f p fvf) = match v with
      | none => .ok (some (.fn f))
      | some x => (f fvf x).map fun y => some (.num y) := by
  cases v with
  | none => rfl
  | some x => simp only [ansRes]; cases f fvf x <;> rfl

/-- Without density: after an answer, the library answers every value with one function. -/
theorem convertClean_repeat {w w1 : World} (hg : WF w.net) {uc : Option Bool} (hc : resolveCache w uc = true)
    {v : Option Rat} {a b : Str} (hd : ¬ DensityPair w.dic a b) {c : Conv}
    (h : convertClean uc v a b w = (.ok (some c), w1)) :
    SameBase w w1 ∧ ∃ f p, ansRes v f p w.fvf = .ok (some (c, p)) ∧
      ∀ w2, Alike w1 w2 → ∀ v', convertClean uc v' a b w2 =
        (finish w.par.raiseError (ansRes v' f p w.fvf), { w2 with previous := [] }) := by
  rw [convertClean_eq hg hd] at h
  cases hr : converterTop uc v a b { w with previous := [] } with
  | mk r w' =>
    rw [hr] at h
    simp only [Prod.mk.injEq] at h
    obtain ⟨h1, rfl⟩ := h
    obtain ⟨p, rfl⟩ := finish_ok h1
    obtain ⟨hb, f, h2, h3⟩ := converterTop_repeat (w := { w with previous := [] }) hg hc hr
    have hb' : SameBase w w' := ⟨hb.net, hb.fvf, hb.par, hb.dic, hb.es⟩
    refine ⟨hb', f, p, h2, fun w2 ha v' => ?_⟩
    have hg2 : WF w2.net := by rw [ha.net, hb'.net]; exact hg
    have hd2 : ¬ DensityPair w2.dic a b := by rw [ha.dic, hb'.dic]; exact hd
    rw [convertClean_eq hg2 hd2, h3 { w2 with previous := [] } (ha.trans (alike_prev w2 [])) (by simp) v',
      ha.par, hb'.par]

/-- With density too: where the function gives a number, so does the library. -/
theorem convertClean_again {w w1 : World} (hg : WF w.net) {uc : Option Bool} (hc : resolveCache w uc = true)
    {v : Option Rat} {a b : Str} {c : Conv} (h : convertClean uc v a b w = (.ok (some c), w1)) :
    SameBase w w1 ∧ ∃ f p, ansRes v f p w.fvf = .ok (some (c, p)) ∧
      ∀ w2, Alike w1 w2 → ∀ x y, f w.fvf x = .ok y →
        convertClean uc (some x) a b w2 = (.ok (some (.num y)), { w2 with previous := [] }) := by
  by_cases hd : DensityPair w.dic a b
  · have hbase : SameBase w w1 := by
      have := (inv_convertClean (inv_base w) (fun _ _ h => ⟨h.1, h.2.trans ⟨rfl, rfl, rfl, rfl, rfl⟩⟩) uc v a b w
        ⟨hg, .refl w⟩).2
      rw [h] at this; exact this
    refine ⟨hbase, ?_⟩
    by_cases c1 : a ∉ w.dic.uncertain ∧ b ∉ w.dic.uncertain ∧ a ∈ w.dic.volume ∧ b ∈ w.dic.weight
    · -- volume to weight
      unfold convertClean at h
      rw [PyM.run_bind_ok (PyM.run_modify _ _)] at h
      obtain ⟨r, w2, h1, h2⟩ := PyM.bind_ok h
      unfold densityConversion at h1
      rw [PyM.run_bind_ok (PyM.run_get _), if_pos c1] at h1
      cases hde : w.par.density with
      | none => rw [hde] at h1; cases h1
      | some d =>
        rw [hde] at h1
        obtain ⟨rd, w3, h3, h4⟩ := PyM.bind_ok h1
        rw [answer_eq] at h4
        have hw3 : w3 = w2 := (Prod.mk.inj h4).2
        subst hw3
        have h4 := (Prod.mk.inj h4).1
        cases r with
        | none => exact absurd h4 (ansRes_not_none _ _ _ _)
        | some cp =>
          obtain ⟨c', p⟩ := cp
          have e2 : c' = c ∧ w3 = w1 := by
            have := Prod.mk.inj h2
            simp only [Except.ok.injEq, Option.some.injEq] at this
            exact this
          obtain ⟨rfl, rfl⟩ := e2
          rw [hbase.fvf] at h4
          have hp := (ansRes_ok h4).1
          subst hp
          refine ⟨timesDensity rd, _, h4, ?_⟩
          intro w4 ha x y hy
          cases rd with
          | none => cases hy
          | some cq =>
            obtain ⟨cd, q⟩ := cq
            obtain ⟨_, f, h5, h6⟩ := converterTop_repeat (w := { w with previous := [] }) hg hc h3
            unfold convertClean
            rw [PyM.run_bind_ok (PyM.run_modify _ _)]
            have hdens : densityConversion uc (some x) a b { w4 with previous := [] } =
                (.ok (some (.num y, [.str ['*'], densityStep (some (cd, q))])), { w4 with previous := [] }) := by
              have h7 := h6 { w4 with previous := [] } (ha.trans (alike_prev w4 [])) (by simp) (some d)
              have hd4 : ({ w4 with previous := [] } : World).dic = w.dic := ha.dic.trans hbase.dic
              have hp4 : ({ w4 with previous := [] } : World).par = w.par := ha.par.trans hbase.par
              have hf4 : ({ w4 with previous := [] } : World).fvf = w.fvf := ha.fvf.trans hbase.fvf
              generalize ({ w4 with previous := [] } : World) = w5 at h7 hd4 hp4 hf4 ⊢
              rw [h5] at h7
              unfold densityConversion
              rw [PyM.run_bind_ok (PyM.run_get _), hd4, if_pos c1, hp4, hde]
              simp only
              rw [PyM.run_bind_ok h7, answer_eq, hf4]
              simp only [ansRes, hy]
              rfl
            rw [PyM.run_bind_ok hdens]
            rfl
    · by_cases c2 : a ∉ w.dic.uncertain ∧ b ∉ w.dic.uncertain ∧ b ∈ w.dic.volume ∧ a ∈ w.dic.weight
      · unfold convertClean at h
        rw [PyM.run_bind_ok (PyM.run_modify _ _)] at h
        obtain ⟨r, w2, h1, h2⟩ := PyM.bind_ok h
        unfold densityConversion at h1
        rw [PyM.run_bind_ok (PyM.run_get _), if_neg c1, if_pos c2] at h1
        cases hde : w.par.density with
        | none => rw [hde] at h1; cases h1
        | some d =>
          rw [hde] at h1
          obtain ⟨rd, w3, h3, h4⟩ := PyM.bind_ok h1
          rw [answer_eq] at h4
          have hw3 : w3 = w2 := (Prod.mk.inj h4).2
          subst hw3
          have h4 := (Prod.mk.inj h4).1
          cases r with
          | none => exact absurd h4 (ansRes_not_none _ _ _ _)
          | some cp =>
            obtain ⟨c', p⟩ := cp
            have e2 : c' = c ∧ w3 = w1 := by
              have := Prod.mk.inj h2
              simp only [Except.ok.injEq, Option.some.injEq] at this
              exact this
            obtain ⟨rfl, rfl⟩ := e2
            rw [hbase.fvf] at h4
            have hp := (ansRes_ok h4).1
            subst hp
            exact ⟨_, _, h4, fun w4 ha x y hy => by cases hy⟩
      · obtain ⟨u1, u2, h | h⟩ := hd
        · exact absurd ⟨u1, u2, h⟩ c1
        · exact absurd ⟨u1, u2, h⟩ c2
  · obtain ⟨h1, f, p, h2, h3⟩ := convertClean_repeat hg hc hd h
    refine ⟨h1, f, p, h2, fun w2 ha x y hy => ?_⟩
    rw [h3 w2 ha (some x), finish_map]
    simp only [hy]
    rfl

/-! ### conversions between names leave the other answers alone -/

theorem alike_getConv {w : World} (hg : WF w.net) {a b : Str} (ha : SimpleName a) (hb : SimpleName b) (n : Nat)
    {uc : Option Bool} (hc : resolveCache w uc = true) (v : Option Rat) : Alike w (getConv (n + 1) uc v a b w).2 := by
  have hbase := base_getConv hg (n + 1) uc v a b
  have ht := tempParts_noSlash (d := w.dic) (b := b) ha.1
  cases hm : memHit w uc a b with
  | some e =>
    cases e with
    | none => rw [getConv_hit_none n uc v hm]; exact .refl w
    | some fp => rw [getConv_hit_some n uc v hm, answer_state]; exact .refl w
  | none =>
    cases hq : quick w a b with
    | some fp => rw [getConv_eq n uc v w ht, hm, hq]; simp only [answer_state]; exact .refl w
    | none =>
      have h0 : Py.dictGet w.memory (a, b) = none := by unfold memHit at hm; rw [hc] at hm; exact hm
      obtain ⟨hoth, _, _⟩ := getConv_direct hg n uc v ht rfl
      refine ⟨hbase.net, hbase.fvf, hbase.par, hbase.dic, ?_, ?_⟩
      · rintro ⟨x, y⟩ e he
        by_cases hk : (x, y) = (a, b)
        · rw [hk, h0] at he; cases he
        · rw [hoth x y hk]; exact he
      · intro x y he hor
        by_cases hk : (x, y) = (a, b)
        · simp only [Prod.mk.injEq] at hk
          obtain ⟨rfl, rfl⟩ := hk
          rcases hor with hor | hor
          · exact absurd ⟨ha, hb⟩ hor
          · exact absurd hq hor
        · rw [hoth x y hk]; exact he

/-- `_get_conversion` on names answered nothing: nothing was remembered about them, and no quick rule applies. -/
theorem getConv_none_simple {w : World} (hg : WF w.net) {a b : Str} (ha : SimpleName a) (n : Nat)
    {uc : Option Bool} (hc : resolveCache w uc = true) {v : Option Rat} (h : (getConv (n + 1) uc v a b w).1 = .ok none) :
    (∀ e, Py.dictGet w.memory (a, b) ≠ some (some e)) ∧ (Py.dictGet w.memory (a, b) = none → quick w a b = none) := by
  have ht := tempParts_noSlash (d := w.dic) (b := b) ha.1
  obtain ⟨_, _, hcase⟩ := getConv_direct hg n uc v ht rfl
  have hmh : memHit w uc a b = Py.dictGet w.memory (a, b) := by unfold memHit; rw [hc]; rfl
  rcases hcase with ⟨f, p, h1, _⟩ | ⟨e, h1, _⟩ | ⟨_, _, h1 | ⟨h1, h2, _⟩⟩
  · rw [h1] at h; exact absurd h (ansRes_not_none _ _ _ _)
  · rw [h1] at h; cases h
  · rw [hmh] at h1
    exact ⟨fun e he => (by rw [h1] at he; simp at he), fun he => (by rw [h1] at he; simp at he)⟩
  · rw [hmh] at h1
    exact ⟨fun e he => (by rw [h1] at he; simp at he), fun _ => h2⟩

theorem alike_converterTop {w : World} (hg : WF w.net) (hp : Ample w.par) {a b : Str} (ha : SimpleName a)
    (hb : SimpleName b) {uc : Option Bool} (hc : resolveCache w uc = true) (v : Option Rat) :
    Alike w (converterTop uc v a b w).2 := by
  rw [converterTop_eq]
  obtain ⟨n, hn⟩ := ample_budget hp
  rw [hn]
  by_cases hpr : (a, b) ∈ w.previous
  · rw [converter]; dsimp only; rw [if_pos hpr]; exact .refl w
  · rcases converter_simple hg ha hb n uc v hpr with ⟨h1, _⟩ | ⟨h0, w2, hb2, hm, _, h2⟩
    · rw [h1]; exact alike_getConv hg ha hb n hc v
    · rw [h2]
      obtain ⟨g1, g2⟩ := getConv_none_simple hg ha n hc h0
      refine ⟨hb2.net, hb2.fvf, hb2.par, hb2.dic, ?_, ?_⟩
      · rintro ⟨x, y⟩ e he
        by_cases hk : (x, y) = (a, b)
        · rw [hk] at he; exact absurd he (g1 e)
        · rw [remember_get_ne _ _ hk, hm]; exact he
      · intro x y he hor
        by_cases hk : (x, y) = (a, b)
        · simp only [Prod.mk.injEq] at hk
          obtain ⟨rfl, rfl⟩ := hk
          rcases hor with hor | hor
          · exact absurd ⟨ha, hb⟩ hor
          · exact absurd (g2 he) hor
        · rw [remember_get_ne _ _ hk, hm]; exact he

theorem alike_convertible {w : World} (hg : WF w.net) (hp : Ample w.par) {a b : Str} (ha : SimpleName a)
    (hb : SimpleName b) {uc : Option Bool} (hc : resolveCache w uc = true) : Alike w (convertible a b uc w).2 := by
  have := alike_converterTop hg hp ha hb hc (some 1)
  unfold convertible
  cases hr : converterTop uc (some 1) a b w with
  | mk r w1 =>
    rw [hr] at this
    match r with
    | .ok r => exact this
    | .error e => cases e <;> exact this

theorem alike_call {c : Call} {w : World} (hg : WF w.net) (hp : Ample w.par) (hc : AsksNames w c) : Alike w (c.run w) := by
  cases c with
  | convert v a b uc =>
    cases a with
    | none => exact hc.elim
    | some a =>
      cases b with
      | none => exact hc.elim
      | some b =>
        obtain ⟨ha, hb, hd, hcache⟩ := hc
        show Alike w (convert v (some a) (some b) uc w).2
        rw [convert_clean ha.1 hb.1, convertClean_eq hg hd]
        exact (alike_prev w []).trans
          (alike_converterTop (w := { w with previous := [] }) hg hp ha.2 hb.2 hcache v)
  | convertible a b uc => exact alike_convertible hg hp hc.1 hc.2.1 hc.2.2
  | simPandas v a b uc =>
    obtain ⟨ha, hb, hcache, hpc⟩ := hc
    have h1 := alike_convertible hg hp ha hb (uc := none) (w := w) hpc
    show Alike w (convertForSimPandas v a b uc w).2
    unfold convertForSimPandas
    cases hr : convertible a b none w with
    | mk r w1 =>
      rw [hr] at h1
      cases r with
      | error e => rw [PyM.run_bind_error hr]; exact h1
      | ok r =>
        rw [PyM.run_bind_ok hr]
        cases r with
        | false => exact h1
        | true =>
          simp only [if_true]
          have h2 := alike_converterTop (w := w1) (by rw [h1.net]; exact hg) (by rw [h1.par]; exact hp) ha hb
            (uc := uc) (by unfold resolveCache; rw [h1.par]; exact hcache) (some v)
          cases hr2 : converterTop uc (some v) a b w1 with
          | mk r2 w2 =>
            rw [hr2] at h2
            cases r2 with
            | error e => rw [PyM.run_bind_error hr2]; exact h1.trans h2
            | ok r2 =>
              rw [PyM.run_bind_ok hr2]
              match r2 with
              | none => exact h1.trans h2
              | some (c, p) => exact h1.trans h2
  | search a b => 
    have h := searchNetwork_quiet a b w
    exact .of_memory h.net h.fvf h.par h.dic h.memory
  | setUnit => exact hc.elim
  | setConversion => exact hc.elim
  | setFvf => exact hc.elim
  | cleanMemory => exact hc.elim
  | settings => exact hc.elim

theorem asksNames_congr {w w' : World} (h : Alike w w') {c : Call} (hc : AsksNames w c) : AsksNames w' c := by
  cases c with
  | convert v a b uc =>
    cases a <;> cases b <;> first | exact hc.elim | (unfold AsksNames at *; rw [h.dic, h.par]; exact hc)
  | convertible a b uc => unfold AsksNames at *; rw [h.par]; exact hc
  | simPandas v a b uc => unfold AsksNames at *; rw [h.par]; exact hc
  | search => trivial
  | _ => exact hc.elim

theorem alike_session {cs : List Call} {w : World} (hg : WF w.net) (hp : Ample w.par) (hc : ∀ c ∈ cs, AsksNames w c) :
    Alike w (session cs w) := by
  induction cs generalizing w with
  | nil => exact .refl w
  | cons c cs ih =>
    have h1 := alike_call hg hp (hc c List.mem_cons_self)
    exact h1.trans (ih (by rw [h1.net]; exact hg) (by rw [h1.par]; exact hp)
      (fun c' h' => asksNames_congr h1 (hc c' (List.mem_cons_of_mem _ h'))))

end Unyts
