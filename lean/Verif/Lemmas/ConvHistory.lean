import Verif.Lemmas.ConvTop
import Verif.Spec.Session

/- What the memory holds about simple names after any session. -/
namespace Unyts
open Spec

/-! ### `_converter` on two simple names -/

theorem splitStage_simple {gc : Option Rat → Str → Str → CallM} {a b : Str} (ha : SimpleName a) (hb : SimpleName b)
    {w w1 : World} (h : gc (some 1) a b w = (.ok none, w1)) :
    splitStage gc a b w = (.ok none, w1) ∨ splitStage gc a b w = (.ok none, w) := by
  have opnil : operands [] (splitUnit []) = [] := by rw [operands_eq]; simp [factors, readFactors]
  unfold splitStage
  by_cases hna : a = []
  · subst hna
    right
    rw [opnil]
    rfl
  · rw [operands_simple ha hna]
    by_cases hnb : b = []
    · subst hnb
      right
      rw [opnil]
      rfl
    · left
      rw [operands_simple hb hnb]
      have h1 : matchPart gc false (false, a) [(false, b)] w = (.ok none, w1) := by
        rw [matchPart, PyM.run_bind_ok h]; rfl
      have h2 : matchParts gc false [(false, a)] [(false, b)] w = (.ok none, w1) := by
        rw [matchParts, PyM.run_bind_ok h1]; rfl
      rw [PyM.run_bind_ok h2]; rfl

theorem pairStage_simple {cv : Option Rat → Str → Str → CallM} {a b : Str} (ha : SimpleName a) (hb : SimpleName b)
    (w : World) : pairStage cv a b w = (.ok none, w) := by
  unfold pairStage
  rw [PyM.run_bind_ok (PyM.run_get _), simple_iff_not_isPair.1 ha, simple_iff_not_isPair.1 hb]
  rfl

theorem ratioStage_simple {cv : Option Rat → Str → Str → CallM} {a b : Str} (ha : SimpleName a) (w : World) :
    ratioStage cv a b w = (.ok none, w) := by
  unfold ratioStage
  rw [ratioParts_simple ha.1]
  rfl

/-- On two simple names `_converter` answers what `_get_conversion` answers; when that is nothing, the pair is noted as
impossible. -/
theorem converter_simple {w : World} (hg : WF w.net) {a b : Str} (ha : SimpleName a) (hb : SimpleName b) (n : Nat)
    (uc : Option Bool) (v : Option Rat) (hp : (a, b) ∉ w.previous) :
    (converter (n + 2) uc v a b w = getConv (n + 1) uc v a b w ∧ (getConv (n + 1) uc v a b w).1 ≠ .ok none) ∨
    ((getConv (n + 1) uc v a b w).1 = .ok none ∧
      ∃ w2, SameBase w w2 ∧ w2.memory = w.memory ∧ w2.previous = w.previous ++ [(a, b)] ∧
        converter (n + 2) uc v a b w = (.ok none, w2.remember a b none)) := by
  cases hgc : getConv (n + 1) uc v a b w with
  | mk r w1 =>
    by_cases hr : r = .ok none
    · right
      subst hr
      refine ⟨rfl, ?_⟩
      have ht := tempParts_noSlash (d := w.dic) (b := b) ha.1
      have hbase : SameBase w w1 := by have := base_getConv hg (n + 1) uc v a b; rw [hgc] at this; exact this
      obtain ⟨_, hprev, hcase⟩ := getConv_direct hg n uc v ht hgc
      rcases hcase with ⟨f, p, h1, _⟩ | ⟨e, h1, _⟩ | ⟨_, hmem, hwhy⟩
      · exact absurd h1.symm (ansRes_not_none _ _ _ _)
      · cases h1
      · -- the second call of `_get_conversion`, for the only part
        let w2 : World := { w1 with previous := w1.previous ++ [(a, b)] }
        have hb2 : SameBase w w2 := hbase.trans ⟨rfl, rfl, rfl, rfl, rfl⟩
        have again : ∃ w3, getConv (n + 1) uc (some 1) a b w2 = (.ok none, w3) ∧ Quiet w2 w3 := by
          have ht2 : tempParts w2.dic a b = none := tempParts_noSlash ha.1
          have hhit : memHit w2 uc a b = memHit w uc a b := by
            unfold memHit
            rw [hb2.resolve]
            show (if resolveCache w uc = true then Py.dictGet w1.memory (a, b) else none) = _
            rw [hmem]
          rw [getConv_eq n uc (some 1) w2 ht2, hhit]
          rcases hwhy with h | ⟨h, hq, hs⟩
          · rw [h]; exact ⟨w2, rfl, .refl _⟩
          · rw [h]
            simp only
            rw [hb2.quick, hq]
            simp only
            obtain ⟨w3, h3⟩ := searchNetwork_none (w2 := w2) (show searchNetwork a b w = (.ok none, _) from
              Prod.ext hs rfl) hb2
            have hq3 := searchNetwork_quiet a b w2
            rw [h3] at hq3
            refine ⟨w3, ?_, hq3⟩
            unfold networkConversion
            rw [PyM.run_bind_ok h3]
            rfl
        obtain ⟨w3, h3, hq3⟩ := again
        have hsp := splitStage_simple (gc := getConv (n + 1) uc) ha hb h3
        have key : ∀ w4, splitStage (getConv (n + 1) uc) a b w2 = (.ok none, w4) →
            converter (n + 2) uc v a b w = (.ok none, w4.remember a b none) := by
          intro w4 h4
          rw [converter]
          dsimp only
          rw [if_neg hp]
          unfold converterBody
          rw [PyM.run_bind_ok hgc]
          simp only
          rw [PyM.run_bind_ok (PyM.run_modify _ _)]
          unfold indirect
          rw [PyM.run_bind_ok h4]
          simp only
          rw [PyM.run_bind_ok (pairStage_simple ha hb _)]
          simp only
          rw [PyM.run_bind_ok (ratioStage_simple ha _)]
          simp only
          rw [PyM.run_bind_ok (PyM.run_modify _ _)]
          rfl
        rcases hsp with h4 | h4
        · exact ⟨w3, hb2.trans hq3.toSameBase, by rw [hq3.memory]; exact hmem,
            by rw [hq3.previous]; show w1.previous ++ _ = _; rw [hprev], key _ h4⟩
        · exact ⟨w2, hb2, hmem, by show w1.previous ++ _ = _; rw [hprev], key _ h4⟩
    · left
      exact ⟨converter_of_getConv hp hr hgc, hr⟩

/-! ### the invariant of sessions -/

/-- A special rule converts `a` to `b` without looking at the network. -/
def ByRule (d : Dict) (a b : Str) : Prop := ∀ g, quick1 d g a b ≠ none

theorem byRule_of {d : Dict} {g : Net} {a b : Str} (h : quick1 d g a b ≠ none) : ByRule d a b := by
  intro g'
  unfold quick1 at h ⊢
  repeat' split
  all_goals first | simp | skip
  simp_all

theorem byRule_self (d : Dict) (a : Str) : ByRule d a a := by intro g; simp [quick1]

/-- What the memory says about pairs of simple names: never something about a pair that has a rule of its own (a name
and itself, dates, percentages, dimensionless numbers); and a remembered function is the composition of direct conversions along a path between the two nodes, the path that is remembered. -/
structure Sound (w : World) : Prop where
  wf : WF w.net
  rules : ∀ a b, SimpleName a → SimpleName b → ByRule w.dic a b → Py.dictGet w.memory (a, b) = none
  path : ∀ a b f p, SimpleName a → SimpleName b → Py.dictGet w.memory (a, b) = some (some (f, p)) →
    ∃ na nb q, w.net.getNode a = .ok na ∧ w.net.getNode b = .ok nb ∧ IsPath (Linked w.net) na nb q ∧
      Along w.net q f ∧ p = q.map Step.node

theorem Sound.self {w : World} (h : Sound w) (a : Str) (ha : SimpleName a) : Py.dictGet w.memory (a, a) = none :=
  h.rules a a ha ha (byRule_self _ _)

theorem ample_budget {p : Params} (h : Ample p) : ∃ n, topBudget p = n + 2 := by
  unfold topBudget recLimit
  obtain ⟨h1, h2⟩ := h
  refine ⟨(min (p.pyLimit - 15) p.maxRecursion + 1).toNat - 2, ?_⟩
  have : 1 ≤ min (p.pyLimit - 15) p.maxRecursion := by omega
  dsimp only
  omega

theorem sound_of_same {w w' : World} (h : Sound w) (hn : w'.net = w.net) (hm : w'.memory = w.memory)
    (hd : w'.dic = w.dic) : Sound w' where
  wf := by rw [hn]; exact h.wf
  rules := by intro a b ha hb; rw [hm, hd]; exact h.rules a b ha hb
  path := by intro a b f p ha hb; rw [hm, hn]; exact h.path a b f p ha hb

theorem sound_basic : Basic Sound where
  snap := fun _ h => sound_of_same h rfl rfl rfl
  tick := fun _ h => sound_of_same h rfl rfl rfl
  prev := fun _ _ _ h => sound_of_same h rfl rfl rfl

theorem sound_prev (w : World) (pv : List (Str × Str)) (h : Sound w) : Sound { w with previous := pv } :=
  sound_of_same h rfl rfl rfl

theorem sound_wf : NeedsWF Sound := fun _ h => h.wf

theorem sound_paths : KeepsPaths Sound := by
  intro w a b p f na nb h hq hna hnb hp _ hal
  refine ⟨h.wf, ?_, ?_⟩
  · intro u t hu ht hr
    rw [remember_get_ne]
    · exact h.rules u t hu ht hr
    · intro e
      simp only [Prod.mk.injEq] at e
      obtain ⟨rfl, rfl⟩ := e
      exact hr _ hq
  · intro x y g q hx hy hm
    by_cases e : (x, y) = (a, b)
    · simp only [Prod.mk.injEq] at e
      obtain ⟨rfl, rfl⟩ := e
      rw [remember_get] at hm
      simp only [Option.some.injEq, Prod.mk.injEq] at hm
      obtain ⟨rfl, rfl⟩ := hm
      exact ⟨na, nb, p, hna, hnb, hp, hal, rfl⟩
    · rw [remember_get_ne _ _ e] at hm
      exact h.path x y g q hx hy hm

theorem sound_compound : KeepsCompound Sound := by
  intro a b hab w e h
  refine ⟨h.wf, ?_, ?_⟩
  · intro u t hu ht hr
    rw [remember_get_ne]
    · exact h.rules u t hu ht hr
    · intro e; simp only [Prod.mk.injEq] at e; exact hab ⟨e.1 ▸ hu, e.2 ▸ ht⟩
  · intro x y g q hx hy hm
    rw [remember_get_ne] at hm
    · exact h.path x y g q hx hy hm
    · intro e; simp only [Prod.mk.injEq] at e; exact hab ⟨e.1 ▸ hx, e.2 ▸ hy⟩

theorem sound_negative {w : World} (h : Sound w) {a b : Str} (hab : ¬ ByRule w.dic a b) :
    Sound (w.remember a b none) := by
  refine ⟨h.wf, ?_, ?_⟩
  · intro u t hu ht hr
    rw [remember_get_ne]
    · exact h.rules u t hu ht hr
    · intro e
      simp only [Prod.mk.injEq] at e
      obtain ⟨rfl, rfl⟩ := e
      exact hab hr
  · intro x y g q hx hy hm
    by_cases e : (x, y) = (a, b)
    · rw [e, remember_get] at hm; cases hm
    · rw [remember_get_ne _ _ e] at hm
      exact h.path x y g q hx hy hm

theorem quick_self (w : World) (a : Str) : quick w a a = some (idFn, [nodeOrName w.net a]) := by
  simp [quick, quick1]

theorem sound_converterTop {w : World} (h : Sound w) (hp : Ample w.par) (uc : Option Bool) (v : Option Rat) (a b : Str) :
    Sound (converterTop uc v a b w).2 := by
  rw [converterTop_eq]
  obtain ⟨n, hn⟩ := ample_budget hp
  rw [hn]
  by_cases hab : SimpleName a ∧ SimpleName b
  · by_cases hpr : (a, b) ∈ w.previous
    · rw [converter]; dsimp only; rw [if_pos hpr]; exact h
    · rcases converter_simple h.wf hab.1 hab.2 n uc v hpr with ⟨h1, _⟩ | ⟨h1, w2, hb, hm, _, h2⟩
      · rw [h1]
        exact inv_getConv sound_basic sound_wf sound_paths (n + 1) uc v a b w h
      · rw [h2]
        refine sound_negative (sound_of_same h hb.net hm hb.dic) ?_
        intro hr
        rw [hb.dic] at hr
        have ht := tempParts_noSlash (d := w.dic) (b := b) hab.1.1
        rw [getConv_eq n uc v w ht] at h1
        have : memHit w uc a b = none := by
          unfold memHit; rw [h.rules a b hab.1 hab.2 hr]; simp
        rw [this] at h1
        have hq : ∃ f p, quick w a b = some (f, p) := by
          unfold quick
          cases hq1 : quick1 w.dic w.net a b with
          | none => exact absurd hq1 (hr _)
          | some r => exact ⟨r.1, r.2, rfl⟩
        obtain ⟨f, p, hq⟩ := hq
        rw [hq] at h1
        simp only [answer_eq] at h1
        exact ansRes_not_none _ _ _ _ h1
  · exact inv_converter sound_basic sound_wf sound_paths sound_compound _ uc v a b (sound_compound a b hab)
      (fun w h => sound_basic.prev w (a, b) hab h) w h

/-- a state property that keeps the settings -/
def SoundAmple (w : World) : Prop := Sound w ∧ Ample w.par

theorem inv_converterTop (uc : Option Bool) (v : Option Rat) (a b : Str) : Inv SoundAmple (converterTop uc v a b) := by
  intro w h
  refine ⟨sound_converterTop h.1 h.2 uc v a b, ?_⟩
  have := base_converter h.1.wf (topBudget w.par) uc v a b
  rw [converterTop_eq, this.par]
  exact h.2

section generic
variable {I : World → Prop} (hT : ∀ uc v a b, Inv I (converterTop uc v a b)) (hprev : ∀ w pv, I w → I { w with previous := pv })
include hT

theorem inv_density (uc : Option Bool) (v : Option Rat) (a b : Str) : Inv I (densityConversion uc v a b) := by
  unfold densityConversion
  refine .bind .get fun w => ?_
  split
  · cases w.par.density with
    | none => exact .raise _
    | some d => exact .bind (hT _ _ _ _) fun _ => inv_answer _ _ _
  · split
    · cases w.par.density with
      | none => exact .raise _
      | some d => exact .bind (hT _ _ _ _) fun _ => inv_answer _ _ _
    · exact .pure _

omit hT in
theorem inv_forget (hT : ∀ uc v a b, Inv I (converterTop uc v a b)) (hforget : ∀ w, I w → I { w with previous := [] }) (uc : Option Bool) (v : Option Rat) (a b : Str) : Inv I (convertClean uc v a b) := by
  unfold convertClean
  refine .bind (.modify fun w h => hforget w h) fun _ => ?_
  refine .bind (inv_density hT _ _ _ _) fun r => ?_
  have tail : ∀ r : Option (Conv × Path), Inv I (match r with
      | some (c, _) => pure (some c)
      | none => do
        let w ← PyM.get
        if w.par.raiseError then PyM.raise .noConversionFound else pure none : PyM World (Option Conv)) := by
    intro r
    match r with
    | some (c, _) => exact .pure _
    | none =>
      refine .bind .get fun w => ?_
      split
      · exact .raise _
      · exact .pure _
  match r with
  | some r => exact .bind (.pure _) tail
  | none => exact .bind (hT _ _ _ _) tail

/-- ... when only forgetting what was tried keeps the invariant -/
theorem inv_convert_forget (hforget : ∀ w, I w → I { w with previous := [] }) (v : Option Rat) (a b : Option Str)
    (uc : Option Bool) : Inv I (convert v a b uc) := by
  unfold convert
  exact .bind .get fun w => .bind (.lift _) fun _ => inv_forget hT hforget _ _ _ _

include hprev in
theorem inv_convertClean (uc : Option Bool) (v : Option Rat) (a b : Str) : Inv I (convertClean uc v a b) :=
  inv_forget hT (fun w h => hprev w _ h) uc v a b

include hprev in
theorem inv_convert (v : Option Rat) (a b : Option Str) (uc : Option Bool) : Inv I (convert v a b uc) := by
  unfold convert
  exact .bind .get fun w => .bind (.lift _) fun _ => inv_convertClean hT hprev _ _ _ _

theorem inv_convertible (a b : Str) (uc : Option Bool) : Inv I (convertible a b uc) := by
  intro w h
  have := hT uc (some 1) a b w h
  unfold convertible
  cases hr : converterTop uc (some 1) a b w with
  | mk r w1 =>
    rw [hr] at this
    match r with
    | .ok r => exact this
    | .error e => cases e <;> exact this

theorem inv_simPandas (v : Rat) (a b : Str) (uc : Option Bool) : Inv I (convertForSimPandas v a b uc) := by
  unfold convertForSimPandas
  refine .bind (inv_convertible hT _ _ _) fun r => ?_
  cases r
  · exact .pure _
  · refine .bind (hT _ _ _ _) fun r => ?_
    match r with
    | none => exact .pure _
    | some (c, _) => exact .lift _

end generic

/-! ### growing networks -/

theorem along_mono {g g' : Net} (h : ∀ x y f, Direct g x y f → Direct g' x y f) {p : List UNode} {f : Fn}
    (ha : Along g p f) : Along g' p f := by
  induction ha with
  | single a => exact .single a
  | step hd _ ih => exact .step (h _ _ _ hd) ih

theorem sound_grow {w : World} (h : Sound w) {g : Net} (hg : WF g)
    (hn : ∀ s n, w.net.getNode s = .ok n → g.getNode s = .ok n)
    (hd : ∀ x y f, Direct w.net x y f → Direct g x y f) : Sound { w with net := g } where
  wf := hg
  rules := h.rules
  path := by
    intro a b f p ha hb hm
    obtain ⟨na, nb, q, h1, h2, h3, h4, h5⟩ := h.path a b f p ha hb hm
    exact ⟨na, nb, q, hn _ _ h1, hn _ _ h2, ⟨h3.1.mono (fun x y ⟨f, hf⟩ => ⟨f, hd _ _ _ hf⟩), h3.2⟩, along_mono hd h4, h5⟩

theorem soundAmple_call {c : Call} (hc : KeepsAmple c) {w : World} (h : SoundAmple w) : SoundAmple (c.run w) := by
  cases c with
  | convert v a b uc =>
    exact inv_convert inv_converterTop (fun w _ h => ⟨sound_prev w _ h.1, h.2⟩) v a b uc w h
  | convertible a b uc => exact inv_convertible inv_converterTop a b uc w h
  | simPandas v a b uc => exact inv_simPandas inv_converterTop v a b uc w h
  | search a b => exact ⟨inv_searchNetwork sound_basic a b w h.1, (searchNetwork_quiet a b w).par ▸ h.2⟩
  | setUnit a =>
    obtain ⟨g, h1, h2, _, h3, h4⟩ := setUnit_spec h.1.wf a
    simp only [Call.run, setUnitW, h1]
    exact ⟨sound_grow h.1 h2 h3 (fun x y f hf => (h4 x y f).2 hf), h.2⟩
  | setConversion a b f rev =>
    obtain ⟨g, na, nb, h1, h2, _, _, _, h3, h4⟩ := setConversion_spec h.1.wf a b f rev
    simp only [Call.run, setConversionW, h1]
    exact ⟨sound_grow h.1 h2 h3 (fun x y k hk => (h4 x y k).2 (Or.inl hk)), h.2⟩
  | setFvf b => exact ⟨sound_of_same h.1 rfl rfl rfl, h.2⟩
  | cleanMemory => exact ⟨⟨h.1.wf, fun _ _ _ _ _ => rfl, by intro a b f p _ _ hm; cases hm⟩, h.2⟩
  | settings p => exact ⟨sound_of_same h.1 rfl rfl rfl, hc⟩

theorem soundAmple_session (cs : List Call) (hc : ∀ c ∈ cs, KeepsAmple c) {w : World} (h : SoundAmple w) :
    SoundAmple (session cs w) := by
  induction cs generalizing w with
  | nil => exact h
  | cons c cs ih =>
    exact ih (fun c' h' => hc c' (List.mem_cons_of_mem _ h')) (soundAmple_call (hc c List.mem_cons_self) h)

theorem sound_fresh {w : World} (hg : WF w.net) (hm : w.memory = []) : Sound w where
  wf := hg
  rules := by intro a b _ _ _; rw [hm]; rfl
  path := by intro a b f p _ _ h; rw [hm] at h; cases h

end Unyts
