import Verif.Lemmas.ConvValue
import Verif.Spec.Compound
import Mathlib.Tactic.Ring

/- Units made of several names: rules for whole ratios, and conversion part by part. -/
namespace Unyts
open Spec

/-- the state with another list of visited pairs -/
def World.withPrev (w : World) (pv : List (Str × Str)) : World := { w with previous := pv }

/-- run from `w`, but with the visited pairs `pv` before and after -/
def withPrevR (r : Res α × World) (pv : List (Str × Str)) : Res α × World := (r.1, r.2.withPrev pv)

theorem snap_withPrev {c : Prop} [Decidable c] (w : World) (pv : List (Str × Str)) :
    (if c then (w.withPrev pv).snap else w.withPrev pv) = (if c then w.snap else w).withPrev pv := by
  split <;> rfl

theorem searchNetwork_withPrev (a b : Str) (w : World) (pv : List (Str × Str)) :
    searchNetwork a b (w.withPrev pv) = withPrevR (searchNetwork a b w) pv := by
  obtain ⟨net, es, prev, fvf, mem, par, dic, sched, clock⟩ := w
  unfold searchNetwork withPrevR World.withPrev
  dsimp only
  cases net.hasName a && net.hasName b with
  | false => rfl
  | true =>
    cases net.getNode a with
    | error e => rfl
    | ok na =>
      cases net.getNode b with
      | error e => rfl
      | ok nb =>
        simp only [if_true]
        cases par.algorithm with
        | bfs => rfl
        | other => rfl
        | lean => simp only; split <;> rfl
        | hybrid => simp only; split <;> rfl
        | dfs => simp only; split <;> rfl

theorem networkConversion_withPrev (v : Option Rat) (a b : Str) (w : World) (pv : List (Str × Str)) :
    networkConversion v a b (w.withPrev pv) = withPrevR (networkConversion v a b w) pv := by
  unfold networkConversion
  rw [PyM.run_bind, PyM.run_bind, searchNetwork_withPrev]
  unfold withPrevR
  cases hs : searchNetwork a b w with
  | mk r w1 =>
    cases r with
    | error e => rfl
    | ok r =>
      cases r with
      | none => rfl
      | some p =>
        simp only
        rw [PyM.run_bind_ok (PyM.run_get _), PyM.run_bind_ok (PyM.run_get _)]
        show (PyM.lift (lambdaConversion w1.net p) >>= _) _ = _
        cases lambdaConversion w1.net p with
        | error e => rfl
        | ok f =>
          rw [PyM.run_bind_ok (PyM.run_lift_ok _ _), PyM.run_bind_ok (PyM.run_lift_ok _ _),
            PyM.run_bind_ok (PyM.run_modify _ _), PyM.run_bind_ok (PyM.run_modify _ _)]
          cases v with
          | none => rfl
          | some x =>
            simp only
            show (PyM.lift (applyConversion w1.net w1.fvf x p) >>= _) _ = _
            cases applyConversion w1.net w1.fvf x p <;> rfl

/-- On names, `_get_conversion` does not read the visited pairs nor the budget (as long as there is one). -/
theorem getConv_withPrev {a : Str} (ha : SimpleName a) (b : Str) (n m : Nat) (uc : Option Bool) (v : Option Rat)
    (w : World) (pv : List (Str × Str)) :
    getConv (n + 1) uc v a b (w.withPrev pv) = withPrevR (getConv (m + 1) uc v a b w) pv := by
  rw [getConv_eq n uc v _ (tempParts_noSlash ha.1), getConv_eq m uc v _ (tempParts_noSlash ha.1)]
  have h1 : memHit (w.withPrev pv) uc a b = memHit w uc a b := rfl
  have h2 : quick (w.withPrev pv) a b = quick w a b := rfl
  rw [h1, h2]
  cases memHit w uc a b with
  | some e =>
    cases e with
    | none => rfl
    | some e => simp only [answer_eq]; rfl
  | none =>
    simp only
    cases quick w a b with
    | some e => simp only [answer_eq]; rfl
    | none => exact networkConversion_withPrev v a b w pv

/-- What `convert` answered for two names is what `_get_conversion` answers, whatever the visited pairs. -/
theorem getConv_of_convert {w w1 : World} (h : SoundAmple w) {a b : Str} (ha : CleanName a) (hb : CleanName b)
    (hd : ¬ DensityPair w.dic a b) {uc : Option Bool} {x : Rat} {c : Conv}
    (hr : convert (some x) (some a) (some b) uc w = (.ok (some c), w1)) (n : Nat) (pv : List (Str × Str)) :
    ∃ p, getConv (n + 1) uc (some x) a b (w.withPrev pv) = (.ok (some (c, p)), w1.withPrev pv) := by
  rw [convert_clean ha.1 hb.1, convertClean_eq h.1.wf hd] at hr
  simp only [Prod.mk.injEq] at hr
  obtain ⟨m, hm⟩ := ample_budget h.2
  have hct : converterTop uc (some x) a b { w with previous := [] } =
      converter (m + 2) uc (some x) a b { w with previous := [] } := by
    rw [converterTop_eq]; show converter (topBudget w.par) _ _ _ _ _ = _; rw [hm]
  rw [hct] at hr
  rcases converter_simple (w := { w with previous := [] }) h.1.wf ha.2 hb.2 m uc (some x) (by simp) with
    ⟨h1, _⟩ | ⟨_, w2, _, _, _, h2⟩
  · rw [h1] at hr
    obtain ⟨p, hp⟩ := finish_ok hr.1
    refine ⟨p, ?_⟩
    have : w.withPrev pv = ({ w with previous := [] } : World).withPrev pv := rfl
    rw [this, getConv_withPrev ha.2 b n m, withPrevR, hp, hr.2]
  · rw [h2] at hr
    simp only [finish] at hr
    split at hr <;> simp at hr

/-- Whatever `_get_conversion` finds for two clean units is the answer of `convert`. -/
theorem convert_of_getConv {w w1 : World} (h : WF w.net) {a b : Str} (ha : CleanUnit a) (hb : CleanUnit b)
    (hd : ¬ DensityPair w.dic a b) {uc : Option Bool} {v : Option Rat} {n : Nat} (hn : topBudget w.par = n + 1)
    {r : Res (Option (Conv × Path))} (hr : r ≠ .ok none) (hg : getConv n uc v a b { w with previous := [] } = (r, w1)) :
    convert v (some a) (some b) uc w = (finish w.par.raiseError r, w1) := by
  rw [convert_clean ha hb, convertClean_eq h hd, converterTop_eq]
  show (finish _ (converter (topBudget w.par) _ _ _ _ _).1, (converter (topBudget w.par) _ _ _ _ _).2) = _
  rw [hn, converter_of_getConv (by simp) hr hg]

/-- A rule for the whole unit answers when nothing is remembered about the pair. -/
theorem convert_rule {w : World} (h : SoundAmple w) {a b : Str} (ha : CleanUnit a) (hb : CleanUnit b)
    (hd : ¬ DensityPair w.dic a b) {uc : Option Bool} (hm : memHit w uc a b = none) {f : Fn} {p : Path}
    (hq : quick1 w.dic w.net a b = some (f, p) ∨ tempParts w.dic a b = none ∧ quick w a b = some (f, p)) (x : Rat) :
    (convert (some x) (some a) (some b) uc w).1 = (f w.fvf x).map fun y => some (.num y) := by
  obtain ⟨n, hn⟩ := ample_budget h.2
  have hg : getConv (n + 1) uc (some x) a b { w with previous := [] } =
      (ansRes (some x) f p w.fvf, { w with previous := [] }) := by
    have hm' : memHit { w with previous := [] } uc a b = none := hm
    rcases hq with hq | ⟨ht, hq⟩
    · rw [getConv, getConvBody]
      show (match memHit { w with previous := [] } uc a b with
        | some none => _
        | some (some (f, p)) => _
        | none => _) = _
      rw [hm']
      simp only
      rw [hq]
      simp only [answer_eq]
    · rw [getConv_eq n uc (some x) _ (show tempParts ({ w with previous := [] } : World).dic a b = none from ht), hm',
        show quick { w with previous := [] } a b = some (f, p) from hq]
      simp only [answer_eq]
  rw [convert_of_getConv h.1.wf ha hb hd hn (ansRes_not_none _ _ _ _) hg]
  simp only [ansRes]
  cases f w.fvf x <;> rfl

/-! ### whole units -/

theorem memHit_none {w : World} {uc : Option Bool} {a b : Str}
    (h : uc.getD w.par.cache = false ∨ Py.dictGet w.memory (a, b) = none) : memHit w uc a b = none := by
  unfold memHit resolveCache
  rcases h with h | h <;> simp [h]

theorem tempParts_none {d : Dict} {a b : Str} (h : ¬ TempRatios d a b) : tempParts d a b = none := by
  cases ht : tempParts d a b with
  | none => rfl
  | some r =>
    obtain ⟨t1, d1, t2, d2⟩ := r
    unfold tempParts at ht
    split at ht
    · next x y z t h1 h2 =>
      split at ht
      · next hc =>
        simp only [Option.some.injEq, Prod.mk.injEq] at ht
        obtain ⟨rfl, rfl, rfl, rfl⟩ := ht
        obtain ⟨e1, m1, m2⟩ := ratioParts_slash h1
        obtain ⟨e2, m3, m4⟩ := ratioParts_slash h2
        exact absurd ⟨_, _, _, _, m1, m2, m3, m4, e1, e2, hc.1, hc.2⟩ h
      · cases ht
    · cases ht

theorem quick_none {w : World} {a b : Str} (hne : a ≠ b) (oa : Ordinary w.dic a) (ob : Ordinary w.dic b)
    (hs : ¬ Swapped a b) : quick w a b = none := by
  have h1 : quick1 w.dic w.net a b = none := by
    unfold quick1
    rw [if_neg hne, if_neg (fun h => oa.date h.1), if_neg (fun h => oa.dimensionless h.1),
      if_neg (fun h => oa.percentage h.1), if_neg (fun h => oa.dimensionless h.1)]
  unfold quick
  rw [h1]
  simp only
  unfold quick2
  rw [if_neg (fun h => oa.dimensionless h.1), if_neg (fun h => ob.dimensionless h.1)]
  split
  · next x y z t h1 h2 =>
    split
    · next hc =>
      obtain ⟨e1, m1, m2⟩ := ratioParts_slash h1
      obtain ⟨e2, m3, m4⟩ := ratioParts_slash h2
      exact absurd ⟨_, _, _, _, m1, m2, m3, m4, e1, e2, hc.1, hc.2⟩ hs
    · rfl
  · rfl

theorem ratioParts_ratio {x y : Str} (h1 : '/' ∉ x) (h2 : '/' ∉ y) : ratioParts (x ++ '/' :: y) = some (x, y) := by
  unfold ratioParts
  rw [Py.splitOn_append_sep h1, Py.splitOn_of_not_mem h2]

/-- a test for `Swapped` -/
def swappedB (a b : Str) : Bool :=
  match ratioParts a, ratioParts b with
  | some (x, y), some (z, t) => decide (Py.stripWs x = Py.stripWs t ∧ Py.stripWs y = Py.stripWs z)
  | _, _ => false

theorem swappedB_of {a b : Str} (h : Swapped a b) : swappedB a b = true := by
  obtain ⟨x, y, z, t, h1, h2, h3, h4, rfl, rfl, e1, e2⟩ := h
  simp [swappedB, ratioParts_ratio h1 h2, ratioParts_ratio h3 h4, e1, e2]

theorem quick_swapped {w : World} {a b : Str} (hne : a ≠ b) (oa : Ordinary w.dic a) (ob : Ordinary w.dic b)
    (hs : Swapped a b) : quick w a b = some (fun _ x => pdiv 1 x, [.str ['1', '/']]) := by
  have h1 : quick1 w.dic w.net a b = none := by
    unfold quick1
    rw [if_neg hne, if_neg (fun h => oa.date h.1), if_neg (fun h => oa.dimensionless h.1),
      if_neg (fun h => oa.percentage h.1), if_neg (fun h => oa.dimensionless h.1)]
  unfold quick
  rw [h1]
  simp only
  unfold quick2
  rw [if_neg (fun h => oa.dimensionless h.1), if_neg (fun h => ob.dimensionless h.1)]
  obtain ⟨x, y, z, t, m1, h2, h3, h4, rfl, rfl, e1, e2⟩ := hs
  rw [ratioParts_ratio m1 h2, ratioParts_ratio h3 h4]
  simp [e1, e2]

theorem hasName_iff {g : Net} {s : Str} : g.hasName s = true ↔ ∃ n ∈ g.nodes, n.name = s := by
  unfold Net.hasName
  simp [List.any_eq_true]

/-- As `NotWhole`, for two names the search finds no path between. -/
structure Unfound (w : World) (uc : Option Bool) (a b : Str) : Prop where
  ne : a ≠ b
  ordA : Ordinary w.dic a
  ordB : Ordinary w.dic b
  notSwapped : ¬ Swapped a b
  notTemp : ¬ TempRatios w.dic a b
  notDensity : ¬ DensityPair w.dic a b
  nothing : (searchNetwork a b w).1 = .ok none
  forgotten : uc.getD w.par.cache = false ∨ Py.dictGet w.memory (a, b) = none

theorem Spec.NotWhole.search {w : World} {uc : Option Bool} {a b : Str} (h : NotWhole w uc a b) :
    searchNetwork a b w = (.ok none, w) := by
  unfold searchNetwork
  rw [if_neg]
  intro hc
  rw [Bool.and_eq_true] at hc
  exact h.unknown ⟨hasName_iff.1 hc.1, hasName_iff.1 hc.2⟩

theorem Spec.NotWhole.unfound {w : World} {uc : Option Bool} {a b : Str} (h : NotWhole w uc a b) : Unfound w uc a b :=
  ⟨h.ne, h.ordA, h.ordB, h.notSwapped, h.notTemp, h.notDensity, by rw [h.search], h.forgotten⟩

/-- `_get_conversion` finds nothing for such a pair and changes nothing but what the search changes. -/
theorem getConv_unfound {w : World} {uc : Option Bool} {a b : Str} (h : Unfound w uc a b) (n : Nat) (v : Option Rat)
    (pv : List (Str × Str)) : getConv (n + 1) uc v a b (w.withPrev pv) = (.ok none, (searchNetwork a b w).2.withPrev pv) := by
  have hm : memHit (w.withPrev pv) uc a b = none := memHit_none h.forgotten
  have hq : quick (w.withPrev pv) a b = none := quick_none h.ne h.ordA h.ordB h.notSwapped
  rw [getConv_eq n uc v (w.withPrev pv) (tempParts_none (d := (w.withPrev pv).dic) h.notTemp), hm]
  simp only
  rw [hq]
  simp only
  have hs : searchNetwork a b (w.withPrev pv) = (.ok none, (searchNetwork a b w).2.withPrev pv) := by
    rw [searchNetwork_withPrev]
    unfold withPrevR
    rw [h.nothing]
  unfold networkConversion
  rw [PyM.run_bind_ok hs]
  rfl

/-- `_get_conversion` finds nothing for such a pair and changes nothing. -/
theorem getConv_notWhole {w : World} {uc : Option Bool} {a b : Str} (h : NotWhole w uc a b) (n : Nat) (v : Option Rat)
    (pv : List (Str × Str)) : getConv (n + 1) uc v a b (w.withPrev pv) = (.ok none, w.withPrev pv) := by
  rw [getConv_unfound h.unfound, h.search]

/-! ### part by part -/

theorem soundAmple_convert {w w1 : World} (h : SoundAmple w) {v : Option Rat} {a b : Option Str} {uc : Option Bool}
    {r : Res (Option Conv)} (hr : convert v a b uc w = (r, w1)) : SoundAmple w1 := by
  have := soundAmple_call (c := .convert v a b uc) trivial h
  simp only [Call.run, hr] at this
  exact this

theorem matchParts_parts {uc : Option Bool} {w w2 : World} {fs ts : List Factor} {ks : List Rat}
    (h : PartsConvert uc w fs ts ks w2) (hs : SoundAmple w) (n : Nat) (pv : List (Str × Str)) (nf : Bool) :
    ∃ l : List (Rat × Path), l.map Prod.fst = ks ∧
      matchParts (getConv (n + 1) uc) nf fs ts (w.withPrev pv) = (.ok (some l), w2.withPrev pv) := by
  induction h generalizing nf with
  | nil w => exact ⟨[], rfl, rfl⟩
  | @cons w w1 w2 den f t fs ts k ks cf ct hd hc hk _ ih =>
    obtain ⟨p, hp⟩ := getConv_of_convert hs cf ct hd hc n pv
    obtain ⟨l, hl, hm⟩ := ih (soundAmple_convert hs hc) true
    have h1 : ∃ q, matchPart (getConv (n + 1) uc) nf (den, f) ((den, t) :: ts) (w.withPrev pv) =
        (.ok (some (if den then 1 / k else k, q, ts)), w1.withPrev pv) := by
      rw [matchPart, PyM.run_bind_ok hp]
      simp only [Conv.toNum]
      rw [PyM.run_bind_ok (PyM.run_lift_ok _ _)]
      cases den with
      | false => exact ⟨_, rfl⟩
      | true =>
        simp only [Bool.or_self, if_true]
        have : pdiv 1 k = .ok (1 / k) := by simp [pdiv, hk rfl]
        rw [this, PyM.run_bind_ok (PyM.run_lift_ok _ _)]
        exact ⟨_, rfl⟩
    obtain ⟨q, hq⟩ := h1
    refine ⟨(_, q) :: l, by rw [List.map_cons, hl], ?_⟩
    rw [matchParts, PyM.run_bind_ok hq]
    simp only
    rw [PyM.run_bind_ok hm]
    rfl

theorem foldl_prod (l : List (Rat × Path)) (k : Rat) :
    l.foldl (fun acc e => acc * e.1) k = k * (l.map Prod.fst).prod := by
  induction l generalizing k with
  | nil => simp
  | cons e l ih => rw [List.foldl_cons, ih, List.map_cons, List.prod_cons]; ring

/-- Once the direct ways have failed, the parts give the factor. -/
theorem convert_unfound {w w2 : World} (hs : SoundAmple w) {a b : Str} (ha : CleanUnit a) (hb : CleanUnit b)
    {uc : Option Bool} (hw : Unfound w uc a b) {ks : List Rat}
    (hp : PartsConvert uc (searchNetwork a b w).2 ((factors a).filter fun f => decide (f.2 ≠ [])) ((factors b).filter fun f => decide (f.2 ≠ [])) ks w2)
    (hne : ks ≠ []) : ∃ w3 p, SameBase w w3 ∧ Py.dictGet w3.memory (a, b) = some (some (scaleFn ks.prod, p)) ∧
      ∀ x, convert (some x) (some a) (some b) uc w = (.ok (some (.num (x * ks.prod))), w3) := by
  obtain ⟨n, hn⟩ := ample_budget hs.2
  obtain ⟨l, hl, hm⟩ := matchParts_parts hp (soundAmple_call (c := .search a b) trivial hs) n [(a, b)] false
  rw [← operands_eq, ← operands_eq] at hm
  have hsp : ∃ p, splitStage (getConv (n + 1) uc) a b ((searchNetwork a b w).2.withPrev [(a, b)]) =
      (.ok (some (scaleFn ks.prod, p)), w2.withPrev [(a, b)]) := by
    unfold splitStage
    rw [PyM.run_bind_ok hm]
    cases l with
    | nil => exact absurd (by simpa using hl.symm) hne
    | cons e l =>
      refine ⟨e.2 ++ l.flatMap (·.2), ?_⟩
      have : ks.prod = l.foldl (fun acc e => acc * e.1) e.1 := by
        rw [foldl_prod, ← hl]; simp
      rw [this]
      rfl
  obtain ⟨p, hsp⟩ := hsp
  have key : ∀ x, convert (some x) (some a) (some b) uc w =
      (.ok (some (.num (x * ks.prod))), (w2.withPrev [(a, b)]).remember a b (some (scaleFn ks.prod, p))) := by
    intro x
    rw [convert_clean ha hb, convertClean_eq hs.1.wf hw.notDensity, converterTop_eq]
    have hc : converter (n + 2) uc (some x) a b { w with previous := [] } =
        (.ok (some (.num (x * ks.prod), p)), (w2.withPrev [(a, b)]).remember a b (some (scaleFn ks.prod, p))) := by
      rw [converter]
      dsimp only
      rw [if_neg (by simp)]
      unfold converterBody
      have hgn : getConv (n + 1) uc (some x) a b { w with previous := [] } =
          (.ok none, (searchNetwork a b w).2.withPrev []) := getConv_unfound hw n (some x) []
      rw [PyM.run_bind_ok hgn]
      simp only
      rw [PyM.run_bind_ok (PyM.run_modify _ _)]
      unfold indirect
      show (splitStage (getConv (n + 1) uc) a b >>= _) ((searchNetwork a b w).2.withPrev [(a, b)]) = _
      rw [PyM.run_bind_ok hsp]
      simp only [storeAnswer]
      rw [PyM.run_bind_ok (PyM.run_modify _ _), answer_eq]
      rfl
    show (finish _ (converter (topBudget w.par) _ _ _ _ _).1, (converter (topBudget w.par) _ _ _ _ _).2) = _
    rw [hn, hc]
    rfl
  refine ⟨_, p, ?_, remember_get _ _ _ _, key⟩
  have := base_convert hs.1.wf (some 0) (some a) (some b) uc
  rw [key 0] at this
  exact this

theorem convert_parts {w w2 : World} (hs : SoundAmple w) {a b : Str} (ha : CleanUnit a) (hb : CleanUnit b)
    {uc : Option Bool} (hw : NotWhole w uc a b) {ks : List Rat}
    (hp : PartsConvert uc w ((factors a).filter fun f => decide (f.2 ≠ [])) ((factors b).filter fun f => decide (f.2 ≠ [])) ks w2)
    (hne : ks ≠ []) : ∃ w3 p, SameBase w w3 ∧ Py.dictGet w3.memory (a, b) = some (some (scaleFn ks.prod, p)) ∧
      ∀ x, convert (some x) (some a) (some b) uc w = (.ok (some (.num (x * ks.prod))), w3) :=
  convert_unfound hs ha hb hw.unfound (by rw [hw.search]; exact hp) hne

theorem cleanUnit_ratio {a b : Str} (ha : CleanName a) (hb : CleanName b) (hna : a ≠ []) (hnb : b ≠ []) (op : Char)
    (hop : op = '/' ∨ op = '*') : CleanUnit (a ++ op :: b) where
  noOpen := by
    rcases hop with rfl | rfl <;> simp [ha.1.noOpen, hb.1.noOpen]
  noClose := by
    rcases hop with rfl | rfl <;> simp [ha.1.noClose, hb.1.noClose]
  ends := by
    intro c hc
    rcases hc with hc | hc
    · refine ha.1.ends c (Or.inl ?_)
      cases a with
      | nil => exact absurd rfl hna
      | cons x xs => exact hc
    · refine hb.1.ends c (Or.inr ?_)
      rw [List.getLast?_append] at hc
      cases b with
      | nil => exact absurd rfl hnb
      | cons x xs =>
        rw [List.getLast?_cons_cons] at hc
        rw [List.getLast?_eq_some_getLast (List.cons_ne_nil x xs)] at hc ⊢
        simpa using hc
  notEmpty := by
    intro e
    have h : op ∈ s!!"Empty" := by rw [← e]; simp
    rcases hop with rfl | rfl <;> exact absurd h (by decide)

end Unyts
