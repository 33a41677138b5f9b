import Verif.Lemmas.Clean

/- What `convert` answers for simple names. -/
namespace Unyts
open Spec

theorem quick_ordinary {w : World} {a b : Str} (ha : SimpleName a) (hb : SimpleName b) (oa : Ordinary w.dic a)
    {f : Fn} {p : Path} (h : quick w a b = some (f, p)) : a = b ∧ f = idFn := by
  unfold quick at h
  rw [quick2_simple ha.1 hb.1] at h
  unfold quick1 at h
  by_cases e : a = b
  · rw [if_pos e] at h
    simp only [Option.some.injEq, Prod.mk.injEq] at h
    exact ⟨e, h.1.symm⟩
  · rw [if_neg e, if_neg (fun hh => oa.date hh.1), if_neg (fun hh => oa.dimensionless hh.1),
      if_neg (fun hh => oa.percentage hh.1), if_neg (fun hh => oa.dimensionless hh.1)] at h
    cases h

/-- An answer of `_converter` on simple names: from the quick cases, or along a path of the network. -/
theorem converterTop_simple {w : World} (h : SoundAmple w) {a b : Str} (ha : SimpleName a) (hb : SimpleName b)
    {uc : Option Bool} {v : Option Rat} {c : Conv} {p : Path} {w' : World}
    (hr : converterTop uc v a b w = (.ok (some (c, p)), w')) :
    ∃ f, ansRes v f p w.fvf = .ok (some (c, p)) ∧
      (quick w a b = some (f, p) ∨
        ∃ na nb q, w.net.getNode a = .ok na ∧ w.net.getNode b = .ok nb ∧ IsPath (Linked w.net) na nb q ∧
          Along w.net q f ∧ p = q.map Step.node) := by
  rw [converterTop_eq] at hr
  obtain ⟨n, hn⟩ := ample_budget h.2
  rw [hn] at hr
  by_cases hpr : (a, b) ∈ w.previous
  · rw [converter] at hr; dsimp only at hr; rw [if_pos hpr] at hr; cases hr
  · rcases converter_simple h.1.wf ha hb n uc v hpr with ⟨h1, _⟩ | ⟨_, w2, _, _, _, h2⟩
    · rw [h1] at hr
      obtain ⟨_, _, hcase⟩ := getConv_direct h.1.wf n uc v (tempParts_noSlash ha.1) hr
      rcases hcase with ⟨f, q, h3, _, h4, h5, _⟩ | ⟨e, h3, _⟩ | ⟨h3, _⟩
      · simp only at h3
        obtain ⟨rfl, _⟩ := ansRes_ok h3.symm
        refine ⟨f, h3.symm, ?_⟩
        cases hm : memHit w uc a b with
        | none => exact h4 hm
        | some e =>
          have he := h5 e hm
          subst he
          unfold memHit at hm
          split at hm
          · exact Or.inr (h.1.path a b f p ha hb hm)
          · cases hm
      · cases h3
      · cases h3
    · rw [h2] at hr; cases hr

theorem finish_ok {r : Bool} {x : Res (Option (Conv × Path))} {c : Conv} (h : finish r x = .ok (some c)) :
    ∃ p, x = .ok (some (c, p)) := by
  match x with
  | .ok (some (d, p)) => simp [finish] at h; exact ⟨p, by rw [h]⟩
  | .ok none => simp only [finish] at h; split at h <;> cases h
  | .error e => cases h

theorem soundAmple_prev {w : World} (h : SoundAmple w) : SoundAmple { w with previous := [] } :=
  ⟨sound_prev w _ h.1, h.2⟩

/-- An answer of `convert` on ordinary simple names: unchanged when they are equal, else along a path of the network. -/
theorem convert_simple {w : World} (h : SoundAmple w) {a b : Str} (ha : CleanName a) (hb : CleanName b)
    (oa : Ordinary w.dic a) (hd : ¬ DensityPair w.dic a b) {uc : Option Bool} {v : Option Rat} {c : Conv} {w' : World}
    (hr : convert v (some a) (some b) uc w = (.ok (some c), w')) :
    ∃ f p, ansRes v f p w.fvf = .ok (some (c, p)) ∧
      ((a = b ∧ f = idFn) ∨
        ∃ na nb q, w.net.getNode a = .ok na ∧ w.net.getNode b = .ok nb ∧ IsPath (Linked w.net) na nb q ∧
          Along w.net q f ∧ p = q.map Step.node) := by
  rw [convert_clean ha.1 hb.1, convertClean_eq h.1.wf hd] at hr
  simp only [Prod.mk.injEq] at hr
  obtain ⟨h1, h2⟩ := hr
  obtain ⟨p, hp⟩ := finish_ok h1
  obtain ⟨f, h3, h4⟩ := converterTop_simple (soundAmple_prev h) ha.2 hb.2 (Prod.ext hp rfl :
    converterTop uc v a b { w with previous := [] } = (.ok (some (c, p)), _))
  refine ⟨f, p, h3, ?_⟩
  rcases h4 with h4 | h4
  · left
    exact quick_ordinary (w := { w with previous := [] }) ha.2 hb.2 oa h4
  · exact Or.inr h4

theorem isPath_ends {E : UNode → UNode → Prop} {a b : UNode} {p : List UNode} (h : IsPath E a b p) :
    p.head? = some a ∧ p.getLast? = some b := by
  replace h := h.1
  induction h with
  | single a => exact ⟨rfl, rfl⟩
  | step e h ih =>
    refine ⟨rfl, ?_⟩
    obtain ⟨q, rfl⟩ := h.eq_cons
    rw [List.getLast?_cons_cons]; exact ih.2

/-- A number `convert` answers reads the same on the common scale. -/
theorem convert_reads_on {w : World} (h : SoundAmple w) {S : UNode → Prop} {B : UNode → Rat → Rat}
    (hB : ConsistentOn w.net w.fvf S B) {a b : Str}
    (ha : CleanName a) (hb : CleanName b) (oa : Ordinary w.dic a) (hd : ¬ DensityPair w.dic a b)
    (hS : ∀ na, w.net.getNode a = .ok na → S na) {uc : Option Bool}
    {x : Rat} {c : Conv} {w' : World} (hr : convert (some x) (some a) (some b) uc w = (.ok (some c), w')) :
    ∃ y, c = .num y ∧ ((a = b ∧ y = x) ∨ ∃ na nb, w.net.getNode a = .ok na ∧ w.net.getNode b = .ok nb ∧ B nb y = B na x) := by
  obtain ⟨f, p, h1, h2⟩ := convert_simple h ha hb oa hd hr
  obtain ⟨_, h3⟩ := ansRes_ok h1
  rcases h3 with ⟨h3, _⟩ | ⟨x', y, hx, hf, rfl⟩
  · cases h3
  · cases hx
    refine ⟨y, rfl, ?_⟩
    rcases h2 with ⟨rfl, rfl⟩ | ⟨na, nb, q, hna, hnb, hq, hal, _⟩
    · left
      simp only [idFn, Except.ok.injEq] at hf
      exact ⟨rfl, hf.symm⟩
    · right
      obtain ⟨e1, e2⟩ := isPath_ends hq
      exact ⟨na, nb, hna, hnb, Along.reads_on hB hal e1 e2 (hS na hna) hf⟩

theorem convert_reads {w : World} (h : SoundAmple w) {B : UNode → Rat → Rat} (hB : Consistent w.net w.fvf B) {a b : Str}
    (ha : CleanName a) (hb : CleanName b) (oa : Ordinary w.dic a) (hd : ¬ DensityPair w.dic a b) {uc : Option Bool}
    {x : Rat} {c : Conv} {w' : World} (hr : convert (some x) (some a) (some b) uc w = (.ok (some c), w')) :
    ∃ y, c = .num y ∧ ((a = b ∧ y = x) ∨ ∃ na nb, w.net.getNode a = .ok na ∧ w.net.getNode b = .ok nb ∧ B nb y = B na x) :=
  convert_reads_on h hB.on ha hb oa hd (fun _ _ => trivial) hr

/-! ### what conversions never change -/

theorem base_convertTop {w : World} (hg : WF w.net) (uc : Option Bool) (v : Option Rat) (a b : Str) :
    SameBase w (converterTop uc v a b w).2 := base_converter hg _ uc v a b

theorem inv_base (w0 : World) : ∀ uc v a b, Inv (Base w0) (converterTop uc v a b) := by
  intro uc v a b w h
  have := base_convertTop h.1 uc v a b
  exact ⟨by rw [this.net]; exact h.1, h.2.trans this⟩

theorem base_convert {w : World} (hg : WF w.net) (v : Option Rat) (a b : Option Str) (uc : Option Bool) :
    SameBase w (convert v a b uc w).2 :=
  (inv_convert (inv_base w) (fun _ _ h => ⟨h.1, h.2.trans ⟨rfl, rfl, rfl, rfl, rfl⟩⟩) v a b uc w ⟨hg, .refl w⟩).2

theorem base_asks {c : Call} (hc : Asks c) {w : World} (hg : WF w.net) : SameBase w (c.run w) := by
  have hp : ∀ (w' : World) pv, Base w w' → Base w { w' with previous := pv } :=
    fun _ _ h => ⟨h.1, h.2.trans ⟨rfl, rfl, rfl, rfl, rfl⟩⟩
  cases c with
  | convert v a b uc => exact (inv_convert (inv_base w) hp v a b uc w ⟨hg, .refl w⟩).2
  | convertible a b uc => exact (inv_convertible (inv_base w) a b uc w ⟨hg, .refl w⟩).2
  | simPandas v a b uc => exact (inv_simPandas (inv_base w) v a b uc w ⟨hg, .refl w⟩).2
  | search a b => exact (searchNetwork_quiet a b w).toSameBase
  | _ => cases hc

theorem base_session {cs : List Call} (hc : ∀ c ∈ cs, Asks c) {w : World} (hg : WF w.net) :
    SameBase w (session cs w) := by
  induction cs generalizing w with
  | nil => exact .refl w
  | cons c cs ih =>
    have h1 := base_asks (hc c List.mem_cons_self) hg
    exact h1.trans (ih (fun c' h => hc c' (List.mem_cons_of_mem _ h)) (by rw [h1.net]; exact hg))

/-! ### when nothing reachable is missed -/

/-- In this state, and in any other with the same network and settings, the search finds every pair of names in `S`
that are joined by conversions. -/
def Finds (S : Str → Str → Prop) (w : World) : Prop := ∀ w', SameBase w w' → ∀ a b na nb, S a b → w.net.getNode a = .ok na →
  w.net.getNode b = .ok nb →
  ∃ r, (searchNetwork a b w').1 = .ok r ∧ (Reach (Linked w.net) na nb → r ≠ none)

/-- No pair of names in `S` that are joined by conversions is remembered as impossible. -/
def NoFalseNo (S : Str → Str → Prop) (w : World) : Prop := ∀ a b na nb, S a b → w.net.getNode a = .ok na →
  w.net.getNode b = .ok nb → Reach (Linked w.net) na nb → Py.dictGet w.memory (a, b) ≠ some none

def FindsInvOn (S : Str → Str → Prop) (w : World) : Prop := SoundAmple w ∧ Finds S w ∧ NoFalseNo S w ∧ ∀ a b, S a b → SimpleName a ∧ SimpleName b

/-- two simple names -/
def BothSimple (a b : Str) : Prop := SimpleName a ∧ SimpleName b

abbrev FindsInv : World → Prop := FindsInvOn BothSimple

variable {S : Str → Str → Prop}

theorem Finds.congr {w w' : World} (hb : SameBase w w') (h : Finds S w) : Finds S w' := by
  intro w2 h2 a b na nb sab ha hb'
  rw [hb.net] at ha hb' ⊢
  exact h w2 (hb.trans h2) a b na nb sab ha hb'

theorem noFalse_of_same {w w' : World} (hn : w'.net = w.net) (hm : w'.memory = w.memory) (h : NoFalseNo S w) :
    NoFalseNo S w' := by
  intro a b na nb
  rw [hn, hm]
  exact h a b na nb

/-- the invariant for the inner calls: the settings do not matter there -/
def NF (S : Str → Str → Prop) (w : World) : Prop := WF w.net ∧ NoFalseNo S w

theorem nf_basic : Basic (NF S) where
  snap := fun _ h => ⟨h.1, noFalse_of_same rfl rfl h.2⟩
  tick := fun _ h => ⟨h.1, noFalse_of_same rfl rfl h.2⟩
  prev := fun _ _ _ h => ⟨h.1, noFalse_of_same rfl rfl h.2⟩

theorem nf_paths : KeepsPaths (NF S) := by
  intro w a b p f na nb h _ _ _ _ _ _
  refine ⟨h.1, ?_⟩
  intro x y nx ny hxy h1 h2 h3
  by_cases e : (x, y) = (a, b)
  · rw [e, remember_get]; simp
  · rw [remember_get_ne _ _ e]; exact h.2 x y nx ny hxy h1 h2 h3

theorem nf_compound (hS : ∀ a b, S a b → SimpleName a ∧ SimpleName b) : KeepsCompound (NF S) := by
  intro a b hab w e h
  refine ⟨h.1, ?_⟩
  intro x y nx ny hxy h1 h2 h3
  rw [remember_get_ne]
  · exact h.2 x y nx ny hxy h1 h2 h3
  · intro e; simp only [Prod.mk.injEq] at e; exact hab ⟨e.1 ▸ (hS _ _ hxy).1, e.2 ▸ (hS _ _ hxy).2⟩

theorem findsInv_converterTop (uc : Option Bool) (v : Option Rat) (a b : Str) :
    Inv (FindsInvOn S) (converterTop uc v a b) := by
  intro w h
  obtain ⟨hs, hf, hn, hS⟩ := h
  have hbase := base_convertTop hs.1.wf uc v a b
  refine ⟨inv_converterTop uc v a b w hs, hf.congr hbase, ?_, hS⟩
  rw [converterTop_eq]
  obtain ⟨n, hbud⟩ := ample_budget hs.2
  rw [hbud]
  by_cases hab : SimpleName a ∧ SimpleName b
  · by_cases hpr : (a, b) ∈ w.previous
    · rw [converter]; dsimp only; rw [if_pos hpr]; exact hn
    · rcases converter_simple hs.1.wf hab.1 hab.2 n uc v hpr with ⟨h1, _⟩ | ⟨h1, w2, hb, hm, _, h2⟩
      · rw [h1]
        exact (inv_getConv nf_basic (fun _ h => h.1) nf_paths (n + 1) uc v a b w ⟨hs.1.wf, hn⟩).2
      · rw [h2]
        intro x y nx ny hxy hgx hgy hre
        simp only [remember_net, hb.net] at hgx hgy hre
        by_cases e : (x, y) = (a, b)
        · simp only [Prod.mk.injEq] at e
          obtain ⟨rfl, rfl⟩ := e
          exfalso
          obtain ⟨_, _, hcase⟩ := getConv_direct hs.1.wf n uc v (tempParts_noSlash hab.1.1)
            (rfl : getConv (n + 1) uc v x y w = _)
          rcases hcase with ⟨f, q, h3, _⟩ | ⟨e, h3, _⟩ | ⟨_, _, hwhy⟩
          · exact ansRes_not_none _ _ _ _ (h3.symm.trans h1)
          · rw [h1] at h3; cases h3
          · rcases hwhy with h4 | ⟨_, _, h4⟩
            · unfold memHit at h4
              split at h4
              · exact hn x y nx ny hxy hgx hgy hre h4
              · cases h4
            · obtain ⟨r, hr, hne⟩ := hf w (.refl w) x y nx ny hxy hgx hgy
              rw [h4] at hr
              cases hr
              exact hne hre rfl
        · rw [remember_get_ne _ _ e, hm]
          exact hn x y nx ny hxy hgx hgy hre
  · exact (inv_converter nf_basic (fun _ h => h.1) nf_paths (nf_compound hS) _ uc v a b (nf_compound hS a b hab)
      (fun w h => nf_basic.prev w (a, b) hab h) w
      ⟨hs.1.wf, hn⟩).2

theorem findsInv_prev {w : World} {pv : List (Str × Str)} (h : FindsInvOn S w) : FindsInvOn S { w with previous := pv } :=
  ⟨⟨sound_prev w _ h.1.1, h.1.2⟩, Finds.congr (w := w) ⟨rfl, rfl, rfl, rfl, rfl⟩ h.2.1, noFalse_of_same rfl rfl h.2.2.1, h.2.2.2⟩

theorem findsInv_asks {c : Call} (hc : Asks c) {w : World} (h : FindsInvOn S w) : FindsInvOn S (c.run w) := by
  have hp : ∀ (w : World) pv, FindsInvOn S w → FindsInvOn S { w with previous := pv } := by
    intro w pv h
    exact ⟨⟨sound_prev w _ h.1.1, h.1.2⟩, Finds.congr (w := w) ⟨rfl, rfl, rfl, rfl, rfl⟩ h.2.1, noFalse_of_same rfl rfl h.2.2.1, h.2.2.2⟩
  cases c with
  | convert v a b uc => exact inv_convert findsInv_converterTop hp v a b uc w h
  | convertible a b uc => exact inv_convertible findsInv_converterTop a b uc w h
  | simPandas v a b uc => exact inv_simPandas findsInv_converterTop v a b uc w h
  | search a b =>
    have hq := searchNetwork_quiet a b w
    exact ⟨soundAmple_call (c := .search a b) trivial h.1, Finds.congr hq.toSameBase h.2.1, noFalse_of_same hq.net hq.memory h.2.2.1, h.2.2.2⟩
  | _ => cases hc

theorem findsInv_session {cs : List Call} (hc : ∀ c ∈ cs, Asks c) {w : World} (h : FindsInvOn S w) :
    FindsInvOn S (session cs w) := by
  induction cs generalizing w with
  | nil => exact h
  | cons c cs ih =>
    exact ih (fun c' h => hc c' (List.mem_cons_of_mem _ h)) (findsInv_asks (hc c List.mem_cons_self) h)

theorem findsInvOn_fresh {w : World} (h : Fresh w) (hf : Finds S w) (hS : ∀ a b, S a b → SimpleName a ∧ SimpleName b) : FindsInvOn S w :=
  ⟨⟨sound_fresh h.wf h.memory, h.ample⟩, hf, by
    intro a b na nb _ _ _ _; rw [h.memory]; simp [Py.dictGet], hS⟩

theorem findsInv_fresh {w : World} (h : Fresh w) (hf : Finds BothSimple w) : FindsInv w := findsInvOn_fresh h hf fun _ _ => id

theorem getNode_mem {g : Net} {s : Str} {n : UNode} (h : g.getNode s = .ok n) : n ∈ g.nodes ∧ n.name = s := by
  unfold Net.getNode at h
  split at h
  · next m hm =>
    cases h
    exact ⟨List.mem_of_find?_eq_some hm, by simpa using List.find?_some hm⟩
  · cases h

theorem hasName_of_getNode {g : Net} {s : Str} {n : UNode} (h : g.getNode s = .ok n) : g.hasName s = true := by
  obtain ⟨h1, rfl⟩ := getNode_mem h
  unfold Net.hasName
  rw [List.any_eq_true]
  exact ⟨n, h1, by simp⟩

/-- With BFS nothing is missed. -/
theorem finds_bfs {w : World} (hg : WF w.net) (ha : w.par.algorithm = .bfs) : Finds S w := by
  intro w' hb a b na nb _ h1 h2
  unfold searchNetwork
  rw [hb.net, hasName_of_getNode h1, hasName_of_getNode h2, h1, h2]
  simp only [Bool.and_self, if_true, hb.par, ha]
  rcases Net.bfs_spec hg (getNode_mem h1).1 (tgt := nb) with ⟨p, hp, _⟩ | ⟨hn, hno⟩
  · exact ⟨_, hp, fun _ => by simp⟩
  · exact ⟨_, hn, fun hr => absurd hr hno⟩

/-- With lean_BFS nothing is missed within its range, on a two-way network with distinct simple names and a current
snapshot. -/
theorem finds_lean {w : World} (hg : WF w.net) (ha : w.par.algorithm = .lean) (h2w : TwoWay (Linked w.net))
    (hd : DistinctNames w.net) (hsn : ∀ n ∈ w.net.nodes, SimpleName n.name) (hes : w.es = w.net.edgesStr) {m : Nat}
    (hm : w.par.maxGenerations = m)
    (hnear : ∀ a b, Reach (Linked w.net) a b → Within (Linked w.net) (2 * (m + 1)) a b) : Finds S w := by
  intro w' hb a b na nb _ h1 h2
  unfold searchNetwork
  rw [hb.net, hasName_of_getNode h1, hasName_of_getNode h2, h1, h2]
  simp only [Bool.and_self, if_true, hb.par, ha, net_ite, es_ite]
  rw [hb.net, hb.es, hes, hm]
  rcases Net.bfs_spec hg (getNode_mem h1).1 (tgt := nb) with ⟨p, hp, hpath, hshort⟩ | ⟨hn, hno⟩
  · obtain ⟨q, hq, hlen⟩ := hnear na nb ⟨p, hpath.1⟩
    have := hshort q hq
    obtain ⟨r, hr, _⟩ := leanBfs_complete hg h2w hd hsn (m := m) (by omega) (getNode_mem h1).1 (getNode_mem h2).1
      hpath.1 hshort (by omega)
    exact ⟨_, hr, fun _ => by simp⟩
  · cases hl : leanBfs w.net w.net.edgesStr m na nb with
    | error e =>
      exfalso
      unfold leanBfs at hl
      simp only at hl
      split at hl
      · cases hl
      · rcases slim_bfs_spec (g := w.net) (start := na) (tgt := nb)
          (sel := leanSelection w.net.edgesStr w.net.hasName na.name nb.name m) with ⟨q, hq, _⟩ | ⟨hq, _⟩ <;>
        · rw [hq] at hl; cases hl
    | ok r => exact ⟨r, rfl, fun hr => absurd hr hno⟩

/-- A conversion that exists is found, whatever was asked before, unless the pair is marked as tried. -/
theorem converterTop_finds {w : World} (h : FindsInvOn S w) {a b : Str} (sab : S a b)
    (oa : Ordinary w.dic a) {na nb : UNode} (hna : w.net.getNode a = .ok na)
    (hnb : w.net.getNode b = .ok nb) (hr : Reach (Linked w.net) na nb) (hpr : (a, b) ∉ w.previous) (uc : Option Bool)
    (v : Option Rat) :
    ∃ q f, IsPath (Linked w.net) na nb q ∧ Along w.net q f ∧
      (converterTop uc v a b w).1 = ansRes v f (q.map Step.node) w.fvf := by
  obtain ⟨n, hn⟩ := ample_budget h.1.2
  obtain ⟨ha, hb⟩ := h.2.2.2 a b sab
  rw [converterTop_eq]
  rw [hn]
  have hs := h.1
  have hget : ∃ q f, IsPath (Linked w.net) na nb q ∧ Along w.net q f ∧
      (getConv (n + 1) uc v a b w).1 = ansRes v f (q.map Step.node) w.fvf ∨
      a = b ∧ (getConv (n + 1) uc v a b w).1 = ansRes v idFn [nodeOrName w.net a] w.fvf := by
    obtain ⟨_, _, hcase⟩ := getConv_direct hs.1.wf n uc v (tempParts_noSlash ha.1)
      (rfl : getConv (n + 1) uc v a b w = _)
    rcases hcase with ⟨f, p, h3, _, h4, h5, _⟩ | ⟨e, h3, hmh, hqk, _, hse⟩ | ⟨h3, _, hwhy⟩
    · cases hm : memHit w uc a b with
      | none =>
        rcases h4 hm with hq | ⟨na', nb', q, g1, g2, g3, g4, rfl⟩
        · obtain ⟨e, rfl⟩ := quick_ordinary (w := w) ha hb oa hq
          subst e
          rw [quick_self] at hq
          simp only [Option.some.injEq, Prod.mk.injEq] at hq
          refine ⟨[], idFn, Or.inr ⟨rfl, ?_⟩⟩
          rw [h3, ← hq.2]
        · rw [hna] at g1; cases g1
          rw [hnb] at g2; cases g2
          exact ⟨q, f, Or.inl ⟨g3, g4, h3⟩⟩
      | some e =>
        have he := h5 e hm
        subst he
        unfold memHit at hm
        split at hm
        · obtain ⟨na', nb', q, g1, g2, g3, g4, rfl⟩ := h.1.1.path a b f p ha hb hm
          rw [hna] at g1; cases g1
          rw [hnb] at g2; cases g2
          exact ⟨q, f, Or.inl ⟨g3, g4, h3⟩⟩
        · cases hm
    · obtain ⟨r, hr', _⟩ := h.2.1 w (.refl w) a b na nb sab hna hnb
      rw [hr'] at hse; cases hse
    · rcases hwhy with h4 | ⟨_, _, h4⟩
      · unfold memHit at h4
        split at h4
        · exact absurd h4 (h.2.2.1 a b na nb sab hna hnb hr)
        · cases h4
      · obtain ⟨r, hr', hne⟩ := h.2.1 w (.refl w) a b na nb sab hna hnb
        rw [h4] at hr'; cases hr'
        exact absurd rfl (hne hr)
  have hcv : (converter (n + 2) uc v a b w).1 =
      (getConv (n + 1) uc v a b w).1 := by
    rcases converter_simple hs.1.wf ha hb n uc v hpr with
      ⟨h1, _⟩ | ⟨h1, w2, _, _, _, h2⟩
    · rw [h1]
    · rw [h1, h2]
  obtain ⟨q, f, hq | ⟨rfl, hq⟩⟩ := hget
  · exact ⟨q, f, hq.1, hq.2.1, by rw [hcv, hq.2.2]⟩
  · rw [hna] at hnb; cases hnb
    refine ⟨[na], idFn, ⟨.single na, by simp⟩, .single na, ?_⟩
    rw [hcv, hq]
    unfold nodeOrName
    rw [hna]
    rfl

/-- A conversion that exists is found, whatever was asked before. -/
theorem convert_finds {w : World} (h : FindsInvOn S w) {a b : Str} (ha : CleanName a) (hb : CleanName b) (sab : S a b)
    (oa : Ordinary w.dic a) (hd : ¬ DensityPair w.dic a b) {na nb : UNode} (hna : w.net.getNode a = .ok na)
    (hnb : w.net.getNode b = .ok nb) (hr : Reach (Linked w.net) na nb) (uc : Option Bool) (v : Option Rat) :
    ∃ q f, IsPath (Linked w.net) na nb q ∧ Along w.net q f ∧
      (convert v (some a) (some b) uc w).1 = finish w.par.raiseError (ansRes v f (q.map Step.node) w.fvf) := by
  rw [convert_clean ha.1 hb.1, convertClean_eq h.1.1.wf hd]
  simp only
  obtain ⟨q, f, h1, h2, h3⟩ := converterTop_finds (w := { w with previous := [] }) (findsInv_prev h) sab oa hna hnb hr
    (by simp) uc v
  exact ⟨q, f, h1, h2, by rw [h3]⟩

end Unyts
