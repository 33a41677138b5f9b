import Verif.Lemmas.FindsOn

/- What is true of every path the search finds is true of every conversion between simple names, whatever was asked
before. -/
namespace Unyts
open Spec

variable {Q : Str → Str → List UNode → Prop}

/-- what the search finds, and what is remembered between simple names, has the property `Q` -/
structure Straight (Q : Str → Str → List UNode → Prop) (w : World) : Prop where
  wf : WF w.net
  found : ∀ w', SameBase w w' → ∀ a b p, SimpleName a → SimpleName b → (searchNetwork a b w').1 = .ok (some p) → Q a b p
  path : ∀ a b f p, SimpleName a → SimpleName b → Py.dictGet w.memory (a, b) = some (some (f, p)) →
    ∃ q, p = q.map Step.node ∧ Q a b q

theorem straight_of_same {w w' : World} (h : Straight Q w) (hb : SameBase w w') (hm : w'.memory = w.memory) :
    Straight Q w' where
  wf := by rw [hb.net]; exact h.wf
  found := fun w2 h2 => h.found w2 (hb.trans h2)
  path := by intro a b f p ha hb; rw [hm]; exact h.path a b f p ha hb

theorem straight_basic : Basic (Straight Q) where
  snap := fun _ h => straight_of_same h ⟨rfl, rfl, rfl, rfl, rfl⟩ rfl
  tick := fun _ h => straight_of_same h ⟨rfl, rfl, rfl, rfl, rfl⟩ rfl
  prev := fun _ _ _ h => straight_of_same h ⟨rfl, rfl, rfl, rfl, rfl⟩ rfl

theorem straight_paths : KeepsPaths (Straight Q) := by
  intro w a b p f na nb h _ _ _ _ hc _
  refine ⟨h.wf, fun w' hb => h.found w' ((remember_base w a b _).trans hb), ?_⟩
  intro x y g q hx hy hm
  by_cases e : (x, y) = (a, b)
  · simp only [Prod.mk.injEq] at e
    obtain ⟨rfl, rfl⟩ := e
    rw [remember_get] at hm
    simp only [Option.some.injEq, Prod.mk.injEq] at hm
    obtain ⟨w0, h0, hs⟩ := hc
    exact ⟨p, hm.2.symm, h.found w0 h0 x y p hx hy hs⟩
  · rw [remember_get_ne _ _ e] at hm
    exact h.path x y g q hx hy hm

theorem straight_compound : KeepsCompound (Straight Q) := by
  intro a b hab w e h
  refine ⟨h.wf, fun w' hb => h.found w' ((remember_base w a b _).trans hb), ?_⟩
  intro x y g q hx hy hm
  rw [remember_get_ne] at hm
  · exact h.path x y g q hx hy hm
  · intro e; simp only [Prod.mk.injEq] at e; exact hab ⟨e.1 ▸ hx, e.2 ▸ hy⟩

theorem straight_negative {w : World} (h : Straight Q w) (a b : Str) : Straight Q (w.remember a b none) := by
  refine ⟨h.wf, fun w' hb => h.found w' ((remember_base w a b _).trans hb), ?_⟩
  intro x y g q hx hy hm
  by_cases e : (x, y) = (a, b)
  · rw [e, remember_get] at hm; cases hm
  · rw [remember_get_ne _ _ e] at hm
    exact h.path x y g q hx hy hm

def StraightAmple (Q : Str → Str → List UNode → Prop) (w : World) : Prop := SoundAmple w ∧ Straight Q w

theorem straight_converterTop (uc : Option Bool) (v : Option Rat) (a b : Str) :
    Inv (StraightAmple Q) (converterTop uc v a b) := by
  intro w h
  obtain ⟨hs, h⟩ := h
  refine ⟨inv_converterTop uc v a b w hs, ?_⟩
  rw [converterTop_eq]
  obtain ⟨n, hn⟩ := ample_budget hs.2
  rw [hn]
  by_cases hab : SimpleName a ∧ SimpleName b
  · by_cases hpr : (a, b) ∈ w.previous
    · rw [converter]; dsimp only; rw [if_pos hpr]; exact h
    · rcases converter_simple h.wf hab.1 hab.2 n uc v hpr with ⟨h1, _⟩ | ⟨h1, w2, hb, hm, _, h2⟩
      · rw [h1]
        exact inv_getConv straight_basic (fun _ h => h.wf) straight_paths (n + 1) uc v a b w h
      · rw [h2]
        exact straight_negative (straight_of_same h hb hm) a b
  · exact inv_converter straight_basic (fun _ h => h.wf) straight_paths straight_compound _ uc v a b
      (straight_compound a b hab) (fun w h => straight_basic.prev w (a, b) hab h) w h

theorem straight_prev {w : World} (pv : List (Str × Str)) (h : StraightAmple Q w) :
    StraightAmple Q { w with previous := pv } :=
  ⟨⟨sound_prev w _ h.1.1, h.1.2⟩, straight_of_same h.2 ⟨rfl, rfl, rfl, rfl, rfl⟩ rfl⟩

theorem straight_asks {c : Call} (hc : Asks c) {w : World} (h : StraightAmple Q w) : StraightAmple Q (c.run w) := by
  cases c with
  | convert v a b uc => exact inv_convert straight_converterTop (fun _ pv h => straight_prev pv h) v a b uc w h
  | convertible a b uc => exact inv_convertible straight_converterTop a b uc w h
  | simPandas v a b uc => exact inv_simPandas straight_converterTop v a b uc w h
  | search a b => exact ⟨soundAmple_call (c := .search a b) trivial h.1, inv_searchNetwork straight_basic a b w h.2⟩
  | _ => cases hc

theorem straight_session {cs : List Call} (hc : ∀ c ∈ cs, Asks c) {w : World} (h : StraightAmple Q w) :
    StraightAmple Q (session cs w) := by
  induction cs generalizing w with
  | nil => exact h
  | cons c cs ih =>
    exact ih (fun c' h => hc c' (List.mem_cons_of_mem _ h)) (straight_asks (hc c List.mem_cons_self) h)

theorem straight_fresh {w : World} (h : Fresh w) (hf : ∀ w', SameBase w w' → ∀ a b p, SimpleName a → SimpleName b →
    (searchNetwork a b w').1 = .ok (some p) → Q a b p) : StraightAmple Q w :=
  ⟨⟨sound_fresh h.wf h.memory, h.ample⟩, h.wf, hf, by
    intro a b f p _ _ hm; rw [h.memory] at hm; simp [Py.dictGet] at hm⟩

theorem step_inj : Function.Injective Step.node := fun _ _ h => by cases h; rfl

/-- What `_converter` answers on simple names: nothing, the error of the search, or a conversion from the quick cases or
along a path with the property `Q`. -/
theorem top_straight {w : World} (h : StraightAmple Q w) {a b : Str} (ha : SimpleName a) (hb : SimpleName b)
    (hpr : (a, b) ∉ w.previous) (uc : Option Bool) (v : Option Rat) :
    (converterTop uc v a b w).1 = .ok none ∨ (∃ e, (converterTop uc v a b w).1 = .error e ∧ (searchNetwork a b w).1 = .error e) ∨
    ∃ f p, (converterTop uc v a b w).1 = ansRes v f p w.fvf ∧ (quick w a b = some (f, p) ∨
      ∃ na nb q, w.net.getNode a = .ok na ∧ w.net.getNode b = .ok nb ∧ IsPath (Linked w.net) na nb q ∧
        Along w.net q f ∧ p = q.map Step.node ∧ Q a b q) := by
  have hinv := straight_converterTop uc v a b w h
  have hbase := base_convertTop h.1.1.wf uc v a b
  generalize hcv : converterTop uc v a b w = res at hinv hbase
  obtain ⟨n, hn⟩ := ample_budget h.1.2
  rw [converterTop_eq, hn] at hcv
  rcases converter_simple h.1.1.wf ha hb n uc v hpr with ⟨g1, _⟩ | ⟨_, w2, _, _, _, g2⟩
  · rw [g1] at hcv
    obtain ⟨_, _, hcase⟩ := getConv_direct h.1.1.wf n uc v (tempParts_noSlash ha.1) hcv
    rcases hcase with ⟨f, p, h3, h4, _⟩ | ⟨e, h3, _, _, _, h4⟩ | ⟨h3, _⟩
    · refine Or.inr (Or.inr ⟨f, p, h3, ?_⟩)
      rcases h4 with h4 | h4
      · exact Or.inl h4
      · right
        obtain ⟨na, nb, q, k1, k2, k3, k4, rfl⟩ := hinv.1.1.path a b f p ha hb h4
        obtain ⟨q', e, k5⟩ := hinv.2.path a b f _ ha hb h4
        have := (List.map_inj_right fun _ _ h => step_inj h).1 e
        subst this
        rw [hbase.net] at k1 k2 k3 k4
        exact ⟨na, nb, q, k1, k2, k3, k4, rfl, k5⟩
    · exact Or.inr (Or.inl ⟨e, h3, h4⟩)
    · exact Or.inl h3
  · rw [← hcv, g2]; exact Or.inl rfl

/-- An answer of `convert` on ordinary simple names: unchanged when they are equal, else along a path of the network with
the property `Q`. -/
theorem convert_straight {w : World} (h : StraightAmple Q w) {a b : Str} (ha : CleanName a) (hb : CleanName b)
    (oa : Ordinary w.dic a) (hd : ¬ DensityPair w.dic a b) {uc : Option Bool} {v : Option Rat} {c : Conv} {w' : World}
    (hr : convert v (some a) (some b) uc w = (.ok (some c), w')) :
    ∃ f p, ansRes v f p w.fvf = .ok (some (c, p)) ∧
      ((a = b ∧ f = idFn) ∨
        ∃ na nb q, w.net.getNode a = .ok na ∧ w.net.getNode b = .ok nb ∧ IsPath (Linked w.net) na nb q ∧
          Along w.net q f ∧ Q a b q) := by
  rw [convert_clean ha.1 hb.1, convertClean_eq h.1.1.wf hd] at hr
  simp only [Prod.mk.injEq] at hr
  obtain ⟨h1, h2⟩ := hr
  obtain ⟨p, hp⟩ := finish_ok h1
  rcases top_straight (w := { w with previous := [] }) (straight_prev [] h) ha.2 hb.2 (by simp) uc v with
    h3 | ⟨e, h3, _⟩ | ⟨f, p', h3, h4⟩
  · rw [hp] at h3; cases h3
  · rw [hp] at h3; cases h3
  · rw [hp] at h3
    obtain ⟨rfl, _⟩ := ansRes_ok h3.symm
    refine ⟨f, p, h3.symm, ?_⟩
    rcases h4 with h4 | ⟨na, nb, q, k1, k2, k3, k4, _, k5⟩
    · exact Or.inl (quick_ordinary (w := { w with previous := [] }) ha.2 hb.2 oa h4)
    · exact Or.inr ⟨na, nb, q, k1, k2, k3, k4, k5⟩

/-- A conversion that exists is found, whatever was asked before, along a path with the property `Q`. -/
theorem convert_finds_straight {S : Str → Str → Prop} {w : World} (h : FindsInvOn S w) (hq : StraightAmple Q w) {a b : Str}
    (ha : CleanName a) (hb : CleanName b) (sab : S a b) (hab : a ≠ b)
    (oa : Ordinary w.dic a) (hd : ¬ DensityPair w.dic a b) {na nb : UNode} (hna : w.net.getNode a = .ok na)
    (hnb : w.net.getNode b = .ok nb) (hr : Reach (Linked w.net) na nb) (uc : Option Bool) (v : Option Rat) :
    ∃ q f, IsPath (Linked w.net) na nb q ∧ Along w.net q f ∧ Q a b q ∧
      (convert v (some a) (some b) uc w).1 = finish w.par.raiseError (ansRes v f (q.map Step.node) w.fvf) := by
  rw [convert_clean ha.1 hb.1, convertClean_eq h.1.1.wf hd]
  simp only
  obtain ⟨_, f0, _, _, h0⟩ := converterTop_finds (w := { w with previous := [] }) (findsInv_prev h) sab oa hna hnb hr
    (by simp) uc v
  rcases top_straight (w := { w with previous := [] }) (straight_prev [] hq) ha.2 hb.2 (by simp) uc v with
    h3 | ⟨e, h3, h4⟩ | ⟨f, p, h3, h4⟩
  · exact absurd (h0.symm.trans h3) (ansRes_not_none _ _ _ _)
  · obtain ⟨r, hr', _⟩ := h.2.1 { w with previous := [] } ⟨rfl, rfl, rfl, rfl, rfl⟩ a b na nb sab hna hnb
    rw [hr'] at h4; cases h4
  · rcases h4 with h4 | ⟨ma, mb, q, k1, k2, k3, k4, rfl, k5⟩
    · exact absurd (quick_ordinary (w := { w with previous := [] }) ha.2 hb.2 oa h4).1 hab
    · change w.net.getNode a = _ at k1
      change w.net.getNode b = _ at k2
      rw [hna] at k1; cases k1
      rw [hnb] at k2; cases k2
      exact ⟨q, f, k3, k4, k5, by rw [h3]⟩

/-! ### short cuts and shortest paths -/

/-- With every search but DFS the paths take every short cut. -/
theorem straight_chordless {w : World} (h : Fresh w) (ha : w.par.algorithm ≠ .dfs) :
    StraightAmple (fun _ _ p => Chordless (Linked w.net) p) w := by
  refine straight_fresh h fun w' hb a b p _ _ hs => ?_
  have := searchNetwork_chordless (w := w') (by rw [hb.net]; exact h.wf) (by rw [hb.par]; exact ha) (Prod.ext hs rfl)
  rwa [hb.net] at this

/-- `p` is as short as any walk between its ends -/
def Shortest (g : Net) (p : List UNode) : Prop :=
  ∀ a b q, p.head? = some a → p.getLast? = some b → Chain (Linked g) a b q → p.length ≤ q.length

theorem shortest_of {g : Net} {a b : UNode} {p q : List UNode} (hp : IsPath (Linked g) a b p) (hl : p.length = q.length)
    (hs : ∀ q', Chain (Linked g) a b q' → q.length ≤ q'.length) : Shortest g p := by
  obtain ⟨h1, h2⟩ := isPath_ends hp
  intro x y q' e1 e2 hq
  rw [h1] at e1
  rw [h2] at e2
  cases e1
  cases e2
  rw [hl]
  exact hs q' hq

theorem bfs_shortest {g : Net} (hg : WF g) {a b : UNode} (ha : a ∈ g.nodes) {p : List UNode} (h : g.bfs a b = .ok (some p)) :
    Shortest g p := by
  rcases Net.bfs_spec hg ha (tgt := b) with ⟨q, hq, hpath, hshort⟩ | ⟨hq, _⟩
  · rw [hq] at h
    cases h
    exact shortest_of hpath rfl hshort
  · rw [hq] at h; cases h

/-- With BFS the paths are as short as possible. -/
theorem straight_bfs {w : World} (h : Fresh w) (ha : w.par.algorithm = .bfs) :
    StraightAmple (fun _ _ p => Shortest w.net p) w := by
  refine straight_fresh h fun w' hb a b p _ _ hs => ?_
  have hs' : searchNetwork a b w' = (.ok (some p), (searchNetwork a b w').2) := Prod.ext hs rfl
  obtain ⟨na, nb, g1, g2, _⟩ := searchNetwork_path hs'
  unfold searchNetwork at hs
  rw [hasName_of_getNode g1, hasName_of_getNode g2, g1, g2] at hs
  simp only [Bool.and_self, if_true, hb.par, ha] at hs
  rw [hb.net] at hs g1
  exact bfs_shortest h.wf (getNode_mem g1).1 hs

/-- On a part of the network where the conversions have one back, the other searches but DFS find shortest paths too. -/
theorem straight_on {w : World} (h : Fresh w) {S : Str → Str → Prop} (ha : w.par.algorithm ∈ [Algorithm.bfs, .lean, .hybrid])
    {P : UNode → Prop}
    (h2w : TwoWayOn w.net P) (hd : DistinctNames w.net) 
    (hP : ∀ n ∈ w.net.nodes, ∀ b, S n.name b → P n) (hes : w.es = w.net.edgesStr) {m : Nat}
    (hm : w.par.maxGenerations = m)
    (hnear : ∀ a b, P a → Reach (Linked w.net) a b → Within (Linked w.net) (2 * (m + 1)) a b) :
    StraightAmple (fun a b p => S a b → Shortest w.net p) w := by
  refine straight_fresh h fun w' hb a b p sa sb hs sab => ?_
  have hs' : searchNetwork a b w' = (.ok (some p), (searchNetwork a b w').2) := Prod.ext hs rfl
  obtain ⟨na, nb, g1, g2, gp⟩ := searchNetwork_path hs'
  unfold searchNetwork at hs
  rw [hasName_of_getNode g1, hasName_of_getNode g2, g1, g2] at hs
  rw [hb.net] at g1 g2 gp
  obtain ⟨m1, e1⟩ := getNode_mem g1
  obtain ⟨m2, e2⟩ := getNode_mem g2
  have lean : ∀ {p}, leanBfs w.net w.net.edgesStr m na nb = .ok (some p) → Shortest w.net p := by
    intro p hl
    have hpath := leanBfs_sound hl
    rcases Net.bfs_spec h.wf m1 (tgt := nb) with ⟨q, _, hq, hshort⟩ | ⟨_, hno⟩
    · obtain ⟨q', hq', hlen⟩ := hnear na nb (hP _ m1 b (e1 ▸ sab)) ⟨p, hpath.1⟩
      have := hshort q' hq'
      obtain ⟨r, hr, hrl⟩ := leanBfs_completeOn h.wf h2w hd (m := m) (by omega) m1 m2 (hP _ m1 b (e1 ▸ sab)) (e1 ▸ sa) (e2 ▸ sb)
        hq.1 hshort (by omega)
      rw [hr] at hl
      cases hl
      exact shortest_of hpath hrl hshort
    · exact absurd ⟨p, hpath.1⟩ hno
  simp only [List.mem_cons, List.not_mem_nil, or_false] at ha
  rcases ha with ha | ha | ha
  · simp only [Bool.and_self, if_true, hb.par, ha] at hs
    rw [hb.net] at hs
    exact bfs_shortest h.wf m1 hs
  · simp only [Bool.and_self, if_true, hb.par, ha, net_ite, es_ite] at hs
    rw [hb.net, hb.es, hes, hm] at hs
    exact lean hs
  · simp only [Bool.and_self, if_true, hb.par, ha, net_ite, es_ite] at hs
    rw [hb.net, hb.es, hes, hm] at hs
    obtain ⟨x, y, hx, hy, hr, _⟩ := hybridChoice_cases hs
    rcases hr with rfl | rfl
    · exact lean hx
    · exact bfs_shortest h.wf m1 hy

end Unyts
