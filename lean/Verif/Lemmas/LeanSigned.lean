import Verif.Lemmas.FindsOn
import Verif.Lemmas.ConvParts

/- `lean_BFS` between any two names, compound or not. -/
namespace Unyts
open Spec

/-- The two units convert directly into each other. -/
def BothWays (g : Net) (x y : UNode) : Prop := Linked g x y ∧ Linked g y x

theorem bothWays_twoWay (g : Net) : TwoWay (BothWays g) := fun _ _ h => ⟨h.2, h.1⟩

theorem within_map {E F : UNode → UNode → Prop} (hEF : ∀ x y, E x y → F x y) {n : Nat} {a b : UNode} (h : Within E n a b) :
    Within F n a b := by
  obtain ⟨p, hp, hl⟩ := h
  exact ⟨p, hp.mono hEF, hl⟩

/-- Two descents do not meet before half the way. -/
def NoEarly (g : Net) (a b : Str) (l : Nat) : Prop := ∀ r : Nat, 1 ≤ r → 2 * r + 1 < l →
  Py.inter (getDescendants g.edgesStr g.hasName a r true) (getDescendants g.edgesStr g.hasName b r true) = []

theorem noEarly_short {g : Net} {a b : Str} {l : Nat} (h : l ≤ 3) : NoEarly g a b l := by
  intro r h1 h2
  omega

theorem leanSelection_near {g : Net} (hg : WF g) (hd : DistinctNames g) {m : Int} (hm : 0 ≤ m) {a b : UNode}
    (ha : a ∈ g.nodes) (hb : b ∈ g.nodes) {p : List UNode} (hp : Chain (BothWays g) a b p)
    (he : NoEarly g a.name b.name p.length) (hlen : (p.length : Int) ≤ 2 * (m + 1) + 1) :
    ∀ x ∈ p, x.name ∈ leanSelection g.edgesStr g.hasName a.name b.name m := by
  obtain ⟨gen, hgm, hl, hor⟩ := leanLoop_spec
    (desc := fun u g' => getDescendants g.edgesStr g.hasName u g' true) (a := a.name) (b := b.name)
    (acc := ([], 0)) (generationsList_ne m)
  have hg0 := generationsList_nonneg hm hgm
  obtain ⟨r, hr⟩ : ∃ r : Nat, gen + 1 = (r : Int) := ⟨(gen + 1).toNat, by omega⟩
  simp only [hr] at hl hor
  have hshort : p.length ≤ r + r + 1 := by
    rcases hor with hne | hlast
    · by_contra hc
      exact hne (he r (by omega) (by omega))
    · rw [generationsList_last] at hlast
      have : m = gen := by simpa using hlast
      omega
  have lk : ∀ x y, BothWays g x y → Linked g x y := fun _ _ h => h.1
  obtain ⟨x, hax, hxb, hall⟩ := hp.center hshort
  have hxn : x ∈ g.nodes := by
    obtain ⟨q, hq, _⟩ := within_map lk hax
    exact Net.reach_mem_nodes hg (fun _ _ h => h) ha ⟨q, hq⟩
  have hxsel : x.name ∈ Py.inter (getDescendants g.edgesStr g.hasName a.name r true)
      (getDescendants g.edgesStr g.hasName b.name r true) := by
    rw [Py.mem_inter]
    exact ⟨mem_desc_of_ball hg hd ha (within_map lk hax) hxn _,
      mem_desc_of_ball hg hd hb (within_map lk (hxb.symm (bothWays_twoWay g))) hxn _⟩
  intro y hy
  unfold leanSelection
  rw [hl]
  simp only
  rw [Py.mem_union]
  refine Or.inr (List.mem_flatMap.2 ⟨x.name, hxsel, ?_⟩)
  have hxy : Within (Linked g) r x y := by
    rcases hall y hy with h | h
    · exact within_map lk (h.symm (bothWays_twoWay g))
    · exact within_map lk h
  have hxy' := hxy
  obtain ⟨q, hq, _⟩ := hxy'
  exact mem_desc_of_ball hg hd hxn hxy (Net.reach_mem_nodes hg (fun _ _ h => h) hxn ⟨q, hq⟩) _

/-- `lean_BFS` finds a path no longer than a walk of conversions that go both ways, when nothing meets before half of it. -/
theorem leanBfs_near {g : Net} (hg : WF g) (hd : DistinctNames g) {m : Int} (hm : 0 ≤ m) {a b : UNode}
    (ha : a ∈ g.nodes) (hb : b ∈ g.nodes) {p : List UNode} (hp : Chain (BothWays g) a b p)
    (he : NoEarly g a.name b.name p.length) (hlen : (p.length : Int) ≤ 2 * (m + 1) + 1) :
    ∃ q, leanBfs g g.edgesStr m a b = .ok (some q) ∧ q.length ≤ p.length := by
  have hcov := leanSelection_near hg hd hm ha hb hp he hlen
  unfold leanBfs
  simp only
  generalize leanSelection g.edgesStr g.hasName a.name b.name m = sel at hcov
  have hne : (g.edges.filter fun e => e.1.name ∈ sel) ≠ [] := by
    obtain ⟨⟨k, l⟩, hk, rfl⟩ := List.mem_map.1 ha
    exact List.ne_nil_of_mem (List.mem_filter.2 ⟨hk, by simpa using hcov _ hp.head_mem⟩)
  rw [if_neg hne]
  have hslim : Chain (edgeOf (slimChildren g sel)) a b p :=
    hp.mono_on (fun x hx y e => slim_of_linked hg e.1 (hcov x hx))
  rcases slim_bfs_spec (g := g) (sel := sel) (start := a) (tgt := b) with ⟨q, hq, hpath, hsh⟩ | ⟨_, hno⟩
  · exact ⟨q, hq, hsh p hslim⟩
  · exact absurd ⟨p, hslim⟩ hno

/-- Every search but DFS finds such a path. -/
theorem search_near {w : World} (hg : WF w.net) (ha : w.par.algorithm ∈ [Algorithm.bfs, .lean, .hybrid])
    (hd : DistinctNames w.net) (hes : w.es = w.net.edgesStr) {m : Nat} (hm : w.par.maxGenerations = m) {na nb : UNode} {a b : Str}
    (h1 : w.net.getNode a = .ok na) (h2 : w.net.getNode b = .ok nb) {p : List UNode} (hp : Chain (BothWays w.net) na nb p)
    (he : NoEarly w.net a b p.length) (hlen : p.length ≤ 2 * (m + 1) + 1) :
    ∃ q, (searchNetwork a b w).1 = .ok (some q) ∧ q.length ≤ p.length := by
  obtain ⟨m1, e1⟩ := getNode_mem h1
  obtain ⟨m2, e2⟩ := getNode_mem h2
  have hL : ∃ q, leanBfs w.net w.net.edgesStr m na nb = .ok (some q) ∧ q.length ≤ p.length :=
    leanBfs_near hg hd (by omega) m1 m2 hp (by rw [e1, e2]; exact he) (by omega)
  have hB : ∃ q, w.net.bfs na nb = .ok (some q) ∧ q.length ≤ p.length := by
    have hp' : Chain (Linked w.net) na nb p := hp.mono fun _ _ h => h.1
    rcases Net.bfs_spec hg m1 (tgt := nb) with ⟨q, hq, _, hshort⟩ | ⟨_, hno⟩
    · exact ⟨q, hq, hshort p hp'⟩
    · exact absurd ⟨p, hp'⟩ hno
  obtain ⟨q1, l1, l2⟩ := hL
  obtain ⟨q2, b1, b2⟩ := hB
  unfold searchNetwork
  rw [hasName_of_getNode h1, hasName_of_getNode h2, h1, h2]
  simp only [List.mem_cons, List.not_mem_nil, or_false] at ha
  rcases ha with ha | ha | ha
  · simp only [Bool.and_self, if_true, ha]
    exact ⟨_, b1, b2⟩
  · simp only [Bool.and_self, if_true, ha, net_ite, es_ite]
    rw [hes, hm]
    exact ⟨_, l1, l2⟩
  · simp only [Bool.and_self, if_true, ha, net_ite, es_ite]
    rw [hes, hm, l1, b1]
    refine ⟨_, by simp [hybridChoice, bind, Except.bind, pure, Except.pure]; rfl, ?_⟩
    split
    · exact l2
    · exact b2

/-- What `convert` answers for two names, compound or not, when the search finds a path. -/
theorem convert_whole {w : World} (hs : SoundAmple w) {a b : Str} (ca : CleanUnit a) (cb : CleanUnit b) (hne : a ≠ b)
    (oa : Ordinary w.dic a) (ob : Ordinary w.dic b) (hsw : ¬ Swapped a b) (ht : ¬ TempRatios w.dic a b)
    (hd : ¬ DensityPair w.dic a b) {uc : Option Bool}
    (hm : uc.getD w.par.cache = false ∨ Py.dictGet w.memory (a, b) = none) {q : List UNode}
    (hq : (searchNetwork a b w).1 = .ok (some q)) (v : Option Rat) :
    ∃ na nb f, w.net.getNode a = .ok na ∧ w.net.getNode b = .ok nb ∧ IsPath (Linked w.net) na nb q ∧ Along w.net q f ∧
      (convert v (some a) (some b) uc w).1 = finish w.par.raiseError (ansRes v f (q.map Step.node) w.fvf) := by
  rw [convert_clean ca cb, convertClean_eq hs.1.wf hd]
  simp only
  obtain ⟨n, hn⟩ := ample_budget hs.2
  have hq' : (searchNetwork a b { w with previous := [] }).1 = .ok (some q) := by
    have := searchNetwork_withPrev a b w []
    unfold World.withPrev at this
    rw [this]
    unfold withPrevR
    exact hq
  rcases networkConversion_spec (w := { w with previous := [] }) hs.1.wf v a b with ⟨e, h1, _⟩ | ⟨h1, _⟩ | ⟨p, f, na, nb, h1, g1, g2, g3, g4, h2⟩
  · rw [hq'] at h1; cases h1
  · rw [hq'] at h1; cases h1
  · rw [hq'] at h1
    simp only [Except.ok.injEq, Option.some.injEq] at h1
    subst h1
    have hget : ∃ w2, getConv (n + 1) uc v a b { w with previous := [] } = (ansRes v f (q.map Step.node) w.fvf, w2) := by
      rw [getConv_eq n uc v { w with previous := [] } (tempParts_none ht), memHit_none (w := { w with previous := [] }) hm]
      simp only
      rw [quick_none (w := { w with previous := [] }) hne oa ob hsw]
      simp only
      rw [h2]
      unfold storeAnswer
      rw [PyM.run_bind_ok (PyM.run_modify _ _), answer_eq]
      refine ⟨_, Prod.ext ?_ rfl⟩
      simp only [remember_fvf, (searchNetwork_quiet a b { w with previous := [] }).fvf]
    obtain ⟨w2, hget⟩ := hget
    refine ⟨na, nb, f, g1, g2, g3, g4, ?_⟩
    rw [converterTop_eq]
    have : converter (n + 2) uc v a b { w with previous := [] } = _ :=
      converter_of_getConv (w := { w with previous := [] }) (by simp) (ansRes_not_none _ _ _ _) hget
    rw [show _ = n + 2 from hn, this]

end Unyts
