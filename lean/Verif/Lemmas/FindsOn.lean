import Verif.Lemmas.LeanOn
import Verif.Lemmas.ConvUntried

/- Conversions that are found, on a part of the network. -/
namespace Unyts
open Spec

/-- The conversions of the units with `P` accept every number and lead to units with `P`. -/
def TotalOn (g : Net) (fvf : Option Rat) (P : UNode → Prop) : Prop :=
  ∀ a b f x, P a → Direct g a b f → P b ∧ ∃ y, f fvf x = .ok y

theorem along_totalOn {g : Net} {fvf : Option Rat} {P : UNode → Prop} (h : TotalOn g fvf P) {p : List UNode} {f : Fn}
    (ha : Along g p f) {a : UNode} (h1 : p.head? = some a) (pa : P a) (x : Rat) : ∃ y, f fvf x = .ok y := by
  induction ha generalizing a x with
  | single a => exact ⟨x, rfl⟩
  | step hd _ ih =>
    simp only [List.head?_cons, Option.some.injEq] at h1
    subst h1
    obtain ⟨hb, y, hy⟩ := h _ _ _ x pa hd
    obtain ⟨z, hz⟩ := ih rfl hb y
    exact ⟨z, by simp [hy, Except.bind, hz]⟩

variable {S : Str → Str → Prop}

/-- what the two searches of the network answer on the part -/
theorem searches_on {g : Net} (hg : WF g) {P : UNode → Prop} (h2w : TwoWayOn g P) (hd : DistinctNames g) {m : Nat}
    (hnear : ∀ a b, P a → Reach (Linked g) a b → Within (Linked g) (2 * (m + 1)) a b) {na nb : UNode} (ma : na ∈ g.nodes)
    (mb : nb ∈ g.nodes) (pa : P na) (sa : SimpleName na.name) (sb : SimpleName nb.name) :
    (∃ r, g.bfs na nb = .ok r ∧ (Reach (Linked g) na nb → r ≠ none)) ∧
      ∃ r, leanBfs g g.edgesStr m na nb = .ok r ∧ (Reach (Linked g) na nb → r ≠ none) := by
  rcases Net.bfs_spec hg ma (tgt := nb) with ⟨p, hp, hpath, hshort⟩ | ⟨hn, hno⟩
  · obtain ⟨q, hq, hlen⟩ := hnear na nb pa ⟨p, hpath.1⟩
    have := hshort q hq
    obtain ⟨r, hr, _⟩ := leanBfs_completeOn hg h2w hd (m := m) (by omega) ma mb pa sa sb hpath.1 hshort (by omega)
    exact ⟨⟨_, hp, fun _ => by simp⟩, _, hr, fun _ => by simp⟩
  · refine ⟨⟨_, hn, fun h => absurd h hno⟩, ?_⟩
    cases hl : leanBfs g g.edgesStr m na nb with
    | error e =>
      exfalso
      unfold leanBfs at hl
      simp only at hl
      split at hl
      · cases hl
      · rcases slim_bfs_spec (g := g) (start := na) (tgt := nb)
          (sel := leanSelection g.edgesStr g.hasName na.name nb.name m) with ⟨q, hq, _⟩ | ⟨hq, _⟩ <;>
        · rw [hq] at hl; cases hl
    | ok r => exact ⟨r, rfl, fun hr => absurd hr hno⟩

/-- With BFS, lean_BFS or hybrid_BFS nothing is missed between simple names of the part. -/
theorem finds_on {w : World} (hg : WF w.net) (ha : w.par.algorithm ∈ [Algorithm.bfs, .lean, .hybrid]) {P : UNode → Prop}
    (h2w : TwoWayOn w.net P) (hd : DistinctNames w.net) (hS : ∀ a b, S a b → SimpleName a ∧ SimpleName b)
    (hP : ∀ n ∈ w.net.nodes, ∀ b, S n.name b → P n) (hes : w.es = w.net.edgesStr) {m : Nat}
    (hm : w.par.maxGenerations = m)
    (hnear : ∀ a b, P a → Reach (Linked w.net) a b → Within (Linked w.net) (2 * (m + 1)) a b) : Finds S w := by
  intro w' hb a b na nb sab h1 h2
  obtain ⟨m1, e1⟩ := getNode_mem h1
  obtain ⟨m2, e2⟩ := getNode_mem h2
  obtain ⟨⟨r1, b1, b2⟩, r2, l1, l2⟩ := searches_on hg h2w hd hnear m1 m2 (hP _ m1 _ (e1 ▸ sab)) (e1 ▸ (hS _ _ sab).1) (e2 ▸ (hS _ _ sab).2)
  unfold searchNetwork
  rw [hb.net, hasName_of_getNode h1, hasName_of_getNode h2, h1, h2]
  simp only [List.mem_cons, List.not_mem_nil, or_false] at ha
  rcases ha with ha | ha | ha
  · simp only [Bool.and_self, if_true, hb.par, ha]
    exact ⟨_, b1, b2⟩
  · simp only [Bool.and_self, if_true, hb.par, ha, net_ite, es_ite]
    rw [hb.net, hb.es, hes, hm]
    exact ⟨_, l1, l2⟩
  · simp only [Bool.and_self, if_true, hb.par, ha, net_ite, es_ite]
    rw [hb.net, hb.es, hes, hm, l1, b1]
    cases r1 with
    | none =>
      cases r2 with
      | none => exact ⟨none, rfl, fun h => absurd rfl (b2 h)⟩
      | some p => exact ⟨some p, by simp [hybridChoice, bind, Except.bind, pure, Except.pure], fun _ => by simp⟩
    | some p =>
      cases r2 with
      | none => exact ⟨some p, by simp [hybridChoice, bind, Except.bind, pure, Except.pure], fun _ => by simp⟩
      | some q => exact ⟨_, by simp [hybridChoice, bind, Except.bind, pure, Except.pure]; rfl, fun _ => by split <;> simp⟩

theorem convert_totalOn {w : World} (h : FindsInvOn S w) {P : UNode → Prop} (ht : TotalOn w.net w.fvf P) {a b : Str}
    (ha : CleanName a) (hb : CleanName b) (sab : S a b) (oa : Ordinary w.dic a) (hd : ¬ DensityPair w.dic a b)
    {na nb : UNode} (hna : w.net.getNode a = .ok na) (hnb : w.net.getNode b = .ok nb) (pa : P na)
    (hr : Reach (Linked w.net) na nb) (uc : Option Bool) (x : Rat) :
    ∃ y w', convert (some x) (some a) (some b) uc w = (.ok (some (.num y)), w') := by
  obtain ⟨q, f, hc, hal, hres⟩ := convert_finds h ha hb sab oa hd hna hnb hr uc (some x)
  obtain ⟨y, hy⟩ := along_totalOn ht hal (a := na) (by cases hc.1 <;> rfl) pa x
  refine ⟨y, _, Prod.ext ?_ rfl⟩
  rw [hres]
  simp [ansRes, hy, Except.map, finish]

/-- a question about two joined names is answered with yes -/
theorem convertible_findsOn {w : World} (h : FindsInvOn S w) {P : UNode → Prop} (ht : TotalOn w.net w.fvf P) {a b : Str}
    (sab : S a b) (oa : Ordinary w.dic a) {na nb : UNode} (hna : w.net.getNode a = .ok na)
    (hnb : w.net.getNode b = .ok nb) (pa : P na) (hr : Reach (Linked w.net) na nb) (hpr : (a, b) ∉ w.previous)
    (uc : Option Bool) : (convertible a b uc w).1 = .ok true := by
  obtain ⟨q, f, hc, hal, hres⟩ := converterTop_finds h sab oa hna hnb hr hpr uc (some 1)
  obtain ⟨y, hy⟩ := along_totalOn ht hal (a := na) (by cases hc.1 <;> rfl) pa 1
  unfold convertible
  cases hc : converterTop uc (some 1) a b w with
  | mk r w' =>
    rw [hc] at hres
    simp only [ansRes, hy, Except.map] at hres
    subst hres
    rfl

/-- a question about two joined names is answered with yes, whatever was asked before -/
theorem convertible_session {w : World} (h : AskInv S w) {P : UNode → Prop} (ht : TotalOn w.net w.fvf P) {a b : Str}
    (sab : S a b) (oa : Ordinary w.dic a) {na nb : UNode} (hna : w.net.getNode a = .ok na)
    (hnb : w.net.getNode b = .ok nb) (pa : P na) (hr : Reach (Linked w.net) na nb) {cs : List Call}
    (hcs : ∀ c ∈ cs, Asks c) (uc : Option Bool) : (convertible a b uc (session cs w)).1 = .ok true := by
  have hb := base_session hcs h.1.1.1.wf
  have hk := askInv_session hcs h
  rw [← hb.net] at hna hnb hr
  exact convertible_findsOn hk.1 (by rw [hb.net, hb.fvf]; exact ht) sab (by rw [hb.dic]; exact oa) hna hnb pa hr
    (hk.2 a b na nb sab hna hnb hr) uc

end Unyts
