import Verif.Lemmas.ConvStraight
import Verif.Props.SetConversion

/- C94: a direct conversion is never bypassed. -/
namespace Unyts
open Spec

/-- a walk that takes every short cut, between directly linked nodes, is the link itself -/
theorem chordless_direct {g : Net} {na nb : UNode} {q : List UNode} (hq : IsPath (Linked g) na nb q)
    (hc : Chordless (Linked g) q) (hne : na ≠ nb) (hd : Linked g na nb) : q = [na, nb] := by
  obtain ⟨h1, h2⟩ := isPath_ends hq
  have : ∃ ys, q = [] ++ na :: (ys ++ nb :: []) := by
    cases q with
    | nil => simp at h1
    | cons u t =>
      simp only [List.head?_cons, Option.some.injEq] at h1
      subst h1
      rcases List.eq_nil_or_concat t with rfl | ⟨ys, z, rfl⟩
      · simp at h2; exact absurd h2 hne
      · have : z = nb := by
          rw [List.concat_eq_append, ← List.cons_append, List.getLast?_append] at h2
          simpa using h2
        subst this
        exact ⟨ys, by simp⟩
  obtain ⟨ys, rfl⟩ := this
  have := hc [] na ys nb [] rfl hd
  subst this
  rfl

/-- With hybrid_BFS nothing is missed either: it falls back on BFS. -/
theorem finds_hybrid {S : Str → Str → Prop} {w : World} (hg : WF w.net) (ha : w.par.algorithm = .hybrid) : Finds S w := by
  intro w' hb a b na nb _ h1 h2
  unfold searchNetwork
  rw [hb.net, hasName_of_getNode h1, hasName_of_getNode h2, h1, h2]
  simp only [Bool.and_self, if_true, hb.par, ha, net_ite, es_ite]
  rw [hb.net]
  have lean : ∃ r, leanBfs w.net w'.es w.par.maxGenerations na nb = .ok r := by
    unfold leanBfs
    simp only
    split
    · exact ⟨_, rfl⟩
    · rcases slim_bfs_spec (g := w.net) (start := na) (tgt := nb)
        (sel := leanSelection w'.es w.net.hasName na.name nb.name w.par.maxGenerations) with ⟨q, hq, _⟩ | ⟨hq, _⟩ <;>
        exact ⟨_, hq⟩
  obtain ⟨r, hr⟩ := lean
  rw [hr]
  rcases Net.bfs_spec hg (getNode_mem h1).1 (tgt := nb) with ⟨p, hp, _⟩ | ⟨hn, hno⟩
  · rw [hp]
    cases r with
    | none => exact ⟨some p, by simp [hybridChoice, bind, Except.bind, pure, Except.pure], fun _ => by simp⟩
    | some q => exact ⟨_, by simp [hybridChoice, bind, Except.bind, pure, Except.pure]; rfl, fun _ => by split <;> simp⟩
  · rw [hn]
    cases r with
    | none => exact ⟨none, rfl, fun h => absurd h hno⟩
    | some q => exact ⟨some q, by simp [hybridChoice, bind, Except.bind, pure, Except.pure], fun h => absurd h hno⟩

/-- C94. On any network, with any search but DFS, after any conversions and questions and with any setting of the cache:
when there is a direct conversion between two units, it is what `convert` applies. -/
theorem C94_direct {w : World} (hw : Fresh w) (halg : w.par.algorithm ≠ .dfs) {cs : List Call} (hcs : ∀ c ∈ cs, Asks c)
    {a b : Str} (ca : CleanName a) (cb : CleanName b) (oa : Ordinary w.dic a) (hd : ¬ DensityPair w.dic a b) (hab : a ≠ b)
    {na nb : UNode} {k : Fn} (hna : w.net.getNode a = .ok na) (hnb : w.net.getNode b = .ok nb) (hk : Direct w.net na nb k)
    {uc : Option Bool} {x : Rat} {c : Conv} {w' : World}
    (hr : convert (some x) (some a) (some b) uc (session cs w) = (.ok (some c), w')) :
    ∃ y, c = .num y ∧ k w.fvf x = .ok y := by
  have hbase := base_session hcs hw.wf
  obtain ⟨f, p, h1, h2⟩ := convert_straight (straight_session hcs (straight_chordless hw halg)) ca cb
    (by rw [hbase.dic]; exact oa) (by rw [hbase.dic]; exact hd) hr
  rcases h2 with ⟨e, _⟩ | ⟨ma, mb, q, g1, g2, hq, hal, hc⟩
  · exact absurd e hab
  · rw [hbase.net] at g1 g2 hq hal
    rw [hna] at g1; cases g1
    rw [hnb] at g2; cases g2
    have hne : na ≠ nb := by
      rintro rfl
      exact hab ((getNode_mem hna).2.symm.trans (getNode_mem hnb).2)
    have := chordless_direct hq hc hne ⟨k, hk⟩
    subst this
    have := along_direct hw.wf hk hal
    subst this
    obtain ⟨_, h3⟩ := ansRes_ok h1
    rcases h3 with ⟨h3, _⟩ | ⟨x', y, hx, hf, rfl⟩
    · cases h3
    · cases hx
      rw [hbase.fvf] at hf
      exact ⟨y, rfl, hf⟩

/-- C94, asked for the conversion function. -/
theorem C94_function {w : World} (hw : Fresh w) (halg : w.par.algorithm ≠ .dfs) {cs : List Call} (hcs : ∀ c ∈ cs, Asks c)
    {a b : Str} (ca : CleanName a) (cb : CleanName b) (oa : Ordinary w.dic a) (hd : ¬ DensityPair w.dic a b) (hab : a ≠ b)
    {na nb : UNode} {k : Fn} (hna : w.net.getNode a = .ok na) (hnb : w.net.getNode b = .ok nb) (hk : Direct w.net na nb k)
    {uc : Option Bool} {c : Conv} {w' : World}
    (hr : convert none (some a) (some b) uc (session cs w) = (.ok (some c), w')) : c = .fn k := by
  have hbase := base_session hcs hw.wf
  obtain ⟨f, p, h1, h2⟩ := convert_straight (straight_session hcs (straight_chordless hw halg)) ca cb
    (by rw [hbase.dic]; exact oa) (by rw [hbase.dic]; exact hd) hr
  rcases h2 with ⟨e, _⟩ | ⟨ma, mb, q, g1, g2, hq, hal, hc⟩
  · exact absurd e hab
  · rw [hbase.net] at g1 g2 hq hal
    rw [hna] at g1; cases g1
    rw [hnb] at g2; cases g2
    have hne : na ≠ nb := by
      rintro rfl
      exact hab ((getNode_mem hna).2.symm.trans (getNode_mem hnb).2)
    have := chordless_direct hq hc hne ⟨k, hk⟩
    subst this
    have := along_direct hw.wf hk hal
    subst this
    simp only [ansRes, Except.ok.injEq, Option.some.injEq, Prod.mk.injEq] at h1
    exact h1.1.symm

/-- C94, with the answer found: BFS and hybrid_BFS miss no direct conversion. -/
theorem C94_found {w : World} (hw : Fresh w) (halg : w.par.algorithm ∈ [Algorithm.bfs, .hybrid]) {cs : List Call}
    (hcs : ∀ c ∈ cs, Asks c) {a b : Str} (ca : CleanName a) (cb : CleanName b) (oa : Ordinary w.dic a)
    (hd : ¬ DensityPair w.dic a b) (hab : a ≠ b) {na nb : UNode} {k : Fn} (hna : w.net.getNode a = .ok na)
    (hnb : w.net.getNode b = .ok nb) (hk : Direct w.net na nb k) (uc : Option Bool) {x y : Rat} (hy : k w.fvf x = .ok y) :
    (convert (some x) (some a) (some b) uc (session cs w)).1 = .ok (some (.num y)) := by
  have hbase := base_session hcs hw.wf
  simp only [List.mem_cons, List.not_mem_nil, or_false] at halg
  have hfin : Finds BothSimple w := by
    rcases halg with h | h
    · exact finds_bfs hw.wf h
    · exact finds_hybrid hw.wf h
  obtain ⟨q, f, hq, hal, hc, hres⟩ := convert_finds_straight (findsInv_session hcs (findsInv_fresh hw hfin))
    (straight_session hcs (straight_chordless hw (by rcases halg with h | h <;> rw [h] <;> decide))) ca cb ⟨ca.2, cb.2⟩ hab
    (by rw [hbase.dic]; exact oa) (by rw [hbase.dic]; exact hd) (by rw [hbase.net]; exact hna) (by rw [hbase.net]; exact hnb)
    (by rw [hbase.net]; exact ⟨[na, nb], .step ⟨k, hk⟩ (.single nb)⟩) uc (some x)
  rw [hbase.net] at hq hal
  have hne : na ≠ nb := by
    rintro rfl
    exact hab ((getNode_mem hna).2.symm.trans (getNode_mem hnb).2)
  have := chordless_direct hq hc hne ⟨k, hk⟩
  subst this
  have := along_direct hw.wf hk hal
  subst this
  rw [hres, hbase.fvf]
  simp [ansRes, hy, Except.map, finish]

/-- C94, the general form: with BFS, on any network, `convert` goes from unit to unit by as few direct conversions as
possible. -/
theorem C94_shortest {w : World} (hw : Fresh w) (halg : w.par.algorithm = .bfs) {cs : List Call}
    (hcs : ∀ c ∈ cs, Asks c) {a b : Str} (ca : CleanName a) (cb : CleanName b) (oa : Ordinary w.dic a)
    (hd : ¬ DensityPair w.dic a b) (hab : a ≠ b) {na nb : UNode} (hna : w.net.getNode a = .ok na)
    (hnb : w.net.getNode b = .ok nb) (hr : Reach (Linked w.net) na nb) (uc : Option Bool) (x : Rat) :
    ∃ q f, IsPath (Linked w.net) na nb q ∧ (∀ q', Chain (Linked w.net) na nb q' → q.length ≤ q'.length) ∧ Along w.net q f ∧
      (convert (some x) (some a) (some b) uc (session cs w)).1 = (f w.fvf x).map fun y => some (.num y) := by
  have hbase := base_session hcs hw.wf
  obtain ⟨q, f, hq, hal, hc, hres⟩ := convert_finds_straight (findsInv_session hcs (findsInv_fresh hw (finds_bfs hw.wf halg)))
    (straight_session hcs (straight_bfs hw halg)) ca cb ⟨ca.2, cb.2⟩ hab
    (by rw [hbase.dic]; exact oa) (by rw [hbase.dic]; exact hd) (by rw [hbase.net]; exact hna) (by rw [hbase.net]; exact hnb)
    (by rw [hbase.net]; exact hr) uc (some x)
  rw [hbase.net] at hq hal
  obtain ⟨h1, h2⟩ := isPath_ends hq
  refine ⟨q, f, hq, fun q' hq' => hc na nb q' h1 h2 hq', hal, ?_⟩
  rw [hres, hbase.fvf]
  cases h : f w.fvf x <;> simp [ansRes, h, Except.map, finish]

/-! ### an example: a network where the direct conversion and the detour differ -/

namespace DemoDetour

def a : UNode := ⟨0, s!!"a"⟩
def b : UNode := ⟨1, s!!"b"⟩
def c : UNode := ⟨2, s!!"c"⟩

/-- a doubles into b, b trebles into c, but a into c is seven -/
def net : Net where
  edges := [(a, [(b, Demo.times 2), (c, Demo.times 7)]), (b, [(a, Demo.times (1 / 2)), (c, Demo.times 3)]),
    (c, [(a, Demo.times (1 / 7)), (b, Demo.times (1 / 3))])]
  nextId := 3

theorem wf : WF net where
  keys := by decide
  old := by decide
  closed := by
    rintro x y f ⟨l, hl, hf⟩
    simp only [net, List.mem_cons, List.not_mem_nil, or_false, Prod.mk.injEq] at hl
    rcases hl with ⟨rfl, rfl⟩ | ⟨rfl, rfl⟩ | ⟨rfl, rfl⟩ <;>
      simp only [List.mem_cons, List.not_mem_nil, or_false, Prod.mk.injEq] at hf
    all_goals rcases hf with hf | hf <;> rw [hf.1] <;> decide
  single := by
    intro x l hl
    simp only [net, List.mem_cons, List.not_mem_nil, or_false, Prod.mk.injEq] at hl
    rcases hl with ⟨rfl, rfl⟩ | ⟨rfl, rfl⟩ | ⟨rfl, rfl⟩ <;> simp only [List.map_cons, List.map_nil] <;> decide

def world (g : Algorithm) : World := { net := net, par := { algorithm := g } }

theorem fresh (g : Algorithm) : Fresh (world g) := ⟨wf, rfl, rfl, by cases g <;> (unfold Ample; decide)⟩

theorem direct : Direct net a c (Demo.times 7) := ⟨[(b, Demo.times 2), (c, Demo.times 7)], by simp [net], by simp⟩

end DemoDetour

example (g : Algorithm) (hg : g ∈ [Algorithm.bfs, .hybrid]) (uc : Option Bool) :
    (convert (some 5) (some s!!"a") (some s!!"c") uc
      (session [.convert (some 1) (some s!!"a") (some s!!"b") none, .convertible s!!"b" s!!"c" none] (DemoDetour.world g))).1
      = .ok (some (.num 35)) :=
  C94_found (DemoDetour.fresh g) hg (by simp [Asks]) (Demo.cleanName_of (by decide)) (Demo.cleanName_of (by decide))
    (Demo.ordinary _) (Demo.noDensity _ _) (by decide) (na := DemoDetour.a) (nb := DemoDetour.c) rfl rfl DemoDetour.direct uc
    (by simp [Demo.times]; norm_num)

/-- the default search finds it too here -/
example : numOf (convert (some 5) (some s!!"a") (some s!!"c") none (DemoDetour.world .lean)).1 = some 35 := by decide +kernel

/-- C94 fails with DFS: it goes through b. -/
theorem C94_dfs_fails : numOf (convert (some 5) (some s!!"a") (some s!!"c") none (DemoDetour.world .dfs)).1 = some 30 := by
  decide +kernel

end Unyts
