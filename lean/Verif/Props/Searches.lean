import Verif.Lemmas.Dfs
import Verif.Lemmas.Build
import Verif.Spec.Demo

/- C01 - C05, C08: the search algorithms and the edits of the network. -/
namespace Unyts
open Spec

/-- C01, BFS. -/
theorem C01_bfs (g : Net) (a b : UNode) (p : List UNode) (h : g.bfs a b = .ok (some p)) :
    IsPath (Linked g) a b p := Net.bfs_sound h

/-- C01, lean_BFS, whatever the snapshot of names and the generations limit. -/
theorem C01_lean (g : Net) (es : List (Str × List Str)) (m : Int) (a b : UNode) (p : List UNode)
    (h : leanBfs g es m a b = .ok (some p)) : IsPath (Linked g) a b p := leanBfs_sound h

/-- C01, DFS, whatever the snapshot of names and the depth limit. -/
theorem C01_dfs (g : Net) (es : List (Str × List Str)) (d : Int) (a b : UNode) (p : List UNode)
    (h : g.dfs es d a b = .ok (some p)) : IsPath (Linked g) a b p :=
  let h' := dfs_sound h
  ⟨h'.1.mono (fun _ _ => Net.linked_of_edgeOf), h'.2⟩

/-- What "a conversion path" means: it begins with the start, finishes with the end, repeats no node and
its consecutive nodes are joined by direct conversions. -/
theorem C01_path_reading (g : Net) (a b : UNode) (p : List UNode) (h : IsPath (Linked g) a b p) :
    p.head? = some a ∧ p.getLast? = some b ∧ p.Nodup ∧
    ∀ i x y, p[i]? = some x → p[i + 1]? = some y → Linked g x y := by
  refine ⟨h.1.head, h.1.last, h.2, ?_⟩
  have := h.1
  clear h
  induction this with
  | single a => intro i x y hx hy; simp at hy
  | @step a b c p e h ih =>
    intro i x y hx hy
    cases i with
    | zero =>
      have hb := h.head
      simp at hx hy
      rw [← List.head?_eq_getElem?] at hy
      rw [hb] at hy
      cases hx; cases hy; exact e
    | succ i => exact ih i x y (by simpa using hx) (by simpa using hy)

example : Demo.net.bfs Demo.inch Demo.mile = .ok (some [Demo.inch, Demo.foot, Demo.yard, Demo.mile]) := by
  decide +kernel
example : leanBfs Demo.net Demo.net.edgesStr 25 Demo.inch Demo.mile =
    .ok (some [Demo.inch, Demo.foot, Demo.yard, Demo.mile]) := by decide +kernel
example : Demo.net.dfs Demo.net.edgesStr 25 Demo.inch Demo.mile =
    .ok (some [Demo.inch, Demo.foot, Demo.yard, Demo.mile]) := by decide +kernel

/-- C02. The loop of BFS ends (it never runs out of the fuel the model gives it). -/
theorem C02_bfs_terminates (g : Net) (a b : UNode) :
    bfsLoop g.childrenOf b (bfsFuel g.fuelN g.fuelD) [[a]] [] ≠ none := by
  refine bfsLoop_terminates (U := g.univ a)
    (fun x hx => Net.reach_mem_univ (fun _ _ => Net.linked_of_edgeOf) hx) ?_ (BfsInv.init _ a b) ?_ (D := g.fuelD)
  · intro x cs hcs
    obtain ⟨l, hl, rfl⟩ := Net.childrenOf_ok hcs
    simpa using Net.fuelD_ge hl
  · simp only [qWeight, List.map_cons, List.map_nil, List.sum_cons, List.sum_nil, List.length_singleton, bfsFuel,
      Net.univ_length]
    have : (g.fuelD + 1) ^ (g.fuelN + 1 - 1) = (g.fuelD + 1) ^ g.fuelN := by simp
    omega

/-- C02. BFS returns a path exactly when the end can be reached, and otherwise returns None; it does not
raise on a well-formed network. -/
theorem C02_bfs_complete (g : Net) (hg : WF g) (a b : UNode) (ha : a ∈ g.nodes) :
    ((∃ p, g.bfs a b = .ok (some p)) ↔ Reach (Linked g) a b) ∧
    (g.bfs a b = .ok none ↔ ¬ Reach (Linked g) a b) := by
  rcases Net.bfs_spec hg ha (tgt := b) with ⟨p, hp, hpath, _⟩ | ⟨hn, hno⟩
  · have hr : Reach (Linked g) a b := ⟨p, hpath.1⟩
    exact ⟨⟨fun _ => hr, fun _ => ⟨p, hp⟩⟩, ⟨fun h => (by rw [hp] at h; cases h), fun h => absurd hr h⟩⟩
  · exact ⟨⟨fun ⟨p, h⟩ => (by rw [hn] at h; cases h), fun h => absurd h hno⟩, ⟨fun _ => hno, fun _ => hn⟩⟩

example : Demo.net.bfs Demo.inch Demo.gram = .ok none ∧ WF Demo.net ∧ Demo.inch ∈ Demo.net.nodes :=
  ⟨by decide +kernel, Demo.wf, by decide⟩

/-- C03. No chain of direct conversions is shorter than the path BFS returns. -/
theorem C03_bfs_shortest (g : Net) (hg : WF g) (a b : UNode) (ha : a ∈ g.nodes) (p : List UNode)
    (h : g.bfs a b = .ok (some p)) (q : List UNode) (hq : Chain (Linked g) a b q) : p.length ≤ q.length := by
  rcases Net.bfs_spec hg ha (tgt := b) with ⟨p', hp', _, hs⟩ | ⟨hn, _⟩
  · rw [hp'] at h; cases h; exact hs q hq
  · rw [hn] at h; cases h

example : Chain (Linked Demo.net) Demo.inch Demo.foot [Demo.inch, Demo.foot, Demo.inch, Demo.foot] :=
  .step Demo.linked_inch_foot (.step (Demo.twoWay _ _ Demo.linked_inch_foot)
    (.step Demo.linked_inch_foot (.single _)))

/-- C04. On a two-way network with distinct, simple names whose snapshot of names is current, lean_BFS
finds a path as short as BFS whenever BFS finds one of at most `2 * (m + 1)` conversions. -/
theorem C04_lean_complete (g : Net) (hg : WF g) (h2 : TwoWay (Linked g)) (hd : DistinctNames g)
    (hsn : ∀ n ∈ g.nodes, SimpleName n.name) (m : Nat) (a b : UNode) (ha : a ∈ g.nodes) (hb : b ∈ g.nodes)
    (p : List UNode) (hp : g.bfs a b = .ok (some p)) (hlen : p.length ≤ 2 * (m + 1) + 1) :
    ∃ q, leanBfs g g.edgesStr m a b = .ok (some q) ∧ q.length = p.length :=
  leanBfs_complete hg h2 hd hsn (by omega) ha hb (C01_bfs g a b p hp).1
    (fun q hq => C03_bfs_shortest g hg a b ha p hp q hq) (by omega)

/-- C04. lean_BFS never finds a path when BFS finds none: on every well-formed network, with any snapshot
of names and any limit. -/
theorem C04_lean_only_if_bfs (g : Net) (hg : WF g) (es : List (Str × List Str)) (m : Int) (a b : UNode)
    (ha : a ∈ g.nodes) (q : List UNode) (hq : leanBfs g es m a b = .ok (some q)) :
    ∃ p, g.bfs a b = .ok (some p) ∧ p.length ≤ q.length := by
  have hc := (leanBfs_sound hq).1
  obtain ⟨p, hp⟩ := (C02_bfs_complete g hg a b ha).1.2 ⟨q, hc⟩
  exact ⟨p, hp, C03_bfs_shortest g hg a b ha p hp q hc⟩

/-- C04: lean_BFS never raises and always terminates, on any network, with any snapshot and limit. -/
theorem C04_lean_total (g : Net) (es : List (Str × List Str)) (m : Int) (a b : UNode) :
    ∃ r, leanBfs g es m a b = .ok r := by
  unfold leanBfs
  simp only
  split
  · exact ⟨_, rfl⟩
  · rcases slim_bfs_spec (g := g) (start := a) (tgt := b)
      (sel := leanSelection es g.hasName a.name b.name m) with ⟨q, hq, _⟩ | ⟨hq, _⟩
    · exact ⟨_, hq⟩
    · exact ⟨_, hq⟩

example : TwoWay (Linked Demo.net) ∧ DistinctNames Demo.net ∧ (∀ n ∈ Demo.net.nodes, SimpleName n.name) ∧
    leanBfs Demo.net Demo.net.edgesStr 1 Demo.inch Demo.mile =
      .ok (some [Demo.inch, Demo.foot, Demo.yard, Demo.mile]) :=
  ⟨Demo.twoWay, Demo.distinct, Demo.simpleNames, by decide +kernel⟩

/-- C04, why the hypothesis on names: after `set_unit('in')` on the demo network (a second node called
'in'), lean_BFS no longer finds the path from inch to mile although BFS does. -/
theorem C04_needs_distinct_names : ∃ g, setUnit Demo.net s!!"in" = .ok g ∧
    g.bfs Demo.inch Demo.mile = .ok (some [Demo.inch, Demo.foot, Demo.yard, Demo.mile]) ∧
    leanBfs g g.edgesStr 25 Demo.inch Demo.mile = .ok none := by
  exact ⟨_, rfl, by decide +kernel, by decide +kernel⟩

/-- C04, why the snapshot must be current: with the snapshot taken before the conversions existed,
lean_BFS finds nothing. -/
theorem C04_needs_fresh_snapshot :
    leanBfs Demo.net [] 25 Demo.inch Demo.mile = .ok none ∧
    Demo.net.bfs Demo.inch Demo.mile = .ok (some [Demo.inch, Demo.foot, Demo.yard, Demo.mile]) :=
  ⟨by decide +kernel, by decide +kernel⟩

/-- C04, the bound is sharp: with limit 0 a distance of 3 conversions is not found. -/
theorem C04_bound_sharp : leanBfs Demo.net Demo.net.edgesStr 0 Demo.inch Demo.mile = .ok none := by
  decide +kernel

theorem mem_desc_of_within {g : Net} (hg : WF g) (hd : DistinctNames g) {a b : UNode} (ha : a ∈ g.nodes)
    {n : Nat} (h : Within (Linked g) n a b) : b.name ∈ getDescendants g.edgesStr g.hasName a.name n true := by
  have hbn : b ∈ g.nodes := by
    obtain ⟨q, hq, _⟩ := h
    exact Net.reach_mem_nodes hg (fun _ _ h => h) ha ⟨q, hq⟩
  have hw := (Net.within_names hg hd ha (n := n) (x := b.name)).2 ⟨b, hbn, h, rfl⟩
  unfold getDescendants getDescendantsF
  by_cases h0 : (n : Int) = 0
  · have : n = 0 := by omega
    subst this
    rw [Within.zero] at hw
    simp [hw]
  · rw [if_neg h0]
    simp only [Net.hasName_of_mem ha, if_true, Int.toNat_natCast]
    rw [Py.mem_union, Py.mem_union, mem_rounds]
    exact Or.inr (Or.inl hw)

/-- C05. If every node reachable from the start reaches the end within `d` conversions whenever it
reaches it at all, DFS with depth limit `d` finds a path exactly when there is one. -/
theorem C05_dfs_complete (g : Net) (hg : WF g) (hd : DistinctNames g) (d : Nat) (a b : UNode) (ha : a ∈ g.nodes)
    (hdepth : ∀ c, Reach (Linked g) a c → Reach (Linked g) c b → Within (Linked g) d c b) :
    (∃ p, g.dfs g.edgesStr d a b = .ok (some p)) ↔ Reach (Linked g) a b := by
  have hE : edgeOf g.childrenOf = Linked g := by
    funext x y; exact propext (Net.edgeOf_iff hg)
  constructor
  · rintro ⟨p, hp⟩
    exact ⟨p, (C01_dfs g _ _ a b p hp).1⟩
  · intro hr
    unfold Net.dfs
    refine dfs_complete (U := g.univ a) ?_ (by simp [Net.univ]) ?_ ?_ ?_ (hE ▸ hr)
    · intro x cs hcs c hc
      exact Net.linked_mem_univ (Net.linked_of_edgeOf ⟨cs, hcs, hc⟩)
    · rw [Net.univ_length]; omega
    · intro x hx
      exact Net.childrenOf_of_node (Net.reach_mem_nodes hg (fun _ _ => Net.linked_of_edgeOf) ha hx)
    · intro c hc hcb
      rw [hE] at hc hcb
      have hcn := Net.reach_mem_nodes hg (fun _ _ h => h) ha hc
      simpa using mem_desc_of_within hg hd hcn (hdepth c hc hcb)

/-- C05: the depth needed is never more than the number of nodes, so on a network of at most `d` nodes
DFS with depth `d` is complete without further hypothesis. -/
theorem C05_dfs_complete_small (g : Net) (hg : WF g) (hd : DistinctNames g) (d : Nat) (a b : UNode)
    (ha : a ∈ g.nodes) (hn : g.nodes.length ≤ d) :
    (∃ p, g.dfs g.edgesStr d a b = .ok (some p)) ↔ Reach (Linked g) a b := by
  refine C05_dfs_complete g hg hd d a b ha ?_
  rintro c hc ⟨p, hp⟩
  obtain ⟨q, hq, _⟩ := hp.to_path
  refine ⟨q, hq.1, ?_⟩
  have hcn := Net.reach_mem_nodes hg (fun _ _ h => h) ha hc
  have : q.length ≤ g.nodes.length := by
    refine nodup_length_le_of_subset hq.2 ?_
    intro x hx
    obtain ⟨q', _, hq', _⟩ := hq.1.split hx
    exact Net.reach_mem_nodes hg (fun _ _ h => h) hcn ⟨_, hq'⟩
  omega

/-- DFS terminates on every network. -/
theorem C05_dfs_terminates (g : Net) (es : List (Str × List Str)) (d : Int) (a b : UNode) :
    dfsNode g.childrenOf (fun c => decide (b.name ∈ getDescendants es g.hasName c.name d true)) b
      (g.fuelN + 1) a [] [a] ≠ none := by
  refine dfsNode_terminates (U := g.univ a) ?_ (by simp [Net.univ]) (by simp) ?_
  · intro x cs hcs c hc
    exact Net.linked_mem_univ (Net.linked_of_edgeOf ⟨cs, hcs, hc⟩)
  · unfold unvisited
    have := List.length_filter_le (fun x => decide (x ∉ ([] : List UNode))) (g.univ a)
    rw [Net.univ_length] at this
    omega

example : Demo.net.nodes.length ≤ 25 ∧ DistinctNames Demo.net := ⟨by decide, Demo.distinct⟩

/-- C08. Redefining existing names never raises, keeps every name resolving to the same node and keeps
every direct conversion: only the pair that had no conversion gains one. -/
theorem C08_set_conversion_harmless (g : Net) (hg : WF g) (a b : Str) (f : Fn) (rev : Option Fn) :
    ∃ g', setConversion g a b f rev = .ok g' ∧ WF g' ∧
      (∀ s n, g.getNode s = .ok n → g'.getNode s = .ok n) ∧
      (∀ x y h, Direct g x y h → Direct g' x y h) ∧
      (∀ x y h h', Direct g x y h → Direct g' x y h' → h' = h) := by
  obtain ⟨g', na, nb, h1, h2, _, _, _, h5, h6⟩ := setConversion_spec hg a b f rev
  refine ⟨g', h1, h2, h5, fun x y h hh => (h6 x y h).2 (Or.inl hh), ?_⟩
  intro x y h h' hd hd'
  have single : ∀ k, Direct g x y k → k = h := by
    rintro k ⟨l, hl, hk⟩
    obtain ⟨l2, hl2, hh⟩ := hd
    have e1 := dictGet_of_mem hg.keys hl
    rw [dictGet_of_mem hg.keys hl2] at e1
    cases e1
    have e2 := dictGet_of_mem (hg.single _ _ hl) hk
    rw [dictGet_of_mem (hg.single _ _ hl) hh] at e2
    cases e2; rfl
  rcases (h6 x y h').1 hd' with h | ⟨rfl, rfl, _, hno⟩ | ⟨rfl, rfl, _, hno, _⟩
  · exact single h' h
  · exact absurd ⟨h, hd⟩ hno
  · exact absurd ⟨h, hd⟩ hno

/-- C08 for set_unit. -/
theorem C08_set_unit_harmless (g : Net) (hg : WF g) (a : Str) :
    ∃ g', setUnit g a = .ok g' ∧ WF g' ∧
      (∀ s n, g.getNode s = .ok n → g'.getNode s = .ok n) ∧
      (∀ x y h, Direct g' x y h ↔ Direct g x y h) := by
  obtain ⟨g', h1, h2, _, h4, h5⟩ := setUnit_spec hg a
  exact ⟨g', h1, h2, h4, h5⟩

/-- C08: any history of edits succeeds, and never loses a conversion or changes the meaning of a name. -/
theorem C08_histories (g : Net) (hg : WF g) (es : List Edit) :
    ∃ g', applyEdits g es = .ok g' ∧ WF g' ∧
      (∀ s n, g.getNode s = .ok n → g'.getNode s = .ok n) ∧
      (∀ x y h, Direct g x y h → Direct g' x y h) := by
  induction es generalizing g with
  | nil => exact ⟨g, rfl, hg, fun _ _ h => h, fun _ _ _ h => h⟩
  | cons e es ih =>
    cases e with
    | unit a =>
      obtain ⟨g1, h1, w1, n1, d1⟩ := C08_set_unit_harmless g hg a
      obtain ⟨g2, h2, w2, n2, d2⟩ := ih g1 w1
      exact ⟨g2, by simp [applyEdits, Edit.apply, h1, bind, Except.bind, h2], w2,
        fun s n h => n2 s n (n1 s n h), fun x y h hh => d2 x y h ((d1 x y h).2 hh)⟩
    | conv a b f r =>
      obtain ⟨g1, h1, w1, n1, d1, _⟩ := C08_set_conversion_harmless g hg a b f r
      obtain ⟨g2, h2, w2, n2, d2⟩ := ih g1 w1
      exact ⟨g2, by simp [applyEdits, Edit.apply, h1, bind, Except.bind, h2], w2,
        fun s n h => n2 s n (n1 s n h), fun x y h hh => d2 x y h (d1 x y h hh)⟩

/-- C08, what the first-definition-wins rule means for the user: a corrected factor is silently ignored. -/
example : ∃ g', setConversion Demo.net s!!"ft" s!!"in" (Demo.times 13) none = .ok g' ∧
    (g'.convertStep none 1 Demo.foot Demo.inch).toOption = some 12 := by
  exact ⟨_, rfl, by decide +kernel⟩

end Unyts
