import Verif.Lemmas.Lean

/- `lean_BFS` on a part of the network whose conversions all go both ways. -/
namespace Unyts
open Spec

/-- The units with `P` convert only into units with `P`, and back. -/
def TwoWayOn (g : Net) (P : UNode → Prop) : Prop := ∀ x y, P x → Linked g x y → P y ∧ Linked g y x

/-- the conversions of the part -/
def onEdge (g : Net) (P : UNode → Prop) (x y : UNode) : Prop := P x ∧ Linked g x y

theorem TwoWayOn.twoWay {g : Net} {P : UNode → Prop} (h : TwoWayOn g P) : TwoWay (onEdge g P) :=
  fun _ _ e => ⟨(h _ _ e.1 e.2).1, (h _ _ e.1 e.2).2⟩

theorem TwoWayOn.chain {g : Net} {P : UNode → Prop} (h : TwoWayOn g P) {a b : UNode} {p : List UNode} (ha : P a)
    (hp : Chain (Linked g) a b p) : Chain (onEdge g P) a b p := by
  induction hp with
  | single => exact .single _
  | step e _ ih => exact .step ⟨ha, e⟩ (ih (h _ _ ha e).1)

theorem chain_of_on {g : Net} {P : UNode → Prop} {a b : UNode} {p : List UNode} (hp : Chain (onEdge g P) a b p) :
    Chain (Linked g) a b p := hp.mono fun _ _ e => e.2

theorem within_of_on {g : Net} {P : UNode → Prop} {n : Nat} {a b : UNode} (h : Within (onEdge g P) n a b) :
    Within (Linked g) n a b := by
  obtain ⟨p, hp, hl⟩ := h
  exact ⟨p, chain_of_on hp, hl⟩

theorem TwoWayOn.within {g : Net} {P : UNode → Prop} (h : TwoWayOn g P) {n : Nat} {a b : UNode} (ha : P a)
    (hw : Within (Linked g) n a b) : Within (onEdge g P) n a b := by
  obtain ⟨p, hp, hl⟩ := hw
  exact ⟨p, h.chain ha hp, hl⟩

theorem TwoWayOn.end {g : Net} {P : UNode → Prop} (h : TwoWayOn g P) {a b : UNode} {p : List UNode} (ha : P a)
    (hp : Chain (Linked g) a b p) : P b := by
  induction hp with
  | single => exact ha
  | step e _ ih => exact ih (h _ _ ha e).1

/-- the ball is among the descendants, for every kind of name -/
theorem mem_desc_of_ball {g : Net} (hg : WF g) (hd : DistinctNames g) {a b : UNode} (ha : a ∈ g.nodes) {n : Nat}
    (h : Within (Linked g) n a b) (hb : b ∈ g.nodes) (comb : Bool) :
    b.name ∈ getDescendants g.edgesStr g.hasName a.name n comb := by
  have hw := (Net.within_names hg hd ha).2 ⟨b, hb, h, rfl⟩
  unfold getDescendants getDescendantsF
  by_cases h0 : (n : Int) = 0
  · have : n = 0 := by omega
    subst this
    rw [Within.zero] at hw
    simp [hw]
  · rw [if_neg h0]
    simp only [Net.hasName_of_mem ha, if_true, Int.toNat_natCast]
    rw [Py.mem_union, Py.mem_union, mem_rounds]
    exact Or.inr (Or.inl hw)

theorem mem_desc_simple {g : Net} (hg : WF g) (hd : DistinctNames g) {a : UNode} (ha : a ∈ g.nodes)
    (hs : SimpleName a.name) {n : Nat} {comb : Bool} {x : Str} :
    x ∈ getDescendants g.edgesStr g.hasName a.name n comb ↔ ∃ b ∈ g.nodes, Within (Linked g) n a b ∧ b.name = x := by
  rw [mem_getDescendants_simple hs (Net.hasName_of_mem ha), Net.within_names hg hd ha]

/-- the selection of `lean_BFS` covers every vertex of every short enough chain -/
theorem leanSelection_coversOn {g : Net} (hg : WF g) {P : UNode → Prop} (h2 : TwoWayOn g P) (hd : DistinctNames g)
    {m : Int} (hm : 0 ≤ m) {a b : UNode} (ha : a ∈ g.nodes) (hb : b ∈ g.nodes) (pa : P a) (sa : SimpleName a.name)
    (sb : SimpleName b.name) {p : List UNode} (hp : Chain (Linked g) a b p)
    (hmin : ∀ p', Chain (Linked g) a b p' → p.length ≤ p'.length) (hlen : (p.length : Int) ≤ 2 * (m + 1) + 1) :
    ∀ x ∈ p, x.name ∈ leanSelection g.edgesStr g.hasName a.name b.name m := by
  have pb := h2.end pa hp
  obtain ⟨gen, hgm, hl, hor⟩ := leanLoop_spec
    (desc := fun u g' => getDescendants g.edgesStr g.hasName u g' true) (a := a.name) (b := b.name)
    (acc := ([], 0)) (generationsList_ne m)
  have hg0 := generationsList_nonneg hm hgm
  obtain ⟨r, hr⟩ : ∃ r : Nat, gen + 1 = (r : Int) := ⟨(gen + 1).toNat, by omega⟩
  simp only [hr] at hl hor
  have hshort : p.length ≤ r + r + 1 := by
    rcases hor with hne | hlast
    · obtain ⟨x, hx⟩ := List.exists_mem_of_ne_nil _ hne
      rw [Py.mem_inter, mem_desc_simple hg hd ha sa, mem_desc_simple hg hd hb sb] at hx
      obtain ⟨⟨y, hy, hay, rfl⟩, z, hz, hbz, hyz⟩ := hx
      have : z = y := hd _ hz _ hy hyz
      subst this
      obtain ⟨q, hq, hql⟩ := (h2.within pa hay).trans ((h2.within pb hbz).symm h2.twoWay)
      have := hmin q (chain_of_on hq)
      omega
    · rw [generationsList_last] at hlast
      have : m = gen := by simpa using hlast
      omega
  obtain ⟨x, hax, hxb, hall⟩ := (h2.chain pa hp).center hshort
  have hxn : x ∈ g.nodes := by
    obtain ⟨q, hq, _⟩ := within_of_on hax
    exact Net.reach_mem_nodes hg (fun _ _ h => h) ha ⟨q, hq⟩
  have hxsel : x.name ∈ Py.inter (getDescendants g.edgesStr g.hasName a.name r true)
      (getDescendants g.edgesStr g.hasName b.name r true) := by
    rw [Py.mem_inter, mem_desc_simple hg hd ha sa, mem_desc_simple hg hd hb sb]
    exact ⟨⟨x, hxn, within_of_on hax, rfl⟩, x, hxn, within_of_on (hxb.symm h2.twoWay), rfl⟩
  intro y hy
  unfold leanSelection
  rw [hl]
  simp only
  rw [Py.mem_union]
  refine Or.inr (List.mem_flatMap.2 ⟨x.name, hxsel, ?_⟩)
  have hxy : Within (Linked g) r x y := by
    rcases hall y hy with h | h
    · exact within_of_on (h.symm h2.twoWay)
    · exact within_of_on h
  have hxy' := hxy
  obtain ⟨q, hq, _⟩ := hxy'
  exact mem_desc_of_ball hg hd hxn hxy (Net.reach_mem_nodes hg (fun _ _ h => h) hxn ⟨q, hq⟩) _

/-- `lean_BFS` finds a shortest path in the part whenever the distance is at most `2 * (m + 1)`. -/
theorem leanBfs_completeOn {g : Net} (hg : WF g) {P : UNode → Prop} (h2 : TwoWayOn g P) (hd : DistinctNames g)
    {m : Int} (hm : 0 ≤ m) {a b : UNode} (ha : a ∈ g.nodes) (hb : b ∈ g.nodes) (pa : P a) (sa : SimpleName a.name)
    (sb : SimpleName b.name) {p : List UNode} (hp : Chain (Linked g) a b p)
    (hmin : ∀ p', Chain (Linked g) a b p' → p.length ≤ p'.length) (hlen : (p.length : Int) ≤ 2 * (m + 1) + 1) :
    ∃ q, leanBfs g g.edgesStr m a b = .ok (some q) ∧ q.length = p.length := by
  have hcov := leanSelection_coversOn hg h2 hd hm ha hb pa sa sb hp hmin hlen
  unfold leanBfs
  simp only
  generalize leanSelection g.edgesStr g.hasName a.name b.name m = sel at hcov
  have hne : (g.edges.filter fun e => e.1.name ∈ sel) ≠ [] := by
    obtain ⟨⟨k, l⟩, he, rfl⟩ := List.mem_map.1 ha
    exact List.ne_nil_of_mem (List.mem_filter.2 ⟨he, by simpa using hcov _ hp.head_mem⟩)
  rw [if_neg hne]
  have hslim : Chain (edgeOf (slimChildren g sel)) a b p :=
    hp.mono_on (fun x hx y e => slim_of_linked hg e (hcov x hx))
  rcases slim_bfs_spec (g := g) (sel := sel) (start := a) (tgt := b) with ⟨q, hq, hpath, hsh⟩ | ⟨_, hno⟩
  · refine ⟨q, hq, ?_⟩
    have h1 := hsh p hslim
    have h3 := hmin q (hpath.1.mono (fun _ _ => slim_sub))
    omega
  · exact absurd ⟨p, hslim⟩ hno

end Unyts
