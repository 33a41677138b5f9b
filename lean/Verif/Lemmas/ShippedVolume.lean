import Verif.Lemmas.ShippedOrdinary
import Verif.Lemmas.LeanShort

/- Volumes and weights of the shipped network: what the searches find. -/
namespace Unyts
open Spec
set_option maxRecDepth 1000000

/-! ### the short cut from the ounce to the dram -/

/-- neighbours of the dram and of its other names -/
theorem dram_decls :
    (rawDictionary.all fun e => (declsOf (kindInstrs shippedPrefixes e.1 e.2)).all fun d =>
      (!(dramNames.contains d.1) || d.2.1 == s!!"dram" || d.2.1 == d.1) &&
      (!(dramNames.contains d.2.1) || d.1 == s!!"dram" || d.1 == d.2.1) &&
      (!(d.1 == s!!"dram") || dramNames.contains d.2.1 || d.2.1 == s!!"dram" || d.2.1 == s!!"pound") &&
      (!(d.2.1 == s!!"dram") || dramNames.contains d.1 || d.1 == s!!"dram" || d.1 == s!!"pound" || d.1 == s!!"weight ounce")) = true ∧
    (explicitConversions.all fun d =>
      (!(dramNames.contains d.1) || d.2.1 == s!!"dram" || d.2.1 == d.1) &&
      (!(dramNames.contains d.2.1) || d.1 == s!!"dram" || d.1 == d.2.1) &&
      (!(d.1 == s!!"dram") || dramNames.contains d.2.1 || d.2.1 == s!!"dram" || d.2.1 == s!!"pound") &&
      (!(d.2.1 == s!!"dram") || dramNames.contains d.1 || d.1 == s!!"dram" || d.1 == s!!"pound" || d.1 == s!!"weight ounce")) = true := by
  constructor <;> decide +kernel

theorem dram_decl {a b : Str} {c : Cv} (h : (a, b, c) ∈ shipped) :
    (a ∈ dramNames → b = s!!"dram" ∨ b = a) ∧ (b ∈ dramNames → a = s!!"dram" ∨ a = b) ∧
    (a = s!!"dram" → b ∈ dramNames ∨ b = s!!"dram" ∨ b = s!!"pound") ∧
    (b = s!!"dram" → a ∈ dramNames ∨ a = s!!"dram" ∨ a = s!!"pound" ∨ a = s!!"weight ounce") := by
  have key : ∀ {a b : Str}, ((!(dramNames.contains a) || b == s!!"dram" || b == a) &&
      (!(dramNames.contains b) || a == s!!"dram" || a == b) &&
      (!(a == s!!"dram") || dramNames.contains b || b == s!!"dram" || b == s!!"pound") &&
      (!(b == s!!"dram") || dramNames.contains a || a == s!!"dram" || a == s!!"pound" || a == s!!"weight ounce")) = true →
      (a ∈ dramNames → b = s!!"dram" ∨ b = a) ∧ (b ∈ dramNames → a = s!!"dram" ∨ a = b) ∧
      (a = s!!"dram" → b ∈ dramNames ∨ b = s!!"dram" ∨ b = s!!"pound") ∧
      (b = s!!"dram" → a ∈ dramNames ∨ a = s!!"dram" ∨ a = s!!"pound" ∨ a = s!!"weight ounce") := by
    intro a b h
    simp only [Bool.and_eq_true, Bool.or_eq_true, Bool.not_eq_true', List.contains_iff_mem, beq_iff_eq,
      beq_eq_false_iff_ne, ← Bool.not_eq_true] at h
    obtain ⟨⟨⟨h1, h2⟩, h3⟩, h4⟩ := h
    refine ⟨fun e => ?_, fun e => ?_, fun e => ?_, fun e => ?_⟩
    · rcases h1 with (h | h) | h
      · exact absurd e h
      · exact Or.inl h
      · exact Or.inr h
    · rcases h2 with (h | h) | h
      · exact absurd e h
      · exact Or.inl h
      · exact Or.inr h
    · rcases h3 with ((h | h) | h) | h
      · exact absurd e h
      · exact Or.inl h
      · exact Or.inr (Or.inl h)
      · exact Or.inr (Or.inr h)
    · rcases h4 with (((h | h) | h) | h) | h
      · exact absurd e h
      · exact Or.inl h
      · exact Or.inr (Or.inl h)
      · exact Or.inr (Or.inr (Or.inl h))
      · exact Or.inr (Or.inr (Or.inr h))
  rcases List.mem_append.1 h with h | h
  · obtain ⟨e, he, h⟩ := List.mem_flatMap.1 h
    exact key (List.all_eq_true.1 (List.all_eq_true.1 dram_decls.1 e he) _ h)
  · obtain ⟨e, he, h⟩ := List.mem_map.1 h
    cases h
    exact key (List.all_eq_true.1 dram_decls.2 e he)

theorem dram_links : (s!!"weight ounce", s!!"dram") ∈ explicitConversions.map (fun e => (e.1, e.2.1)) ∧
    (s!!"pound", s!!"weight ounce") ∈ explicitConversions.map (fun e => (e.1, e.2.1)) ∧
    (s!!"dram", s!!"pound") ∈ explicitConversions.map (fun e => (e.1, e.2.1)) := by decide +kernel

theorem explicit_shipped {a b : Str} (h : (a, b) ∈ explicitConversions.map (fun e => (e.1, e.2.1))) :
    ∃ c, (a, b, c) ∈ shipped := by
  obtain ⟨e, he, h⟩ := List.mem_map.1 h
  cases h
  exact ⟨_, List.mem_append.2 (Or.inr (List.mem_map.2 ⟨e, he, rfl⟩))⟩

namespace Spec.ShippedNetwork

theorem to_dram {n : Net} (h : ShippedNetwork n) : LinkedName n s!!"weight ounce" s!!"dram" ∧
    ¬ LinkedName n s!!"dram" s!!"weight ounce" := by
  have h1 := h.linked.2 (Or.inl (explicit_shipped dram_links.1))
  exact ⟨h1, fun h2 => (h.back h1).1 h2 (by decide)⟩

theorem pound_ounce {n : Net} (h : ShippedNetwork n) : LinkedName n s!!"pound" s!!"weight ounce" ∧
    LinkedName n s!!"weight ounce" s!!"pound" := by
  have h1 := h.linked.2 (Or.inl (explicit_shipped dram_links.2.1))
  exact ⟨h1, (h.back h1).2 (by decide)⟩

theorem dram_pound {n : Net} (h : ShippedNetwork n) : LinkedName n s!!"dram" s!!"pound" ∧
    LinkedName n s!!"pound" s!!"dram" := by
  have h1 := h.linked.2 (Or.inl (explicit_shipped dram_links.2.2))
  exact ⟨h1, (h.back h1).2 (by decide)⟩

/-- what a dram converts to -/
theorem from_dram {n : Net} (h : ShippedNetwork n) {y : Str} (hl : LinkedName n s!!"dram" y) :
    y ∈ dramNames ∨ y = s!!"dram" ∨ y = s!!"pound" := by
  rcases h.linked.1 hl with ⟨c, hc⟩ | ⟨_, _, c, hc⟩
  · exact (dram_decl hc).2.2.1 rfl
  · rcases (dram_decl hc).2.2.2 rfl with h1 | h1 | h1 | rfl
    · exact Or.inl h1
    · exact Or.inr (Or.inl h1)
    · exact Or.inr (Or.inr h1)
    · exact absurd hl h.to_dram.2

/-- the other names of the dram convert to it only -/
theorem from_dram_name {n : Net} (h : ShippedNetwork n) {x y : Str} (hx : x ∈ dramNames) (hl : LinkedName n x y) :
    y = s!!"dram" ∨ y = x := by
  rcases h.linked.1 hl with ⟨c, hc⟩ | ⟨_, _, c, hc⟩
  · exact (dram_decl hc).1 hx
  · exact (dram_decl hc).2.1 hx

end Spec.ShippedNetwork

/-! ### nodes -/

/-- links of nodes are links of names -/
theorem linkedName_of {g : Net} {x y : UNode} (h : Linked g x y) : LinkedName g x.name y.name := by
  obtain ⟨f, hf⟩ := h
  exact ⟨f, x, y, rfl, rfl, hf⟩

theorem linked_of_name {g : Net} (hg : WF g) (hd : DistinctNames g) {x y : UNode} (hx : x ∈ g.nodes) (hy : y ∈ g.nodes)
    (h : LinkedName g x.name y.name) : Linked g x y := by
  obtain ⟨f, x', y', e1, e2, hf⟩ := h
  have mx : x' ∈ g.nodes := by obtain ⟨l, hl, _⟩ := hf; exact List.mem_map.2 ⟨_, hl, rfl⟩
  have my := hg.closed _ _ _ hf
  rw [hd _ hx _ mx e1.symm, hd _ hy _ my e2.symm]
  exact ⟨f, hf⟩

/-- the nodes of a link of names -/
theorem node_of_link {g : Net} (hg : WF g) {a b : Str} (h : LinkedName g a b) :
    (∃ x ∈ g.nodes, x.name = a) ∧ ∃ y ∈ g.nodes, y.name = b := by
  obtain ⟨f, x, y, e1, e2, hf⟩ := h
  exact ⟨⟨x, by obtain ⟨l, hl, _⟩ := hf; exact List.mem_map.2 ⟨_, hl, rfl⟩, e1⟩, y, hg.closed _ _ _ hf, e2⟩

/-- a volume or a weight -/
def Bulk (u : UNode) : Prop := labelOf u.name = some 3

theorem dram_label : labelOf s!!"pound" = some 3 ∧ labelOf s!!"dram" = some 3 ∧ labelOf s!!"weight ounce" = some 3 := by
  decide +kernel

theorem oneWay_bulk : ∀ p ∈ oneWay, labelOf p.1 = some 3 → p = (s!!"weight ounce", s!!"dram") := by decide +kernel

theorem Spec.ShippedNetwork.shortcut {n : Net} (h : ShippedNetwork n) : ∃ u v m, u.name = s!!"weight ounce" ∧
    v.name = s!!"dram" ∧ m.name = s!!"pound" ∧ u ∈ n.nodes ∧ v ∈ n.nodes ∧ m ∈ n.nodes ∧
    Shortcut (Linked n) Bulk u v m := by
  obtain ⟨⟨u, mu, eu⟩, v, mv, ev⟩ := node_of_link h.wf h.to_dram.1
  obtain ⟨⟨m, mm, em⟩, _⟩ := node_of_link h.wf h.pound_ounce.1
  refine ⟨u, v, m, eu, ev, em, mu, mv, mm, ?_⟩
  have L := fun {x y : UNode} (hx : x ∈ n.nodes) (hy : y ∈ n.nodes) => linked_of_name h.wf h.distinct hx hy
  constructor
  · intro x y hx hl
    have hn := linkedName_of hl
    have mx := Net.linked_src hl
    have my := Net.linked_dst h.wf hl
    refine ⟨by unfold Bulk; rw [← h.label hn]; exact hx, ?_⟩
    by_cases ho : (x.name, y.name) ∈ oneWay
    · have := oneWay_bulk _ ho hx
      simp only [Prod.mk.injEq] at this
      exact Or.inr ⟨h.distinct _ mx _ mu (this.1.trans eu.symm), h.distinct _ my _ mv (this.2.trans ev.symm)⟩
    · exact Or.inl (L my mx ((h.back hn).2 ho))
  · exact ⟨by unfold Bulk; rw [eu]; exact dram_label.2.2, by unfold Bulk; rw [em]; exact dram_label.1,
      L mu mm (by rw [eu, em]; exact h.pound_ounce.2), L mm mu (by rw [eu, em]; exact h.pound_ounce.1)⟩
  · exact ⟨by unfold Bulk; rw [em]; exact dram_label.1, by unfold Bulk; rw [ev]; exact dram_label.2.1,
      L mm mv (by rw [ev, em]; exact h.dram_pound.2), L mv mm (by rw [ev, em]; exact h.dram_pound.1)⟩
  · intro y hl
    have hn := linkedName_of hl
    have my := Net.linked_dst h.wf hl
    rw [ev] at hn
    rcases h.from_dram hn with h1 | h1 | h1
    · refine Or.inr (Or.inr fun z hz => ?_)
      rcases h.from_dram_name h1 (linkedName_of hz) with h2 | h2
      · exact Or.inl (h.distinct _ (Net.linked_dst h.wf hz) _ mv (h2.trans ev.symm))
      · exact Or.inr (h.distinct _ (Net.linked_dst h.wf hz) _ my h2)
    · exact Or.inl (h.distinct _ my _ mv (h1.trans ev.symm))
    · exact Or.inr (Or.inl (h.distinct _ my _ mm (h1.trans em.symm)))

/-! ### distances -/

/-- a chain of undirected steps uses the short cut at most once -/
theorem bulk_walk {n : Net} (h : ShippedNetwork n) {k : Nat} {a b : Str} (hj : Within Joined k a b) (ha : labelOf a = some 3) :
    let J := fun x y => LinkedName n x y ∧ LinkedName n y x
    Within J k a b ∨ ∃ y y' i j, y ∈ [s!!"weight ounce", s!!"dram"] ∧ y' ∈ [s!!"weight ounce", s!!"dram"] ∧
      Within J i a y ∧ Within J j y' b ∧ i + j + 1 ≤ k := by
  intro J
  obtain ⟨p, hp, hl⟩ := hj
  induction hp generalizing k with
  | single => exact Or.inl (Within.refl _ _)
  | @step a b c p e hc ih =>
    simp only [List.length_cons] at hl
    obtain ⟨k, rfl⟩ : ∃ k', k = k' + 1 := by
      have : p ≠ [] := by rintro rfl; cases hc
      have := List.length_pos_iff.2 this
      exact ⟨k - 1, by omega⟩
    have hlab : labelOf b = some 3 := by
      rcases e with ⟨c, hc⟩ | ⟨c, hc⟩
      · rw [← decl_label hc]; exact ha
      · rw [decl_label hc]; exact ha
    have hedge : J a b ∨ a ∈ [s!!"weight ounce", s!!"dram"] ∧ b ∈ [s!!"weight ounce", s!!"dram"] := by
      rcases e with e | e
      · have h1 := h.linked.2 (Or.inl e)
        by_cases ho : (a, b) ∈ oneWay
        · have := oneWay_bulk _ ho ha
          simp only [Prod.mk.injEq] at this
          exact Or.inr ⟨by simp [this.1], by simp [this.2]⟩
        · exact Or.inl ⟨h1, (h.back h1).2 ho⟩
      · have h1 := h.linked.2 (Or.inl e)
        by_cases ho : (b, a) ∈ oneWay
        · have := oneWay_bulk _ ho hlab
          simp only [Prod.mk.injEq] at this
          exact Or.inr ⟨by simp [this.2], by simp [this.1]⟩
        · exact Or.inl ⟨(h.back h1).2 ho, h1⟩
    rcases ih hlab (k := k) (by omega) with h1 | ⟨y, y', i, j, hy, hy', h1, h2, h3⟩
    · rcases hedge with he | ⟨e1, e2⟩
      · exact Or.inl (within_step he h1)
      · exact Or.inr ⟨a, b, 0, k, e1, e2, Within.refl _ _, h1, by omega⟩
    · rcases hedge with he | ⟨e1, e2⟩
      · exact Or.inr ⟨y, y', i + 1, j, hy, hy', within_step he h1, h2, by omega⟩
      · exact Or.inr ⟨a, y', 0, j, e1, hy', Within.refl _ _, h2, by omega⟩

theorem bulk_hub {n : Net} (h : ShippedNetwork n) {k : Nat} {a b : Str} (hj : Within Joined k a b) (ha : labelOf a = some 3) :
    Within (fun x y => LinkedName n x y ∧ LinkedName n y x) (k + 1) a b := by
  rcases bulk_walk h hj ha with h1 | ⟨y, y', i, j, hy, hy', h1, h2, h3⟩
  · exact h1.mono (by omega)
  · have mid : Within (fun x y => LinkedName n x y ∧ LinkedName n y x) 2 y y' := by
      have wp : (fun x y => LinkedName n x y ∧ LinkedName n y x) s!!"weight ounce" s!!"pound" := ⟨h.pound_ounce.2, h.pound_ounce.1⟩
      have pd : (fun x y => LinkedName n x y ∧ LinkedName n y x) s!!"pound" s!!"dram" := ⟨h.dram_pound.2, h.dram_pound.1⟩
      have w2 := within_step (E := fun x y => LinkedName n x y ∧ LinkedName n y x) wp
        (within_step (E := fun x y => LinkedName n x y ∧ LinkedName n y x) pd (Within.refl 0 _))
      simp only [List.mem_cons, List.not_mem_nil, or_false] at hy hy'
      rcases hy with rfl | rfl <;> rcases hy' with rfl | rfl
      · exact Within.refl _ _
      · exact w2
      · exact Within.symm (fun _ _ e => ⟨e.2, e.1⟩) w2
      · exact Within.refl _ _
    exact ((h1.trans mid).trans h2).mono (by omega)

/-- two volumes or weights of an island are near -/
theorem Spec.ShippedNetwork.near_bulk {n : Net} (h : ShippedNetwork n) {a b : Str} (na : IsName a) (nb : IsName b)
    (ha : labelOf a = some 3) (hb : labelOf b = some 3) (hi : islandOf a = islandOf b) :
    Within (fun x y => LinkedName n x y ∧ LinkedName n y x) 36 a b := by
  have ra := isName_ranked na
  have rb := isName_ranked nb
  unfold ranked at ra rb
  split at ra
  · cases ra
  · next j i d he =>
    split at rb
    · cases rb
    · next j' i' d' he' =>
      have : i = i' := by unfold islandOf at hi; rw [he, he'] at hi; simpa using hi
      subst this
      obtain ⟨hd, hub, hh, w1⟩ := climb na he
      obtain ⟨hd', hub', hh', w2⟩ := climb nb he'
      rw [hh] at hh'
      cases hh'
      have := (bulk_hub h w1 ha).trans (Within.symm (fun _ _ e => ⟨e.2, e.1⟩) (bulk_hub h w2 hb))
      exact this.mono (by omega)

theorem chain_both {n : Net} (h : ShippedNetwork n) {s t : Str} {p : List Str}
    (hp : Chain (fun x y => LinkedName n x y ∧ LinkedName n y x) s t p) {a : UNode} (ma : a ∈ n.nodes) (ha : a.name = s)
    (hs : labelOf s = some 3) :
    ∃ b q, b ∈ n.nodes ∧ b.name = t ∧ Chain (bothWays (Linked n) Bulk) a b q ∧ q.length = p.length := by
  induction hp generalizing a with
  | single => exact ⟨a, [a], ma, ha, .single _, rfl⟩
  | @step s c t p e _ ih =>
    obtain ⟨_, y, my, ey⟩ := node_of_link h.wf e.1
    have hl : labelOf c = some 3 := by rw [← h.label e.1]; exact hs
    obtain ⟨b, q, mb, eb, hq, hlen⟩ := ih my ey hl
    subst ha
    refine ⟨b, _, mb, eb, .step ⟨hs, by unfold Bulk; rw [ey]; exact hl, ?_, ?_⟩ hq, by simp [hlen]⟩
    · exact linked_of_name h.wf h.distinct ma my (by rw [ey]; exact e.1)
    · exact linked_of_name h.wf h.distinct my ma (by rw [ey]; exact e.2)

theorem Spec.ShippedNetwork.nearBulk {n : Net} (h : ShippedNetwork n) {a b : UNode} (ha : Bulk a) (ma : a ∈ n.nodes)
    (mb : b ∈ n.nodes) (hr : Reach (Linked n) a b) : Within (bothWays (Linked n) Bulk) 36 a b := by
  by_cases hab : a = b
  · subst hab; exact Within.refl _ _
  obtain ⟨p, hp⟩ := hr
  have hc := chain_linkedNames hp
  have m1 : IsName a.name := by
    cases hp with
    | single => exact (hab rfl).elim
    | step e _ => exact (h.linked_names (linkedName_of e)).1
  have m2 : IsName b.name := by
    rcases hp.unsnoc with ⟨_, h0⟩ | ⟨c, q, _, e, _⟩
    · first | exact (hab h0).elim | exact (hab h0.symm).elim
    · exact (h.linked_names (linkedName_of e)).2
  have hb : labelOf b.name = some 3 := by rw [← h.reach_label hc]; exact ha
  obtain ⟨q, hq, hl⟩ := h.near_bulk m1 m2 ha hb (h.reach_island ⟨_, hc⟩)
  obtain ⟨b', q', mb', e, hq', hl'⟩ := chain_both h hq ma rfl ha
  obtain rfl := h.distinct _ mb' _ mb e
  exact ⟨q', hq', by omega⟩

/-! ### what the searches find -/

theorem leanBfs_ok (g : Net) (es : List (Str × List Str)) (k : Int) (a b : UNode) : ∃ r, leanBfs g es k a b = .ok r := by
  unfold leanBfs
  simp only
  split
  · exact ⟨_, rfl⟩
  · rcases slim_bfs_spec (g := g) (start := a) (tgt := b)
      (sel := leanSelection es g.hasName a.name b.name k) with ⟨q, hq, _⟩ | ⟨hq, _⟩
    · exact ⟨_, hq⟩
    · exact ⟨_, hq⟩

/-- a search that finds what `lean_BFS` finds, or what BFS finds -/
theorem finds_of_lean {S : Str → Str → Prop} {w : World} (hg : WF w.net)
    (ha : w.par.algorithm ∈ [Algorithm.bfs, .lean, .hybrid]) (hes : w.es = w.net.edgesStr)
    (hl : w.par.algorithm = .lean → ∀ a b na nb, S a b → w.net.getNode a = .ok na → w.net.getNode b = .ok nb →
      Reach (Linked w.net) na nb → leanBfs w.net w.net.edgesStr w.par.maxGenerations na nb ≠ .ok none) : Finds S w := by
  intro w' hb a b na nb sab h1 h2
  obtain ⟨m1, e1⟩ := getNode_mem h1
  obtain ⟨m2, e2⟩ := getNode_mem h2
  obtain ⟨r2, l1⟩ := leanBfs_ok w.net w.net.edgesStr w.par.maxGenerations na nb
  have hbfs : ∃ r, w.net.bfs na nb = .ok r ∧ (Reach (Linked w.net) na nb → r ≠ none) := by
    rcases Net.bfs_spec hg m1 (tgt := nb) with ⟨p, hp, _⟩ | ⟨hn, hno⟩
    · exact ⟨_, hp, fun _ => by simp⟩
    · exact ⟨_, hn, fun hr => absurd hr hno⟩
  obtain ⟨r1, b1, b2⟩ := hbfs
  unfold searchNetwork
  rw [hb.net, hasName_of_getNode h1, hasName_of_getNode h2, h1, h2]
  simp only [List.mem_cons, List.not_mem_nil, or_false] at ha
  rcases ha with ha | ha | ha
  · simp only [Bool.and_self, if_true, hb.par, ha]
    exact ⟨_, b1, b2⟩
  · simp only [Bool.and_self, if_true, hb.par, ha, net_ite, es_ite]
    rw [hb.net, hb.es, hes]
    refine ⟨_, l1, fun hr e => ?_⟩
    subst e
    exact hl ha a b na nb sab h1 h2 hr l1
  · simp only [Bool.and_self, if_true, hb.par, ha, net_ite, es_ite]
    rw [hb.net, hb.es, hes, l1, b1]
    cases r1 with
    | none =>
      cases r2 with
      | none => exact ⟨none, rfl, fun h => absurd rfl (b2 h)⟩
      | some p => exact ⟨some p, by simp [hybridChoice, bind, Except.bind, pure, Except.pure], fun _ => by simp⟩
    | some p =>
      cases r2 with
      | none => exact ⟨some p, by simp [hybridChoice, bind, Except.bind, pure, Except.pure], fun _ => by simp⟩
      | some q => exact ⟨_, by simp [hybridChoice, bind, Except.bind, pure, Except.pure]; rfl, fun _ => by split <;> simp⟩

/-- two single names of volumes or weights, other than the pairs that are missed -/
def BulkNames (alg : Algorithm) (a b : Str) : Prop := (SimpleName a ∧ SimpleName b) ∧ labelOf a = some 3 ∧ labelOf b = some 3 ∧
  (alg = .lean → ¬ (a = s!!"weight ounce" ∧ b ∈ dramNames))

theorem Spec.ShippedWorld.finds_bulk {w : World} (hw : Fresh w) (h : ShippedWorld w)
    (halg : w.par.algorithm ∈ [Algorithm.bfs, .lean, .hybrid]) (hes : w.edgesStr = none) (hm : 17 ≤ w.par.maxGenerations) :
    FindsInvOn (BulkNames w.par.algorithm) w := by
  refine findsInvOn_fresh hw ?_ fun _ _ h => h.1
  have hn := h.network
  obtain ⟨k, hk⟩ : ∃ k : Nat, w.par.maxGenerations = k := ⟨w.par.maxGenerations.toNat, by omega⟩
  refine finds_of_lean hw.wf halg (by unfold World.es; rw [hes]; rfl) ?_
  intro hlean a b na nb sab h1 h2 hr e
  obtain ⟨m1, e1⟩ := getNode_mem h1
  obtain ⟨m2, e2⟩ := getNode_mem h2
  obtain ⟨⟨sa, sb⟩, la, lb, hex⟩ := sab
  subst e1
  subst e2
  obtain ⟨u, v, m, eu, ev, em, mu, mv, mm, hsc⟩ := hn.shortcut
  have hnear := hn.nearBulk la m1 m2 hr
  rw [hk] at e
  obtain ⟨q, hq⟩ := leanBfs_shortcut hw.wf hsc hn.distinct (k := k) m1 m2 la lb sa sb (by
    rintro ⟨rfl, hend, hne⟩
    refine hex hlean ⟨eu, ?_⟩
    rcases hend with h | ⟨h3, h4⟩
    · exact absurd h hne
    · have := linkedName_of h3
      rw [ev] at this
      rcases hn.from_dram this with h5 | h5 | h5
      · exact h5
      · exact absurd (hn.distinct _ m2 _ mv (h5.trans ev.symm)) hne
      · exact absurd (hn.distinct _ m2 _ mm (h5.trans em.symm)) h4) (hnear.mono (by omega))
  rw [hq] at e
  cases e

/-- with a formation volume factor the conversions of volumes and weights answer every number -/
theorem bulk_linear : (explicitConversions.all fun e => !(labelOf e.1 == some 3) || (Cv.fn e.2.2).linear) = true := by
  decide +kernel

theorem bulk_decl {a b : Str} {c : Cv} (h : (a, b, c) ∈ shipped) (ha : labelOf a = some 3) : c.linear = true := by
  rcases List.mem_append.1 h with h | h
  · obtain ⟨e, he, h⟩ := List.mem_flatMap.1 h
    have h1 := List.all_eq_true.1 (List.all_eq_true.1 dict_checked e he) _ h
    rw [Bool.and_eq_true] at h1
    exact h1.1
  · obtain ⟨e, he, h⟩ := List.mem_map.1 h
    cases h
    have := List.all_eq_true.1 bulk_linear e he
    simp only [Bool.or_eq_true, Bool.not_eq_true', beq_eq_false_iff_ne] at this
    rcases this with h | h
    · exact absurd ha h
    · exact h

theorem bulk_shown {a b : Str} {c : Cv} (h : shippedCv a b = some c) (ha : labelOf a = some 3) : c.linear = true := by
  unfold shippedCv withReverse at h
  cases hf : first shipped a b with
  | some c' =>
    rw [hf, Option.some_or] at h
    cases h
    exact bulk_decl (first_some hf) ha
  | none =>
    rw [hf, Option.none_or] at h
    split at h
    · cases hr : first shipped b a with
      | none => rw [hr] at h; cases h
      | some c' =>
        rw [hr] at h
        cases h
        have hd := first_some hr
        have := bulk_decl hd (by rw [decl_label hd]; exact ha)
        simpa [Cv.linear] using this
    · cases h

theorem Spec.ShippedNetwork.totalBulk {n : Net} (h : ShippedNetwork n) {φ : Rat} (hφ : φ ≠ 0) :
    TotalOn n (some φ) Bulk := by
  intro a b f x ha hd
  obtain ⟨c, hc, rfl⟩ := h.shows.1 ⟨a, b, rfl, rfl, hd⟩
  obtain ⟨M, _, hM⟩ := Cv.linear_eval (bulk_shown hc ha) hφ
  exact ⟨by unfold Bulk; rw [← h.label ⟨_, a, b, rfl, rfl, hd⟩]; exact ha, _, hM x⟩

end Unyts
