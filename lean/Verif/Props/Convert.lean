import Verif.Lemmas.ConvValue
import Verif.Spec.DemoWorld
import Mathlib.Tactic.FieldSimp

/-
C07, C09, C10, C11, C13, C14: the values `convert` gives for single names.
-/
namespace Unyts
open Spec

/-! ### C07 -/

/-- C07. In two states that any two sessions may have left (with whatever algorithms, caches and memories) over the
same consistent network and formation volume factor, converting the same value between the same two names gives the
same number. -/
theorem C07_same_value (w1 w2 : World) (h1 : Reachable w1) (h2 : Reachable w2) (hnet : w1.net = w2.net)
    (hfvf : w1.fvf = w2.fvf) (B : UNode → Rat → Rat) (hB : Consistent w1.net w1.fvf B)
    (a b : Str) (ha : CleanName a) (hb : CleanName b) (o1 : Ordinary w1.dic a) (o2 : Ordinary w2.dic a)
    (d1 : ¬ DensityPair w1.dic a b) (d2 : ¬ DensityPair w2.dic a b) (uc1 uc2 : Option Bool) (x : Rat) (c1 c2 : Conv)
    (w1' w2' : World) (r1 : convert (some x) (some a) (some b) uc1 w1 = (.ok (some c1), w1'))
    (r2 : convert (some x) (some a) (some b) uc2 w2 = (.ok (some c2), w2')) : c1 = c2 := by
  obtain ⟨y1, rfl, e1⟩ := convert_reads (sound_of_reachable h1) hB ha hb o1 d1 r1
  obtain ⟨y2, rfl, e2⟩ := convert_reads (sound_of_reachable h2) (hnet ▸ hfvf ▸ hB) ha hb o2 d2 r2
  rcases e1 with ⟨hab, rfl⟩ | ⟨na, nb, g1, g2, e1⟩
  · rcases e2 with ⟨_, rfl⟩ | ⟨na, nb, g1, g2, e2⟩
    · rfl
    · subst hab
      rw [g1] at g2; cases g2
      rw [hB.inj _ _ _ e2]
  · rcases e2 with ⟨hab, rfl⟩ | ⟨na', nb', g1', g2', e2⟩
    · subst hab
      rw [g1] at g2; cases g2
      rw [hB.inj _ _ _ e1]
    · rw [← hnet, g1] at g1'; cases g1'
      rw [← hnet, g2] at g2'; cases g2'
      rw [hB.inj _ _ _ (e1.trans e2.symm)]

example : Reachable Demo.world ∧ Consistent Demo.world.net Demo.world.fvf (fun n x => x * Demo.size n) ∧
    CleanName s!!"mi" ∧ Ordinary Demo.world.dic s!!"mi" ∧ ¬ DensityPair Demo.world.dic s!!"mi" s!!"in" ∧
    numOf (convert (some 2) (some s!!"mi") (some s!!"in") none Demo.world).1 = some 126720 :=
  ⟨Demo.reachable, Demo.consistent _, Demo.clean_mi, Demo.ordinary _, Demo.noDensity _ _, by decide +kernel⟩

/-! ### C13, C14 -/

/-- C13. On a consistent network, in any state a session left, converting from a to b and the answer back from b to a
returns the original number. -/
theorem C13_round_trip (w : World) (hw : Reachable w) (B : UNode → Rat → Rat) (hB : Consistent w.net w.fvf B)
    (a b : Str) (ha : CleanName a) (hb : CleanName b) (oa : Ordinary w.dic a) (ob : Ordinary w.dic b)
    (hd : ¬ DensityPair w.dic a b) (uc uc' : Option Bool) (x y : Rat) (c : Conv) (w1 w2 : World)
    (r1 : convert (some x) (some a) (some b) uc w = (.ok (some (.num y)), w1))
    (r2 : convert (some y) (some b) (some a) uc' w1 = (.ok (some c), w2)) : c = .num x := by
  have hs := sound_of_reachable hw
  have hb1 : SameBase w w1 := by have := base_convert hs.1.wf (some x) (some a) (some b) uc; rw [r1] at this; exact this
  have hs1 : SoundAmple w1 := by
    have := soundAmple_call (c := .convert (some x) (some a) (some b) uc) trivial hs
    simp only [Call.run, r1] at this; exact this
  obtain ⟨y', hy, e1⟩ := convert_reads hs hB ha hb oa hd r1
  cases hy
  have hd' : ¬ DensityPair w1.dic b a := by
    rw [hb1.dic]; rintro ⟨u1, u2, h⟩; exact hd ⟨u2, u1, h.symm⟩
  obtain ⟨z, rfl, e2⟩ := convert_reads hs1 (hb1.net.symm ▸ hb1.fvf.symm ▸ hB) hb ha (hb1.dic.symm ▸ ob) hd' r2
  rw [hb1.net] at e2
  rcases e1 with ⟨hab, rfl⟩ | ⟨na, nb, g1, g2, e1⟩
  · rcases e2 with ⟨_, rfl⟩ | ⟨na, nb, g1, g2, e2⟩
    · rfl
    · subst hab; rw [g1] at g2; cases g2; rw [hB.inj _ _ _ e2]
  · rcases e2 with ⟨hab, rfl⟩ | ⟨nb', na', g2', g1', e2⟩
    · subst hab; rw [g1] at g2; cases g2; rw [hB.inj _ _ _ e1]
    · rw [g1] at g1'; cases g1'
      rw [g2] at g2'; cases g2'
      rw [hB.inj _ _ _ (e2.trans e1)]

theorem along_total {g : Net} {fvf : Option Rat} (h : TotalNet g fvf) {p : List UNode} {f : Fn} (ha : Along g p f)
    (x : Rat) : ∃ y, f fvf x = .ok y := by
  induction ha generalizing x with
  | single a => exact ⟨x, rfl⟩
  | step hd _ ih =>
    obtain ⟨y, hy⟩ := h _ _ _ x hd
    obtain ⟨z, hz⟩ := ih y
    exact ⟨z, by simp [hy, Except.bind, hz]⟩

theorem convert_total {w : World} (h : FindsInv w) (ht : TotalNet w.net w.fvf) {a b : Str} (ha : CleanName a)
    (hb : CleanName b) (oa : Ordinary w.dic a) (hd : ¬ DensityPair w.dic a b) {na nb : UNode}
    (hna : w.net.getNode a = .ok na) (hnb : w.net.getNode b = .ok nb) (hr : Reach (Linked w.net) na nb)
    (uc : Option Bool) (x : Rat) : ∃ y w', convert (some x) (some a) (some b) uc w = (.ok (some (.num y)), w') := by
  obtain ⟨q, f, _, hal, hres⟩ := convert_finds h ha hb ⟨ha.2, hb.2⟩ oa hd hna hnb hr uc (some x)
  obtain ⟨y, hy⟩ := along_total ht hal x
  refine ⟨y, _, Prod.ext ?_ rfl⟩
  rw [hres]
  simp [ansRes, hy, Except.map, finish]

theorem reach_symm {E : α → α → Prop} (h : TwoWay E) {a b : α} (hr : Reach E a b) : Reach E b a := by
  obtain ⟨p, hp⟩ := hr
  exact ⟨p.reverse, hp.reverse h⟩

theorem round_trip_total {w : World} (h : FindsInv w) (hw : Reachable w) (B : UNode → Rat → Rat)
    (hB : Consistent w.net w.fvf B) (ht : TotalNet w.net w.fvf) (h2 : TwoWay (Linked w.net))
    {a b : Str} (ha : CleanName a) (hb : CleanName b) (oa : Ordinary w.dic a) (ob : Ordinary w.dic b)
    (hd : ¬ DensityPair w.dic a b) {na nb : UNode} (hna : w.net.getNode a = .ok na) (hnb : w.net.getNode b = .ok nb)
    (hr : Reach (Linked w.net) na nb) (uc uc' : Option Bool) (x : Rat) :
    ∃ y w1 w2, convert (some x) (some a) (some b) uc w = (.ok (some (.num y)), w1) ∧
      convert (some y) (some b) (some a) uc' w1 = (.ok (some (.num x)), w2) := by
  obtain ⟨y, w1, r1⟩ := convert_total h ht ha hb oa hd hna hnb hr uc x
  have hb1 : SameBase w w1 := by
    have := base_convert h.1.1.wf (some x) (some a) (some b) uc; rw [r1] at this; exact this
  have hf1 : FindsInv w1 := by
    have := findsInv_asks (c := .convert (some x) (some a) (some b) uc) trivial h
    simp only [Call.run, r1] at this; exact this
  have hd' : ¬ DensityPair w1.dic b a := by
    rw [hb1.dic]; rintro ⟨u1, u2, h⟩; exact hd ⟨u2, u1, h.symm⟩
  obtain ⟨z, w2, r2⟩ := convert_total hf1 (by rw [hb1.net, hb1.fvf]; exact ht) hb ha (hb1.dic.symm ▸ ob) hd'
    (by rw [hb1.net]; exact hnb) (by rw [hb1.net]; exact hna) (by rw [hb1.net]; exact reach_symm h2 hr) uc' y
  have := C13_round_trip w hw B hB a b ha hb oa ob hd uc uc' x y _ w1 w2 r1 r2
  cases this
  exact ⟨y, w1, w2, r1, r2⟩

/-- C13, with the conversions found rather than assumed: on a consistent two-way network whose functions accept every
number, with BFS, after any sequence of conversions and questions, every two ordinary names that are joined by
conversions convert there and back to the original number. -/
theorem C13_round_trip_bfs (w0 : World) (hf : Fresh w0) (halg : w0.par.algorithm = .bfs) (B : UNode → Rat → Rat)
    (hB : Consistent w0.net w0.fvf B) (ht : TotalNet w0.net w0.fvf) (h2 : TwoWay (Linked w0.net)) (cs : List Call)
    (hcs : ∀ c ∈ cs, Asks c) (a b : Str) (ha : CleanName a) (hb : CleanName b) (oa : Ordinary w0.dic a)
    (ob : Ordinary w0.dic b) (hd : ¬ DensityPair w0.dic a b) (na nb : UNode) (hna : w0.net.getNode a = .ok na)
    (hnb : w0.net.getNode b = .ok nb) (hr : Reach (Linked w0.net) na nb) (uc uc' : Option Bool) (x : Rat) :
    ∃ y w1 w2, convert (some x) (some a) (some b) uc (session cs w0) = (.ok (some (.num y)), w1) ∧
      convert (some y) (some b) (some a) uc' w1 = (.ok (some (.num x)), w2) := by
  have hs := base_session hcs hf.wf
  refine round_trip_total (findsInv_session hcs (findsInv_fresh hf (finds_bfs hf.wf halg)))
    ⟨w0, cs, hf, ?_, rfl⟩ B ?_ ?_ ?_ ha hb ?_ ?_ ?_ (na := na) (nb := nb) ?_ ?_ ?_ uc uc' x
  · intro c hc; have := hcs c hc; cases c <;> trivial
  all_goals first
    | rw [hs.net, hs.fvf]; assumption
    | rw [hs.net]; assumption
    | rw [hs.dic]; assumption

/-- C13 for the default algorithm, lean_BFS, on networks within its range (see C04). -/
theorem C13_round_trip_lean (w0 : World) (hf : Fresh w0) (halg : w0.par.algorithm = .lean) (B : UNode → Rat → Rat)
    (hB : Consistent w0.net w0.fvf B) (ht : TotalNet w0.net w0.fvf) (h2 : TwoWay (Linked w0.net))
    (hdn : DistinctNames w0.net) (hsn : ∀ n ∈ w0.net.nodes, SimpleName n.name) (hsnap : w0.edgesStr = none)
    (m : Nat) (hm : w0.par.maxGenerations = m)
    (hnear : ∀ a b, Reach (Linked w0.net) a b → Within (Linked w0.net) (2 * (m + 1)) a b) (cs : List Call)
    (hcs : ∀ c ∈ cs, Asks c) (a b : Str) (ha : CleanName a) (hb : CleanName b) (oa : Ordinary w0.dic a)
    (ob : Ordinary w0.dic b) (hd : ¬ DensityPair w0.dic a b) (na nb : UNode) (hna : w0.net.getNode a = .ok na)
    (hnb : w0.net.getNode b = .ok nb) (hr : Reach (Linked w0.net) na nb) (uc uc' : Option Bool) (x : Rat) :
    ∃ y w1 w2, convert (some x) (some a) (some b) uc (session cs w0) = (.ok (some (.num y)), w1) ∧
      convert (some y) (some b) (some a) uc' w1 = (.ok (some (.num x)), w2) := by
  have hs := base_session hcs hf.wf
  have hes : w0.es = w0.net.edgesStr := by unfold World.es; rw [hsnap]; rfl
  refine round_trip_total
    (findsInv_session hcs (findsInv_fresh hf (finds_lean hf.wf halg h2 hdn hsn hes hm hnear)))
    ⟨w0, cs, hf, ?_, rfl⟩ B ?_ ?_ ?_ ha hb ?_ ?_ ?_ (na := na) (nb := nb) ?_ ?_ ?_ uc uc' x
  · intro c hc; have := hcs c hc; cases c <;> trivial
  all_goals first
    | rw [hs.net, hs.fvf]; assumption
    | rw [hs.net]; assumption
    | rw [hs.dic]; assumption

theorem demo_total (fvf : Option Rat) : TotalNet Demo.net fvf := by
  intro a b f x h
  rcases Demo.direct_cases h with h | h | h | h | h | h <;> obtain ⟨_, _, rfl⟩ := h <;> exact ⟨_, rfl⟩

example : Fresh Demo.world ∧ TotalNet Demo.world.net none ∧ TwoWay (Linked Demo.world.net) ∧
    Reach (Linked Demo.world.net) Demo.inch Demo.foot ∧
    (let w := session [.convertible s!!"g" s!!"in" none] Demo.world
     numOf (convert (some 30) (some s!!"in") (some s!!"ft") none w).1 = some (5/2) ∧
     numOf (convert (some (5/2)) (some s!!"ft") (some s!!"in") none w).1 = some 30) :=
  ⟨Demo.fresh, demo_total _, Demo.twoWay, ⟨_, .step Demo.linked_inch_foot (.single _)⟩, by decide +kernel⟩

/-- C14. On a consistent network, in any state a session left, converting a to b and then b to c gives the number that
converting a to c gives. -/
theorem C14_transitive (w : World) (hw : Reachable w) (B : UNode → Rat → Rat) (hB : Consistent w.net w.fvf B)
    (a b c : Str) (ha : CleanName a) (hb : CleanName b) (hc : CleanName c) (oa : Ordinary w.dic a)
    (ob : Ordinary w.dic b) (dab : ¬ DensityPair w.dic a b) (dbc : ¬ DensityPair w.dic b c)
    (dac : ¬ DensityPair w.dic a c) (uc1 uc2 uc3 : Option Bool) (x y : Rat) (z z' : Conv) (w1 w2 w3 : World)
    (r1 : convert (some x) (some a) (some b) uc1 w = (.ok (some (.num y)), w1))
    (r2 : convert (some y) (some b) (some c) uc2 w1 = (.ok (some z), w2))
    (r3 : convert (some x) (some a) (some c) uc3 w2 = (.ok (some z'), w3)) : z' = z := by
  have hs := sound_of_reachable hw
  have hb1 : SameBase w w1 := by have := base_convert hs.1.wf (some x) (some a) (some b) uc1; rw [r1] at this; exact this
  have hs1 : SoundAmple w1 := by
    have := soundAmple_call (c := .convert (some x) (some a) (some b) uc1) trivial hs
    simp only [Call.run, r1] at this; exact this
  have hb2 : SameBase w1 w2 := by have := base_convert hs1.1.wf (some y) (some b) (some c) uc2; rw [r2] at this; exact this
  have hs2 : SoundAmple w2 := by
    have := soundAmple_call (c := .convert (some y) (some b) (some c) uc2) trivial hs1
    simp only [Call.run, r2] at this; exact this
  have hb02 := hb1.trans hb2
  obtain ⟨y', hy, e1⟩ := convert_reads hs hB ha hb oa dab r1
  cases hy
  obtain ⟨q, rfl, e2⟩ := convert_reads hs1 (hb1.net.symm ▸ hb1.fvf.symm ▸ hB) hb hc (hb1.dic.symm ▸ ob)
    (by rw [hb1.dic]; exact dbc) r2
  obtain ⟨q', rfl, e3⟩ := convert_reads hs2 (hb02.net.symm ▸ hb02.fvf.symm ▸ hB) ha hc (hb02.dic.symm ▸ oa)
    (by rw [hb02.dic]; exact dac) r3
  rw [hb1.net] at e2
  rw [hb02.net] at e3
  -- read everything on the common scale
  have e3' : ∀ na nc, w.net.getNode a = .ok na → w.net.getNode c = .ok nc → B nc q' = B na x := by
    intro na nc g1 g2
    rcases e3 with ⟨rfl, rfl⟩ | ⟨na', nc', g1', g2', e⟩
    · rw [g1] at g2; cases g2; rfl
    · rw [g1] at g1'; cases g1'; rw [g2] at g2'; cases g2'; exact e
  rcases e1 with ⟨rfl, rfl⟩ | ⟨na, nb, ga, gb, e1⟩
  · rcases e2 with ⟨rfl, rfl⟩ | ⟨nb, nc, gb, gc, e2⟩
    · rcases e3 with ⟨_, rfl⟩ | ⟨n1, n2, g1, g2, e⟩
      · rfl
      · rw [g1] at g2; cases g2; rw [hB.inj _ _ _ e]
    · rw [hB.inj _ _ _ ((e3' _ _ gb gc).trans e2.symm)]
  · rcases e2 with ⟨rfl, rfl⟩ | ⟨nb', nc, gb', gc, e2⟩
    · rw [hB.inj _ _ _ ((e3' _ _ ga gb).trans e1.symm)]
    · rw [gb] at gb'; cases gb'
      rw [hB.inj _ _ _ ((e3' _ _ ga gc).trans (e2.trans e1).symm)]

example : numOf (convert (some 1) (some s!!"mi") (some s!!"yd") none Demo.world).1 = some 1760 ∧
    numOf (convert (some 1760) (some s!!"yd") (some s!!"in") none Demo.world).1 = some 63360 ∧
    numOf (convert (some 1) (some s!!"mi") (some s!!"in") none Demo.world).1 = some 63360 := by
  decide +kernel

/-- Why consistency is needed (C07, C13, C14): with a yard of 3 feet and 35 inches, the round trip through an
intermediate unit changes the number. -/
theorem C14_needs_consistency : ∃ g, setConversion Demo.net s!!"yd" s!!"in" (Demo.times 35) none = .ok g ∧
    (let w : World := { net := g, par := { algorithm := .bfs } }
     numOf (convert (some 1) (some s!!"yd") (some s!!"ft") none w).1 = some 3 ∧
     numOf (convert (some 3) (some s!!"ft") (some s!!"in") none w).1 = some 36 ∧
     numOf (convert (some 1) (some s!!"yd") (some s!!"in") none w).1 = some 35) :=
  ⟨_, rfl, by decide +kernel⟩

end Unyts
