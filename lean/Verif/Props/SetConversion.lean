import Verif.Props.Convert
import Verif.Lemmas.SelfAsk

/-
C09, C10, C11: set_conversion takes effect; the default reverse conversion; converting a unit to itself.
-/
namespace Unyts
open Spec

/-! ### C11 -/

/-- C11. In every state that any session leaves, with any setting of the cache, converting a number from a unit to
itself returns the number: for single names, products and ratios, known to the library or not (the unit must contain a
name, not only operators). -/
theorem C11_self (w : World) (hw : Reachable w) (u : Str) (hu : CleanUnit u) (hn : ∃ c ∈ u, c ≠ '*' ∧ c ≠ '/')
    (hd : ¬ DensityPair w.dic u u) (uc : Option Bool) (x : Rat) :
    (convert (some x) (some u) (some u) uc w).1 = .ok (some (.num x)) := by
  have hs := self_of_reachable hw
  rw [convert_clean hu hu, convertClean_eq hs.1.sound.wf hd]
  obtain ⟨p, hp⟩ := converterTop_self (w := { w with previous := [] }) ⟨self_prev w _ hs.1, hs.2⟩
    (operands_ne_nil hn) (by simp) uc x
  simp only [hp, finish]

/-- C11 in every state whatever is remembered, even after the recursion limit was zero, when the cache is not used. -/
theorem C11_no_cache (w : World) (hg : WF w.net) (hp : Ample w.par) (u : Str) (hu : CleanUnit u)
    (hd : ¬ DensityPair w.dic u u) (x : Rat) :
    (convert (some x) (some u) (some u) (some false) w).1 = .ok (some (.num x)) := by
  rw [convert_clean hu hu, convertClean_eq hg hd]
  simp only
  obtain ⟨n, hn⟩ := ample_budget hp
  rw [converterTop_eq]
  show finish w.par.raiseError (converter (topBudget w.par) (some false) (some x) u u { w with previous := [] }).1 = _
  rw [hn, converter_of_getConv (by simp) (ansRes_not_none _ _ _ _)
    (getConv_self (w := { w with previous := [] }) n (some false) (some x) (by simp [memHit, resolveCache]))]
  rfl

/-- C11 for the question: whatever session came before, a single name is convertible to itself. -/
theorem C11_convertible (w : World) (hw : Reachable w) (u : Str) (hu : Spec.SimpleName u) (uc : Option Bool) :
    (convertible u u uc w).1 = .ok true := by
  obtain ⟨hs, hp⟩ := selfAsk_of_reachable hw
  obtain ⟨n, hn⟩ := ample_budget hs.2
  unfold convertible
  rw [converterTop_eq, hn, converter_of_getConv (hp u hu) (ansRes_not_none _ _ _ _)
    (getConv_self n uc (some 1) (memHit_self_simple hs.1 hu uc))]
  rfl

example : (convertible s!!"parsec" s!!"parsec" none
    (session [.convertible s!!"parsec" s!!"ft" none, .convertible s!!"parsec" s!!"parsec" none] Demo.world)).1 = .ok true :=
  C11_convertible _ ⟨_, _, Demo.fresh, by simp [KeepsAmple], rfl⟩ _ ⟨by decide, by decide⟩ _

/-- two rates with a conversion in one direction only -/
def oneWay : Net where
  edges := [(⟨0, s!!"r/s"⟩, [(⟨1, s!!"x/y"⟩, Demo.times 2)]), (⟨1, s!!"x/y"⟩, [])]
  nextId := 2

/-- C11 is not trivial for ratios: with recursion_limit(1), a question that fails leaves in the memory that the ratio
cannot be converted to itself; the number comes back all the same, through the parts. -/
example :
    (let w := session [.convert (some 1) (some s!!"x/y") (some s!!"r/s") none]
        { net := oneWay, par := { algorithm := .bfs, maxRecursion := 1 } }
     (Py.dictGet w.memory (s!!"x/y", s!!"x/y")).map Option.isSome = some false ∧
     numOf (convert (some 7) (some s!!"x/y") (some s!!"x/y") none w).1 = some 7) := by
  decide +kernel

example : CleanName s!!"furlong" ∧ CleanUnit s!!"m/s" ∧ Reachable Demo.world ∧
    numOf (convert (some 7) (some s!!"furlong") (some s!!"furlong") none Demo.world).1 = some 7 ∧
    numOf (convert (some 7) (some s!!"m/s") (some s!!"m/s") (some false) Demo.world).1 = some 7 :=
  ⟨Demo.cleanName_of (by decide), Demo.cleanUnit_of (by decide), Demo.reachable, by decide +kernel, by decide +kernel⟩

/-- C11, why the recursion limit matters: with recursion_limit(0) the failure of 'ft' to 'ft' is remembered, and the
conversion goes on failing after the limit is restored. -/
theorem C11_needs_recursion :
    (let w := session [.settings { algorithm := .bfs, maxRecursion := 0 },
        .convert (some 1) (some s!!"ft") (some s!!"ft") none, .settings { algorithm := .bfs }] Demo.world
     (convert (some 7) (some s!!"ft") (some s!!"ft") none w).1.map (fun _ => ()) = .error .noConversionFound) := by
  decide +kernel

/-! ### C09 -/

theorem chain_two {E : UNode → UNode → Prop} {a b : UNode} {p : List UNode} (h : Chain E a b p) (hne : a ≠ b)
    (hl : p.length ≤ 2) : p = [a, b] := by
  cases h with
  | single => exact absurd rfl hne
  | step e h =>
    cases h with
    | single => rfl
    | step e h =>
      obtain ⟨q, rfl⟩ := h.eq_cons
      simp at hl

theorem direct_unique {g : Net} (hg : WF g) {a b : UNode} {f k : Fn} (h : Direct g a b f) (h' : Direct g a b k) :
    k = f := by
  obtain ⟨l, hl, hk⟩ := h'
  obtain ⟨l2, hl2, hh⟩ := h
  have e1 := dictGet_of_mem hg.keys hl
  rw [dictGet_of_mem hg.keys hl2] at e1
  cases e1
  have e2 := dictGet_of_mem (hg.single _ _ hl) hk
  rw [dictGet_of_mem (hg.single _ _ hl) hh] at e2
  cases e2; rfl

theorem along_direct {g : Net} (hg : WF g) {a b : UNode} {f k : Fn} (h : Direct g a b f) (h' : Along g [a, b] k) :
    k = f := by
  cases h' with
  | step hd ht =>
    cases ht with
    | single =>
      rw [direct_unique hg h hd]
      funext fvf x
      cases f fvf x <;> rfl

/-- When the search answers with the direct conversion, so does `convert`. -/
theorem convert_of_search {w : World} (hg : WF w.net) (hp : Ample w.par) {a b : Str} (ha : CleanName a)
    (hb : CleanName b) (hab : a ≠ b) (oa : Ordinary w.dic a) (hd : ¬ DensityPair w.dic a b) {uc : Option Bool}
    (hm : memHit w uc a b = none) {na nb : UNode} {f : Fn} (hf : Direct w.net na nb f)
    (hs : (searchNetwork a b { w with previous := [] }).1 = .ok (some [na, nb])) (x : Rat) :
    (convert (some x) (some a) (some b) uc w).1 = (f w.fvf x).map fun y => some (.num y) := by
  rw [convert_clean ha.1 hb.1, convertClean_eq hg hd]
  simp only
  obtain ⟨n, hn⟩ := ample_budget hp
  rw [converterTop_eq]
  show finish w.par.raiseError (converter (topBudget w.par) uc (some x) a b { w with previous := [] }).1 = _
  rw [hn]
  have hget : ∃ w1, getConv (n + 1) uc (some x) a b { w with previous := [] } =
      (ansRes (some x) f ([na, nb].map Step.node) w.fvf, w1) := by
    rw [getConv_eq n uc (some x) _ (tempParts_noSlash ha.2.1)]
    rw [show memHit { w with previous := [] } uc a b = none from hm]
    have hq : quick { w with previous := [] } a b = none := by
      cases hq : quick { w with previous := [] } a b with
      | none => rfl
      | some fp => exact absurd (quick_ordinary (w := { w with previous := [] }) ha.2 hb.2 oa hq).1 hab
    rw [hq]
    simp only
    rcases networkConversion_spec (w := { w with previous := [] }) hg (some x) a b with
      ⟨e, h1, _⟩ | ⟨h1, _⟩ | ⟨p, k, n1, n2, h1, _, _, _, h5, h6⟩
    · rw [hs] at h1; cases h1
    · rw [hs] at h1; cases h1
    · rw [hs] at h1
      simp only [Except.ok.injEq, Option.some.injEq] at h1
      subst h1
      have : k = f := along_direct hg hf h5
      subst this
      have hqs := searchNetwork_quiet a b { w with previous := [] }
      rw [h6]
      unfold storeAnswer
      rw [PyM.run_bind_ok (PyM.run_modify _ _), answer_eq]
      exact ⟨_, by rw [remember_fvf, hqs.fvf]⟩
  obtain ⟨w1, hget⟩ := hget
  rw [converter_of_getConv (by simp) (ansRes_not_none _ _ _ _) hget]
  simp only [ansRes]
  cases f w.fvf x <;> rfl

theorem search_bfs {w : World} (hg : WF w.net) (halg : w.par.algorithm = .bfs) {a b : Str} {na nb : UNode}
    (hna : w.net.getNode a = .ok na) (hnb : w.net.getNode b = .ok nb) (hne : na ≠ nb) (hl : Linked w.net na nb) :
    (searchNetwork a b w).1 = .ok (some [na, nb]) := by
  unfold searchNetwork
  rw [hasName_of_getNode hna, hasName_of_getNode hnb, hna, hnb]
  simp only [Bool.and_self, if_true, halg]
  rcases Net.bfs_spec hg (getNode_mem hna).1 (tgt := nb) with ⟨p, hp, hpath, hshort⟩ | ⟨_, hno⟩
  · rw [hp, chain_two hpath.1 hne (hshort _ (.step hl (.single nb)))]
  · exact absurd ⟨_, .step hl (.single nb)⟩ hno

/-- no direct conversion exists between what the two names mean -/
def NoDirect (g : Net) (a b : Str) : Prop :=
  ∀ na nb, g.getNode a = .ok na → g.getNode b = .ok nb → ¬ Linked g na nb ∧ ¬ Linked g nb na

theorem setConversion_direct {g : Net} (hg : WF g) {a b : Str} (hab : a ≠ b) (hnd : NoDirect g a b) (f : Fn)
    (rev : Option Fn) : ∃ g' na nb, setConversion g a b f rev = .ok g' ∧ WF g' ∧ g'.getNode a = .ok na ∧
      g'.getNode b = .ok nb ∧ na ≠ nb ∧ Direct g' na nb f ∧ Direct g' nb na (rev.getD (revFn f)) := by
  obtain ⟨g', na, nb, h1, h2, hnodes, h3, h4, h5, h6⟩ := setConversion_spec hg a b f rev
  have hne : na ≠ nb := by
    rintro rfl
    exact hab ((getNode_mem h3).2.symm.trans (getNode_mem h4).2)
  have old : ∀ s n, g'.getNode s = .ok n → n ∈ g.nodes → g.getNode s = .ok n := by
    intro s n hs hn
    have hh : g.hasName s = true := by
      have := (getNode_mem hs).2
      unfold Net.hasName
      rw [List.any_eq_true]
      exact ⟨n, hn, by simp [this]⟩
    obtain ⟨m, hm⟩ := Net.getNode_of_hasName hh
    have := h5 s m hm
    rw [hs] at this
    cases this
    exact hm
  have lnk : ∀ x y, Linked g x y → x ∈ g.nodes ∧ y ∈ g.nodes := by
    rintro x y ⟨k, l, hl, hk⟩
    exact ⟨List.mem_map.2 ⟨_, hl, rfl⟩, hg.closed _ _ _ ⟨l, hl, hk⟩⟩
  have hno : ¬ Linked g na nb ∧ ¬ Linked g nb na := by
    constructor
    · intro hl
      obtain ⟨m1, m2⟩ := lnk _ _ hl
      exact (hnd na nb (old _ _ h3 m1) (old _ _ h4 m2)).1 hl
    · intro hl
      obtain ⟨m1, m2⟩ := lnk _ _ hl
      exact (hnd na nb (old _ _ h3 m2) (old _ _ h4 m1)).2 hl
  exact ⟨g', na, nb, h1, h2, h3, h4, hne, (h6 _ _ _).2 (Or.inr (Or.inl ⟨rfl, rfl, rfl, hno.1⟩)),
    (h6 _ _ _).2 (Or.inr (Or.inr ⟨rfl, rfl, rfl, hno.2, hne⟩))⟩

/-- C09 with BFS. In every state in which no direct conversion between the two names exists, after
set_conversion(a, b, f, rev) converting x from a to b is f(x) and from b to a is rev(x), or x / f(1) when no reverse was
given, provided nothing is remembered about the pair or the cache is not used.
Partial: see `C09_remembered_failure`, `C09_lean_existing_names` and `C09_stale_names` for the states in which the new
conversion is not found. -/
theorem C09_bfs_partial (w : World) (hg : WF w.net) (hp : Ample w.par) (halg : w.par.algorithm = .bfs) (a b : Str)
    (ha : CleanName a) (hb : CleanName b) (hab : a ≠ b) (oa : Ordinary w.dic a) (ob : Ordinary w.dic b)
    (hd : ¬ DensityPair w.dic a b) (hnd : NoDirect w.net a b) (f : Fn) (rev : Option Fn) (uc : Option Bool)
    (hm : uc = some false ∨ Py.dictGet w.memory (a, b) = none ∧ Py.dictGet w.memory (b, a) = none) :
    ∃ w1, setConversionW a b f rev w = (.ok (), w1) ∧ ∀ x,
      (convert (some x) (some a) (some b) uc w1).1 = (f w.fvf x).map (fun y => some (.num y)) ∧
      (convert (some x) (some b) (some a) uc w1).1 =
        (rev.getD (fun fvf x => do let k ← f fvf 1; pdiv x k) w.fvf x).map (fun y => some (.num y)) := by
  obtain ⟨g', na, nb, h1, h2, h3, h4, hne, h5, h6⟩ := setConversion_direct hg hab hnd f rev
  refine ⟨{ w with net := g' }, by simp [setConversionW, h1], fun x => ⟨?_, ?_⟩⟩
  · refine convert_of_search (w := { w with net := g' }) h2 hp ha hb hab oa hd ?_ h5 ?_ x
    · unfold memHit
      rcases hm with rfl | ⟨hm, _⟩
      · simp [resolveCache]
      · simp [hm]
    · exact search_bfs (w := { w with net := g', previous := [] }) h2 halg h3 h4 hne ⟨_, h5⟩
  · refine convert_of_search (w := { w with net := g' }) h2 hp hb ha hab.symm ob ?_ ?_ h6 ?_ x
    · rintro ⟨u1, u2, h⟩
      exact hd ⟨u2, u1, h.symm⟩
    · unfold memHit
      rcases hm with rfl | ⟨_, hm⟩
      · simp [resolveCache]
      · simp [hm]
    · exact search_bfs (w := { w with net := g', previous := [] }) h2 halg h4 h3 hne.symm ⟨_, h6⟩

/-- C09 with the default algorithm, for two new names, on a two-way network with distinct simple names whose names have
not been listed by an earlier search. -/
theorem C09_lean_new_names_partial (w : World) (hg : WF w.net) (hp : Ample w.par) (halg : w.par.algorithm = .lean)
    (hm0 : 0 ≤ w.par.maxGenerations) (h2 : TwoWay (Linked w.net)) (hdn : DistinctNames w.net)
    (hsn : ∀ n ∈ w.net.nodes, SimpleName n.name) (hes : w.edgesStr = none) (a b : Str)
    (ha : CleanName a) (hb : CleanName b) (hab : a ≠ b) (oa : Ordinary w.dic a)
    (hd : ¬ DensityPair w.dic a b) (hna : w.net.hasName a = false) (hnb : w.net.hasName b = false) (f : Fn)
    (rev : Option Fn) (uc : Option Bool) (hm : Py.dictGet w.memory (a, b) = none) :
    ∃ w1, setConversionW a b f rev w = (.ok (), w1) ∧ ∀ x,
      (convert (some x) (some a) (some b) uc w1).1 = (f w.fvf x).map (fun y => some (.num y)) := by
  obtain ⟨g', na, nb, h1, h2', hnodes, h3, h4, h5, h6⟩ := setConversion_spec hg a b f rev
  have nn : ∀ s, w.net.hasName s = false → ∀ n ∈ w.net.nodes, n.name ≠ s := by
    intro s hs n hn e
    unfold Net.hasName at hs
    rw [List.any_eq_false] at hs
    exact hs n hn (by simp [e])
  have hne : na ≠ nb := by
    rintro rfl
    exact hab ((getNode_mem h3).2.symm.trans (getNode_mem h4).2)
  have lnk : ∀ x y, Linked w.net x y → x ∈ w.net.nodes ∧ y ∈ w.net.nodes := by
    rintro x y ⟨k, l, hl, hk⟩
    exact ⟨List.mem_map.2 ⟨_, hl, rfl⟩, hg.closed _ _ _ ⟨l, hl, hk⟩⟩
  have hno : ¬ Linked w.net na nb ∧ ¬ Linked w.net nb na :=
    ⟨fun hl => nn a hna na (lnk _ _ hl).1 (getNode_mem h3).2, fun hl => nn a hna na (lnk _ _ hl).2 (getNode_mem h3).2⟩
  have d1 : Direct g' na nb f := (h6 _ _ _).2 (Or.inr (Or.inl ⟨rfl, rfl, rfl, hno.1⟩))
  have d2 : Direct g' nb na (rev.getD (revFn f)) := (h6 _ _ _).2 (Or.inr (Or.inr ⟨rfl, rfl, rfl, hno.2, hne⟩))
  have h2w : TwoWay (Linked g') := by
    rintro x y ⟨k, hk⟩
    rcases (h6 x y k).1 hk with hk | ⟨rfl, rfl, _⟩ | ⟨rfl, rfl, _⟩
    · obtain ⟨k', hk'⟩ := h2 x y ⟨k, hk⟩
      exact ⟨k', (h6 _ _ _).2 (Or.inl hk')⟩
    · exact ⟨_, d2⟩
    · exact ⟨_, d1⟩
  have hdn' : DistinctNames g' := by
    intro x hx y hy hxy
    rw [hnodes] at hx hy
    simp only [List.mem_append, List.mem_cons, List.not_mem_nil, or_false] at hx hy
    rcases hx with hx | rfl | rfl <;> rcases hy with hy | rfl | rfl
    · exact hdn x hx y hy hxy
    · exact absurd hxy (nn a hna x hx)
    · exact absurd hxy (nn b hnb x hx)
    · exact absurd hxy.symm (nn a hna y hy)
    · rfl
    · exact absurd hxy hab
    · exact absurd hxy.symm (nn b hnb y hy)
    · exact absurd hxy.symm hab
    · rfl
  have hsn' : ∀ n ∈ g'.nodes, SimpleName n.name := by
    intro n hn
    rw [hnodes] at hn
    simp only [List.mem_append, List.mem_cons, List.not_mem_nil, or_false] at hn
    rcases hn with hn | rfl | rfl
    · exact hsn n hn
    · exact ha.2
    · exact hb.2
  refine ⟨{ w with net := g' }, by simp [setConversionW, h1], fun x => ?_⟩
  refine convert_of_search (w := { w with net := g' }) h2' hp ha hb hab oa hd ?_ d1 ?_ x
  · unfold memHit; simp [hm]
  · unfold searchNetwork
    simp only [hasName_of_getNode h3, hasName_of_getNode h4, h3, h4, Bool.and_self, if_true, halg, if_pos hm0]
    have hes' : ({ w with net := g', previous := [] } : World).snap.es = g'.edgesStr := by
      simp [World.snap, World.es, hes]
    rw [hes']
    show leanBfs g' g'.edgesStr w.par.maxGenerations na nb = _
    have hmin : ∀ p', Chain (Linked g') na nb p' → [na, nb].length ≤ p'.length := by
      intro p' hp'
      cases hp' with
      | single => exact absurd rfl hne
      | step e h => obtain ⟨q, rfl⟩ := h.eq_cons; simp
    obtain ⟨q, hq, hlen⟩ := leanBfs_complete h2' h2w hdn' hsn' hm0 (getNode_mem h3).1 (getNode_mem h4).1
      (.step ⟨_, d1⟩ (.single nb)) hmin (by simp; omega)
    rw [hq, chain_two (leanBfs_sound hq).1 hne (by simp [hlen])]

example : NoDirect Demo.world.net s!!"g" s!!"in" ∧
    (let w := session [.setConversion s!!"g" s!!"in" (Demo.times 5) none] Demo.world
     numOf (convert (some 2) (some s!!"g") (some s!!"in") none w).1 = some 10 ∧
     numOf (convert (some 10) (some s!!"in") (some s!!"g") none w).1 = some 2) ∧
    (let w := session [.setConversion s!!"kg" s!!"lb" (Demo.times 5) none] Demo.leanWorld
     numOf (convert (some 2) (some s!!"kg") (some s!!"lb") none w).1 = some 10) := by
  refine ⟨?_, by decide +kernel, by decide +kernel⟩
  intro na nb h1 h2
  have e1 : na = Demo.gram := by
    have : Demo.world.net.getNode s!!"g" = .ok Demo.gram := by decide +kernel
    rw [this] at h1; cases h1; rfl
  have e2 : nb = Demo.inch := by
    have : Demo.world.net.getNode s!!"in" = .ok Demo.inch := by decide +kernel
    rw [this] at h2; cases h2; rfl
  subst e1 e2
  constructor <;> rintro ⟨f, h⟩ <;> rcases Demo.direct_cases h with h | h | h | h | h | h <;>
    first | exact absurd h.1 (by decide) | exact absurd h.2.1 (by decide)

/-- C09 fails when the library has already been asked: the failure is remembered and the new conversion is not
looked at. -/
theorem C09_remembered_failure :
    (let w := session [.convertible s!!"g" s!!"in" none, .setConversion s!!"g" s!!"in" (Demo.times 5) none] Demo.world
     (convert (some 2) (some s!!"g") (some s!!"in") none w).1.map (fun _ => ()) = .error .noConversionFound) := by
  decide +kernel

/-- C09 fails with the default algorithm between two names that already exist. -/
theorem C09_lean_existing_names :
    (let w := session [.setConversion s!!"g" s!!"in" (Demo.times 5) none] Demo.leanWorld
     (convert (some 2) (some s!!"g") (some s!!"in") none w).1.map (fun _ => ()) = .error .noConversionFound) := by
  decide +kernel

/-- C09 fails with the default algorithm once any other conversion has been searched, even for new names. -/
theorem C09_stale_names :
    (let w := session [.convert (some 1) (some s!!"ft") (some s!!"in") none,
        .setConversion s!!"kg" s!!"lb" (Demo.times 5) none] Demo.leanWorld
     (convert (some 2) (some s!!"kg") (some s!!"lb") none w).1.map (fun _ => ()) = .error .noConversionFound) := by
  decide +kernel

/-! ### C10 -/

/-- C10. The reverse conversion that set_conversion installs by default undoes the conversion, for every number, exactly
when the conversion is multiplication by a constant other than zero. -/
theorem C10_default_reverse (f : Fn) (fvf : Option Rat) :
    (∀ x, ∃ y, f fvf x = .ok y ∧ revFn f fvf y = .ok x) ↔ ∃ k, k ≠ 0 ∧ ∀ x, f fvf x = .ok (x * k) := by
  constructor
  · intro h
    obtain ⟨k, hk, _⟩ := h 1
    have hk0 : k ≠ 0 := by
      intro e
      subst e
      obtain ⟨y, _, hy⟩ := h 2
      simp [revFn, hk, bind, Except.bind, pdiv] at hy
    refine ⟨k, hk0, fun x => ?_⟩
    obtain ⟨y, hy, hr⟩ := h x
    simp only [revFn, hk, bind, Except.bind, pdiv, if_neg hk0, Except.ok.injEq] at hr
    rw [hy, ← hr]
    congr 1
    field_simp
  · rintro ⟨k, hk0, h⟩ x
    refine ⟨x * k, h x, ?_⟩
    simp only [revFn, h 1, bind, Except.bind, pdiv, one_mul, if_neg hk0, Except.ok.injEq]
    field_simp

/-- C10, where the reverse is used: with set_conversion(a, b, f) and BFS, converting there and back returns the original
number for every number exactly when f multiplies by a constant other than zero. -/
theorem C10_there_and_back (w : World) (hg : WF w.net) (hp : Ample w.par) (halg : w.par.algorithm = .bfs) (a b : Str)
    (ha : CleanName a) (hb : CleanName b) (hab : a ≠ b) (oa : Ordinary w.dic a) (ob : Ordinary w.dic b)
    (hd : ¬ DensityPair w.dic a b) (hnd : NoDirect w.net a b) (f : Fn) :
    ∃ w1, setConversionW a b f none w = (.ok (), w1) ∧
      ((∀ x, ∃ y, (convert (some x) (some a) (some b) (some false) w1).1 = .ok (some (.num y)) ∧
          (convert (some y) (some b) (some a) (some false) w1).1 = .ok (some (.num x))) ↔
        ∃ k, k ≠ 0 ∧ ∀ x, f w.fvf x = .ok (x * k)) := by
  obtain ⟨w1, h1, h2⟩ := C09_bfs_partial w hg hp halg a b ha hb hab oa ob hd hnd f none (some false) (Or.inl rfl)
  refine ⟨w1, h1, ?_⟩
  rw [← C10_default_reverse f w.fvf]
  have ok : ∀ (r : Res Rat) y, r.map (fun y => some (Conv.num y)) = .ok (some (.num y)) ↔ r = .ok y := by
    intro r y
    cases r <;> simp [Except.map]
  constructor
  · intro h x
    obtain ⟨y, hy, hz⟩ := h x
    rw [(h2 x).1, ok] at hy
    rw [(h2 y).2, ok] at hz
    exact ⟨y, hy, hz⟩
  · intro h x
    obtain ⟨y, hy, hz⟩ := h x
    exact ⟨y, by rw [(h2 x).1, ok]; exact hy, by rw [(h2 y).2, ok]; exact hz⟩

/-- C10 in use: Celsius to Fahrenheit by x * 9/5 + 32 with the default reverse does not come back. -/
example : revFn (fun _ x => .ok (x * (9/5) + 32)) none (100 * (9/5) + 32) ≠ .ok 100 := by decide +kernel

end Unyts
