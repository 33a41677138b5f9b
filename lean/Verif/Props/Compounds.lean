import Verif.Lemmas.Neighbours
import Verif.Spec.Compounds
import Verif.Props.Direct
import Verif.Props.ShippedRatio
import Verif.Props.ShippedScales

/- C106: products and ratios that are names of the network convert as wholes, by the library's own table. -/
namespace Unyts
open Spec
set_option maxRecDepth 1000000

/-- nothing is remembered about a compound name, when only names were asked for -/
theorem forgotten {w : World} (hw : Fresh w) {cs : List Call} {a b : Str} {uc : Option Bool} (hcs : ∀ c ∈ cs, Asks c)
    (hm : uc.getD w.par.cache = false ∨ (∀ c ∈ cs, AsksNames w c) ∧ ¬ (Spec.SimpleName a ∧ Spec.SimpleName b)) :
    uc.getD (session cs w).par.cache = false ∨ Py.dictGet (session cs w).memory (a, b) = none := by
  rw [(base_session hcs hw.wf).par]
  rcases hm with hm | ⟨hm, hs⟩
  · exact Or.inl hm
  · right
    exact (alike_session hw.wf hw.ample hm).abs _ _ (by rw [hw.memory]; rfl) (Or.inl hs)

/-- what `convert` answers when the search finds a path between the wholes -/
theorem whole_found {w : World} (hw : Fresh w) {cs : List Call} (hcs : ∀ c ∈ cs, Asks c) {a b : Str} (ca : CleanUnit a)
    (cb : CleanUnit b) (hab : a ≠ b) (oa : Ordinary w.dic a) (ob : Ordinary w.dic b) (hsw : ¬ Swapped a b)
    (ht : ¬ TempRatios w.dic a b) (hd : ¬ DensityPair w.dic a b) {uc : Option Bool}
    (hm : uc.getD w.par.cache = false ∨ (∀ c ∈ cs, AsksNames w c) ∧ ¬ (Spec.SimpleName a ∧ Spec.SimpleName b))
    {q : List UNode} (hq : (searchNetwork a b (session cs w)).1 = .ok (some q)) (x : Rat) :
    ∃ na nb f, w.net.getNode a = .ok na ∧ w.net.getNode b = .ok nb ∧ IsPath (Linked w.net) na nb q ∧ Along w.net q f ∧
      (convert (some x) (some a) (some b) uc (session cs w)).1 = (f w.fvf x).map fun y => some (.num y) := by
  have hbase := base_session hcs hw.wf
  have hk : ∀ c ∈ cs, KeepsAmple c := by intro c hc; have := hcs c hc; cases c <;> trivial
  obtain ⟨na, nb, f, g1, g2, g3, g4, h⟩ := convert_whole (sound_of_reachable ⟨w, cs, hw, hk, rfl⟩) ca cb hab
    (by rw [hbase.dic]; exact oa) (by rw [hbase.dic]; exact ob) hsw (by rw [hbase.dic]; exact ht) (by rw [hbase.dic]; exact hd)
    (forgotten hw hcs hm) hq (some x)
  rw [hbase.net] at g1 g2 g3 g4
  rw [hbase.fvf] at h
  refine ⟨na, nb, f, g1, g2, g3, g4, ?_⟩
  rw [h]
  cases h : f w.fvf x <;> simp [ansRes, h, Except.map, finish]

/-- the search after a session -/
theorem session_near {w : World} (hw : Fresh w) {cs : List Call} (hcs : ∀ c ∈ cs, Asks c)
    (ha : w.par.algorithm ∈ [Algorithm.bfs, .lean, .hybrid]) (hd : DistinctNames w.net) (hes : w.edgesStr = none)
    (hm : 0 ≤ w.par.maxGenerations) {na nb : UNode} {a b : Str}
    (h1 : w.net.getNode a = .ok na) (h2 : w.net.getNode b = .ok nb) {p : List UNode} (hp : Chain (BothWays w.net) na nb p)
    (he : NoEarly w.net a b p.length) (hlen : (p.length : Int) ≤ 2 * (w.par.maxGenerations + 1) + 1) :
    ∃ q, (searchNetwork a b (session cs w)).1 = .ok (some q) ∧ q.length ≤ p.length := by
  have hbase := base_session hcs hw.wf
  obtain ⟨m, hm'⟩ : ∃ m : Nat, w.par.maxGenerations = m := ⟨w.par.maxGenerations.toNat, by omega⟩
  refine search_near (w := session cs w) (m := m) (na := na) (nb := nb) (p := p) (by rw [hbase.net]; exact hw.wf)
    (by rw [hbase.par]; exact ha) (by rw [hbase.net]; exact hd) ?_ (by rw [hbase.par]; exact hm') (by rw [hbase.net]; exact h1)
    (by rw [hbase.net]; exact h2) (by rw [hbase.net]; exact hp) (by rw [hbase.net]; exact he) (by omega)
  rw [hbase.es, hbase.net]
  unfold World.es
  rw [hes]; rfl

/-- C106. On any network, with any search but DFS, between any two names of the network, products and ratios included: when
they convert directly into each other, `convert` answers with the direct conversion. -/
theorem C106_direct {w : World} (hw : Fresh w) (halg : w.par.algorithm ∈ [Algorithm.bfs, .lean, .hybrid])
    (hdn : DistinctNames w.net) (hes : w.edgesStr = none) (hm : 0 ≤ w.par.maxGenerations) {cs : List Call}
    (hcs : ∀ c ∈ cs, Asks c) {a b : Str} (ca : CleanUnit a) (cb : CleanUnit b) (hab : a ≠ b) (oa : Ordinary w.dic a)
    (ob : Ordinary w.dic b) (hsw : ¬ Swapped a b) (ht : ¬ TempRatios w.dic a b) (hd : ¬ DensityPair w.dic a b)
    {uc : Option Bool}
    (hmem : uc.getD w.par.cache = false ∨ (∀ c ∈ cs, AsksNames w c) ∧ ¬ (Spec.SimpleName a ∧ Spec.SimpleName b))
    {na nb : UNode} {k : Fn} (hna : w.net.getNode a = .ok na) (hnb : w.net.getNode b = .ok nb) (hk : Direct w.net na nb k)
    (hback : Linked w.net nb na) {x y : Rat} (hy : k w.fvf x = .ok y) :
    (convert (some x) (some a) (some b) uc (session cs w)).1 = .ok (some (.num y)) := by
  have hne : na ≠ nb := by
    rintro rfl
    exact hab ((getNode_mem hna).2.symm.trans (getNode_mem hnb).2)
  have hp : Chain (BothWays w.net) na nb [na, nb] := .step ⟨⟨k, hk⟩, hback⟩ (.single nb)
  obtain ⟨q, hq, hl⟩ := session_near hw hcs halg hdn hes hm hna hnb hp (noEarly_short (by simp)) (by simp; omega)
  obtain ⟨ma, mb, f, g1, g2, g3, g4, h⟩ := whole_found hw hcs ca cb hab oa ob hsw ht hd hmem hq x
  rw [hna] at g1; cases g1
  rw [hnb] at g2; cases g2
  have : q = [na, nb] := by
    obtain ⟨e1, e2⟩ := isPath_ends g3
    match q, hl with
    | [], _ => simp at e1
    | [u], _ => simp at e1 e2; exact absurd (e1.symm.trans e2) hne
    | [u, v], _ => simp at e1 e2; rw [e1, e2]
    | _ :: _ :: _ :: _, h => simp at h
  subst this
  rw [h, along_direct hw.wf hk g4, hy]; rfl

/-- C106. With one unit between them: `convert` answers with a path of at most two conversions. -/
theorem C106_two_steps {w : World} (hw : Fresh w) (halg : w.par.algorithm ∈ [Algorithm.bfs, .lean, .hybrid])
    (hdn : DistinctNames w.net) (hes : w.edgesStr = none) (hm : 0 ≤ w.par.maxGenerations) {cs : List Call}
    (hcs : ∀ c ∈ cs, Asks c) {a b : Str} (ca : CleanUnit a) (cb : CleanUnit b) (hab : a ≠ b) (oa : Ordinary w.dic a)
    (ob : Ordinary w.dic b) (hsw : ¬ Swapped a b) (ht : ¬ TempRatios w.dic a b) (hd : ¬ DensityPair w.dic a b)
    {uc : Option Bool}
    (hmem : uc.getD w.par.cache = false ∨ (∀ c ∈ cs, AsksNames w c) ∧ ¬ (Spec.SimpleName a ∧ Spec.SimpleName b))
    {na nc nb : UNode} (hna : w.net.getNode a = .ok na) (hnb : w.net.getNode b = .ok nb)
    (h1 : Linked w.net na nc ∧ Linked w.net nc na) (h2 : Linked w.net nc nb ∧ Linked w.net nb nc) (x : Rat) :
    ∃ q f, IsPath (Linked w.net) na nb q ∧ q.length ≤ 3 ∧ Along w.net q f ∧
      (convert (some x) (some a) (some b) uc (session cs w)).1 = (f w.fvf x).map fun y => some (.num y) := by
  have hp : Chain (BothWays w.net) na nb [na, nc, nb] := .step h1 (.step h2 (.single nb))
  obtain ⟨q, hq, hl⟩ := session_near hw hcs halg hdn hes hm hna hnb hp (noEarly_short (by simp)) (by simp; omega)
  obtain ⟨ma, mb, f, g1, g2, g3, g4, h⟩ := whole_found hw hcs ca cb hab oa ob hsw ht hd hmem hq x
  rw [hna] at g1; cases g1
  rw [hnb] at g2; cases g2
  exact ⟨q, f, g3, by simpa using hl, g4, h⟩

/-- C106. With BFS or hybrid_BFS: whenever the two names are joined, however far. -/
theorem C106_joined {w : World} (hw : Fresh w) (halg : w.par.algorithm ∈ [Algorithm.bfs, .hybrid]) {cs : List Call}
    (hcs : ∀ c ∈ cs, Asks c) {a b : Str} (ca : CleanUnit a) (cb : CleanUnit b) (hab : a ≠ b) (oa : Ordinary w.dic a)
    (ob : Ordinary w.dic b) (hsw : ¬ Swapped a b) (ht : ¬ TempRatios w.dic a b) (hd : ¬ DensityPair w.dic a b)
    {uc : Option Bool}
    (hmem : uc.getD w.par.cache = false ∨ (∀ c ∈ cs, AsksNames w c) ∧ ¬ (Spec.SimpleName a ∧ Spec.SimpleName b))
    {na nb : UNode} (hna : w.net.getNode a = .ok na) (hnb : w.net.getNode b = .ok nb) (hr : Reach (Linked w.net) na nb) (x : Rat) :
    ∃ q f, IsPath (Linked w.net) na nb q ∧ Along w.net q f ∧
      (convert (some x) (some a) (some b) uc (session cs w)).1 = (f w.fvf x).map fun y => some (.num y) := by
  have hbase := base_session hcs hw.wf
  have hfin : Finds (fun _ _ => True) w := by
    simp only [List.mem_cons, List.not_mem_nil, or_false] at halg
    rcases halg with h | h
    · exact finds_bfs hw.wf h
    · exact finds_hybrid hw.wf h
  obtain ⟨r, hq, hne⟩ := hfin (session cs w) hbase a b na nb trivial hna hnb
  cases r with
  | none => exact absurd rfl (hne hr)
  | some q =>
    obtain ⟨ma, mb, f, g1, g2, g3, g4, h⟩ := whole_found hw hcs ca cb hab oa ob hsw ht hd hmem hq x
    rw [hna] at g1; cases g1
    rw [hnb] at g2; cases g2
    exact ⟨q, f, g3, g4, h⟩

/-! ### the names of the library -/

/-- a chain of names, both ways, as a chain of nodes -/
theorem chain_bothWays {g : Net} (hg : WF g) (hd : DistinctNames g) {s t : Str} {p : List Str}
    (hp : Chain (fun x y => LinkedName g x y ∧ LinkedName g y x) s t p) {a : UNode} (ma : a ∈ g.nodes) (ha : a.name = s) :
    ∃ b q, b ∈ g.nodes ∧ b.name = t ∧ Chain (BothWays g) a b q ∧ q.length = p.length := by
  induction hp generalizing a with
  | single => exact ⟨a, [a], ma, ha, .single _, rfl⟩
  | step e _ ih =>
    obtain ⟨⟨f, x, y, ex, ey, hf⟩, f', x', y', ex', ey', hf'⟩ := e
    have mx : x ∈ g.nodes := by obtain ⟨l, hl, _⟩ := hf; exact List.mem_map.2 ⟨_, hl, rfl⟩
    have mx' : x' ∈ g.nodes := by obtain ⟨l, hl, _⟩ := hf'; exact List.mem_map.2 ⟨_, hl, rfl⟩
    have my := hg.closed _ _ _ hf
    have my' := hg.closed _ _ _ hf'
    obtain rfl := hd _ ma _ mx (ha.trans ex.symm)
    obtain rfl := hd _ my _ mx' (ey.trans ex'.symm)
    obtain rfl := hd _ ma _ my' (ha.trans ey'.symm)
    obtain ⟨b, q, mb, hb, hc, hl⟩ := ih my ey
    exact ⟨b, _, mb, hb, .step ⟨⟨f, hf⟩, f', hf'⟩ hc, by simp [hl]⟩

theorem temperature_label {t : Str} (h : BuiltIn s!!"Temperature" t) : labelOf t = some 1 := by
  obtain ⟨l, h1, b, hb, e⟩ := builtIn_label h
  have : ∀ e ∈ kindLabels, (s!!"Temperature" = if e.1 = s!!"dataBYTE" ∨ e.1 = s!!"dataBIT" then s!!"Data" else e.1) → e.2 = 1 := by
    decide +kernel
  rw [h1]
  exact congrArg some (this _ hb e)

theorem not_tempRatios {w : World} (hw : Started w) {a b : Str} (hT : '/' ∈ a → ∀ f, (factors a).head? = some f → labelOf f.2 ≠ some 1) :
    ¬ TempRatios w.dic a b := by
  rintro ⟨t1, d1, _, _, n1, n2, _, _, rfl, _, hm, _⟩
  obtain ⟨d, hd, e⟩ := hw.shipped
  rw [e] at hm
  have hl : Lists d s!!"Temperature" t1 := kindStart_mem.1 hm
  rcases signed_listed hd (by simp) hl with e | e
  · subst e; exact n1 (by decide)
  · refine hT (by simp) (false, t1) ?_ (temperature_label ((hd.unsigned e).1 hl).1)
    rw [factors_slash, factors_simple e]
    simp

/-- not a date, a percentage or without dimension; a part, if any, is never empty -/
theorem Spec.ShippedWorld.ordinary_any {w : World} (h : ShippedWorld w) {u : Str} (hn : IsName u) (hf : ∀ f ∈ factors u, f.2 ≠ [])
    (h32 : labelOf u ≠ some 32) (h34 : labelOf u ≠ some 34) : Ordinary w.dic u := by
  by_cases hs : Spec.SimpleName u
  · exact h.ordinary hs hn h32 h34
  · exact h.ordinary_signed hs hf

theorem Spec.DensityPair.symm {d : Dict} {a b : Str} (h : DensityPair d a b) : DensityPair d b a := ⟨h.2.1, h.1, h.2.2.symm⟩

theorem Spec.ShippedWorld.noDensity_any {w : World} (h : ShippedWorld w) {a b : Str} (fa : ∀ f ∈ factors a, f.2 ≠ [])
    (fb : ∀ f ∈ factors b, f.2 ≠ []) (la : labelOf a ≠ some 3) (lb : labelOf b ≠ some 3) : ¬ DensityPair w.dic a b := by
  by_cases sa : Spec.SimpleName a
  · exact h.noDensity sa la
  by_cases sb : Spec.SimpleName b
  · exact fun hd => h.noDensity (b := a) sb lb (Spec.DensityPair.symm hd)
  exact h.noDensity_signed sa sb fa fb

/-- the answer for two names of the library that the search joins -/
theorem whole_answer {w : World} (hw : Started w) (hφ : w.fvf ≠ some 0) {cs : List Call} (hcs : ∀ c ∈ cs, Asks c) {a b : Str}
    (na : IsName a) (nb : IsName b) (hs : Smooth a) (h32 : labelOf a ≠ some 32) (h34 : labelOf a ≠ some 34) (h6 : labelOf a ≠ some 6)
    (ca : CleanUnit a) (cb : CleanUnit b) (hab : a ≠ b) (fa : ∀ f ∈ factors a, f.2 ≠ []) (fb : ∀ f ∈ factors b, f.2 ≠ [])
    (hT : '/' ∈ a → ∀ f, (factors a).head? = some f → labelOf f.2 ≠ some 1) (hsw : ¬ Swapped a b) (hlab : labelOf a = labelOf b)
    {uc : Option Bool} (hm : uc.getD w.par.cache = false ∨ (∀ c ∈ cs, AsksNames w c) ∧ ¬ (Spec.SimpleName a ∧ Spec.SimpleName b))
    {q : List UNode} (hq : (searchNetwork a b (session cs w)).1 = .ok (some q)) (x : Rat) :
    ∃ y, (convert (some x) (some a) (some b) uc (session cs w)).1 = .ok (some (.num y)) ∧
      shippedReading (fvfOr1 w.fvf) b y = shippedReading (fvfOr1 w.fvf) a x := by
  have hn := hw.shipped.network
  obtain ⟨ma, mb, f, g1, g2, g3, g4, h⟩ := whole_found hw.fresh hcs ca cb hab (hw.shipped.ordinary_any na fa h32 h34)
    (hw.shipped.ordinary_any nb fb (hlab ▸ h32) (hlab ▸ h34)) hsw (not_tempRatios hw hT)
    (hw.shipped.noDensity_any fa fb hs.1 (hlab ▸ hs.1)) hm hq x
  obtain ⟨e1, e2⟩ := isPath_ends g3
  have n1 := (getNode_mem g1).2
  have n2 := (getNode_mem g2).2
  obtain ⟨y, hy⟩ := along_totalOn (hn.totalOn w.fvf) g4 e1 (by rw [n1]; exact hs) x
  refine ⟨y, by rw [h, hy]; rfl, ?_⟩
  have := Along.reads_on (hn.consistent hφ) g4 e1 e2 (by rw [n1]; exact ⟨hs.1, h6⟩) hy
  rw [n1, n2] at this
  exact this

/-! ### the listed names -/

def compoundOk (l : List (Str × Rat)) : Bool :=
  match l.head? with
  | none => true
  | some h => match readingOf h.1, labelOf h.1 with
    | some r, some q => decide (r.s ≠ 0) && decide (h.2 ≠ 0) && !([3, 6, 10, 32, 34].contains q) && l.all fun e =>
        decide (readingOf e.1 = some ⟨e.2 * (r.s / h.2), 0, 0, false⟩) && labelOf e.1 == some q && decide (e.2 ≠ 0)
    | _, _ => false

theorem compound_ok : compoundSizes.all compoundOk = true := by decide +kernel

theorem compound_fits : (compoundSizes.all fun l => l.all fun e => l.all fun f =>
    Nat.beq (code e.1 1) (code f.1 1) || (fits e.1 f.1 &&
      decide ((Py.splitOn '/' e.1).map Py.stripWs ≠ ((Py.splitOn '/' f.1).map Py.stripWs).reverse))) = true := by decide +kernel

theorem compound_clean : ∀ l ∈ compoundSizes, ∀ e ∈ l, ('(' ∉ e.1 ∧ ')' ∉ e.1 ∧
    (∀ c ∈ e.1.head?.toList ++ e.1.getLast?.toList, c ∉ [' ', '"', '\'']) ∧ e.1 ≠ s!!"Empty") ∧
    (∀ f ∈ factors e.1, f.2 ≠ []) ∧ (e.1.any fun c => c != '*' && c != '/') = true ∧
    ('/' ∈ e.1 → ∀ f ∈ (factors e.1).head?.toList, labelOf f.2 ≠ some 1) := by decide +kernel

/-- a listed name reads as a multiple of its size -/
theorem compound_reading {l : List (Str × Rat)} (hl : l ∈ compoundSizes) : ∃ k q, k ≠ 0 ∧ q ∉ [3, 6, 10, 32, 34] ∧ ∀ e ∈ l,
    readingOf e.1 = some ⟨e.2 * k, 0, 0, false⟩ ∧ labelOf e.1 = some q ∧ e.2 ≠ 0 := by
  have := List.all_eq_true.1 compound_ok l hl
  unfold compoundOk at this
  cases l with
  | nil => exact ⟨1, 0, by decide, by decide, by simp⟩
  | cons h t =>
    simp only [List.head?_cons] at this
    split at this
    · next r q hr hq =>
      simp only [Bool.and_eq_true, decide_eq_true_eq, List.all_eq_true, Bool.not_eq_true', beq_iff_eq] at this
      refine ⟨r.s / h.2, q, div_ne_zero this.1.1.1 this.1.1.2, fun hm => ?_, fun e he => ⟨(this.2 e he).1.1, (this.2 e he).1.2, (this.2 e he).2⟩⟩
      have h2 := this.1.2
      rw [List.contains_iff_mem.2 hm] at h2
      cases h2
    · cases this

/-- C106. After `import unyts`, between two names of a list of products and ratios, all known to the library as units of one
quantity, `convert` answers with the sizes: whatever was asked before (with the cache in use: conversions between names), `x`
converted from `a` to `b` is `x` times the size of `a` over the size of `b`. -/
theorem C106_exact_partial {w : World} (hw : Started w) (hφ : w.fvf ≠ some 0) {cs : List Call} (hcs : ∀ c ∈ cs, Asks c)
    {l : List (Str × Rat)} (hl : l ∈ compoundSizes) {a b : Str} {sa sb : Rat} (ma : (a, sa) ∈ l) (mb : (b, sb) ∈ l)
    (uc : Option Bool) (hm : uc.getD w.par.cache = false ∨ ∀ c ∈ cs, AsksNames w c) (x : Rat) :
    (convert (some x) (some a) (some b) uc (session cs w)).1 = .ok (some (.num (x * sa / sb))) := by
  have hn := hw.shipped.network
  have hbase := base_session hcs hw.fresh.wf
  obtain ⟨ca, fa, ea, ta⟩ := compound_clean l hl _ ma
  obtain ⟨cb, fb, _, _⟩ := compound_clean l hl _ mb
  have ca := cleanUnit_of ca
  have cb := cleanUnit_of cb
  have ea : ∃ c ∈ a, c ≠ '*' ∧ c ≠ '/' := by
    obtain ⟨c, hc, h⟩ := List.any_eq_true.1 ea
    exact ⟨c, hc, by simpa using h⟩
  obtain ⟨k, q, hk, hq, hall⟩ := compound_reading hl
  obtain ⟨ra, la, na0⟩ := hall _ ma
  obtain ⟨rb, lb, nb0⟩ := hall _ mb
  simp only at ra rb la lb na0 nb0 fa fb ta
  simp only [List.mem_cons, List.not_mem_nil, or_false, not_or] at hq
  have la3 : labelOf a ≠ some 3 := by rw [la]; simpa using hq.1
  have lb3 : labelOf b ≠ some 3 := by rw [lb]; simpa using hq.1
  have la6 : labelOf a ≠ some 6 := by rw [la]; simpa using hq.2.1
  have la10 : labelOf a ≠ some 10 := by rw [la]; simpa using hq.2.2.1
  have la32 : labelOf a ≠ some 32 := by rw [la]; simpa using hq.2.2.2.1
  have la34 : labelOf a ≠ some 34 := by rw [la]; simpa using hq.2.2.2.2
  by_cases hab : a = b
  · subst hab
    rw [ra] at rb
    simp only [Option.some.injEq, Reading.mk.injEq, and_true] at rb
    have : sa = sb := mul_right_cancel₀ hk rb
    subst this
    rw [C11_self _ (hw.reachable hcs) a ca ea (by rw [hbase.dic]; exact hw.shipped.noDensity_any fa fa la3 la3) uc x]
    rw [mul_div_assoc, div_self na0, mul_one]
  have := List.all_eq_true.1 (List.all_eq_true.1 (List.all_eq_true.1 compound_fits l hl) _ ma) _ mb
  rw [Bool.or_eq_true] at this
  rcases this with h | this
  · exact absurd (code_inj (Nat.eq_of_beq_eq_true h)) hab
  rw [Bool.and_eq_true, decide_eq_true_eq] at this
  obtain ⟨hfit, hsw⟩ := this
  obtain ⟨p, hp, hlen, he⟩ := hn.fits hfit
  obtain ⟨isA, isB⟩ : IsName a ∧ IsName b := by
    have one : ∀ {a b : Str} {p}, Chain (fun x y => LinkedName w.net x y ∧ LinkedName w.net y x) a b p →
        a = b ∨ IsName a ∧ IsName b := by
      intro a b p hp
      induction hp with
      | single => exact Or.inl rfl
      | step e hp ih =>
        refine Or.inr ⟨(hn.linked_names e.1).1, ?_⟩
        rcases ih with rfl | h
        · exact (hn.linked_names e.1).2
        · exact h.2
    exact (one hp).resolve_left hab
  have value : ∀ y, shippedReading (fvfOr1 w.fvf) b y = shippedReading (fvfOr1 w.fvf) a x → y = x * sa / sb := by
    intro y e'
    simp only [shippedReading, ra, rb, Reading.at, Bool.false_eq_true, if_false, zpow_zero, mul_one, add_zero] at e'
    field_simp
    apply mul_left_cancel₀ hk
    rw [← mul_assoc, mul_comm k y, mul_assoc, mul_comm k sb, mul_comm y, e']
    ring
  obtain ⟨y, h1, h2⟩ : ∃ y, (convert (some x) (some a) (some b) uc (session cs w)).1 = .ok (some (.num y)) ∧
      shippedReading (fvfOr1 w.fvf) b y = shippedReading (fvfOr1 w.fvf) a x := by
    by_cases hs : Spec.SimpleName a ∧ Spec.SimpleName b
    · exact shipped_answer hw hφ hcs isA isB ⟨la3, la10⟩ la32 la34 la6 ⟨ca, hs.1⟩ ⟨cb, hs.2⟩ ⟨p, hp.mono fun _ _ h => h.1⟩ uc x
    · obtain ⟨c, f, na, nc, ena, enc, hf⟩ : ∃ c, LinkedName w.net a c := by
        cases hp with
        | single => exact absurd rfl hab
        | step e _ => exact ⟨_, e.1⟩
      have mna : na ∈ w.net.nodes := by obtain ⟨l, hl, _⟩ := hf; exact List.mem_map.2 ⟨_, hl, rfl⟩
      obtain ⟨nb, q', mnb, enb, hc, hql⟩ := chain_bothWays hw.fresh.wf hn.distinct hp mna ena
      obtain ⟨r, hr, _⟩ := session_near hw.fresh hcs hw.algorithm hn.distinct hw.edges (by have := hw.generations; omega)
        (a := a) (b := b) (by rw [← ena]; exact getNode_of_mem hn.distinct mna) ((show nb.name = b from enb) ▸ getNode_of_mem hn.distinct mnb) hc
        (by rw [hql]; exact he) (by have := hw.generations; omega)
      refine whole_answer hw hφ hcs isA isB ⟨la3, la10⟩ la32 la34 la6 ca cb hab fa fb ?_ (not_swapped hsw) (la.trans lb.symm)
        (hm.imp id fun h => ⟨h, hs⟩) hr x
      intro h f hf
      exact ta h f (by rw [hf]; simp)
  rw [h1, value y h2]

/-- the hypotheses are met: after `import unyts`, whatever the session asked before, 2 kW*h are 7 200 000 Joule -/
example : ∃ w : World, Started w ∧ ∀ cs : List Call, (∀ c ∈ cs, Asks c) → (∀ c ∈ cs, AsksNames w c) →
    (convert (some 2) (some s!!"kW*h") (some s!!"Joule") none (session cs w)).1 = .ok (some (.num 7200000)) := by
  obtain ⟨w, hw, _, hf⟩ := started_ex
  refine ⟨w, hw, fun cs hcs hnm => ?_⟩
  rw [C106_exact_partial hw (by rw [hf]; simp) hcs (l := compoundSizes[14]) (List.getElem_mem _)
    (a := s!!"kW*h") (sa := 3600000) (b := s!!"Joule") (sb := 1) (by decide +kernel) (by decide +kernel) none (Or.inr hnm)]
  norm_num

/-- Not so for the microsip, a millionth of a reciprocal psi: the library lists 'µsip' and 'usip' as spellings of '1/psi'
(dictionaries.py:341-342), so one reciprocal psi converts to one microsip instead of a million. -/
theorem C106_microsip_fails {w : World} (hw : Started w) {cs : List Call} (hcs : ∀ c ∈ cs, Asks c) (uc : Option Bool)
    (hm : uc.getD w.par.cache = false ∨ ∀ c ∈ cs, AsksNames w c) {u : Str} (hu : u ∈ [s!!"usip", s!!"µsip"]) :
    (convert (some 1) (some s!!"1/psi") (some u) uc (session cs w)).1 = .ok (some (.num 1)) ∧ (1 : Rat) ≠ 1000000 := by
  refine ⟨?_, by norm_num⟩
  have hn := hw.shipped.network
  have : ∀ u ∈ [s!!"usip", s!!"µsip"], labelOf u = some 11 ∧ ((labelCv 11 s!!"1/psi" u) = some (.fn .x)) ∧
    ((labelCv 11 u s!!"1/psi").isSome = true) := by decide +kernel
  obtain ⟨l1, c1, c2⟩ := this u hu
  have la : labelOf s!!"1/psi" = some 11 := by decide +kernel
  obtain ⟨na, nb, ea, eb, hd⟩ := (hn.at la c1).2 rfl
  have mna : na ∈ w.net.nodes := by obtain ⟨l, hl, _⟩ := hd; exact List.mem_map.2 ⟨_, hl, rfl⟩
  have mnb := hw.fresh.wf.closed _ _ _ hd
  have hback : Linked w.net nb na := by
    obtain ⟨f, x, y, ex, ey, hf⟩ := hn.linked_at l1 c2
    have mx : x ∈ w.net.nodes := by obtain ⟨l, hl, _⟩ := hf; exact List.mem_map.2 ⟨_, hl, rfl⟩
    obtain rfl := hn.distinct _ mnb _ mx (eb.trans ex.symm)
    obtain rfl := hn.distinct _ mna _ (hw.fresh.wf.closed _ _ _ hf) (ea.trans ey.symm)
    exact ⟨f, hf⟩
  exact C106_direct hw.fresh hw.algorithm hn.distinct hw.edges (by have := hw.generations; omega) hcs (cleanUnit_of (by decide))
    (cleanUnit_of (by clear * - hu; revert u; decide))
    (by clear * - hu; revert u; decide) (hw.shipped.ordinary_any (hn.linked_names (hn.linked_at la (by rw [c1]; rfl))).1 (by decide) (by rw [la]; simp) (by rw [la]; simp))
    (hw.shipped.ordinary_any (hn.linked_names (hn.linked_at la (by rw [c1]; rfl))).2 (by clear * - hu; revert u; decide) (by rw [l1]; simp) (by rw [l1]; simp))
    (not_swapped (by clear * - hu; revert u; decide)) (not_tempRatios hw (by decide +kernel))
    (hw.shipped.noDensity_any (by decide) (by clear * - hu; revert u; decide) (by rw [la]; simp) (by rw [l1]; simp))
    (hm.imp id fun h => ⟨h, fun h => absurd h.1 (by unfold Spec.SimpleName; decide)⟩)
    (ea ▸ getNode_of_mem hn.distinct mna) (eb ▸ getNode_of_mem hn.distinct mnb) hd hback rfl

end Unyts
