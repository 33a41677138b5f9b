import Verif.Lemmas.ShippedVolume
import Verif.Props.ShippedTotal

/- C88 for volumes and weights: what `convert` answers and the conversions it misses. -/
namespace Unyts
open Spec
set_option maxRecDepth 1000000

theorem bulk_builtIn {q u : Str} (h : BuiltIn q u) (hq : q ∈ [s!!"Volume", s!!"Weight"]) :
    labelOf u = some 3 ∧ labelOf u ≠ some 32 ∧ labelOf u ≠ some 34 := by
  have := (builtIn_numbers h).1.1 hq
  rw [this]
  exact ⟨rfl, by decide, by decide⟩

/-- C88 for volumes and weights: with a formation volume factor set, after `import unyts` and any conversions and
questions, `convert` answers a number for every two single names of volumes or of weights that are joined by
conversions, but for the pairs that `lean_BFS` misses (`C88_dram_fails`). Volumes to weights go through the density
(C21). -/
theorem C88_bulk_partial {w : World} (hw : Started w) (hg : 17 ≤ w.par.maxGenerations) {φ : Rat} (hφ : w.fvf = some φ)
    (hφ0 : φ ≠ 0) {cs : List Call} (hcs : ∀ c ∈ cs, Asks c) {q a b : Str} (ha : BuiltIn q a)
    (hq : q ∈ [s!!"Volume", s!!"Weight"]) (ca : CleanName a) (cb : CleanName b) (hd : ¬ DensityPair w.dic a b)
    (hex : w.par.algorithm = .lean → ¬ (a = s!!"weight ounce" ∧ b ∈ dramNames)) (hr : Reach (LinkedName w.net) a b)
    (uc : Option Bool) (x : Rat) :
    ∃ y w', convert (some x) (some a) (some b) uc (session cs w) = (.ok (some (.num y)), w') := by
  obtain ⟨hs, h32, h34⟩ := bulk_builtIn ha hq
  have hbase := base_session hcs hw.fresh.wf
  have hn := hw.shipped.network
  have hd' : ¬ DensityPair (session cs w).dic a b := by rw [hbase.dic]; exact hd
  by_cases hab : a = b
  · subst hab
    obtain ⟨c, hc⟩ := List.exists_mem_of_ne_nil _ (builtIn_ne_nil ha h32)
    refine ⟨x, _, Prod.ext (C11_self _ (hw.reachable hcs) a ca.1 ⟨c, hc, ?_, ?_⟩ hd' uc x) rfl⟩
    · rintro rfl; exact ca.2.2 hc
    · rintro rfl; exact ca.2.1 hc
  · obtain ⟨na, nb, g1, g2, e1, e2, hl⟩ := reach_nodes hw.fresh.wf hn.distinct hr hab
    have hsb : labelOf b = some 3 := by obtain ⟨p, hp⟩ := hr; rw [← hn.reach_label hp]; exact hs
    exact convert_totalOn (findsInv_session hcs (hw.shipped.finds_bulk hw.fresh hw.algorithm hw.edges hg))
      (by rw [hbase.net, hbase.fvf, hφ]; exact hn.totalBulk hφ0) ca cb ⟨⟨ca.2, cb.2⟩, hs, hsb, hex⟩
      (by rw [hbase.dic]; exact hw.shipped.ordinary ca.2 (builtIn_isName ha) h32 h34) hd'
      (by rw [hbase.net]; exact g1) (by rw [hbase.net]; exact g2) (by unfold Bulk; rw [e1]; exact hs)
      (by rw [hbase.net]; exact hl) uc x

/-- C88 for the question about volumes and weights: whatever was converted or asked before. -/
theorem C88_convertible_bulk_partial {w : World} (hw : Started w) (hg : 17 ≤ w.par.maxGenerations) {φ : Rat} (hφ : w.fvf = some φ)
    (hφ0 : φ ≠ 0) {cs : List Call} (hcs : ∀ c ∈ cs, Asks c) {q a b : Str} (ha : BuiltIn q a)
    (hq : q ∈ [s!!"Volume", s!!"Weight"]) (ca : CleanName a) (cb : CleanName b)
    (hex : w.par.algorithm = .lean → ¬ (a = s!!"weight ounce" ∧ b ∈ dramNames)) (hr : Reach (LinkedName w.net) a b)
    (uc : Option Bool) : (convertible a b uc (session cs w)).1 = .ok true := by
  by_cases hab : a = b
  · subst hab; exact C11_convertible _ (hw.reachable hcs) a ca.2 uc
  obtain ⟨hs, h32, h34⟩ := bulk_builtIn ha hq
  have hn := hw.shipped.network
  obtain ⟨na, nb, g1, g2, e1, e2, hl⟩ := reach_nodes hw.fresh.wf hn.distinct hr hab
  have hsb : labelOf b = some 3 := by obtain ⟨p, hp⟩ := hr; rw [← hn.reach_label hp]; exact hs
  exact convertible_session (askInv_fresh hw.fresh (hw.shipped.finds_bulk hw.fresh hw.algorithm hw.edges hg))
    (by rw [hφ]; exact hn.totalBulk hφ0) ⟨⟨ca.2, cb.2⟩, hs, hsb, hex⟩
    (hw.shipped.ordinary ca.2 (builtIn_isName ha) h32 h34) g1 g2 (by unfold Bulk; rw [e1]; exact hs) hl hcs uc

/-- a process right after the import and `set_fvf(1.2)` -/
theorem started_fvf : ∃ w, Started w ∧ w.par = {} ∧ w.fvf = some (6 / 5) := by
  obtain ⟨n, d, h⟩ := shipped_library
  let w : World := { net := n, dic := converterDict d, fvf := some (6 / 5) }
  have hf : Fresh w := ⟨h.network.wf, rfl, rfl, by constructor <;> simp [w]⟩
  exact ⟨w, ⟨hf, ⟨d, h, rfl⟩, by simp [w], rfl, by simp [w]⟩, rfl, rfl⟩

theorem bulk_ex : onlyIn s!!"Volume" s!!"reservoir barrel" = true ∧ onlyIn s!!"Volume" s!!"standard cubic foot" = true ∧
    onlyIn s!!"Weight" s!!"stone" = true ∧ onlyIn s!!"Weight" s!!"dr" = true ∧
    islandOf s!!"reservoir barrel" = islandOf s!!"standard cubic foot" ∧ islandOf s!!"stone" = islandOf s!!"dr" := by
  decide +kernel

example : ∃ w, Started w ∧ w.fvf = some (6 / 5) ∧ ∀ x, (∃ y w', convert (some x) (some s!!"reservoir barrel")
      (some s!!"standard cubic foot") none w = (.ok (some (.num y)), w')) ∧
    ∃ y w', convert (some x) (some s!!"stone") (some s!!"dr") none
      (session [.convert (some 1) (some s!!"Celsius") (some s!!"thou") none] w) = (.ok (some (.num y)), w') := by
  obtain ⟨w, hw, hp, hf⟩ := started_fvf
  obtain ⟨e1, e2, e3, e4, e5, e6⟩ := bulk_ex
  have b1 : BuiltIn s!!"Volume" s!!"reservoir barrel" := builtIn_mem (by decide +kernel) (by decide)
  have b2 : BuiltIn s!!"Volume" s!!"standard cubic foot" := builtIn_mem (by decide +kernel) (by decide)
  have b3 : BuiltIn s!!"Weight" s!!"stone" := builtIn_mem (by decide +kernel) (by decide)
  have b4 : BuiltIn s!!"Weight" s!!"dr" := builtIn_mem (by decide +kernel) (by decide)
  have c1 : CleanName s!!"reservoir barrel" := Demo.cleanName_of (by decide)
  have c2 : CleanName s!!"standard cubic foot" := Demo.cleanName_of (by decide)
  have c3 : CleanName s!!"stone" := Demo.cleanName_of (by decide)
  have c4 : CleanName s!!"dr" := Demo.cleanName_of (by decide)
  have hd : ∀ {q a b : Str}, onlyIn q a = true → onlyIn q b = true → CleanName a → CleanName b → ¬ DensityPair w.dic a b := by
    intro q a b oa ob ca cb
    obtain ⟨d, hd, hwd⟩ := hw.shipped
    rw [hwd]
    have key : ∀ {q' u : Str}, CleanName u → onlyIn q u = true → u ∈ kindStart d q' → q' = q := by
      intro q' u cu ou hm
      exact onlyIn_iff ou ((hd.unsigned (u := u) cu.2).1 (kindStart_mem.1 hm)).1
    rintro ⟨_, _, ⟨h1, h2⟩ | ⟨h1, h2⟩⟩
    · have := (key ca oa h1).trans (key cb ob h2).symm; revert this; decide
    · have := (key ca oa h2).trans (key cb ob h1).symm; revert this; decide
  refine ⟨w, hw, hf, fun x => ⟨?_, ?_⟩⟩
  · exact C88_bulk_partial hw (by rw [hp]; decide) hf (by norm_num) (cs := []) (by simp) b1 (by decide) c1 c2 (hd e1 e2 c1 c2)
      (fun _ => by decide) ((hw.shipped.network.reach_iff (builtIn_isName b1) (builtIn_isName b2)).2 e5) none x
  · exact C88_bulk_partial hw (by rw [hp]; decide) hf (by norm_num) (by simp [Asks]) b3 (by decide) c3 c4 (hd e3 e4 c3 c4)
      (fun _ => by decide) ((hw.shipped.network.reach_iff (builtIn_isName b3) (builtIn_isName b4)).2 e6) none x

/-- the slim graph has the conversions of the selected units only -/
theorem slim_selected {g : Net} {sel : List Str} {a b : UNode} (h : edgeOf (slimChildren g sel) a b) : a.name ∈ sel := by
  obtain ⟨l, hl, hb⟩ := h
  unfold slimChildren at hl
  cases hg : Py.dictGet (g.edges.filter fun e => e.1.name ∈ sel) a with
  | none => rw [hg] at hl; cases hl; cases hb
  | some l' =>
    have := dictGet_mem hg
    simpa using (List.mem_filter.1 this).2

theorem dram_named_decls : (dramNames.all fun s => rawDictionary.any fun e =>
    (declsOf (kindInstrs shippedPrefixes e.1 e.2)).any fun d => d.1 == s!!"dram" && d.2.1 == s) = true := by decide +kernel

theorem dram_named_back : ∀ s ∈ dramNames, (s!!"dram", s) ∉ Spec.oneWay := by decide

theorem dram_only : onlyIn s!!"Weight" s!!"weight ounce" = true ∧ (dramNames.all fun s => onlyIn s!!"Weight" s) = true := by
  decide +kernel

theorem Spec.ShippedNetwork.dram_named {n : Net} (h : ShippedNetwork n) {s : Str} (hs : s ∈ dramNames) :
    LinkedName n s!!"dram" s := by
  obtain ⟨e, he, h1⟩ := List.any_eq_true.1 (List.all_eq_true.1 dram_named_decls s hs)
  obtain ⟨⟨a, b, c⟩, hd, h2⟩ := List.any_eq_true.1 h1
  simp only [Bool.and_eq_true, beq_iff_eq] at h2
  obtain ⟨rfl, rfl⟩ := h2
  exact h.linked.2 (Or.inl ⟨c, List.mem_append.2 (Or.inl (List.mem_flatMap.2 ⟨e, he, hd⟩))⟩)

/-- what a name of the dram reaches in one step -/
theorem dram_ball {n : Net} (h : ShippedNetwork n) {x y : Str} (hx : x ∈ dramNames) (hw : Within (LinkedName n) 1 x y) :
    y = x ∨ y = s!!"dram" := by
  rw [Within.succ] at hw
  rcases hw with hw | ⟨b, hw, he⟩
  · rw [Within.zero] at hw; exact Or.inl hw.symm
  · rw [Within.zero] at hw
    subst hw
    rcases h.from_dram_name hx he with h1 | h1
    · exact Or.inr h1
    · exact Or.inl h1

/-- `lean_BFS` keeps only the dram, its names and the pound -/
theorem lean_misses {n : Net} (h : ShippedNetwork n) {k : Int} (hk : 1 ≤ k) {u t : UNode} (mu : u ∈ n.nodes) (mt : t ∈ n.nodes)
    (hu : u.name = s!!"weight ounce") (ht : t.name ∈ dramNames) : leanBfs n n.edgesStr k u t = .ok none := by
  have hut : u ≠ t := by rintro rfl; rw [hu] at ht; revert ht; decide
  have st : Spec.SimpleName t.name := by
    have : ∀ s ∈ dramNames, '/' ∉ s ∧ '*' ∉ s := by decide
    exact this _ ht
  have su : Spec.SimpleName u.name := by rw [hu]; exact ⟨by decide, by decide⟩
  have hsel : u.name ∉ leanSelection n.edgesStr n.hasName u.name t.name k := by
    intro hm
    unfold leanSelection at hm
    obtain ⟨gs, hgs⟩ : ∃ gs, generationsList k = 0 :: gs := by
      unfold generationsList
      rw [List.filter_cons_of_pos (by simp; omega)]
      exact ⟨_, rfl⟩
    obtain ⟨_, d, md, ed⟩ := node_of_link h.wf h.to_dram.1
    have balls : ∀ x, x ∈ Py.inter (getDescendants n.edgesStr n.hasName u.name (0 + 1) true)
        (getDescendants n.edgesStr n.hasName t.name (0 + 1) true) → x = s!!"dram" := by
      intro x hx
      rw [Py.mem_inter, show ((0 : Int) + 1) = ((1 : Nat) : Int) from rfl, mem_desc_simple h.wf h.distinct mu su,
        mem_desc_simple h.wf h.distinct mt st] at hx
      obtain ⟨⟨y, my, hy, rfl⟩, z, mz, hz, hyz⟩ := hx
      obtain ⟨p, hp, hl⟩ := hz
      rcases dram_ball h ht ⟨_, chain_linkedNames hp, by simpa using hl⟩ with h1 | h1
      · exfalso
        obtain ⟨p, hp, hl⟩ := hy
        have hw : Within (LinkedName n) 1 u.name y.name := ⟨_, chain_linkedNames hp, by simpa using hl⟩
        rw [← hyz, h1, Within.succ] at hw
        rcases hw with hw | ⟨b, hw, he⟩
        · rw [Within.zero, hu] at hw; rw [← hw] at ht; revert ht; decide
        · rw [Within.zero] at hw
          subst hw
          have hback : LinkedName n t.name u.name := (h.back he).2 (by
            rw [hu]
            revert ht
            generalize t.name = s
            have : ∀ s ∈ dramNames, (s!!"weight ounce", s) ∉ Spec.oneWay := by decide
            exact this s)
          rcases h.from_dram_name ht hback with h2 | h2
          · rw [hu] at h2; revert h2; decide
          · rw [hu] at h2; rw [← h2] at ht; revert ht; decide
      · rw [← hyz]; exact h1
    have hdram : s!!"dram" ∈ Py.inter (getDescendants n.edgesStr n.hasName u.name (0 + 1) true)
        (getDescendants n.edgesStr n.hasName t.name (0 + 1) true) := by
      rw [Py.mem_inter, show ((0 : Int) + 1) = ((1 : Nat) : Int) from rfl, mem_desc_simple h.wf h.distinct mu su,
        mem_desc_simple h.wf h.distinct mt st]
      refine ⟨⟨d, md, within_step (linked_of_name h.wf h.distinct mu md (by rw [hu, ed]; exact h.to_dram.1)) (Within.refl 0 _), ed⟩,
        d, md, within_step (linked_of_name h.wf h.distinct mt md ?_) (Within.refl 0 _), ed⟩
      rw [ed]
      exact (h.back (h.dram_named ht)).2 (dram_named_back _ ht)
    rw [hgs] at hm
    unfold leanLoop at hm
    simp only at hm
    rw [if_pos (List.ne_nil_of_mem hdram)] at hm
    simp only at hm
    rw [Py.mem_union] at hm
    rcases hm with hm | hm
    · have := balls _ hm
      rw [hu] at this; revert this; decide
    · obtain ⟨x, hx, hm⟩ := List.mem_flatMap.1 hm
      rw [balls x hx, ← ed, show ((0 : Int) + 1) = ((1 : Nat) : Int) from rfl,
        mem_desc_simple h.wf h.distinct md (by rw [ed]; exact ⟨by decide, by decide⟩)] at hm
      obtain ⟨y, my, ⟨p, hp, hl⟩, hy⟩ := hm
      have hw : Within (LinkedName n) 1 d.name y.name := ⟨_, chain_linkedNames hp, by simpa using hl⟩
      rw [hy, hu, ed, Within.succ] at hw
      rcases hw with hw | ⟨b, hw, he⟩
      · rw [Within.zero] at hw; revert hw; decide
      · rw [Within.zero] at hw
        subst hw
        exact h.to_dram.2 he
  unfold leanBfs
  simp only
  generalize leanSelection n.edgesStr n.hasName u.name t.name k = sel at hsel
  split
  · rfl
  · rcases slim_bfs_spec (g := n) (sel := sel) (start := u) (tgt := t) with ⟨q, hq, hp, _⟩ | ⟨hq, _⟩
    · exfalso
      cases hp.1 with
      | single => exact hut rfl
      | step e _ => exact hsel (slim_selected e)
    · exact hq

/-- C88 fails for the drams: with the default search `convert` does not convert a weight ounce to 'dr', although it
converts a weight ounce to a dram, and a dram is a 'dr': `lean_BFS` stops at the dram and drops the unit it started
from. -/
theorem C88_dram_fails {w : World} (hw : Started w) (hl : w.par.algorithm = .lean) {t : Str} (ht : t ∈ dramNames)
    (uc : Option Bool) (v : Option Rat) (c : Conv) (w' : World) :
    LinkedName w.net s!!"weight ounce" s!!"dram" ∧ LinkedName w.net s!!"dram" t ∧
      convert v (some s!!"weight ounce") (some t) uc w ≠ (.ok (some c), w') := by
  have hn := hw.shipped.network
  refine ⟨hn.to_dram.1, hn.dram_named ht, fun hc => ?_⟩
  have st : ∀ s ∈ dramNames, '(' ∉ s ∧ ')' ∉ s ∧ (∀ c ∈ s.head?.toList ++ s.getLast?.toList, c ∉ [' ', '"', '\'']) ∧
    s ≠ s!!"Empty" ∧ '/' ∉ s ∧ '*' ∉ s := by decide
  have ca : CleanName s!!"weight ounce" := Demo.cleanName_of (by decide)
  have cb := Demo.cleanName_of (st t ht)
  have ne : s!!"weight ounce" ≠ t := by rintro rfl; revert ht; decide
  obtain ⟨⟨u, mu, eu⟩, _⟩ := node_of_link hw.fresh.wf hn.to_dram.1
  obtain ⟨_, t', mt, rfl⟩ := node_of_link hw.fresh.wf (hn.dram_named ht)
  have g1 : w.net.getNode s!!"weight ounce" = .ok u := eu ▸ getNode_of_mem hn.distinct mu
  have g2 : w.net.getNode t'.name = .ok t' := getNode_of_mem hn.distinct mt
  have l32 : labelOf s!!"weight ounce" = some 3 := dram_label.2.2
  have oa : Ordinary w.dic s!!"weight ounce" := hw.shipped.ordinary ca.2 (hn.linked_names hn.to_dram.1).1 (by rw [l32]; decide)
    (by rw [l32]; decide)
  have hsearch : ∀ w1 : World, SameBase w w1 → (searchNetwork s!!"weight ounce" t'.name w1).1 = .ok none := by
    intro w1 hb
    unfold searchNetwork
    rw [hb.net, hasName_of_getNode g1, hasName_of_getNode g2, g1, g2]
    simp only [Bool.and_self, if_true, hb.par, hl, net_ite, es_ite]
    rw [hb.net, hb.es, show w.es = w.net.edgesStr by unfold World.es; rw [hw.edges]; rfl]
    exact lean_misses hn (by have := hw.generations; omega) mu mt eu ht
  have hd : ¬ DensityPair w.dic s!!"weight ounce" t'.name := by
    obtain ⟨d, hd, hwd⟩ := hw.shipped
    rw [hwd]
    rintro ⟨_, _, ⟨hm, _⟩ | ⟨hm, _⟩⟩
    · have := ((hd.unsigned (u := s!!"weight ounce") ca.2).1 (kindStart_mem.1 hm)).1
      exact absurd (onlyIn_iff dram_only.1 this) (by decide)
    · have := ((hd.unsigned (u := t'.name) cb.2).1 (kindStart_mem.1 hm)).1
      exact absurd (onlyIn_iff (List.all_eq_true.1 dram_only.2 _ ht) this) (by decide)
  rw [convert_clean ca.1 cb.1, convertClean_eq hw.fresh.wf hd] at hc
  obtain ⟨n, hbud⟩ := ample_budget hw.fresh.ample
  rw [converterTop_eq, hbud] at hc
  have hgc : (getConv (n + 1) uc v s!!"weight ounce" t'.name { w with previous := [] }).1 = .ok none := by
    rw [getConv_eq n uc v _ (tempParts_noSlash ca.2.1)]
    have h1 : memHit { w with previous := [] } uc s!!"weight ounce" t'.name = none := by
      unfold memHit
      simp [hw.fresh.memory, Py.dictGet]
    have h2 : quick { w with previous := [] } s!!"weight ounce" t'.name = none := by
      cases hq : quick { w with previous := [] } s!!"weight ounce" t'.name with
      | none => rfl
      | some e => exact absurd (quick_ordinary (w := { w with previous := [] }) ca.2 cb.2 oa hq).1 ne
    rw [h1, h2]
    simp only
    have h3 := hsearch { w with previous := [] } ⟨rfl, rfl, rfl, rfl, rfl⟩
    unfold networkConversion
    cases hs : searchNetwork s!!"weight ounce" t'.name { w with previous := [] } with
    | mk r w2 =>
      rw [hs] at h3
      simp only at h3
      subst h3
      rw [PyM.run_bind_ok hs]
      rfl
  rcases converter_simple (w := { w with previous := [] }) hw.fresh.wf ca.2 cb.2 n uc v (by simp) with ⟨_, h2⟩ | ⟨_, w2, _, _, _, h2⟩
  · exact h2 hgc
  · rw [h2] at hc
    simp only [finish, Prod.mk.injEq] at hc
    split at hc <;> cases hc.1

example : ∃ w, Started w ∧ w.par.algorithm = .lean ∧ s!!"dr" ∈ dramNames ∧ ∀ w',
    convert (some 1) (some s!!"weight ounce") (some s!!"dr") none w ≠ (.ok (some (.num 16)), w') := by
  obtain ⟨w, hw, hp, _⟩ := started_ex
  exact ⟨w, hw, by rw [hp], by decide, fun w' => (C88_dram_fails hw (by rw [hp]) (by decide) none _ _ w').2.2⟩

end Unyts
