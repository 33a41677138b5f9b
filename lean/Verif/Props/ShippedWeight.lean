import Verif.Lemmas.ShippedWeight
import Verif.Spec.Weights
import Verif.Props.ShippedVolume

/- C93: weights convert by their sizes, although volumes and weights share the ounce. -/
namespace Unyts
open Spec
set_option maxRecDepth 1000000

/-- two weights are no matter of density: the ounces that are volumes too are ambiguous names -/
theorem Spec.ShippedWorld.weights_noDensity {w : World} (h : ShippedWorld w) {a b : Str} (ha : BuiltIn s!!"Weight" a)
    (hb : BuiltIn s!!"Weight" b) (sa : Spec.SimpleName a) (sb : Spec.SimpleName b) : ¬ DensityPair w.dic a b := by
  obtain ⟨d, hd, hw⟩ := h
  rw [hw]
  have unc : (converterDict d).uncertain = ambiguousNames := rfl
  have key : ∀ {u}, BuiltIn s!!"Weight" u → Spec.SimpleName u → u ∈ kindStart d s!!"Volume" → u ∈ ambiguousNames := by
    intro u hu su hm
    have hv := ((hd.unsigned (u := u) su).1 (kindStart_mem.1 hm)).1
    have := weighty_other hv (by decide) (Or.inl hu)
    rcases List.mem_append.1 this with h1 | h1
    · exact (by decide : ∀ s ∈ sharedOunces, s ∈ ambiguousNames) u h1
    · have no : (fluidOunces.all fun s => !((basicNames s!!"Weight").contains s)) = true := by decide +kernel
      have h2 := List.all_eq_true.1 no u h1
      obtain ⟨k, hk, hq⟩ := hu
      have : u ∈ basicNames s!!"Weight" := by
        refine mem_basicNames.2 ⟨k, hk, ?_⟩
        unfold quantityOf at hq
        split at hq
        · cases hq
        · exact hq
      simp [this] at h2
  rintro ⟨u1, u2, ⟨hm, _⟩ | ⟨hm, _⟩⟩
  · exact u1 (unc ▸ key ha sa hm)
  · exact u2 (unc ▸ key hb sb hm)

theorem weight_numbers {a : Str} (ha : BuiltIn s!!"Weight" a) :
    labelOf a = some 3 ∧ labelOf a ≠ some 32 ∧ labelOf a ≠ some 34 := bulk_builtIn ha (by decide)

/-- along a path of weights the reading is kept -/
theorem weight_reads {n : Net} (hn : ShippedNetwork n) {fvf : Option Rat} (hφ : fvf ≠ some 0) {na nb : UNode} {q : List UNode}
    {f : Fn} (hq : IsPath (Linked n) na nb q) (hal : Along n q f) (ha : BuiltIn s!!"Weight" na.name)
    (hb : BuiltIn s!!"Weight" nb.name) {x y : Rat} (hxy : f fvf x = .ok y) :
    shippedReading (fvfOr1 fvf) nb.name y = shippedReading (fvfOr1 fvf) na.name x := by
  have hw := hn.weight_path hq (Or.inl ha) (Or.inl hb)
  obtain ⟨h1, h2⟩ := isPath_ends hq
  refine hn.along (along_names hal) (weight_avoids ?_) hφ hxy (by rw [List.head?_map, h1]; rfl) (by rw [List.getLast?_map, h2]; rfl)
  intro s hs
  obtain ⟨u, hu, rfl⟩ := List.mem_map.1 hs
  exact hw u hu

/-- what an answer of `convert` between weights reads, in any state -/
theorem weight_answer {w : World} (hw : Reachable w) (hs : ShippedWorld w) (hφ : w.fvf ≠ some 0) {a b : Str}
    (ha : BuiltIn s!!"Weight" a) (hb : BuiltIn s!!"Weight" b) (ca : CleanName a) (cb : CleanName b) {uc : Option Bool} {x : Rat}
    {c : Conv} {w' : World} (hr : convert (some x) (some a) (some b) uc w = (.ok (some c), w')) :
    ∃ y, c = .num y ∧ shippedReading (fvfOr1 w.fvf) b y = shippedReading (fvfOr1 w.fvf) a x := by
  obtain ⟨_, h32, h34⟩ := weight_numbers ha
  obtain ⟨f, p, h1, h2⟩ := convert_simple (sound_of_reachable hw) ca cb (hs.ordinary ca.2 (builtIn_isName ha) h32 h34)
    (hs.weights_noDensity ha hb ca.2 cb.2) hr
  obtain ⟨_, h3⟩ := ansRes_ok h1
  rcases h3 with ⟨h3, _⟩ | ⟨x', y, hx, hf, rfl⟩
  · cases h3
  · cases hx
    refine ⟨y, rfl, ?_⟩
    rcases h2 with ⟨rfl, rfl⟩ | ⟨na, nb, q, hna, hnb, hq, hal, _⟩
    · simp only [idFn, Except.ok.injEq] at hf
      rw [hf]
    · obtain ⟨_, rfl⟩ := getNode_mem hna
      obtain ⟨_, rfl⟩ := getNode_mem hnb
      exact weight_reads hs.network hφ hq hal ha hb hf

/-- `convert` answers for joined weights, with or without a formation volume factor -/
theorem weight_found {w : World} (hw : Started w) (hg : 17 ≤ w.par.maxGenerations) {cs : List Call} (hcs : ∀ c ∈ cs, Asks c)
    {a b : Str} (ha : BuiltIn s!!"Weight" a) (hb : BuiltIn s!!"Weight" b) (ca : CleanName a) (cb : CleanName b)
    (hex : w.par.algorithm = .lean → ¬ (a = s!!"weight ounce" ∧ b ∈ dramNames)) (hr : Reach (LinkedName w.net) a b)
    (uc : Option Bool) (x : Rat) :
    ∃ y w', convert (some x) (some a) (some b) uc (session cs w) = (.ok (some (.num y)), w') := by
  obtain ⟨hs, h32, h34⟩ := weight_numbers ha
  obtain ⟨hsb, _⟩ := weight_numbers hb
  have hbase := base_session hcs hw.fresh.wf
  have hn := hw.shipped.network
  have hd : ¬ DensityPair (session cs w).dic a b := by rw [hbase.dic]; exact hw.shipped.weights_noDensity ha hb ca.2 cb.2
  by_cases hab : a = b
  · subst hab
    obtain ⟨c, hc⟩ := List.exists_mem_of_ne_nil _ (builtIn_ne_nil ha h32)
    refine ⟨x, _, Prod.ext (C11_self _ (hw.reachable hcs) a ca.1 ⟨c, hc, ?_, ?_⟩ hd uc x) rfl⟩
    · rintro rfl; exact ca.2.2 hc
    · rintro rfl; exact ca.2.1 hc
  · obtain ⟨na, nb, g1, g2, rfl, rfl, hl⟩ := reach_nodes hw.fresh.wf hn.distinct hr hab
    obtain ⟨q, f, hq, hal, hres⟩ := convert_finds (findsInv_session hcs (hw.shipped.finds_bulk hw.fresh hw.algorithm hw.edges hg))
      ca cb ⟨⟨ca.2, cb.2⟩, hs, hsb, hex⟩ (by rw [hbase.dic]; exact hw.shipped.ordinary ca.2 (builtIn_isName ha) h32 h34) hd
      (by rw [hbase.net]; exact g1) (by rw [hbase.net]; exact g2) (by rw [hbase.net]; exact hl) uc (some x)
    rw [hbase.net] at hq hal
    obtain ⟨y, hy⟩ := hn.weight_total hal (hn.weight_path hq (Or.inl ha) (Or.inl hb)) (session cs w).fvf x
    refine ⟨y, _, Prod.ext ?_ rfl⟩
    rw [hres]
    simp [ansRes, hy, Except.map, finish]

/-- `convertible` says yes for joined weights, with or without a formation volume factor -/
theorem weight_convertible {w : World} (hw : Started w) (hg : 17 ≤ w.par.maxGenerations) {cs : List Call} (hcs : ∀ c ∈ cs, Asks c)
    {a b : Str} (ha : BuiltIn s!!"Weight" a) (hb : BuiltIn s!!"Weight" b) (ca : CleanName a) (cb : CleanName b)
    (hex : w.par.algorithm = .lean → ¬ (a = s!!"weight ounce" ∧ b ∈ dramNames)) (hr : Reach (LinkedName w.net) a b)
    (uc : Option Bool) : (convertible a b uc (session cs w)).1 = .ok true := by
  by_cases hab : a = b
  · subst hab; exact C11_convertible _ (hw.reachable hcs) a ca.2 uc
  obtain ⟨hs, h32, h34⟩ := weight_numbers ha
  obtain ⟨hsb, _⟩ := weight_numbers hb
  have hbase := base_session hcs hw.fresh.wf
  have hn := hw.shipped.network
  obtain ⟨na, nb, g1, g2, rfl, rfl, hl⟩ := reach_nodes hw.fresh.wf hn.distinct hr hab
  have hk := askInv_session hcs (askInv_fresh hw.fresh (hw.shipped.finds_bulk hw.fresh hw.algorithm hw.edges hg))
  have sab : BulkNames w.par.algorithm na.name nb.name := ⟨⟨ca.2, cb.2⟩, hs, hsb, hex⟩
  rw [← hbase.net] at g1 g2 hl
  obtain ⟨q, f, hq, hal, hres⟩ := converterTop_finds hk.1 sab
    (by rw [hbase.dic]; exact hw.shipped.ordinary ca.2 (builtIn_isName ha) h32 h34) g1 g2 hl (hk.2 _ _ _ _ sab g1 g2 hl) uc (some 1)
  rw [hbase.net] at hq hal
  obtain ⟨y, hy⟩ := hn.weight_total hal (hn.weight_path hq (Or.inl ha) (Or.inl hb)) (session cs w).fvf 1
  unfold convertible
  cases hc : converterTop uc (some 1) na.name nb.name (session cs w) with
  | mk r w' =>
    rw [hc] at hres
    simp only [ansRes, hy, Except.map] at hres
    subst hres
    rfl

/-- C93, round trip: two joined weights convert there and back to the same number, whatever was asked before. -/
theorem C93_there_and_back {w : World} (hw : Started w) (hg : 17 ≤ w.par.maxGenerations) (hφ : w.fvf ≠ some 0)
    {cs ds : List Call} (hcs : ∀ c ∈ cs, Asks c) (hds : ∀ c ∈ ds, Asks c) {a b : Str} (ha : BuiltIn s!!"Weight" a)
    (hb : BuiltIn s!!"Weight" b) (ca : CleanName a) (cb : CleanName b) (hr : Reach (LinkedName w.net) a b)
    (hex : w.par.algorithm = .lean → ¬ (a = s!!"weight ounce" ∧ b ∈ dramNames) ∧ ¬ (b = s!!"weight ounce" ∧ a ∈ dramNames))
    (uc uc' : Option Bool) (x : Rat) :
    ∃ y w1 w2, convert (some x) (some a) (some b) uc (session cs w) = (.ok (some (.num y)), w1) ∧
      convert (some y) (some b) (some a) uc' (session ds w) = (.ok (some (.num x)), w2) := by
  have hn := hw.shipped.network
  obtain ⟨y, w1, r1⟩ := weight_found hw hg hcs ha hb ca cb (fun h => (hex h).1) hr uc x
  obtain ⟨z, w2, r2⟩ := weight_found hw hg hds hb ha cb ca (fun h => (hex h).2) (C62_symmetric hn hr) uc' y
  have sw : ∀ {cs : List Call}, (∀ c ∈ cs, Asks c) → ShippedWorld (session cs w) ∧ (session cs w).fvf = w.fvf := by
    intro cs hcs
    have hbase := base_session hcs hw.fresh.wf
    obtain ⟨d, h1, h2⟩ := hw.shipped
    exact ⟨⟨d, by rw [hbase.net]; exact h1, by rw [hbase.dic]; exact h2⟩, hbase.fvf⟩
  obtain ⟨_, e1, k1⟩ := weight_answer (hw.reachable hcs) (sw hcs).1 (by rw [(sw hcs).2]; exact hφ) ha hb ca cb r1
  obtain ⟨_, e2, k2⟩ := weight_answer (hw.reachable hds) (sw hds).1 (by rw [(sw hds).2]; exact hφ) hb ha cb ca r2
  cases e1
  cases e2
  rw [(sw hcs).2] at k1
  rw [(sw hds).2] at k2
  rw [shippedReading_inj (fvfOr1_ne hφ) a (k2.trans k1)] at r2
  exact ⟨y, w1, w2, r1, r2⟩

/-! ### sizes -/

theorem weight_sizes_check : (fun k l => weightSizes.all fun e =>
    decide (readingOf e.1 = some ⟨e.2 * k, 0, 0, false⟩) && l.contains e.1 && islandOf e.1 == some 2 &&
      !(dramNames.contains e.1) && decide (e.2 ≠ 0))
      (((readingOf s!!"g").map Reading.s).getD 0) (basicNames s!!"Weight") = true ∧
    ((readingOf s!!"g").map Reading.s).getD 0 ≠ 0 := by
  constructor <;> decide +kernel

theorem weight_size : ∃ k : Rat, k ≠ 0 ∧ ∀ e ∈ weightSizes, readingOf e.1 = some ⟨e.2 * k, 0, 0, false⟩ ∧
    BuiltIn s!!"Weight" e.1 ∧ islandOf e.1 = some 2 ∧ e.1 ∉ dramNames ∧ e.2 ≠ 0 := by
  refine ⟨_, weight_sizes_check.2, fun e he => ?_⟩
  have := List.all_eq_true.1 weight_sizes_check.1 e he
  simp only [Bool.and_eq_true, decide_eq_true_eq, beq_iff_eq, Bool.not_eq_true', ← Bool.not_eq_true, List.contains_iff_mem] at this
  obtain ⟨⟨⟨⟨h1, h2⟩, h3⟩, h4⟩, h5⟩ := this
  exact ⟨h1, builtIn_mem (List.contains_iff_mem.2 h2) (by decide), h3, h4, h5⟩

theorem weight_clean : ∀ e ∈ weightSizes, '(' ∉ e.1 ∧ ')' ∉ e.1 ∧
    (∀ c ∈ e.1.head?.toList ++ e.1.getLast?.toList, c ∉ [' ', '"', '\'']) ∧ e.1 ≠ s!!"Empty" ∧ '/' ∉ e.1 ∧ '*' ∉ e.1 := by
  decide +kernel

/-- C93: the only number `convert` can answer between two of these weights is the one their sizes give, in any state
any session leaves, with any algorithm and any cache. -/
theorem C93_sizes {w : World} (hw : Reachable w) (hs : ShippedWorld w) (hφ : w.fvf ≠ some 0) {a b : Str} {sa sb : Rat}
    (ma : (a, sa) ∈ weightSizes) (mb : (b, sb) ∈ weightSizes) {uc : Option Bool} {x : Rat} {c : Conv} {w' : World}
    (hr : convert (some x) (some a) (some b) uc w = (.ok (some c), w')) : c = .num (x * sa / sb) := by
  obtain ⟨k, hk, h⟩ := weight_size
  obtain ⟨r1, b1, _⟩ := h _ ma
  obtain ⟨r2, b2, _, _, nb⟩ := h _ mb
  obtain ⟨y, rfl, e⟩ := weight_answer hw hs hφ b1 b2 (Demo.cleanName_of (weight_clean _ ma)) (Demo.cleanName_of (weight_clean _ mb)) hr
  simp only [shippedReading, r1, r2, Reading.at, Bool.false_eq_true, if_false, zpow_zero, mul_one, add_zero] at e
  simp only at nb
  congr 1
  field_simp
  apply mul_left_cancel₀ hk
  rw [← mul_assoc, mul_comm k y, mul_assoc, mul_comm k sb, mul_comm y, e]
  ring

/-- C93, with the answer found. -/
theorem C93_exact {w : World} (hw : Started w) (hg : 17 ≤ w.par.maxGenerations) (hφ : w.fvf ≠ some 0) {cs : List Call}
    (hcs : ∀ c ∈ cs, Asks c) {a b : Str} {sa sb : Rat} (ma : (a, sa) ∈ weightSizes) (mb : (b, sb) ∈ weightSizes)
    (uc : Option Bool) (x : Rat) :
    (convert (some x) (some a) (some b) uc (session cs w)).1 = .ok (some (.num (x * sa / sb))) := by
  obtain ⟨k, hk, h⟩ := weight_size
  obtain ⟨_, b1, i1, _⟩ := h _ ma
  obtain ⟨_, b2, i2, nd, _⟩ := h _ mb
  have hn := hw.shipped.network
  have hbase := base_session hcs hw.fresh.wf
  obtain ⟨y, w', hr⟩ := weight_found hw hg hcs b1 b2 (Demo.cleanName_of (weight_clean _ ma)) (Demo.cleanName_of (weight_clean _ mb))
    (fun _ h => nd h.2) ((hn.reach_iff (builtIn_isName b1) (builtIn_isName b2)).2 (i1.trans i2.symm)) uc x
  obtain ⟨d, h1, h2⟩ := hw.shipped
  rw [hr, C93_sizes (hw.reachable hcs) ⟨d, by rw [hbase.net]; exact h1, by rw [hbase.dic]; exact h2⟩ (by rw [hbase.fvf]; exact hφ) ma mb hr]

example : ∃ w, Started w ∧ ∀ uc, numOf (convert (some 3) (some s!!"stone") (some s!!"weight ounce") uc
    (session [.convert (some 1) (some s!!"gallonUK") (some s!!"oz") none] w)).1 = some 672 := by
  obtain ⟨w, hw, hp, hf⟩ := started_ex
  refine ⟨w, hw, fun uc => ?_⟩
  rw [C93_exact hw (by rw [hp]; decide) (by rw [hf]; decide) (by simp [Asks]) (a := s!!"stone") (b := s!!"weight ounce")
    (sa := 14 * 45359237 / 100000) (sb := 45359237 / 1600000) (by decide +kernel) (by decide +kernel) uc 3]
  simp only [numOf]
  norm_num

example : ∃ w, Started w ∧ w.fvf = none ∧ ∃ y w1 w2, convert (some 7) (some s!!"pennyweight") (some s!!"oz") none w = (.ok (some (.num y)), w1) ∧
    convert (some y) (some s!!"oz") (some s!!"pennyweight") none w = (.ok (some (.num 7)), w2) := by
  obtain ⟨w, hw, hp, hf⟩ := started_ex
  have h1 : BuiltIn s!!"Weight" s!!"pennyweight" := builtIn_mem (by decide +kernel) (by decide)
  have h2 : BuiltIn s!!"Weight" s!!"oz" := builtIn_mem (by decide +kernel) (by decide)
  exact ⟨w, hw, hf, C93_there_and_back hw (by rw [hp]; decide) (by rw [hf]; decide) (cs := []) (ds := []) (by simp) (by simp)
    h1 h2 (Demo.cleanName_of (by decide)) (Demo.cleanName_of (by decide))
    ((hw.shipped.network.reach_iff (builtIn_isName h1) (builtIn_isName h2)).2 (by decide +kernel)) (fun _ => by decide) none none 7⟩

theorem tonne_check : readingOf s!!"t" = (readingOf s!!"g").map (fun r => ⟨2240 * 45359237 / 100000 * r.s, 0, 0, false⟩) ∧
    readingOf s!!"grain" = (readingOf s!!"g").map (fun r => ⟨647989 / 10000000 * r.s, 0, 0, false⟩) ∧
    readingOf s!!"g" = (readingOf s!!"g").map (fun r => ⟨r.s, 0, 0, false⟩) ∧ (readingOf s!!"g").isSome = true ∧
    islandOf s!!"t" = islandOf s!!"g" ∧ islandOf s!!"grain" = islandOf s!!"g" ∧
    (basicNames s!!"Weight").contains s!!"t" = true ∧ (basicNames s!!"Weight").contains s!!"g" = true ∧
    (basicNames s!!"Weight").contains s!!"grain" = true := by decide +kernel

/-- C93 fails for two units: 't', the symbol of the tonne of 1000 kg, is a long ton of 2240 lb, and a grain is
64.7989 mg instead of 64.79891 mg. -/
theorem C93_tonne_fails {w : World} (hw : Started w) (hg : 17 ≤ w.par.maxGenerations) (hφ : w.fvf ≠ some 0) {cs : List Call}
    (hcs : ∀ c ∈ cs, Asks c) (uc : Option Bool) :
    numOf (convert (some 1) (some s!!"t") (some s!!"g") uc (session cs w)).1 = some (2240 * 45359237 / 100000) ∧
    numOf (convert (some 1) (some s!!"grain") (some s!!"g") uc (session cs w)).1 = some (647989 / 10000000) := by
  obtain ⟨t1, t2, t3, t4, t5, t6, t7, t8, t9⟩ := tonne_check
  have hn := hw.shipped.network
  have hbase := base_session hcs hw.fresh.wf
  have sw : ShippedWorld (session cs w) := by
    obtain ⟨d, h1, h2⟩ := hw.shipped
    exact ⟨d, by rw [hbase.net]; exact h1, by rw [hbase.dic]; exact h2⟩
  have bg : BuiltIn s!!"Weight" s!!"g" := builtIn_mem t8 (by decide)
  have cg : CleanName s!!"g" := Demo.cleanName_of (by decide)
  obtain ⟨r, hr⟩ := Option.isSome_iff_exists.1 t4
  rw [hr] at t1 t2 t3
  have rs := readingOf_scale hr
  have key : ∀ {a : Str} {k : Rat}, BuiltIn s!!"Weight" a → CleanName a → a ≠ s!!"weight ounce" → islandOf a = islandOf s!!"g" →
      readingOf a = some ⟨k * r.s, 0, 0, false⟩ → numOf (convert (some 1) (some a) (some s!!"g") uc (session cs w)).1 = some k := by
    intro a k ba ca hne hi ra
    obtain ⟨y, w', hc⟩ := weight_found hw hg hcs ba bg ca cg (fun _ h => hne h.1) ((hn.reach_iff (builtIn_isName ba) (builtIn_isName bg)).2 hi) uc 1
    obtain ⟨_, e, h⟩ := weight_answer (hw.reachable hcs) sw (by rw [hbase.fvf]; exact hφ) ba bg ca cg hc
    cases e
    have t3' : readingOf s!!"g" = some ⟨r.s, 0, 0, false⟩ := by rw [hr]; exact t3
    simp only [shippedReading, ra, t3', Reading.at, Bool.false_eq_true, if_false, zpow_zero, mul_one, add_zero] at h
    rw [hc]
    simp only [numOf, Option.some.injEq]
    apply mul_right_cancel₀ rs
    linarith
  exact ⟨key (builtIn_mem t7 (by decide)) (Demo.cleanName_of (by decide)) (by decide) t5 t1,
    key (builtIn_mem t9 (by decide)) (Demo.cleanName_of (by decide)) (by decide) t6 t2⟩

end Unyts
