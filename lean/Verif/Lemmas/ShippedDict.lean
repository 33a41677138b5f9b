import Verif.Spec.Library
import Verif.Lemmas.Dictionary
import Verif.Lemmas.ShippedKinds

/- The basic names of the shipped dictionary. -/
namespace Unyts
open Spec
set_option maxRecDepth 1000000

/-! ## Names that are appended have nodes, and conversely -/

theorem node_of_append {P : Prefixes} {k : Str} {v : RawVal} {s : Str}
    (h : Instr.append (kindBase k) s ∈ kindInstrs P k v) : Instr.node s ∈ kindInstrs P k v := by
  revert s
  apply kindInstrs_ind (fun is => ∀ {s : Str}, Instr.append (kindBase k) s ∈ is → Instr.node s ∈ is)
  · simp
  · intro a b ha hb s h
    rcases List.mem_append.1 h with h | h
    · exact List.mem_append.2 (.inl (ha h))
    · exact List.mem_append.2 (.inr (hb h))
  · intro _ s h
    simp at h
  · intro _ s h
    cases v with
    | table t =>
      obtain ⟨e, he, h⟩ := List.mem_flatMap.1 h
      refine List.mem_flatMap.2 ⟨e, he, ?_⟩
      simp only [List.mem_append, List.mem_flatMap, List.mem_cons, List.not_mem_nil, or_false, reduceCtorEq, false_or,
        Instr.append.injEq, Instr.node.injEq, true_and] at h ⊢
      rcases h with h | ⟨x, hx, h⟩
      · exact .inl h
      · exact .inr ⟨x, hx, h⟩
    | names l =>
      obtain ⟨e, he, h⟩ := List.mem_flatMap.1 h
      refine List.mem_flatMap.2 ⟨e, he, ?_⟩
      simpa using h
  · intro _ s h
    obtain ⟨r, hr, h⟩ := List.mem_flatMap.1 h
    obtain ⟨e, he, h⟩ := List.mem_flatMap.1 h
    refine List.mem_flatMap.2 ⟨r, hr, List.mem_flatMap.2 ⟨e, he, ?_⟩⟩
    rcases List.mem_append.1 h with h | h
    · refine List.mem_append.2 (.inl ?_)
      split at h
      · next hs => rw [if_pos hs]; simpa using h
      · simp at h
    · refine List.mem_append.2 (.inr ?_)
      obtain ⟨x, hx, h⟩ := List.mem_flatMap.1 h
      exact List.mem_flatMap.2 ⟨x, hx, by simpa using h⟩
  all_goals
    intro _ _ s h
    obtain ⟨e, he, h⟩ := List.mem_flatMap.1 h
    refine List.mem_flatMap.2 ⟨e, he, ?_⟩
    first
    | simp only [List.mem_append, List.mem_flatMap, List.mem_cons, List.not_mem_nil, or_false, reduceCtorEq, false_or,
        Instr.append.injEq, Instr.node.injEq, true_and] at h ⊢
      rcases h with h | ⟨x, hx, h⟩
      · exact .inl h
      · exact .inr ⟨x, hx, h⟩
    | simp only [List.mem_cons, List.not_mem_nil, or_false, reduceCtorEq, false_or, Instr.append.injEq, Instr.node.injEq,
        true_and] at h ⊢
      exact .inr h
    | obtain ⟨x, hx, h⟩ := List.mem_flatMap.1 h
      refine List.mem_flatMap.2 ⟨x, hx, ?_⟩
      simp only [List.mem_cons, List.not_mem_nil, or_false, reduceCtorEq, false_or, Instr.append.injEq, Instr.node.injEq,
        true_and] at h ⊢
      exact .inr h

/-- all the names written in a value of the raw dictionary -/
def RawVal.all (v : RawVal) : List Str := v.entries.flatMap fun e => e.1 :: e.2

theorem append_of_node {P : Prefixes} {k : Str} {v : RawVal} {s : Str} (h : Instr.node s ∈ kindInstrs P k v)
    (hk : '_' ∈ k) : Instr.append (kindBase k) s ∈ kindInstrs P k v ∨ s ∈ v.all := by
  revert s
  apply kindInstrs_ind (fun is => ∀ {s : Str}, Instr.node s ∈ is → Instr.append (kindBase k) s ∈ is ∨ s ∈ v.all)
  · simp
  · intro a b ha hb s h
    rcases List.mem_append.1 h with h | h
    · exact (ha h).imp_left fun h => List.mem_append.2 (.inl h)
    · exact (hb h).imp_left fun h => List.mem_append.2 (.inr h)
  · intro hk'
    exact absurd hk hk'
  · intro _ s h
    cases v with
    | table t =>
      obtain ⟨e, he, h⟩ := List.mem_flatMap.1 h
      refine .inr (List.mem_flatMap.2 ⟨e, he, ?_⟩)
      simp only [List.mem_append, List.mem_flatMap, List.mem_cons, List.not_mem_nil, or_false, reduceCtorEq, false_or,
        Instr.node.injEq] at h ⊢
      rcases h with h | ⟨x, hx, rfl⟩
      · exact .inl h
      · exact .inr hx
    | names l =>
      obtain ⟨e, he, h⟩ := List.mem_flatMap.1 h
      refine .inl (List.mem_flatMap.2 ⟨e, he, ?_⟩)
      simpa using h
  · intro _ s h
    obtain ⟨r, hr, h⟩ := List.mem_flatMap.1 h
    obtain ⟨e, he, h⟩ := List.mem_flatMap.1 h
    refine .inl (List.mem_flatMap.2 ⟨r, hr, List.mem_flatMap.2 ⟨e, he, ?_⟩⟩)
    rcases List.mem_append.1 h with h | h
    · refine List.mem_append.2 (.inl ?_)
      split at h
      · next hs => rw [if_pos hs]; simpa using h
      · simp at h
    · refine List.mem_append.2 (.inr ?_)
      obtain ⟨x, hx, h⟩ := List.mem_flatMap.1 h
      exact List.mem_flatMap.2 ⟨x, hx, by simpa using h⟩
  all_goals
    intro _ _ s h
    first
    | obtain ⟨e, he, h⟩ := List.mem_flatMap.1 h
      refine .inl (List.mem_flatMap.2 ⟨e, he, ?_⟩)
      simp only [List.mem_append, List.mem_flatMap, List.mem_cons, List.not_mem_nil, or_false, reduceCtorEq, false_or,
        Instr.append.injEq, Instr.node.injEq, true_and] at h ⊢
      rcases h with h | ⟨x, hx, h⟩
      · exact .inl h
      · exact .inr ⟨x, hx, h⟩
    | obtain ⟨e, he, h⟩ := List.mem_flatMap.1 h
      simp only [List.mem_cons, List.not_mem_nil, or_false, reduceCtorEq, Instr.node.injEq] at h
      rcases h with rfl | rfl
      · refine .inr ?_
        obtain ⟨e', he', rfl⟩ := List.mem_map.1 he
        exact List.mem_flatMap.2 ⟨e', he', by simp⟩
      · exact .inl (List.mem_flatMap.2 ⟨e, he, by simp⟩)
    | obtain ⟨e, he, h⟩ := List.mem_flatMap.1 h
      obtain ⟨x, hx, h⟩ := List.mem_flatMap.1 h
      simp only [List.mem_cons, List.not_mem_nil, or_false, reduceCtorEq, Instr.node.injEq] at h
      rcases h with rfl | rfl
      · exact .inr (List.mem_flatMap.2 ⟨e, he, hx⟩)
      · exact .inl (List.mem_flatMap.2 ⟨e, he, List.mem_flatMap.2 ⟨x, hx, by simp⟩⟩)

/-- a kind with `_NAMES` appends all its names -/
theorem names_append {P : Prefixes} {k : Str} {v : RawVal} {s : Str} (hn : Py.subStr s!!"_NAMES" k = true)
    (h : s ∈ v.all) : Instr.append (kindBase k) s ∈ kindInstrs P k v := by
  unfold kindInstrs
  simp only [hn, if_true]
  simp only [List.append_assoc]
  refine List.mem_append.2 (.inr (List.mem_append.2 (.inl ?_)))
  obtain ⟨e, he, hs⟩ := List.mem_flatMap.1 h
  clear h
  cases v with
  | table t =>
    refine List.mem_flatMap.2 ⟨e, he, ?_⟩
    rcases List.mem_cons.1 hs with rfl | hs
    · simp
    · exact List.mem_append.2 (.inr (List.mem_flatMap.2 ⟨s, hs, by simp⟩))
  | names l =>
    obtain ⟨u, hu, rfl⟩ := List.mem_map.1 he
    simp at hs
    subst hs
    exact List.mem_flatMap.2 ⟨s, hu, by simp⟩

/-! ## The shipped data -/

/-- quick test: written under the kind itself or in a kind with `_NAMES` -/
def quickListed (b s : Str) : Bool :=
  rawDictionary.any fun e => kindBase e.1 == b &&
    ((!e.1.contains '_' || Py.subStr s!!"_NAMES" e.1) && e.2.all.contains s)

/-- the whole test -/
def slowListed (b s : Str) : Bool :=
  rawDictionary.any fun e => kindBase e.1 == b && (kindInstrs shippedPrefixes e.1 e.2).any fun i =>
    match i with | .append b' s' => b' == b && s' == s | _ => false

def otherNames : List (Str × Str) :=
  rawDictionary.flatMap fun e =>
    if e.1.contains '_' && !Py.subStr s!!"_NAMES" e.1 then e.2.all.map fun s => (kindBase e.1, s) else []

theorem others_listed : (otherNames.all fun e => quickListed e.1 e.2 || unlistedUnits.contains e.2 || slowListed e.1 e.2) =
    true := by decide +kernel

theorem unlisted_check : (rawDictionary.all fun e => (e.1.contains '_' || !unlistedUnits.any e.2.all.contains) &&
    (kindInstrs shippedPrefixes e.1 e.2).all fun i =>
    match i with | .append _ s => !unlistedUnits.contains s | _ => true) = true := by decide +kernel

theorem plain_names : (rawDictionary.all fun e => e.1.contains '_' ||
    match e.2 with | .names _ => true | .table _ => false) = true := by decide +kernel

theorem raw_nodup : (rawDictionary.map Prod.fst).Nodup := shipped_loadable.nodup

theorem splitOn_plain {k : Str} (h : '_' ∉ k) : kindBase k = k := by
  unfold kindBase
  rw [splitOn_clean h]
  rfl

theorem quickListed_append {b s : Str} (h : quickListed b s = true) :
    ∃ k v, (k, v) ∈ rawDictionary ∧ kindBase k = b ∧ (('_' ∉ k ∧ s ∈ v.all) ∨
      Instr.append b s ∈ kindInstrs shippedPrefixes k v) := by
  obtain ⟨⟨k, v⟩, he, h⟩ := List.any_eq_true.1 h
  simp only [Bool.and_eq_true, beq_iff_eq, Bool.or_eq_true, Bool.not_eq_true', List.contains_iff_mem] at h
  obtain ⟨rfl, h1, h2⟩ := h
  refine ⟨k, v, he, rfl, ?_⟩
  by_cases hk : '_' ∈ k
  · refine .inr (names_append (h1.resolve_left ?_) h2)
    simpa using hk
  · exact .inl ⟨hk, h2⟩

theorem slowListed_append {b s : Str} (h : slowListed b s = true) :
    ∃ k v, (k, v) ∈ rawDictionary ∧ kindBase k = b ∧ Instr.append b s ∈ kindInstrs shippedPrefixes k v := by
  obtain ⟨⟨k, v⟩, he, h⟩ := List.any_eq_true.1 h
  simp only [Bool.and_eq_true, beq_iff_eq] at h
  obtain ⟨hb, h⟩ := h
  obtain ⟨i, hi, h⟩ := List.any_eq_true.1 h
  split at h
  · simp only [Bool.and_eq_true, beq_iff_eq] at h
    obtain ⟨rfl, rfl⟩ := h
    exact ⟨k, v, he, hb, hi⟩
  · cases h

/-- a unit with a node is written under the base of its kind, or appended to it by a kind of the same base, unless it
is one of the three -/
theorem unit_appended {k u : Str} (h : UnitOfKind k u) (hu : u ∉ unlistedUnits) :
    ∃ k' v, (k', v) ∈ rawDictionary ∧ kindBase k' = kindBase k ∧ (('_' ∉ k' ∧ u ∈ v.all) ∨
      Instr.append (kindBase k) u ∈ kindInstrs shippedPrefixes k' v) := by
  obtain ⟨v, hv, h⟩ := h
  by_cases hk : '_' ∈ k
  · rcases append_of_node h hk with h | h
    · exact ⟨k, v, hv, rfl, .inr h⟩
    · by_cases hn : Py.subStr s!!"_NAMES" k = true
      · exact ⟨k, v, hv, rfl, .inr (names_append hn h)⟩
      · have hm : (kindBase k, u) ∈ otherNames := by
          refine List.mem_flatMap.2 ⟨_, hv, ?_⟩
          rw [if_pos (by simp [hk, hn])]
          exact List.mem_map.2 ⟨u, h, rfl⟩
        have := List.all_eq_true.1 others_listed _ hm
        simp only [Bool.or_eq_true, List.contains_iff_mem] at this
        rcases this with (h | h) | h
        · exact quickListed_append h
        · exact absurd h hu
        · obtain ⟨k', v', h1, h2, h3⟩ := slowListed_append h
          exact ⟨k', v', h1, h2, .inr h3⟩
  · rw [kindInstrs_plain hk] at h
    obtain ⟨s, hs, e⟩ := List.mem_map.1 h
    cases e
    refine ⟨k, v, hv, rfl, .inl ⟨hk, ?_⟩⟩
    obtain ⟨e, he, rfl⟩ := List.mem_map.1 hs
    exact List.mem_flatMap.2 ⟨e, he, by simp⟩

theorem plain_value {k : Str} {v : RawVal} (h : (k, v) ∈ rawDictionary) (hk : '_' ∉ k) : ∃ l, v = .names l := by
  have := List.all_eq_true.1 plain_names _ h
  simp only [Bool.or_eq_true, List.contains_iff_mem, hk, false_or] at this
  cases v with
  | names l => exact ⟨l, rfl⟩
  | table t => cases this

theorem names_all (l : List Str) : (RawVal.names l).all = l := by
  simp only [RawVal.all, RawVal.entries, List.flatMap_map]
  induction l with
  | nil => rfl
  | cons a l ih => simp [List.flatMap_cons, ih]

/-- the names listed under a base before the dictionary is closed -/
def rawListed (b u : Str) : Prop :=
  ∃ l, (b, RawVal.names l) ∈ rawDictionary ∧ u ∈ l ++ allAppends shippedPrefixes rawDictionary b

theorem rawListed_iff {b u : Str} (hb : '_' ∉ b) :
    rawListed b u ↔ (∃ k, UnitOfKind k u ∧ kindBase k = b) ∧ u ∉ unlistedUnits := by
  constructor
  · rintro ⟨l, hl, h⟩
    rcases List.mem_append.1 h with h | h
    · refine ⟨⟨b, ⟨_, hl, ?_⟩, splitOn_plain hb⟩, fun hu => ?_⟩
      · rw [kindInstrs_plain hb, keys_names]
        exact List.mem_map.2 ⟨u, h, rfl⟩
      · have := (Bool.and_eq_true _ _ ▸ List.all_eq_true.1 unlisted_check _ hl).1
        simp only [Bool.or_eq_true, List.contains_iff_mem, hb, false_or, Bool.not_eq_true', List.any_eq_false,
          names_all] at this
        exact this u hu h
    · obtain ⟨⟨k, v⟩, hk, h⟩ := List.mem_flatMap.1 h
      have h := mem_appendsOf.1 h
      have hbk : b = kindBase k := basesOf_kind _ k v b (List.mem_filterMap.2 ⟨_, h, rfl⟩)
      subst hbk
      refine ⟨⟨k, ⟨v, hk, node_of_append h⟩, rfl⟩, fun hu => ?_⟩
      have := (Bool.and_eq_true _ _ ▸ List.all_eq_true.1 unlisted_check _ hk).2
      have := List.all_eq_true.1 this _ h
      simp only [Bool.not_eq_true', ← Bool.not_eq_true, List.contains_iff_mem] at this
      exact this hu
  · rintro ⟨⟨k, hk, rfl⟩, hu⟩
    obtain ⟨k', v, h1, h2, h3⟩ := unit_appended hk hu
    have : ∃ l, (kindBase k, RawVal.names l) ∈ rawDictionary := by
      by_cases hu : '_' ∈ k'
      · rw [← h2]; exact shipped_loadable.base k' v h1 hu
      · obtain ⟨l, rfl⟩ := plain_value h1 hu
        rw [splitOn_plain hu] at h2
        exact ⟨l, h2 ▸ h1⟩
    obtain ⟨l, hl⟩ := this
    refine ⟨l, hl, ?_⟩
    rcases h3 with ⟨h3, h4⟩ | h3
    · rw [splitOn_plain h3] at h2
      subst h2
      have e := (dictGet_of_mem raw_nodup h1).symm.trans (dictGet_of_mem raw_nodup hl)
      cases e
      rw [names_all] at h4
      exact List.mem_append.2 (.inl h4)
    · exact List.mem_append.2 (.inr (List.mem_flatMap.2 ⟨_, h1, mem_appendsOf.2 h3⟩))

end Unyts
