import Verif.Lemmas.ShippedVolume

/- Weights of the shipped network: a path between weights passes weights only. -/
namespace Unyts
open Spec
set_option maxRecDepth 1000000

/-! ### a gate -/

/-- a chain that misses the gate and ends inside is inside -/
theorem chain_before {α : Type} {E : α → α → Prop} {T : α → Prop} {c : α} (inn : ∀ a b, E a b → T b → T a ∨ b = c) {a b : α}
    {p : List α} (hp : Chain E a b p) (hb : T b) (hc : c ∉ p) : ∀ x ∈ p, T x := by
  induction hp with
  | single x => intro y hy; rw [List.mem_singleton.1 hy]; exact hb
  | @step a b' d p e ch ih =>
    have h1 := ih hb (fun h => hc (List.mem_cons_of_mem _ h))
    have hm : b' ∈ p := by cases ch <;> simp
    intro x hx
    rcases List.mem_cons.1 hx with rfl | hx
    · rcases inn _ _ e (h1 _ hm) with h | rfl
      · exact h
      · exact absurd (List.mem_cons_of_mem _ hm) hc
    · exact h1 x hx

/-- a path does not pass a gate twice, so it stays inside -/
theorem path_inside {α : Type} {E : α → α → Prop} {T : α → Prop} {c : α} (out : ∀ a b, E a b → T a → T b ∨ a = c)
    (inn : ∀ a b, E a b → T b → T a ∨ b = c) {a b : α} {p : List α} (hp : IsPath E a b p) (ha : T a) (hb : T b) :
    ∀ x ∈ p, T x := by
  obtain ⟨hc, hn⟩ := hp
  induction hc with
  | single x => intro y hy; rw [List.mem_singleton.1 hy]; exact hb
  | @step a b' d p e ch ih =>
    rw [List.nodup_cons] at hn
    have hm : b' ∈ p := by cases ch <;> simp
    have hb' : T b' := by
      rcases out _ _ e ha with h | rfl
      · exact h
      · exact chain_before inn ch hb hn.1 _ hm
    intro x hx
    rcases List.mem_cons.1 hx with rfl | hx
    · exact ha
    · exact ih hb' hb hn.2 x hx

/-! ### the weights and the ounces of fluid -/

/-- the ounces that are both volumes and weights -/
def sharedOunces : List Str := [s!!"oz", s!!"ounce", s!!"ounces", s!!"OUNCE", s!!"OUNCES"]

/-- other names that convert into them -/
def fluidOunces : List Str := [s!!"fluid ounce", s!!"ozs", s!!"OZS", s!!"OZ"]

def allOunces : List Str := sharedOunces ++ fluidOunces

/-- a weight or one of these -/
def Weighty (s : Str) : Prop := BuiltIn s!!"Weight" s ∨ s ∈ fluidOunces

/-- the computed form -/
def weightyNames : List Str := fluidOunces ++ basicNames s!!"Weight"

theorem weighty_iff {s : Str} : Weighty s ↔ s ∈ weightyNames := by
  unfold Weighty weightyNames
  rw [List.mem_append, mem_basicNames, or_comm]
  refine or_congr_right ⟨?_, ?_⟩
  · rintro ⟨k, hk, hq⟩
    refine ⟨k, hk, ?_⟩
    unfold quantityOf at hq
    split at hq
    · cases hq
    · exact hq
  · rintro ⟨k, hk, hq⟩
    refine ⟨k, hk, ?_⟩
    unfold quantityOf
    rw [hq]
    decide

theorem shared_weight : (sharedOunces.all fun s => (basicNames s!!"Weight").contains s) = true := by decide +kernel

theorem ounces_weighty {s : Str} (h : s ∈ allOunces) : Weighty s := by
  rcases List.mem_append.1 h with h | h
  · exact weighty_iff.2 (List.mem_append.2 (Or.inr (List.contains_iff_mem.1 (List.all_eq_true.1 shared_weight s h))))
  · exact Or.inr h

/-- both ends inside, or one is the gate -/
def gated (l : List Str) (a b : Str) : Bool :=
  (!(l.contains a) || l.contains b || a == s!!"fluid ounce") && (!(l.contains b) || l.contains a || b == s!!"fluid ounce")

theorem gated_kinds : (rawDictionary.all fun e => quantityOf e.1 == s!!"Weight" ||
    (declsOf (kindInstrs shippedPrefixes e.1 e.2)).all fun d => gated allOunces d.1 d.2.1) = true := by decide +kernel

theorem gated_explicit : (fun l => explicitConversions.all fun d => gated l d.1 d.2.1) weightyNames = true := by
  decide +kernel

theorem gated_iff {l : List Str} {a b : Str} (h : gated l a b = true) :
    (a ∈ l → b ∈ l ∨ a = s!!"fluid ounce") ∧ (b ∈ l → a ∈ l ∨ b = s!!"fluid ounce") := by
  unfold gated at h
  simp only [Bool.and_eq_true, Bool.or_eq_true, Bool.not_eq_true', List.contains_iff_mem, beq_iff_eq, ← Bool.not_eq_true] at h
  obtain ⟨h1, h2⟩ := h
  refine ⟨fun e => ?_, fun e => ?_⟩
  · rcases h1 with (h | h) | h
    · exact absurd e h
    · exact Or.inl h
    · exact Or.inr h
  · rcases h2 with (h | h) | h
    · exact absurd e h
    · exact Or.inl h
    · exact Or.inr h

/-- a unit of another quantity that is among the weights is an ounce -/
theorem weighty_other {q s : Str} (h : BuiltIn q s) (hq : q ≠ s!!"Weight") (hs : Weighty s) : s ∈ allOunces := by
  rcases hs with hs | hs
  · refine List.mem_append.2 (Or.inl ?_)
    rcases builtIn_unique h hs with e | e | e
    · exact absurd e hq
    · generalize hw : s!!"Weight" = w at e
      cases e with
      | ounce hm => exact hm
      | f => exact absurd hw (by decide)
      | gradient _ => exact absurd hw (by decide)
      | ohm _ => exact absurd hw (by decide)
    · generalize hw : s!!"Weight" = w at e
      cases e with
      | ounce hm => exact absurd hw (by decide)
      | f => exact absurd hw (by decide)
      | gradient _ => exact absurd hw (by decide)
      | ohm _ => exact absurd hw (by decide)
  · exact List.mem_append.2 (Or.inr hs)

theorem weight_decl {a b : Str} {c : Cv} (h : (a, b, c) ∈ shipped) :
    (Weighty a → Weighty b ∨ a = s!!"fluid ounce") ∧ (Weighty b → Weighty a ∨ b = s!!"fluid ounce") := by
  rcases List.mem_append.1 h with h | h
  · obtain ⟨⟨k, v⟩, he, h⟩ := List.mem_flatMap.1 h
    have hr : Runs (fun _ => True) [] (kindInstrs shippedPrefixes k v) :=
      kindInstrs_runs (fun _ => trivial) (shipped_loadable.table k v he) []
    have hm := hr.ends (mem_declsOf.1 h)
    simp only [List.not_mem_nil, false_or] at hm
    have unit : ∀ {s}, s ∈ nodesOf (kindInstrs shippedPrefixes k v) → BuiltIn (quantityOf k) s := by
      intro s hs
      refine ⟨k, ⟨v, he, ?_⟩, rfl⟩
      unfold nodesOf at hs
      obtain ⟨i, hi, hs⟩ := List.mem_filterMap.1 hs
      split at hs
      · cases hs; exact hi
      · cases hs
    have ba := unit hm.1
    have bb := unit hm.2
    by_cases hq : quantityOf k = s!!"Weight"
    · rw [hq] at ba bb
      exact ⟨fun _ => Or.inl (Or.inl bb), fun _ => Or.inl (Or.inl ba)⟩
    · have := List.all_eq_true.1 gated_kinds _ he
      simp only [Bool.or_eq_true, beq_iff_eq] at this
      rcases this with h1 | h1
      · exact absurd h1 hq
      · obtain ⟨h2, h3⟩ := gated_iff (List.all_eq_true.1 h1 _ h)
        refine ⟨fun wa => ?_, fun wb => ?_⟩
        · exact (h2 (weighty_other ba hq wa)).imp ounces_weighty id
        · exact (h3 (weighty_other bb hq wb)).imp ounces_weighty id
  · obtain ⟨e, he, h⟩ := List.mem_map.1 h
    cases h
    have := gated_iff (List.all_eq_true.1 gated_explicit e he)
    simpa only [weighty_iff] using this

theorem Spec.ShippedNetwork.weight_link {n : Net} (h : ShippedNetwork n) {a b : Str} (hl : LinkedName n a b) :
    (Weighty a → Weighty b ∨ a = s!!"fluid ounce") ∧ (Weighty b → Weighty a ∨ b = s!!"fluid ounce") := by
  rcases h.linked.1 hl with ⟨c, hc⟩ | ⟨_, _, c, hc⟩
  · exact weight_decl hc
  · exact (weight_decl hc).symm

/-- a path between weights passes weights and ounces only -/
theorem Spec.ShippedNetwork.weight_path {n : Net} (h : ShippedNetwork n) {a b : UNode} {p : List UNode}
    (hp : IsPath (Linked n) a b p) (ha : Weighty a.name) (hb : Weighty b.name) : ∀ x ∈ p, Weighty x.name := by
  by_cases hf : ∃ c ∈ n.nodes, c.name = s!!"fluid ounce"
  · obtain ⟨c, mc, hc⟩ := hf
    refine path_inside (T := fun u => Weighty u.name) (c := c) ?_ ?_ hp ha hb
    · intro x y e hx
      refine ((h.weight_link (linkedName_of e)).1 hx).imp id fun e' => ?_
      exact h.distinct _ (Net.linked_src e) _ mc (e'.trans hc.symm)
    · intro x y e hy
      refine ((h.weight_link (linkedName_of e)).2 hy).imp id fun e' => ?_
      exact h.distinct _ (Net.linked_dst h.wf e) _ mc (e'.trans hc.symm)
  · have key : ∀ {x y : UNode} {q}, Chain (Linked n) x y q → Weighty x.name → ∀ z ∈ q, Weighty z.name := by
      intro x y q hq hx
      induction hq with
      | single x => intro z hz; rw [List.mem_singleton.1 hz]; exact hx
      | @step a b' d p e ch ih =>
        intro z hz
        rcases List.mem_cons.1 hz with rfl | hz
        · exact hx
        · refine ih ?_ z hz
          rcases (h.weight_link (linkedName_of e)).1 hx with h1 | h1
          · exact h1
          · exact absurd ⟨a, Net.linked_src e, h1⟩ hf
    exact key hp.1 ha

/-! ### what the conversions of weights do -/

theorem weight_faults : (fun l => shippedFaults.all fun d => !(l.contains d.1 && l.contains d.2)) weightyNames = true := by
  decide +kernel

theorem weighty_fault {a b : Str} (ha : Weighty a) (hb : Weighty b) : (a, b) ∉ shippedFaults := by
  intro hm
  have := List.all_eq_true.1 weight_faults _ hm
  rw [weighty_iff] at ha hb
  simp [ha, hb] at this

theorem weight_avoids {p : List Str} (hp : ∀ x ∈ p, Weighty x) : Avoids shippedFaults p := by
  induction p with
  | nil => trivial
  | cons a p ih =>
    cases p with
    | nil => trivial
    | cons b p =>
      exact ⟨weighty_fault (hp a (by simp)) (hp b (by simp)), ih fun x hx => hp x (List.mem_cons_of_mem _ hx)⟩

theorem weight_plain : (fun l => explicitConversions.all fun e => !(l.contains e.1) || ((Cv.fn e.2.2).linear && (Cv.fn e.2.2).plain))
    weightyNames = true := by decide +kernel

theorem weight_decl_plain {a b : Str} {c : Cv} (h : (a, b, c) ∈ shipped) (ha : Weighty a) : c.linear = true ∧ c.plain = true := by
  rcases List.mem_append.1 h with h | h
  · obtain ⟨e, he, h⟩ := List.mem_flatMap.1 h
    have h1 := List.all_eq_true.1 (List.all_eq_true.1 dict_checked e he) _ h
    have h2 := List.all_eq_true.1 (List.all_eq_true.1 dict_plain e he) _ h
    rw [Bool.and_eq_true] at h1
    exact ⟨h1.1, h2⟩
  · obtain ⟨e, he, h⟩ := List.mem_map.1 h
    cases h
    have := List.all_eq_true.1 weight_plain e he
    rw [weighty_iff] at ha
    simpa [ha] using this

theorem weight_shown {a b : Str} {c : Cv} (h : shippedCv a b = some c) (ha : Weighty a) (hb : Weighty b) :
    c.linear = true ∧ c.plain = true := by
  unfold shippedCv withReverse at h
  cases hf : first shipped a b with
  | some c' =>
    rw [hf, Option.some_or] at h
    cases h
    exact weight_decl_plain (first_some hf) ha
  | none =>
    rw [hf, Option.none_or] at h
    split at h
    · cases hr : first shipped b a with
      | none => rw [hr] at h; cases h
      | some c' =>
        rw [hr] at h
        cases h
        have := weight_decl_plain (first_some hr) hb
        simpa [Cv.linear, Cv.plain] using this
    · cases h

/-- the conversions along a path of weights answer every number -/
theorem Spec.ShippedNetwork.weight_total {n : Net} (h : ShippedNetwork n) {p : List UNode} {f : Fn} (ha : Along n p f)
    (hp : ∀ x ∈ p, Weighty x.name) (fvf : Option Rat) (x : Rat) : ∃ y, f fvf x = .ok y := by
  induction ha generalizing x with
  | single => exact ⟨x, rfl⟩
  | @step a b p f k hd ha ih =>
    obtain ⟨c, hc, rfl⟩ := h.shows.1 ⟨a, b, rfl, rfl, hd⟩
    obtain ⟨hl, hpl⟩ := weight_shown hc (hp a (by simp)) (hp b (by simp))
    obtain ⟨M, _, hM⟩ := Cv.linear_plain hl hpl
    obtain ⟨y, hy⟩ := ih (fun x hx => hp x (List.mem_cons_of_mem _ hx)) (M * x)
    refine ⟨y, ?_⟩
    simp only [hM]
    exact hy

end Unyts
