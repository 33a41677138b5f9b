import Verif.Lemmas.ShippedChains

/- Chains stay within a quantity. -/
namespace Unyts
open Spec
set_option maxRecDepth 1000000

def Table.label : Table → Nat → Option Nat
  | .leaf, _ => none
  | .node l k _ _ _ _ _ _ q r, n =>
    bif Nat.beq n k then some q else bif Nat.blt n k then l.label n else r.label n

/-- the number of the quantity of a name -/
def labelOf (s : Str) : Option Nat := shippedTable.label (code s 1)

/-- the number of the quantity of a kind -/
def kindLabel (k : Str) : Option Nat := Py.dictGet kindLabels (kindBase k)

def instrLabel (q : Option Nat) : Instr → Bool
  | .node s => labelOf s == q
  | .edge a b _ => labelOf a == q && labelOf b == q
  | _ => true

theorem labels_kinds : (rawDictionary.all fun e => (kindLabel e.1).isSome &&
    (kindInstrs shippedPrefixes e.1 e.2).all (instrLabel (kindLabel e.1))) = true := by decide +kernel

theorem labels_expl : (explicitConversions.all fun e => labelOf e.1 == labelOf e.2.1) = true := by decide +kernel

theorem labels_merged : ∀ x ∈ kindLabels, ∀ y ∈ kindLabels, x.2 = y.2 →
    x.1 = y.1 ∨ (x.1, y.1) ∈ mergedKinds ∨ (y.1, x.1) ∈ mergedKinds := by decide +kernel

theorem mem_declsOf {is : List Instr} {a b : Str} {c : Cv} : (a, b, c) ∈ declsOf is ↔ Instr.edge a b c ∈ is := by
  unfold declsOf
  rw [List.mem_filterMap]
  constructor
  · rintro ⟨i, hi, h⟩
    split at h
    · cases h; exact hi
    · cases h
  · intro h
    exact ⟨_, h, rfl⟩

def addsUnit (k a : Str) : Bool :=
  match Py.dictGet rawDictionary k with
  | some v => (nodesOf (kindInstrs shippedPrefixes k v)).contains a
  | none => false

theorem unitOfKind {k a : Str} (h : addsUnit k a = true) : UnitOfKind k a := by
  unfold addsUnit at h
  split at h
  · next v hv =>
    refine ⟨v, dictGet_mem hv, ?_⟩
    have h := List.contains_iff_mem.1 h
    unfold nodesOf at h
    obtain ⟨i, hi, he⟩ := List.mem_filterMap.1 h
    split at he
    · cases he; exact hi
    · cases he
  · cases h

theorem decl_label {a b : Str} {c : Cv} (h : (a, b, c) ∈ shipped) : labelOf a = labelOf b := by
  rcases List.mem_append.1 h with h | h
  · obtain ⟨e, he, h⟩ := List.mem_flatMap.1 h
    have := List.all_eq_true.1 labels_kinds e he
    rw [Bool.and_eq_true] at this
    have := List.all_eq_true.1 this.2 _ (mem_declsOf.1 h)
    simp only [instrLabel, Bool.and_eq_true, beq_iff_eq] at this
    rw [this.1, this.2]
  · obtain ⟨e, he, h⟩ := List.mem_map.1 h
    cases h
    have := List.all_eq_true.1 labels_expl e he
    simpa using this

theorem Spec.ShippedNetwork.label {n : Net} (h : ShippedNetwork n) {a b : Str} (hl : LinkedName n a b) :
    labelOf a = labelOf b := by
  rcases h.linked.1 hl with ⟨c, hc⟩ | ⟨_, _, c, hc⟩
  · exact decl_label hc
  · exact (decl_label hc).symm

theorem Spec.ShippedNetwork.reach_label {n : Net} (h : ShippedNetwork n) {a b : Str} {p : List Str}
    (hc : Chain (LinkedName n) a b p) : labelOf a = labelOf b := by
  induction hc with
  | single => rfl
  | step he _ ih => rw [h.label he, ih]

theorem unit_label {k a : Str} (h : UnitOfKind k a) : ∃ q, labelOf a = some q ∧ (kindBase k, q) ∈ kindLabels := by
  obtain ⟨v, hv, hi⟩ := h
  have := List.all_eq_true.1 labels_kinds _ hv
  rw [Bool.and_eq_true] at this
  obtain ⟨h1, h2⟩ := this
  have h3 := List.all_eq_true.1 h2 _ hi
  simp only [instrLabel, beq_iff_eq] at h3
  obtain ⟨q, hq⟩ := Option.isSome_iff_exists.1 h1
  refine ⟨q, by rw [h3]; exact hq, ?_⟩
  exact dictGet_mem hq

/-- two units that can be converted are units of the same quantity -/
theorem Spec.ShippedNetwork.same_quantity {n : Net} (h : ShippedNetwork n) {k l a b : Str} (ha : UnitOfKind k a)
    (hb : UnitOfKind l b) (hr : Reach (LinkedName n) a b) : SameQuantity k l := by
  obtain ⟨p, hp⟩ := hr
  obtain ⟨q, h1, h2⟩ := unit_label ha
  obtain ⟨q', h3, h4⟩ := unit_label hb
  have e := h.reach_label hp
  rw [h1, h3] at e
  cases e
  exact labels_merged _ h2 _ h4 rfl

/-- no pressure is at the end of a fault of another quantity -/
theorem fault_label : ∀ p ∈ shippedFaults, p ∈ pressureFaults ∨ labelOf p.1 = some 3 := by decide +kernel

theorem pressure_label {k a : Str} (hk : kindBase k = s!!"Pressure") (h : UnitOfKind k a) : labelOf a = some 6 := by
  obtain ⟨q, h1, h2⟩ := unit_label h
  rw [hk] at h2
  have : ∀ x ∈ kindLabels, x.1 = s!!"Pressure" → x.2 = 6 := by decide +kernel
  rw [h1]
  exact congrArg some (this _ h2 rfl)

theorem Spec.ShippedNetwork.pressure_avoids {n : Net} (h : ShippedNetwork n) {p : List Str} {f : Fn}
    (ha : AlongNames n p f) {a : Str} (h1 : p.head? = some a) (hl : labelOf a = some 6)
    (hX : Avoids pressureFaults p) : Avoids shippedFaults p := by
  induction ha generalizing a with
  | single c => trivial
  | @step c e p f k hd ha ih =>
    simp only [List.head?_cons, Option.some.injEq] at h1
    subst h1
    refine ⟨fun hm => ?_, ih rfl ?_ hX.2⟩
    · rcases fault_label _ hm with hp | hp
      · exact hX.1 hp
      · simp only at hp
        rw [hl] at hp
        cases hp
    · rw [← h.label ⟨f, hd⟩, hl]

end Unyts
