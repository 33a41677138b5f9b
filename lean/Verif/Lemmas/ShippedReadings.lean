import Verif.Lemmas.ShippedCheck
import Verif.Spec.Shipped

/- What the checks mean for the loaded network. -/
namespace Unyts
open Spec

theorem Table.find_scale {t : Table} (h : t.scales = true) {n : Nat} {r : Reading} (hf : t.find n = some r) :
    r.s ≠ 0 := by
  induction t with
  | leaf => cases hf
  | node l k sn sd on od e api q r' ihl ihr =>
    simp only [Table.scales, Bool.and_eq_true, Nat.blt_eq] at h
    obtain ⟨⟨⟨h1, h2⟩, h3⟩, h4⟩ := h
    simp only [Table.find] at hf
    cases hb : Nat.beq n k with
    | true =>
      rw [hb, cond_true] at hf
      cases hf
      simp only
      intro h0
      rw [Rat.mkRat_eq_div] at h0
      have hsn : (sn : Rat) ≠ 0 := Nat.cast_ne_zero.2 (by omega)
      have hsd : (sd : Rat) ≠ 0 := Nat.cast_ne_zero.2 (by omega)
      exact (div_ne_zero hsn hsd) (by simpa using h0)
    | false =>
      rw [hb, cond_false] at hf
      cases hb2 : Nat.blt n k with
      | true => rw [hb2, cond_true] at hf; exact ihl h1 hf
      | false => rw [hb2, cond_false] at hf; exact ihr h4 hf

theorem readingOf_scale {s : Str} {r : Reading} (h : readingOf s = some r) : r.s ≠ 0 :=
  Table.find_scale table_scales h

/-- the conversion `c` respects the readings of `a` and `b` -/
def Respects (a b : Str) (c : Cv) : Prop :=
  ∃ p q, readingOf a = some p ∧ readingOf b = some q ∧
    ∀ φ : Rat, φ ≠ 0 → ∀ x y, c.eval (some φ) x = .ok y → q.at φ y = p.at φ x

theorem respects_of_check {d : Str × Str × Cv} (h : respectsTable d = true) : Respects d.1 d.2.1 d.2.2 := by
  unfold respectsTable at h
  split at h
  · next p q hp hq => exact ⟨p, q, hp, hq, fun φ hφ x y hxy => Cv.respects_reads h hφ hxy⟩
  · cases h

theorem Respects.rev {a b : Str} {c : Cv} (h : Respects a b c) (hl : c.linear = true) : Respects b a (.rev c) := by
  obtain ⟨p, q, hp, hq, hc⟩ := h
  exact ⟨q, p, hq, hp, fun φ hφ x y hxy => Cv.rev_reads hl hφ (hc φ hφ) hxy⟩

/-- every declared conversion respects the readings, or is one of the eight -/
theorem decl_respects {a b : Str} {c : Cv} (h : (a, b, c) ∈ allDecls shippedPrefixes explicitConversions rawDictionary) :
    (Respects a b c ∨ (a, b, c) ∈ faultDecls) ∧
    (c.linear = true ∨ ∃ c', (b, a, c') ∈ allDecls shippedPrefixes explicitConversions rawDictionary) := by
  have hd : checkDecl (a, b, c) = true ∧
      (c.linear = true ∨ ∃ c', (b, a, c') ∈ allDecls shippedPrefixes explicitConversions rawDictionary) := by
    unfold allDecls at h
    rcases List.mem_append.1 h with h | h
    · unfold dictDecls at h
      obtain ⟨e, he, h⟩ := List.mem_flatMap.1 h
      have h1 := List.all_eq_true.1 (List.all_eq_true.1 dict_checked e he) _ h
      rw [Bool.and_eq_true] at h1
      exact ⟨h1.2, Or.inl h1.1⟩
    · have h1 := List.all_eq_true.1 expl_checked _ h
      rw [Bool.and_eq_true, Bool.or_eq_true, List.any_eq_true] at h1
      refine ⟨h1.1, h1.2.imp id ?_⟩
      rintro ⟨⟨x, y, c'⟩, hr, he⟩
      simp only [Bool.and_eq_true, beq_iff_eq] at he
      obtain ⟨rfl, rfl⟩ := he
      exact ⟨c', List.mem_append.2 (Or.inr hr)⟩
  refine ⟨?_, hd.2⟩
  have := hd.1
  unfold checkDecl at this
  rw [Bool.or_eq_true] at this
  rcases this with h | h
  · exact Or.inl (respects_of_check h)
  · exact Or.inr (List.contains_iff_mem.1 h)

/-- what the loaded network shows: respects the readings, or one of the eight, or the reverse of one of them -/
theorem shown_respects {a b : Str} {c : Cv}
    (h : withReverse (first (allDecls shippedPrefixes explicitConversions rawDictionary)) (reverseKeys rawDictionary) a b = some c) :
    Respects a b c ∨ (a, b, c) ∈ faultDecls ∨ ∃ c', c = .rev c' ∧ (b, a, c') ∈ faultDecls := by
  unfold withReverse at h
  cases hf : first (allDecls shippedPrefixes explicitConversions rawDictionary) a b with
  | some c' =>
    rw [hf, Option.some_or] at h
    cases h
    exact (decl_respects (first_some hf)).1.imp id Or.inl
  | none =>
    rw [hf, Option.none_or] at h
    split at h
    · cases hr : first (allDecls shippedPrefixes explicitConversions rawDictionary) b a with
      | none => rw [hr] at h; cases h
      | some c' =>
        rw [hr] at h
        cases h
        obtain ⟨h1, h2⟩ := decl_respects (first_some hr)
        have hl : c'.linear = true := by
          rcases h2 with h2 | h2
          · exact h2
          · have := first_isSome.2 h2
            rw [hf] at this
            cases this
        rcases h1 with h1 | h1
        · exact Or.inl (h1.rev hl)
        · exact Or.inr (Or.inr ⟨c', rfl, h1⟩)
    · cases h

theorem fault_pair {a b : Str} {c : Cv} (h : (a, b, c) ∈ faultDecls) : (a, b) ∈ shippedFaults ∧ (b, a) ∈ shippedFaults := by
  have : ∀ d ∈ faultDecls, (d.1, d.2.1) ∈ shippedFaults ∧ (d.2.1, d.1) ∈ shippedFaults := by decide +kernel
  exact this _ h

/-- how the numbers of a name read, for a formation volume factor -/
def shippedReading (φ : Rat) (s : Str) (x : Rat) : Rat :=
  match readingOf s with
  | some r => r.at φ x
  | none => x

theorem shippedReading_inj {φ : Rat} (hφ : φ ≠ 0) (s : Str) {x y : Rat}
    (h : shippedReading φ s x = shippedReading φ s y) : x = y := by
  unfold shippedReading at h
  split at h
  · next r hr => exact Reading.inj (readingOf_scale hr) hφ h
  · exact h

/-- the formation volume factor as a number: where it is not set, 1 will do -/
def fvfOr1 (b : Option Rat) : Rat := b.getD 1

theorem Respects.reading {a b : Str} {c : Cv} (h : Respects a b c) {fvf : Option Rat} (hφ : fvf ≠ some 0) {x y : Rat}
    (hxy : c.eval fvf x = .ok y) : shippedReading (fvfOr1 fvf) b y = shippedReading (fvfOr1 fvf) a x := by
  obtain ⟨p, q, hp, hq, hc⟩ := h
  unfold shippedReading
  rw [hp, hq]
  cases fvf with
  | none => exact hc 1 (by decide) x y (Cv.eval_none hxy _)
  | some φ => exact hc φ (fun h => hφ (by rw [h])) x y hxy

theorem fvfOr1_ne {fvf : Option Rat} (hφ : fvf ≠ some 0) : fvfOr1 fvf ≠ 0 := by
  cases fvf with
  | none => decide
  | some φ => exact fun h => hφ (by rw [show φ = 0 from h])

/-- the shipped data load, and what the network then shows -/
theorem shipped_loads : ∃ g d, loadShipped = .ok (g, d) := load_runs shipped_loadable

theorem shipped_shows {g : Net} {d : RawDict} (h : loadShipped = .ok (g, d)) :
    Tidy g ∧ Shows g (withReverse (first (allDecls shippedPrefixes explicitConversions rawDictionary)) (reverseKeys rawDictionary)) :=
  load_spec keys_nodup h

/-! ## Both directions -/

theorem declsOf_flatMap {α : Type _} {l : List α} {f : α → List Instr} {d : Str × Str × Cv} :
    d ∈ declsOf (l.flatMap f) ↔ ∃ x ∈ l, d ∈ declsOf (f x) := by
  unfold declsOf
  simp only [List.mem_filterMap, List.mem_flatMap]
  constructor
  · rintro ⟨i, ⟨x, hx, hi⟩, he⟩; exact ⟨x, hx, i, hi, he⟩
  · rintro ⟨x, hx, i, hi, he⟩; exact ⟨i, ⟨x, hx, hi⟩, he⟩

/-- a conversion declared by a kind is declared both ways, unless it replaces the blanks of a main name -/
theorem kind_both_ways (P : Prefixes) (k : Str) (v : RawVal) {a b : Str} {c : Cv}
    (h : (a, b, c) ∈ declsOf (kindInstrs P k v)) :
    (∃ c', (b, a, c') ∈ declsOf (kindInstrs P k v)) ∨
      (Py.subStr s!!"_SPACES" k = true ∧ a ∈ v.keys ∧ ' ' ∈ a) := by
  have key : ∀ a b c, (a, b, c) ∈ declsOf (kindInstrs P k v) →
      (∃ c', (b, a, c') ∈ declsOf (kindInstrs P k v)) ∨
        (Py.subStr s!!"_SPACES" k = true ∧ a ∈ v.keys ∧ ' ' ∈ a) := by
    let Q : List Instr → Prop := fun is => ∀ a b c, (a, b, c) ∈ declsOf is →
      (∃ c', (b, a, c') ∈ declsOf is) ∨ (Py.subStr s!!"_SPACES" k = true ∧ a ∈ v.keys ∧ ' ' ∈ a)
    have flat : ∀ {α : Type} (l : List α) (f : α → List Instr), (∀ x ∈ l, Q (f x)) → Q (l.flatMap f) := by
      intro α l f hf a b c h
      obtain ⟨x, hx, h⟩ := declsOf_flatMap.1 h
      refine (hf x hx a b c h).imp ?_ id
      rintro ⟨c', h'⟩
      exact ⟨c', declsOf_flatMap.2 ⟨x, hx, h'⟩⟩
    have app : ∀ a b, Q a → Q b → Q (a ++ b) := by
      intro i j hi hj a b c h
      rw [declsOf_append] at h
      simp only [declsOf_append]
      rcases List.mem_append.1 h with h | h
      · exact (hi a b c h).imp (fun ⟨c', h'⟩ => ⟨c', List.mem_append.2 (Or.inl h')⟩) id
      · exact (hj a b c h).imp (fun ⟨c', h'⟩ => ⟨c', List.mem_append.2 (Or.inr h')⟩) id
    have nil : Q [] := by intro a b c h; cases h
    have two : ∀ (is : List Instr) (x y : Str) (c₁ c₂ : Cv), declsOf is = [(x, y, c₁), (y, x, c₂)] → Q is := by
      intro is x y c₁ c₂ he a b c h
      rw [he] at h ⊢
      simp only [List.mem_cons, List.not_mem_nil, or_false, Prod.mk.injEq] at h
      rcases h with ⟨rfl, rfl, _⟩ | ⟨rfl, rfl, _⟩
      · exact Or.inl ⟨c₂, by simp⟩
      · exact Or.inl ⟨c₁, by simp⟩
    have none : ∀ is : List Instr, declsOf is = [] → Q is := by
      intro is he a b c h
      rw [he] at h
      cases h
    show Q (kindInstrs P k v)
    apply kindInstrs_ind Q nil app
    · intro _
      exact none _ (declsOf_nodes _)
    · intro _
      cases v with
      | table t =>
        refine flat _ _ fun e _ => app _ _ (none _ rfl) (flat _ _ fun s _ => ?_)
        exact two _ s e.1 .same .same rfl
      | names l => exact flat _ _ fun u _ => none _ rfl
    · intro hs
      refine flat _ _ fun r _ => flat _ _ fun e he => app _ _ ?_ (flat _ _ fun s _ => ?_)
      · split
        · next hb =>
          intro a b c h
          simp only [declsOf, List.filterMap_cons, List.filterMap_nil, List.mem_cons, List.not_mem_nil, or_false,
            Prod.mk.injEq, or_self] at h
          refine Or.inr ⟨hs, ?_, ?_⟩
          · rw [h.1]; exact List.mem_map.2 ⟨e, he, rfl⟩
          · rw [h.1]; exact hb
        · exact nil
      · exact two _ _ _ .same .same rfl
    · intro i _
      exact flat _ _ fun u _ => app _ _ (none _ rfl) (flat _ _ fun p _ => two _ _ _ _ _ rfl)
    · intro i _
      exact flat _ _ fun u _ => app _ _ (none _ rfl) (flat _ _ fun p _ => two _ _ _ _ _ rfl)
    · intro i _
      exact flat _ _ fun u _ => app _ _ (none _ rfl) (flat _ _ fun p _ => two _ _ _ _ _ rfl)
    · intro f _
      exact flat _ _ fun u _ => two _ _ _ _ _ rfl
    · intro f _
      exact flat _ _ fun e _ => flat _ _ fun s _ => two _ _ _ _ _ rfl
  exact key a b c h

theorem withReverse_some {ds : List (Str × Str × Cv)} {us : List Str} {a b : Str} :
    (withReverse (first ds) us a b).isSome ↔
      (∃ c, (a, b, c) ∈ ds) ∨ (a ≠ b ∧ b ∈ us ∧ ∃ c, (b, a, c) ∈ ds) := by
  rw [← first_isSome, ← first_isSome]
  unfold withReverse
  rw [Option.isSome_or, Bool.or_eq_true]
  apply or_congr Iff.rfl
  split
  · next h => simp [h.1, h.2]
  · next h =>
    constructor
    · intro h'; cases h'
    · rintro ⟨h1, h2, _⟩; exact absurd ⟨h1, h2⟩ h

end Unyts
