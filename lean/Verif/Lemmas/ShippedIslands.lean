import Verif.Lemmas.ShippedRanks
import Verif.Lemmas.ShippedBack
import Verif.Lemmas.Graph
import Verif.Spec.Islands
import Mathlib.Data.List.Induction

/- The islands of the shipped network. -/
namespace Unyts
open Spec
set_option maxRecDepth 1000000

def Ranks.find : Ranks → Nat → Option (Nat × Nat × Nat)
  | .leaf, _ => none
  | .node l k j i d r, n =>
    bif Nat.beq n k then some (j, i, d) else bif Nat.blt n k then l.find n else r.find n

/-- the position of a name in the table, its island and its distance from the hub -/
def rankOf (s : Str) : Option (Nat × Nat × Nat) := shippedRanks.find (code s 1)

def islandOf (s : Str) : Option Nat := (rankOf s).map fun e => e.2.1

/-! ### the table does not confuse names -/

/-- the positions in the tree increase from `lo` to `hi` -/
def Ranks.bounds : Ranks → Nat → Nat → Bool
  | .leaf, _, _ => true
  | .node l _ j _ _ r, lo, hi => Nat.ble lo j && Nat.blt j hi && l.bounds lo j && r.bounds (j + 1) hi

theorem ranks_bounds : shippedRanks.bounds 0 10000 = true := by decide +kernel

theorem Ranks.find_bounds {t : Ranks} {lo hi n : Nat} (h : t.bounds lo hi = true) {e : Nat × Nat × Nat}
    (hf : t.find n = some e) : lo ≤ e.1 ∧ e.1 < hi := by
  induction t generalizing lo hi with
  | leaf => cases hf
  | node l k j i d r ihl ihr =>
    simp only [Ranks.bounds, Bool.and_eq_true, Nat.ble_eq, Nat.blt_eq] at h
    obtain ⟨⟨⟨h1, h2⟩, h3⟩, h4⟩ := h
    unfold Ranks.find at hf
    cases hb : Nat.beq n k with
    | true => rw [hb] at hf; simp only [cond_true, Option.some.injEq] at hf; subst hf; exact ⟨h1, h2⟩
    | false =>
      rw [hb] at hf
      simp only [cond_false] at hf
      cases hl : Nat.blt n k with
      | true => rw [hl] at hf; have := ihl h3 hf; omega
      | false => rw [hl] at hf; have := ihr h4 hf; omega

theorem Ranks.find_inj {t : Ranks} {lo hi n m : Nat} (h : t.bounds lo hi = true) {e e' : Nat × Nat × Nat}
    (hn : t.find n = some e) (hm : t.find m = some e') (he : e.1 = e'.1) : n = m := by
  induction t generalizing lo hi with
  | leaf => cases hn
  | node l k j i d r ihl ihr =>
    simp only [Ranks.bounds, Bool.and_eq_true, Nat.ble_eq, Nat.blt_eq] at h
    obtain ⟨⟨⟨h1, h2⟩, h3⟩, h4⟩ := h
    unfold Ranks.find at hn hm
    have side : ∀ {x : Nat} {f : Nat × Nat × Nat}, (bif Nat.beq x k then some (j, i, d) else bif Nat.blt x k then l.find x else r.find x) = some f →
        (x = k ∧ f.1 = j) ∨ (l.find x = some f ∧ f.1 < j) ∨ (r.find x = some f ∧ j < f.1) := by
      intro x f hf
      cases hb : Nat.beq x k with
      | true =>
        rw [hb] at hf; simp only [cond_true, Option.some.injEq] at hf; subst hf
        exact Or.inl ⟨Nat.eq_of_beq_eq_true hb, rfl⟩
      | false =>
        rw [hb] at hf
        simp only [cond_false] at hf
        cases hl : Nat.blt x k with
        | true => rw [hl] at hf; exact Or.inr (Or.inl ⟨hf, (find_bounds h3 hf).2⟩)
        | false => rw [hl] at hf; exact Or.inr (Or.inr ⟨hf, (find_bounds h4 hf).1⟩)
    rcases side hn with ⟨p1, p2⟩ | ⟨p1, p2⟩ | ⟨p1, p2⟩ <;> rcases side hm with ⟨q1, q2⟩ | ⟨q1, q2⟩ | ⟨q1, q2⟩ <;>
      first
      | omega
      | exact ihl h3 p1 q1
      | exact ihr h4 p1 q1

theorem code_snoc (s : Str) (c : Char) (n : Nat) : code (s ++ [c]) n = code s n * 2097152 + c.toNat := by
  induction s generalizing n with
  | nil => rfl
  | cons x s ih => exact ih _

theorem char_small (c : Char) : c.toNat < 2097152 := by
  have : c.toNat < 1114112 := by
    rcases c.valid with h | ⟨_, h⟩
    · exact Nat.lt_trans h (by decide)
    · exact h
  omega

theorem code_pos (s : Str) : 1 ≤ code s 1 := by
  induction s using List.reverseRecOn with
  | nil => exact Nat.le_refl _
  | append_singleton s c ih => rw [code_snoc]; omega

theorem code_inj {s t : Str} (h : code s 1 = code t 1) : s = t := by
  induction s using List.reverseRecOn generalizing t with
  | nil =>
    induction t using List.reverseRecOn with
    | nil => rfl
    | append_singleton t c =>
      rw [code_snoc] at h
      have := code_pos t
      simp only [code] at h
      omega
  | append_singleton s c ih =>
    induction t using List.reverseRecOn with
    | nil =>
      rw [code_snoc] at h
      have := code_pos s
      simp only [code] at h
      omega
    | append_singleton t d =>
      rw [code_snoc, code_snoc] at h
      have h1 := char_small c
      have h2 := char_small d
      have e1 : code s 1 = code t 1 := by omega
      have e2 : c.toNat = d.toNat := by omega
      rw [ih e1, Char.toNat_inj.1 e2]

theorem rankOf_inj {s t : Str} {e e' : Nat × Nat × Nat} (hs : rankOf s = some e) (ht : rankOf t = some e')
    (he : e.1 = e'.1) : s = t :=
  code_inj (Ranks.find_inj ranks_bounds hs ht he)

/-! ### conversions stay on an island -/

def instrIsland : Instr → Bool
  | .edge a b _ => islandOf a == islandOf b
  | _ => true

theorem islands_kinds : (rawDictionary.all fun e => (kindInstrs shippedPrefixes e.1 e.2).all instrIsland) = true := by
  decide +kernel

theorem islands_expl : (explicitConversions.all fun e => islandOf e.1 == islandOf e.2.1) = true := by decide +kernel

theorem decl_island {a b : Str} {c : Cv} (h : (a, b, c) ∈ shipped) : islandOf a = islandOf b := by
  rcases List.mem_append.1 h with h | h
  · obtain ⟨e, he, h⟩ := List.mem_flatMap.1 h
    have := List.all_eq_true.1 (List.all_eq_true.1 islands_kinds e he) _ (mem_declsOf.1 h)
    simpa [instrIsland] using this
  · obtain ⟨e, he, h⟩ := List.mem_map.1 h
    cases h
    have := List.all_eq_true.1 islands_expl e he
    simpa using this

theorem Spec.ShippedNetwork.island {n : Net} (h : ShippedNetwork n) {a b : Str} (hl : LinkedName n a b) :
    islandOf a = islandOf b := by
  rcases h.linked.1 hl with ⟨c, hc⟩ | ⟨_, _, c, hc⟩
  · exact decl_island hc
  · exact (decl_island hc).symm

theorem Spec.ShippedNetwork.reach_island {n : Net} (h : ShippedNetwork n) {a b : Str} (hr : Reach (LinkedName n) a b) :
    islandOf a = islandOf b := by
  obtain ⟨p, hc⟩ := hr
  induction hc with
  | single => rfl
  | step he _ ih => rw [h.island he, ih]

/-! ### every name has a conversion towards its hub -/

/-- the position of the end of the conversion that is farther from the hub, as a bit -/
def bitOf (d : Str × Str × Cv) : Nat :=
  match rankOf d.1, rankOf d.2.1 with
  | some (j, _, e), some (k, _, f) =>
    bif Nat.beq e (f + 1) then Nat.shiftLeft 1 j else bif Nat.beq f (e + 1) then Nat.shiftLeft 1 k else 0
  | _, _ => 0

def maskOf : List (Str × Str × Cv) → Nat
  | [] => 0
  | d :: ds => Nat.lor (bitOf d) (maskOf ds)

def mask : Nat :=
  (rawDictionary.map fun e => maskOf (declsOf (kindInstrs shippedPrefixes e.1 e.2))).foldr Nat.lor
    (maskOf (explDecls explicitConversions))

/-- the value of `mask` -/
def maskValue : Nat := 121844061940978595882800895120529054176287351286435200242614147624090540275104311645564350869122016911877259181178259083864011865129850534442008487704066400390112195092429204749666843094375087896628250451623045067452490841755903638289649048549242455994701340467875300775216454743758077754665186582224728579446089417225710253405779166004179931115940315880249486810011752449259439385630922471670677584668090239623969838572374039578690346615354321529319006732328831633801467538981199044288150073084774999183715960381393975259276835263840509317124576680954791069175244103716609653730588163664761380120077649116870335408665085298217599259886648172138268171959279784170374154044058340523176376248318517838954412619143013482199274312188450930901395561861669302046544063097932286487487521486847

theorem mask_eq : mask = maskValue := by decide +kernel

def ranked (s : Str) : Bool :=
  match rankOf s with
  | none => false
  | some (j, i, d) => bif Nat.beq d 0 then hubs[i]? == some s else Nat.blt d 18 && maskValue.testBit j

theorem names_ranked : (rawDictionary.all fun e => (nodesOf (kindInstrs shippedPrefixes e.1 e.2)).all ranked) = true := by
  decide +kernel

theorem maskOf_spec {ds : List (Str × Str × Cv)} {j : Nat} (h : (maskOf ds).testBit j = true) :
    ∃ d ∈ ds, (bitOf d).testBit j = true := by
  induction ds with
  | nil => simp [maskOf] at h
  | cons d ds ih =>
    rw [maskOf, show Nat.lor (bitOf d) (maskOf ds) = bitOf d ||| maskOf ds from rfl, Nat.testBit_or, Bool.or_eq_true] at h
    rcases h with h | h
    · exact ⟨d, by simp, h⟩
    · obtain ⟨d', h1, h2⟩ := ih h
      exact ⟨d', by simp [h1], h2⟩

theorem mask_spec {j : Nat} (h : maskValue.testBit j = true) : ∃ d ∈ shipped, (bitOf d).testBit j = true := by
  rw [← mask_eq] at h
  unfold mask at h
  have key : ∀ (l : List Nat) (m : Nat), (l.foldr Nat.lor m).testBit j = true → (∃ x ∈ l, x.testBit j = true) ∨ m.testBit j = true := by
    intro l m
    induction l with
    | nil => exact Or.inr
    | cons x l ih =>
      intro h
      rw [List.foldr_cons, show Nat.lor x (l.foldr Nat.lor m) = x ||| l.foldr Nat.lor m from rfl, Nat.testBit_or,
        Bool.or_eq_true] at h
      rcases h with h | h
      · exact Or.inl ⟨x, by simp, h⟩
      · exact (ih h).imp (fun ⟨y, h1, h2⟩ => ⟨y, by simp [h1], h2⟩) id
  rcases key _ _ h with ⟨x, hx, h⟩ | h
  · obtain ⟨e, he, rfl⟩ := List.mem_map.1 hx
    obtain ⟨d, hd, h⟩ := maskOf_spec h
    exact ⟨d, List.mem_append.2 (Or.inl (List.mem_flatMap.2 ⟨e, he, hd⟩)), h⟩
  · obtain ⟨d, hd, h⟩ := maskOf_spec h
    exact ⟨d, List.mem_append.2 (Or.inr hd), h⟩

/-- a declared conversion joins the two names, one way or the other -/
def Joined (a b : Str) : Prop := (∃ c, (a, b, c) ∈ shipped) ∨ ∃ c, (b, a, c) ∈ shipped

/-- the loader adds a node with this name -/
def IsName (s : Str) : Prop := s ∈ dictNames shippedPrefixes rawDictionary

theorem testBit_one {j k : Nat} (h : (Nat.shiftLeft 1 k).testBit j = true) : k = j := by
  rw [show Nat.shiftLeft 1 k = 1 <<< k from rfl, Nat.testBit_shiftLeft, Bool.and_eq_true] at h
  have h1 : k ≤ j := by simpa using h.1
  have h2 := h.2
  rw [Nat.testBit_one_eq_true_iff_self_eq_zero] at h2
  omega

theorem bitOf_spec {d : Str × Str × Cv} {j : Nat} (h : (bitOf d).testBit j = true) :
    ∃ x y i e k i', (x = d.1 ∧ y = d.2.1 ∨ x = d.2.1 ∧ y = d.1) ∧ rankOf x = some (j, i, e + 1) ∧ rankOf y = some (k, i', e) := by
  unfold bitOf at h
  split at h
  · next j1 i1 e1 k1 i2 f1 h1 h2 =>
    cases hb : Nat.beq e1 (f1 + 1) with
    | true =>
      rw [hb] at h
      have := testBit_one h
      subst this
      have := Nat.eq_of_beq_eq_true hb
      subst this
      exact ⟨_, _, _, _, _, _, Or.inl ⟨rfl, rfl⟩, h1, h2⟩
    | false =>
      rw [hb] at h
      simp only [cond_false] at h
      cases hc : Nat.beq f1 (e1 + 1) with
      | true =>
        rw [hc] at h
        have := testBit_one h
        subst this
        have := Nat.eq_of_beq_eq_true hc
        subst this
        exact ⟨_, _, _, _, _, _, Or.inr ⟨rfl, rfl⟩, h2, h1⟩
      | false => rw [hc] at h; simp at h
  · simp at h

theorem Runs.ends {B : Str → Prop} {ns : List Str} {is : List Instr} (h : Runs B ns is) {a b : Str} {c : Cv}
    (he : Instr.edge a b c ∈ is) : (a ∈ ns ∨ a ∈ nodesOf is) ∧ (b ∈ ns ∨ b ∈ nodesOf is) := by
  induction is generalizing ns with
  | nil => cases he
  | cons i is ih =>
    cases i with
    | node s =>
      have := ih h (by simpa using he)
      simpa [nodesOf, or_assoc] using this
    | edge x y z =>
      rcases List.mem_cons.1 he with he | he
      · cases he; exact ⟨Or.inl h.1, Or.inl h.2.1⟩
      · simpa [nodesOf] using ih h.2.2 he
    | append x y => simpa [nodesOf] using ih h.2 (by simpa using he)
    | fail e => exact h.elim

theorem decl_names {a b : Str} {c : Cv} (h : (a, b, c) ∈ shipped) : IsName a ∧ IsName b := by
  rcases List.mem_append.1 h with h | h
  · obtain ⟨⟨k, v⟩, he, h⟩ := List.mem_flatMap.1 h
    have hr : Runs (fun _ => True) [] (kindInstrs shippedPrefixes k v) :=
      kindInstrs_runs (fun _ => trivial) (shipped_loadable.table k v he) []
    have := hr.ends (mem_declsOf.1 h)
    simp only [List.not_mem_nil, false_or] at this
    exact ⟨mem_dictNames he this.1, mem_dictNames he this.2⟩
  · obtain ⟨e, he, h⟩ := List.mem_map.1 h
    cases h
    exact shipped_loadable.ends e he

theorem isName_unit {s : Str} (h : IsName s) : ∃ k, UnitOfKind k s := by
  obtain ⟨⟨k, v⟩, he, h⟩ := List.mem_flatMap.1 h
  refine ⟨k, v, he, ?_⟩
  unfold nodesOf at h
  obtain ⟨i, hi, h⟩ := List.mem_filterMap.1 h
  split at h
  · cases h; exact hi
  · cases h

theorem unit_isName {k s : Str} (h : UnitOfKind k s) : IsName s := by
  obtain ⟨v, hv, hi⟩ := h
  exact mem_dictNames hv (List.mem_filterMap.2 ⟨_, hi, rfl⟩)

theorem isName_ranked {s : Str} (h : IsName s) : ranked s = true := by
  obtain ⟨⟨k, v⟩, he, h⟩ := List.mem_flatMap.1 h
  exact List.all_eq_true.1 (List.all_eq_true.1 names_ranked _ he) s h

/-- every name is joined with the hub of its island -/
theorem climb {d : Nat} : ∀ {s : Str} {j i : Nat}, IsName s → rankOf s = some (j, i, d) →
    d < 18 ∧ ∃ h, hubs[i]? = some h ∧ Within Joined d s h := by
  induction d with
  | zero =>
    intro s j i hs hr
    have := isName_ranked hs
    unfold ranked at this
    rw [hr] at this
    exact ⟨by omega, s, by simpa using this, Within.refl _ _⟩
  | succ d ih =>
    intro s j i hs hr
    have := isName_ranked hs
    unfold ranked at this
    rw [hr] at this
    simp only [show Nat.beq (d + 1) 0 = false from rfl, cond_false, Bool.and_eq_true, Nat.blt_eq] at this
    obtain ⟨h1, h2⟩ := this
    obtain ⟨x, hx, hb⟩ := mask_spec h2
    obtain ⟨p, q, i', e, k, i'', hpq, hp, hq⟩ := bitOf_spec hb
    obtain rfl : s = p := rankOf_inj hr hp rfl
    rw [hr] at hp
    simp only [Option.some.injEq, Prod.mk.injEq, Nat.add_right_cancel_iff, true_and] at hp
    obtain ⟨rfl, rfl⟩ := hp
    obtain ⟨a, b, c⟩ := x
    have hi := decl_island hx
    have hn := decl_names hx
    have hj : Joined s q := by
      rcases hpq with ⟨rfl, rfl⟩ | ⟨rfl, rfl⟩
      · exact Or.inl ⟨c, hx⟩
      · exact Or.inr ⟨c, hx⟩
    have hsq : islandOf s = islandOf q ∧ IsName q := by
      rcases hpq with ⟨rfl, rfl⟩ | ⟨rfl, rfl⟩
      · exact ⟨hi, hn.2⟩
      · exact ⟨hi.symm, hn.1⟩
    obtain ⟨_, h, hh, r, hr', hl⟩ := ih hsq.2 hq
    have : i = i'' := by
      have := hsq.1
      unfold islandOf at this
      rw [hr, hq] at this
      simpa using this
    subst this
    exact ⟨h1, h, hh, s :: r, .step hj hr', by simp; omega⟩

end Unyts
