import Verif.Lemmas.ShippedIslands
import Verif.Lemmas.ShippedKinds
import Verif.Lemmas.ShippedPrefix
import Verif.Lemmas.FindsOn

/- Conversions of the shipped network that always answer. -/
namespace Unyts
open Spec
set_option maxRecDepth 1000000

/-- a name that is neither a volume or weight nor a density or gradient -/
def Smooth (s : Str) : Prop := labelOf s ≠ some 3 ∧ labelOf s ≠ some 10

/-- the conversion answers every number, whatever the formation volume factor -/
def Cv.safe (c : Cv) : Bool := c.plain && (c.linear || match c with | .fn e => e.form.isSome | .rev _ => false)

theorem Cv.safe_total {c : Cv} (h : c.safe = true) (b : Option Rat) (x : Rat) : ∃ y, c.eval b x = .ok y := by
  unfold Cv.safe at h
  rw [Bool.and_eq_true, Bool.or_eq_true] at h
  obtain ⟨hp, hl | hf⟩ := h
  · obtain ⟨M, _, h⟩ := Cv.linear_plain hl hp
    exact ⟨_, h b x⟩
  · rw [Cv.plain_eval hp b (some 1)]
    cases c with
    | fn e =>
      obtain ⟨⟨m, k, n⟩, hmk⟩ := Option.isSome_iff_exists.1 hf
      exact ⟨_, CExp.form_eval hmk one_ne_zero x⟩
    | rev c => cases hf

theorem expl_safe : (explicitConversions.all fun e => labelOf e.1 == some 3 || labelOf e.1 == some 10 ||
    (Cv.fn e.2.2).safe) = true := by decide +kernel

theorem decl_safe {a b : Str} {c : Cv} (h : (a, b, c) ∈ shipped) (ha : Smooth a) : c.safe = true := by
  rcases List.mem_append.1 h with h | h
  · obtain ⟨e, he, h⟩ := List.mem_flatMap.1 h
    have h1 := List.all_eq_true.1 (List.all_eq_true.1 dict_checked e he) _ h
    have h2 := List.all_eq_true.1 (List.all_eq_true.1 dict_plain e he) _ h
    rw [Bool.and_eq_true] at h1
    simp only at h1 h2
    simp [Cv.safe, h1.1, h2]
  · obtain ⟨e, he, h⟩ := List.mem_map.1 h
    cases h
    have := List.all_eq_true.1 expl_safe e he
    simp only [Bool.or_eq_true, beq_iff_eq] at this
    rcases this with (h | h) | h
    · exact absurd h ha.1
    · exact absurd h ha.2
    · exact h

theorem shown_safe {a b : Str} {c : Cv} (h : shippedCv a b = some c) (ha : Smooth a) : c.safe = true := by
  unfold shippedCv withReverse at h
  cases hf : first shipped a b with
  | some c' =>
    rw [hf, Option.some_or] at h
    cases h
    exact decl_safe (first_some hf) ha
  | none =>
    rw [hf, Option.none_or] at h
    split at h
    · cases hr : first shipped b a with
      | none => rw [hr] at h; cases h
      | some c' =>
        rw [hr] at h
        cases h
        have hd := first_some hr
        have hb : Smooth b := by unfold Smooth; rw [decl_label hd]; exact ha
        have hs := decl_safe hd hb
        have hl : c'.linear = true := by
          rcases (decl_respects hd).2 with h2 | h2
          · exact h2
          · have := first_isSome.2 h2
            rw [hf] at this
            cases this
        unfold Cv.safe at hs ⊢
        rw [Bool.and_eq_true] at hs
        simp only [Cv.plain, Cv.linear, hs.1, hl, Bool.true_or, Bool.and_self]
    · cases h

theorem oneWay_label : ∀ p ∈ oneWay, labelOf p.1 = some 3 ∨ labelOf p.1 = some 10 := by decide +kernel

theorem Spec.ShippedNetwork.smooth_back {n : Net} (h : ShippedNetwork n) {a b : Str} (ha : Smooth a)
    (hl : LinkedName n a b) : LinkedName n b a ∧ Smooth b := by
  refine ⟨(h.back hl).2 fun hX => ?_, by unfold Smooth; rw [← h.label hl]; exact ha⟩
  rcases oneWay_label _ hX with h | h
  · exact ha.1 h
  · exact ha.2 h

theorem Spec.ShippedNetwork.joined {n : Net} (h : ShippedNetwork n) {a b : Str} (hj : Joined a b) (ha : Smooth a) :
    LinkedName n a b ∧ LinkedName n b a ∧ Smooth b := by
  rcases hj with hj | ⟨c, hj⟩
  · have h1 := h.linked.2 (Or.inl hj)
    exact ⟨h1, h.smooth_back ha h1⟩
  · have h1 := h.linked.2 (Or.inl ⟨c, hj⟩)
    have hb : Smooth b := by unfold Smooth; rw [h.label h1]; exact ha
    exact ⟨(h.smooth_back hb h1).1, h1, hb⟩

theorem Spec.ShippedNetwork.twoWayOn {n : Net} (h : ShippedNetwork n) : TwoWayOn n (fun u => Smooth u.name) := by
  rintro x y hx ⟨f, hf⟩
  obtain ⟨⟨f', x', y', e1, e2, hd⟩, hy⟩ := h.smooth_back hx ⟨f, x, y, rfl, rfl, hf⟩
  refine ⟨hy, ?_⟩
  have mx : x ∈ n.nodes := by obtain ⟨l, hl, _⟩ := hf; exact List.mem_map.2 ⟨_, hl, rfl⟩
  have my : y ∈ n.nodes := h.wf.closed _ _ _ hf
  have mx' : x' ∈ n.nodes := by obtain ⟨l, hl, _⟩ := hd; exact List.mem_map.2 ⟨_, hl, rfl⟩
  have my' : y' ∈ n.nodes := h.wf.closed _ _ _ hd
  rw [h.distinct _ my _ mx' e1.symm, h.distinct _ mx _ my' e2.symm]
  exact ⟨f', hd⟩

theorem Spec.ShippedNetwork.totalOn {n : Net} (h : ShippedNetwork n) (fvf : Option Rat) :
    TotalOn n fvf (fun u => Smooth u.name) := by
  intro a b f x ha hd
  obtain ⟨c, hc, rfl⟩ := h.shows.1 ⟨a, b, rfl, rfl, hd⟩
  exact ⟨(h.smooth_back ha ⟨_, a, b, rfl, rfl, hd⟩).2, Cv.safe_total (shown_safe hc ha) fvf x⟩

/-! ### distances -/

theorem names_near : (rawDictionary.all fun e => (nodesOf (kindInstrs shippedPrefixes e.1 e.2)).all fun s =>
    labelOf s == some 3 || match rankOf s with | some (_, _, d) => Nat.blt d 8 | none => false) = true := by
  decide +kernel

theorem name_near {s : Str} (h : IsName s) (hs : Smooth s) : ∃ j i d, rankOf s = some (j, i, d) ∧ d < 8 := by
  obtain ⟨⟨k, v⟩, he, h⟩ := List.mem_flatMap.1 h
  have := List.all_eq_true.1 (List.all_eq_true.1 names_near _ he) s h
  rw [Bool.or_eq_true] at this
  rcases this with h | h
  · exact absurd (by simpa using h) hs.1
  · split at h
    · next j i d hr => exact ⟨j, i, d, hr, by simpa using h⟩
    · cases h

theorem Spec.ShippedNetwork.to_hub {n : Net} (h : ShippedNetwork n) {k : Nat} {a b : Str} (hj : Within Joined k a b)
    (ha : Smooth a) : Within (LinkedName n) k a b ∧ Within (LinkedName n) k b a := by
  obtain ⟨p, hp, hl⟩ := hj
  have key : ∀ {a b : Str} {p : List Str}, Chain Joined a b p → Smooth a →
      Chain (fun x y => LinkedName n x y ∧ LinkedName n y x) a b p := by
    intro a b p hp
    induction hp with
    | single => intro _; exact .single _
    | step e _ ih =>
      intro ha
      obtain ⟨h1, h2, h3⟩ := h.joined e ha
      exact .step ⟨h1, h2⟩ (ih h3)
  have hc := key hp ha
  have hw : Within (fun x y => LinkedName n x y ∧ LinkedName n y x) k a b := ⟨p, hc, hl⟩
  have hs := Within.symm (fun _ _ e => ⟨e.2, e.1⟩) hw
  obtain ⟨q, hq, hl'⟩ := hs
  exact ⟨⟨p, hc.mono fun _ _ e => e.1, hl⟩, q, hq.mono fun _ _ e => e.1, hl'⟩

/-- two smooth names of an island are near -/
theorem Spec.ShippedNetwork.near {n : Net} (h : ShippedNetwork n) {a b : Str} (na : IsName a) (nb : IsName b)
    (ha : Smooth a) (hb : Smooth b) (hi : islandOf a = islandOf b) : Within (LinkedName n) 14 a b := by
  obtain ⟨j, i, d, hr, hd⟩ := name_near na ha
  obtain ⟨j', i', d', hr', hd'⟩ := name_near nb hb
  have : i = i' := by unfold islandOf at hi; rw [hr, hr'] at hi; simpa using hi
  subst this
  obtain ⟨_, hub, hh, w1⟩ := climb na hr
  obtain ⟨_, hub', hh', w2⟩ := climb nb hr'
  rw [hh] at hh'
  cases hh'
  have := (h.to_hub w1 ha).1.trans (h.to_hub w2 hb).2
  exact this.mono (by omega)

theorem chain_nodes {g : Net} (hg : WF g) (hd : DistinctNames g) {s t : Str} {p : List Str} (hp : Chain (LinkedName g) s t p)
    {a : UNode} (ma : a ∈ g.nodes) (ha : a.name = s) :
    ∃ b q, b ∈ g.nodes ∧ b.name = t ∧ Chain (Linked g) a b q ∧ q.length = p.length := by
  induction hp generalizing a with
  | single => exact ⟨a, [a], ma, ha, .single _, rfl⟩
  | step e _ ih =>
    obtain ⟨f, x, y, ex, ey, hf⟩ := e
    have mx : x ∈ g.nodes := by obtain ⟨l, hl, _⟩ := hf; exact List.mem_map.2 ⟨_, hl, rfl⟩
    obtain rfl := hd _ ma _ mx (ha.trans ex.symm)
    obtain ⟨b, q, mb, hb, hc, hl⟩ := ih (hg.closed _ _ _ hf) ey
    exact ⟨b, _, mb, hb, .step ⟨f, hf⟩ hc, by simp [hl]⟩

theorem within_nodes {g : Net} (hg : WF g) (hd : DistinctNames g) {k : Nat} {a b : UNode} (ma : a ∈ g.nodes)
    (mb : b ∈ g.nodes) (h : Within (LinkedName g) k a.name b.name) : Within (Linked g) k a b := by
  obtain ⟨p, hp, hl⟩ := h
  obtain ⟨b', q, mb', e, hc, hl'⟩ := chain_nodes hg hd hp ma rfl
  obtain rfl := hd _ mb' _ mb e
  exact ⟨q, hc, by omega⟩

theorem chain_linkedNames {g : Net} {a b : UNode} {p : List UNode} (h : Chain (Linked g) a b p) :
    Chain (LinkedName g) a.name b.name (p.map UNode.name) := by
  induction h with
  | single => exact .single _
  | step e _ ih =>
    obtain ⟨f, hf⟩ := e
    exact .step ⟨f, _, _, rfl, rfl, hf⟩ ih

theorem Spec.ShippedNetwork.linked_names {n : Net} (h : ShippedNetwork n) {a b : Str} (hl : LinkedName n a b) :
    IsName a ∧ IsName b := by
  rcases h.linked.1 hl with ⟨c, hc⟩ | ⟨_, _, c, hc⟩
  · exact decl_names hc
  · exact (decl_names hc).symm

theorem Spec.ShippedNetwork.nearOn {n : Net} (h : ShippedNetwork n) {a b : UNode} (ha : Smooth a.name)
    (hr : Reach (Linked n) a b) : Within (Linked n) 14 a b := by
  obtain ⟨p, hp⟩ := hr
  have hc := chain_linkedNames hp
  by_cases hab : a = b
  · subst hab; exact Within.refl _ _
  have m1 : a ∈ n.nodes ∧ IsName a.name := by
    cases hp with
    | single => exact absurd rfl hab
    | step e _ =>
      obtain ⟨f, hf⟩ := e
      refine ⟨?_, (h.linked_names ⟨f, a, _, rfl, rfl, hf⟩).1⟩
      obtain ⟨l, hl, _⟩ := hf
      exact List.mem_map.2 ⟨_, hl, rfl⟩
  have m2 : b ∈ n.nodes ∧ IsName b.name := by
    obtain ⟨q, hq⟩ : ∃ c, Linked n c b := by
      have : ∀ {a b : UNode} {p}, Chain (Linked n) a b p → a ≠ b → ∃ c, Linked n c b := by
        intro a b p hp
        induction hp with
        | single => intro h; exact absurd rfl h
        | @step a b c p e _ ih =>
          intro _
          by_cases hbc : b = c
          · subst hbc; exact ⟨_, e⟩
          · exact ih hbc
      exact this hp hab
    obtain ⟨f, hf⟩ := hq
    exact ⟨h.wf.closed _ _ _ hf, (h.linked_names ⟨f, q, _, rfl, rfl, hf⟩).2⟩
  have hl := h.reach_label hc
  have hb : Smooth b.name := by unfold Smooth; rw [← hl]; exact ha
  exact within_nodes h.wf h.distinct m1.1 m2.1 (h.near m1.2 m2.2 ha hb (h.reach_island ⟨_, hc⟩))

end Unyts
