import Verif.Lemmas.ShippedWeight
import Verif.Lemmas.ShippedLabel
import Verif.Spec.Volumes
import Mathlib.Tactic.Linarith

/- Volumes of the shipped network: gates, and how far a path can be off. -/
namespace Unyts
open Spec
set_option maxRecDepth 1000000

/-- the UK measures that are smaller than the gallon -/
def ukNames : List Str :=
  [s!!"FLUID OUNCE UK", s!!"FLUID OUNCE UKS", s!!"GILLUK", s!!"GILLUKS", s!!"PINTUK", s!!"PINTUKS", s!!"QUARTUK", 
   s!!"QUARTUKS", s!!"UKgill", s!!"UKpint", s!!"UKquart", s!!"fl oz UK", s!!"fluid ounce UK", 
   s!!"fluid ounce UKs", s!!"fluid ounce uk", s!!"fluid ounce uks", s!!"giUK", s!!"gillUK", s!!"gillUKs", 
   s!!"gilluk", s!!"gilluks", s!!"ounceUK", s!!"ozUK", s!!"pintUK", s!!"pintUKs", s!!"pintuk", s!!"pintuks", 
   s!!"ptUK", s!!"qtUK", s!!"quartUK", s!!"quartUKs", s!!"quartuk", s!!"quartuks"]

def ukCodes : List Nat := ukNames.map fun s => code s 1

/-- it is one of them -/
def isUk (s : Str) : Bool := ukCodes.any (Nat.beq (code s 1))

/-- a volume at reservoir conditions -/
def isRes (s : Str) : Bool :=
  match readingOf s with
  | some r => !(r.e == 0)
  | none => false

/-! ### gates -/

/-- no conversion of volumes leaves or enters `P` but at `g` -/
def Gate (P : Str → Prop) (g : Str) : Prop :=
  ∀ a b c, (a, b, c) ∈ shipped → labelOf a = some 3 → (P a → P b ∨ a = g) ∧ (P b → P a ∨ b = g)

theorem Spec.ShippedNetwork.gate_path {n : Net} (h : ShippedNetwork n) {P : Str → Prop} {g : Str} (hg : Gate P g) {a b : UNode}
    {p : List UNode} (hp : IsPath (Linked n) a b p) (la : labelOf a.name = some 3) (ha : P a.name) (hb : P b.name) :
    ∀ x ∈ p, labelOf x.name = some 3 ∧ P x.name := by
  have lb : labelOf b.name = some 3 := by rw [← h.reach_label (chain_linkedNames hp.1)]; exact la
  have link : ∀ {x y : Str}, LinkedName n x y → labelOf x = some 3 → (P x → P y ∨ x = g) ∧ (P y → P x ∨ y = g) := by
    intro x y hl lx
    rcases h.linked.1 hl with ⟨c, hc⟩ | ⟨_, _, c, hc⟩
    · exact hg _ _ _ hc lx
    · exact (hg _ _ _ hc (by rw [← h.label hl]; exact lx)).symm
  by_cases hf : ∃ c ∈ n.nodes, c.name = g
  · obtain ⟨c, mc, hc⟩ := hf
    refine path_inside (T := fun u => labelOf u.name = some 3 ∧ P u.name) (c := c) ?_ ?_ hp ⟨la, ha⟩ ⟨lb, hb⟩
    · rintro x y e ⟨lx, hx⟩
      have hl := linkedName_of e
      refine ((link hl lx).1 hx).imp (fun hy => ⟨by rw [← h.label hl]; exact lx, hy⟩) fun e' => ?_
      exact h.distinct _ (Net.linked_src e) _ mc (e'.trans hc.symm)
    · rintro x y e ⟨ly, hy⟩
      have hl := linkedName_of e
      have lx : labelOf x.name = some 3 := by rw [h.label hl]; exact ly
      refine ((link hl lx).2 hy).imp (fun hx => ⟨lx, hx⟩) fun e' => ?_
      exact h.distinct _ (Net.linked_dst h.wf e) _ mc (e'.trans hc.symm)
  · have key : ∀ {x y : UNode} {q}, Chain (Linked n) x y q → labelOf x.name = some 3 → P x.name →
        ∀ z ∈ q, labelOf z.name = some 3 ∧ P z.name := by
      intro x y q hq lx hx
      induction hq with
      | single x => intro z hz; rw [List.mem_singleton.1 hz]; exact ⟨lx, hx⟩
      | @step a b' d p e ch ih =>
        intro z hz
        have hl := linkedName_of e
        rcases List.mem_cons.1 hz with rfl | hz
        · exact ⟨lx, hx⟩
        · refine ih (by rw [← h.label hl]; exact lx) ?_ z hz
          rcases (link hl lx).1 hx with h1 | h1
          · exact h1
          · exact absurd ⟨a, Net.linked_src e, h1⟩ hf
    exact key hp.1 la ha

/-- the conversion passes between `f` and not `f` where `ok` says -/
def passes (f : Str → Bool) (ok : Str → Str → Bool) (a b : Str) : Bool := f a == f b || (!(f a) && ok a b) || (f a && ok b a)

theorem passes_all {f : Str → Bool} {ok : Str → Str → Bool} (h1 : ((labelDecls 3).all fun d => passes f ok d.1 d.2.1) = true)
    (h2 : (explicitConversions.all fun d => passes f ok d.1 d.2.1) = true) {a b : Str} {c : Cv} (hc : (a, b, c) ∈ shipped)
    (la : labelOf a = some 3) : f a = f b ∨ (f a = false ∧ f b = true ∧ ok a b = true) ∨ (f a = true ∧ f b = false ∧ ok b a = true) := by
  have : passes f ok a b = true := by
    rcases decl_of_label hc la with h | ⟨e, h, _⟩
    · exact List.all_eq_true.1 h1 _ h
    · exact List.all_eq_true.1 h2 _ h
  unfold passes at this
  revert this
  cases f a <;> cases f b <;> simp

theorem gate_out {f : Str → Bool} {ok : Str → Str → Bool} (h1 : ((labelDecls 3).all fun d => passes f ok d.1 d.2.1) = true)
    (h2 : (explicitConversions.all fun d => passes f ok d.1 d.2.1) = true) {g : Str} (hok : ∀ a b, ok a b = true → a = g) :
    Gate (fun s => f s = false) g := by
  intro a b c hc la
  beta_reduce
  rcases passes_all h1 h2 hc la with h | ⟨h, h', k⟩ | ⟨h, h', k⟩
  · rw [h]; exact ⟨Or.inl, Or.inl⟩
  · have := hok _ _ k
    rw [h, h']; simp [this]
  · have := hok _ _ k
    rw [h, h']; simp [this]

theorem gate_in {f : Str → Bool} {ok : Str → Str → Bool} (h1 : ((labelDecls 3).all fun d => passes f ok d.1 d.2.1) = true)
    (h2 : (explicitConversions.all fun d => passes f ok d.1 d.2.1) = true) {g : Str} (hok : ∀ a b, ok a b = true → b = g) :
    Gate (fun s => f s = true) g := by
  intro a b c hc la
  beta_reduce
  rcases passes_all h1 h2 hc la with h | ⟨h, h', k⟩ | ⟨h, h', k⟩
  · rw [h]; exact ⟨Or.inl, Or.inl⟩
  · have := hok _ _ k
    rw [h, h']; simp [this]
  · have := hok _ _ k
    rw [h, h']; simp [this]

theorem uk_kinds : ((labelDecls 3).all fun d => passes isUk (fun a _ => a == s!!"gallonUK") d.1 d.2.1) = true := by decide +kernel
theorem uk_explicit : (explicitConversions.all fun d => passes isUk (fun a _ => a == s!!"gallonUK") d.1 d.2.1) = true := by
  decide +kernel

theorem uk_gate : Gate (fun s => isUk s = false) s!!"gallonUK" := gate_out uk_kinds uk_explicit (by simp)

/-- the formation volume factor relates these two -/
def fvfPair (a b : Str) : Bool := a == s!!"standard cubic meter" && b == s!!"reservoir cubic meter"

theorem res_kinds : ((labelDecls 3).all fun d => passes isRes fvfPair d.1 d.2.1) = true := by decide +kernel
theorem res_explicit : (explicitConversions.all fun d => passes isRes fvfPair d.1 d.2.1) = true := by decide +kernel

theorem std_gate : Gate (fun s => isRes s = false) s!!"standard cubic meter" :=
  gate_out res_kinds res_explicit (by simp [fvfPair])

theorem res_gate : Gate (fun s => isRes s = true) s!!"reservoir cubic meter" :=
  gate_in res_kinds res_explicit (by simp [fvfPair])

theorem res_uk : (ukNames.all fun s => !(isRes s)) = true := by decide +kernel

theorem uk_mem {s : Str} (h : isUk s = true) : s ∈ ukNames := by
  unfold isUk ukCodes at h
  obtain ⟨c, hc, h⟩ := List.any_eq_true.1 h
  obtain ⟨t, ht, rfl⟩ := List.mem_map.1 hc
  rw [code_inj (Nat.eq_of_beq_eq_true h)]
  exact ht

theorem res_not_uk {s : Str} (h : isRes s = true) : isUk s = false := by
  cases hu : isUk s with
  | false => rfl
  | true =>
    have := List.all_eq_true.1 res_uk s (uk_mem hu)
    rw [h] at this
    cases this

/-! ### conversions that do not look at the formation volume factor -/

theorem fvf_explicit : (explicitConversions.all fun e => !(labelOf e.1 == some 3) || e.2.2.plain || fvfPair e.2.1 e.1) = true := by
  decide +kernel

theorem plain_decl {a b : Str} {c : Cv} (h : (a, b, c) ∈ shipped) (la : labelOf a = some 3) (hr : isRes a = isRes b) : c.plain = true := by
  rcases List.mem_append.1 h with h | h
  · obtain ⟨e, he, h⟩ := List.mem_flatMap.1 h
    exact List.all_eq_true.1 (List.all_eq_true.1 dict_plain e he) _ h
  · obtain ⟨e, he, h⟩ := List.mem_map.1 h
    cases h
    have := List.all_eq_true.1 fvf_explicit e he
    simp only [la, BEq.rfl, Bool.not_true, Bool.false_or, Bool.or_eq_true, fvfPair, Bool.and_eq_true, beq_iff_eq] at this
    rcases this with h1 | ⟨h1, h2⟩
    · exact h1
    · rw [h1, h2] at hr
      exact absurd hr (by decide +kernel)

theorem plain_shown {a b : Str} {c : Cv} (h : shippedCv a b = some c) (la : labelOf a = some 3) (hr : isRes a = isRes b) :
    c.linear = true ∧ c.plain = true := by
  refine ⟨bulk_shown h la, ?_⟩
  unfold shippedCv withReverse at h
  cases hf : first shipped a b with
  | some c' =>
    rw [hf, Option.some_or] at h
    cases h
    exact plain_decl (first_some hf) la hr
  | none =>
    rw [hf, Option.none_or] at h
    split at h
    · cases hrv : first shipped b a with
      | none => rw [hrv] at h; cases h
      | some c' =>
        rw [hrv] at h
        cases h
        have hd := first_some hrv
        have := plain_decl hd (by rw [decl_label hd]; exact la) hr.symm
        simpa [Cv.plain] using this
    · cases h

/-- conversions on one side answer every number -/
theorem Spec.ShippedNetwork.side_total {n : Net} (h : ShippedNetwork n) {p : List UNode} {f : Fn} (ha : Along n p f) {r : Bool}
    (hp : ∀ x ∈ p, labelOf x.name = some 3 ∧ isRes x.name = r) (fvf : Option Rat) (x : Rat) : ∃ y, f fvf x = .ok y := by
  induction ha generalizing x with
  | single => exact ⟨x, rfl⟩
  | @step a b p f k hd ha ih =>
    obtain ⟨c, hc, rfl⟩ := h.shows.1 ⟨a, b, rfl, rfl, hd⟩
    have h1 := hp a (by simp)
    obtain ⟨hl, hpl⟩ := plain_shown hc h1.1 (h1.2.trans (hp b (by simp)).2.symm)
    obtain ⟨M, _, hM⟩ := Cv.linear_plain hl hpl
    obtain ⟨y, hy⟩ := ih (fun x hx => hp x (List.mem_cons_of_mem _ hx)) (M * x)
    refine ⟨y, ?_⟩
    simp only [hM]
    exact hy

/-! ### the standard barrel -/

/-- the sizes the factors at the standard barrel take it for -/
def barrelIn : Rat := 3144907 / 500000 * barrel / 1000
def barrelOut : Rat := 701823 / 125000 * cubicFoot / barrel

theorem fault_names : ∀ d ∈ shippedFaults, labelOf d.1 = some 3 → isUk d.1 = false →
    d ∈ [(s!!"standard cubic meter", s!!"standard barrel"), (s!!"standard barrel", s!!"standard cubic meter"),
      (s!!"standard barrel", s!!"standard cubic foot"), (s!!"standard cubic foot", s!!"standard barrel")] := by decide +kernel

theorem fault_decls : (faultDecls.filter fun d => d.1 == s!!"standard barrel" || d.2.1 == s!!"standard barrel") =
    [(s!!"standard cubic meter", s!!"standard barrel", .fn (.mul .x (.lit (3144907 / 500000)))),
     (s!!"standard barrel", s!!"standard cubic foot", .fn (.mul .x (.lit (701823 / 125000))))] := by decide +kernel

theorem fault_sizes : (fun k => decide (k ≠ 0) &&
    decide (readingOf s!!"standard cubic meter" = some ⟨1000 * k, 0, 0, false⟩) &&
    decide (readingOf s!!"standard barrel" = some ⟨barrel * k, 0, 0, false⟩) &&
    decide (readingOf s!!"standard cubic foot" = some ⟨cubicFoot * k, 0, 0, false⟩))
    (((readingOf s!!"litre").map Reading.s).getD 0) = true := by decide +kernel

end Unyts
