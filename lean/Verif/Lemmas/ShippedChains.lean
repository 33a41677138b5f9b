import Verif.Lemmas.ShippedBack
import Verif.Spec.Shipped

/- Chains, undoing and reachability in the shipped network. -/
namespace Unyts
open Spec
set_option maxRecDepth 1000000

abbrev shipped := allDecls shippedPrefixes explicitConversions rawDictionary
abbrev shippedCv := withReverse (first shipped) (reverseKeys rawDictionary)

theorem Spec.ShippedNetwork.shows {n : Net} (h : ShippedNetwork n) {a b : Str} {f : Fn} :
    DirectName n a b f ↔ ∃ c, shippedCv a b = some c ∧ f = c.eval := by
  obtain ⟨g, d, hl, rfl⟩ := h
  rw [directName_clean]
  exact (shipped_shows hl).2 a b f

theorem Spec.ShippedNetwork.unique {n : Net} (h : ShippedNetwork n) {a b : Str} {f k : Fn} (h1 : DirectName n a b f)
    (h2 : DirectName n a b k) : f = k := by
  obtain ⟨c, hc, rfl⟩ := h.shows.1 h1
  obtain ⟨c', hc', rfl⟩ := h.shows.1 h2
  rw [hc] at hc'
  cases hc'
  rfl

/-- away from the faults, the conversions respect the readings -/
theorem Spec.ShippedNetwork.reads {n : Net} (h : ShippedNetwork n) {a b : Str} {f : Fn} (hd : DirectName n a b f)
    (hX : (a, b) ∉ shippedFaults) {fvf : Option Rat} (hφ : fvf ≠ some 0) {x y : Rat} (hxy : f fvf x = .ok y) :
    shippedReading (fvfOr1 fvf) b y = shippedReading (fvfOr1 fvf) a x := by
  obtain ⟨c, hc, rfl⟩ := h.shows.1 hd
  rcases shown_respects hc with hr | hf | ⟨c', _, hf⟩
  · exact hr.reading hφ hxy
  · exact absurd (fault_pair hf).1 hX
  · exact absurd (fault_pair hf).2 hX

theorem Spec.ShippedNetwork.along {n : Net} (h : ShippedNetwork n) {p : List Str} {f : Fn} (ha : AlongNames n p f)
    (hX : Avoids shippedFaults p) {fvf : Option Rat} (hφ : fvf ≠ some 0) {x y : Rat} (hxy : f fvf x = .ok y)
    {a b : Str} (h1 : p.head? = some a) (h2 : p.getLast? = some b) :
    shippedReading (fvfOr1 fvf) b y = shippedReading (fvfOr1 fvf) a x := by
  induction ha generalizing x a with
  | single c =>
    simp only [List.head?_cons, Option.some.injEq, List.getLast?_singleton] at h1 h2
    subst h1; subst h2
    cases hxy
    rfl
  | @step c e p f k hd ha ih =>
    simp only [List.head?_cons, Option.some.injEq] at h1
    subst h1
    simp only [Except.bind] at hxy
    split at hxy
    · cases hxy
    · next z hz =>
      rw [ih hX.2 hxy rfl (by rw [List.getLast?_cons_cons] at h2; exact h2)]
      exact h.reads hd hX.1 hφ hz

/-- a chain of nodes is a chain of names -/
theorem along_names {n : Net} {p : List UNode} {f : Fn} (h : Along n p f) : AlongNames n (p.map UNode.name) f := by
  induction h with
  | single a => exact .single _
  | step hd _ ih => exact .step ⟨_, _, rfl, rfl, hd⟩ ih

/-! ## Undoing -/

/-- the conversion does not look at the formation volume factor -/
def CExp.plain : CExp → Bool
  | .fvf => false
  | .x => true
  | .lit _ => true
  | .add a b => a.plain && b.plain
  | .sub a b => a.plain && b.plain
  | .mul a b => a.plain && b.plain
  | .div a b => a.plain && b.plain

def Cv.plain : Cv → Bool
  | .fn e => e.plain
  | .rev c => c.plain

theorem CExp.plain_eval {e : CExp} (h : e.plain = true) (b b' : Option Rat) (v : Rat) : e.eval b v = e.eval b' v := by
  induction e with
  | x => rfl
  | lit q => rfl
  | fvf => cases h
  | add a c iha ihc | sub a c iha ihc | mul a c iha ihc | div a c iha ihc =>
    simp only [CExp.plain, Bool.and_eq_true] at h
    simp only [CExp.eval, iha h.1, ihc h.2]

theorem Cv.plain_eval {c : Cv} (h : c.plain = true) (b b' : Option Rat) (v : Rat) : c.eval b v = c.eval b' v := by
  induction c generalizing v with
  | fn e => exact CExp.plain_eval h b b' v
  | rev c ih =>
    simp only [Cv.eval, revFn, ih h]

/-- a linear plain conversion multiplies by a number -/
theorem Cv.linear_plain {c : Cv} (hl : c.linear = true) (hp : c.plain = true) :
    ∃ M : Rat, M ≠ 0 ∧ ∀ b x, c.eval b x = .ok (M * x) := by
  obtain ⟨M, hM, h⟩ := Cv.linear_eval hl (φ := 1) one_ne_zero
  exact ⟨M, hM, fun b x => by rw [Cv.plain_eval hp b (some 1), h]⟩

theorem rev_undoes {c : Cv} (hl : c.linear = true) (hp : c.plain = true) {b : Option Rat} {x y z : Rat} :
    (c.eval b x = .ok y → (Cv.rev c).eval b y = .ok z → z = x) ∧
    ((Cv.rev c).eval b x = .ok y → c.eval b y = .ok z → z = x) := by
  obtain ⟨M, hM, h⟩ := Cv.linear_plain hl hp
  simp only [Cv.eval, revFn, h, bind, Except.bind, pdiv, mul_one, hM, if_false]
  constructor
  · intro h1 h2
    cases h1; cases h2
    field_simp
  · intro h1 h2
    cases h1; cases h2
    field_simp

theorem faults_only : (rawDictionary.all fun e => (declsOf (kindInstrs shippedPrefixes e.1 e.2)).all fun d =>
    !(shippedFaults.contains (d.1, d.2.1)) || faultDecls.contains d) = true := by decide +kernel

theorem faults_only' : ((explDecls explicitConversions).all fun d =>
    !(shippedFaults.contains (d.1, d.2.1)) || faultDecls.contains d) = true := by decide +kernel

theorem decl_fault {a b : Str} {c : Cv} (h : (a, b, c) ∈ shipped) (hf : (a, b) ∈ shippedFaults) :
    (a, b, c) ∈ faultDecls := by
  have key : (!(shippedFaults.contains (a, b)) || faultDecls.contains (a, b, c)) = true := by
    unfold shipped allDecls at h
    rcases List.mem_append.1 h with h | h
    · obtain ⟨e, he, h⟩ := List.mem_flatMap.1 h
      exact List.all_eq_true.1 (List.all_eq_true.1 faults_only e he) _ h
    · exact List.all_eq_true.1 faults_only' _ h
  simp only [List.contains_iff_mem.2 hf, Bool.not_true, Bool.false_or] at key
  exact List.contains_iff_mem.1 key

theorem shown_fault {a b : Str} {c : Cv} (h : shippedCv a b = some c) (hf : (a, b) ∈ shippedFaults) :
    (a, b, c) ∈ faultDecls ∨ ∃ c', c = .rev c' ∧ (b, a, c') ∈ faultDecls := by
  unfold shippedCv withReverse at h
  cases h1 : first shipped a b with
  | some c' =>
    rw [h1, Option.some_or] at h
    cases h
    exact Or.inl (decl_fault (first_some h1) hf)
  | none =>
    rw [h1, Option.none_or] at h
    split at h
    · cases hr : first shipped b a with
      | none => rw [hr] at h; cases h
      | some c' =>
        rw [hr] at h
        cases h
        have hf' : (b, a) ∈ shippedFaults := by
          have : ∀ p ∈ shippedFaults, (p.2, p.1) ∈ shippedFaults := by decide +kernel
          exact this _ hf
        exact Or.inr ⟨c', rfl, decl_fault (first_some hr) hf'⟩
    · cases h

theorem faults_simple : ∀ d ∈ faultDecls, d.2.2.linear = true ∧ d.2.2.plain = true := by decide +kernel

theorem faults_functional : ∀ d ∈ faultDecls, ∀ e ∈ faultDecls, d.1 = e.1 → d.2.1 = e.2.1 → d.2.2 = e.2.2 := by
  decide +kernel

theorem faults_same : ∀ d ∈ faultDecls, ∀ e ∈ faultDecls, d.1 = e.2.1 → d.2.1 = e.1 → d.2.2 = .same ∧ e.2.2 = .same := by
  decide +kernel

theorem same_undo {b : Option Rat} {x y : Rat} : (Cv.same.eval b x = .ok y → y = x) ∧
    ((Cv.rev Cv.same).eval b x = .ok y → y = x) := by
  constructor
  · intro h; cases h; rfl
  · intro h
    simp only [Cv.eval, Cv.same, CExp.eval, revFn, bind, Except.bind, pdiv, one_ne_zero, if_false, div_one] at h
    cases h; rfl

theorem Spec.ShippedNetwork.undo {n : Net} (h : ShippedNetwork n) {a b : Str} {f k : Fn} (h1 : DirectName n a b f)
    (h2 : DirectName n b a k) {fvf : Option Rat} (hφ : fvf ≠ some 0) {x y z : Rat} (hx : f fvf x = .ok y)
    (hy : k fvf y = .ok z) : z = x := by
  have swap : ∀ p ∈ shippedFaults, (p.2, p.1) ∈ shippedFaults := by decide +kernel
  by_cases hf : (a, b) ∈ shippedFaults
  · have hf' := swap _ hf
    obtain ⟨c, hc, rfl⟩ := h.shows.1 h1
    obtain ⟨c', hc', rfl⟩ := h.shows.1 h2
    rcases shown_fault hc hf with m1 | ⟨c1, rfl, m1⟩
    · rcases shown_fault hc' hf' with m2 | ⟨c2, rfl, m2⟩
      · obtain ⟨e1, e2⟩ := faults_same _ m1 _ m2 rfl rfl
        simp only at e1 e2
        subst e1; subst e2
        rw [same_undo.1 hy, same_undo.1 hx]
      · have e := faults_functional _ m1 _ m2 rfl rfl
        simp only at e
        subst e
        obtain ⟨hl, hp⟩ := faults_simple _ m1
        exact (rev_undoes hl hp).1 hx hy
    · rcases shown_fault hc' hf' with m2 | ⟨c2, rfl, m2⟩
      · have e := faults_functional _ m1 _ m2 rfl rfl
        simp only at e
        subst e
        obtain ⟨hl, hp⟩ := faults_simple _ m1
        exact (rev_undoes hl hp).2 hx hy
      · obtain ⟨e1, e2⟩ := faults_same _ m1 _ m2 rfl rfl
        simp only at e1 e2
        subst e1; subst e2
        rw [same_undo.2 hy, same_undo.2 hx]
  · have hf' : (b, a) ∉ shippedFaults := fun hh => hf (swap _ hh)
    apply shippedReading_inj (fvfOr1_ne hφ) a
    rw [h.reads h2 hf' hφ hy, h.reads h1 hf hφ hx]

/-! ## Links by hand -/

theorem Spec.ShippedNetwork.linked {n : Net} (h : ShippedNetwork n) {a b : Str} :
    LinkedName n a b ↔ (∃ c, (a, b, c) ∈ shipped) ∨ (a ≠ b ∧ Reversed rawDictionary b ∧ ∃ c, (b, a, c) ∈ shipped) := by
  have : LinkedName n a b ↔ (shippedCv a b).isSome := by
    unfold LinkedName
    rw [Option.isSome_iff_exists]
    constructor
    · rintro ⟨f, hf⟩
      obtain ⟨c, hc, _⟩ := h.shows.1 hf
      exact ⟨c, hc⟩
    · rintro ⟨c, hc⟩
      exact ⟨c.eval, h.shows.2 ⟨c, hc, rfl⟩⟩
  rw [this, withReverse_some, mem_reverseKeys]

/-- declared one by one -/
theorem mem_expl {a b : Str} {e : CExp} (h : (explicitConversions.contains (a, b, e)) = true) :
    (a, b, Cv.fn e) ∈ shipped :=
  List.mem_append.2 (Or.inr (List.mem_map.2 ⟨(a, b, e), List.contains_iff_mem.1 h, rfl⟩))

/-- declared by a kind -/
theorem mem_kind {k : Str} {d : Str × Str × Cv} (h : (match Py.dictGet rawDictionary k with
    | some v => (declsOf (kindInstrs shippedPrefixes k v)).contains d | none => false) = true) : d ∈ shipped := by
  split at h
  · next v hv =>
    exact List.mem_append.2 (Or.inl (List.mem_flatMap.2 ⟨(k, v), dictGet_mem hv, List.contains_iff_mem.1 h⟩))
  · cases h

theorem mem_reversed {k u : Str} (h : (Py.subStr s!!"_REVERSE" k && match Py.dictGet rawDictionary k with
    | some v => v.keys.contains u | none => false) = true) : Reversed rawDictionary u := by
  rw [Bool.and_eq_true] at h
  obtain ⟨h1, h2⟩ := h
  split at h2
  · next v hv => exact ⟨k, v, dictGet_mem hv, h1, List.contains_iff_mem.1 h2⟩
  · cases h2

/-! ## Well-formedness and reachability -/

theorem linked_clean {g : Net} {a b : Str} : LinkedName (cleanNetwork g) a b ↔ LinkedName g a b :=
  exists_congr fun _ => directName_clean

theorem Spec.ShippedNetwork.back {n : Net} (h : ShippedNetwork n) {a b : Str} (hl : LinkedName n a b) :
    LinkedName n b a ↔ (a, b) ∉ oneWay := by
  obtain ⟨g, d, hg, rfl⟩ := h
  rw [linked_clean] at hl ⊢
  constructor
  · intro hb hX
    exact (oneWay_one_way hg hX).2 hb
  · exact shipped_back hg hl

theorem Spec.ShippedNetwork.dram {n : Net} (h : ShippedNetwork n) :
    LinkedName n s!!"dram" s!!"pound" ∧ LinkedName n s!!"pound" s!!"weight ounce" := by
  constructor <;> rw [h.linked] <;> left
  · exact ⟨_, mem_expl (e := .div .x (.lit 256)) (by decide +kernel)⟩
  · exact ⟨_, mem_expl (e := .mul .x (.lit 16)) (by decide +kernel)⟩

theorem Spec.ShippedNetwork.psig {n : Net} (h : ShippedNetwork n) :
    LinkedName n s!!"lb/ft3" s!!"psi/ft" ∧ LinkedName n s!!"psi/ft" s!!"psig/ft" := by
  constructor <;> rw [h.linked]
  · exact Or.inr ⟨by decide, mem_reversed (k := s!!"PressureGradient_NAMES_REVERSE") (by decide +kernel), _,
      mem_expl (e := .mul .x (.lit 144)) (by decide +kernel)⟩
  · exact Or.inl ⟨_, mem_kind (k := s!!"PressureGradient_NAMES_REVERSE") (d := (s!!"psi/ft", s!!"psig/ft", .same))
      (by decide +kernel)⟩

theorem Spec.ShippedNetwork.barg {n : Net} (h : ShippedNetwork n) :
    LinkedName n s!!"kg/m3" s!!"bar/m" ∧ LinkedName n s!!"bar/m" s!!"barg/m" := by
  constructor <;> rw [h.linked]
  · exact Or.inr ⟨by decide, mem_reversed (k := s!!"PressureGradient_NAMES_REVERSE") (by decide +kernel), _,
      mem_expl (e := .div (.mul .x (.lit 100000)) (.lit (196133 / 20000))) (by decide +kernel)⟩
  · exact Or.inl ⟨_, mem_kind (k := s!!"PressureGradient_NAMES_REVERSE") (d := (s!!"bar/m", s!!"barg/m", .same))
      (by decide +kernel)⟩

theorem Spec.ShippedNetwork.onward {n : Net} (h : ShippedNetwork n) {a b : Str} (hl : LinkedName n a b) :
    ∃ p, Chain (LinkedName n) b a p := by
  by_cases hX : (a, b) ∈ oneWay
  · simp only [oneWay, List.mem_cons, List.not_mem_nil, or_false, Prod.mk.injEq] at hX
    rcases hX with ⟨rfl, rfl⟩ | ⟨rfl, rfl⟩ | ⟨rfl, rfl⟩
    · exact ⟨_, .step h.dram.1 (.step h.dram.2 (.single _))⟩
    · exact ⟨_, .step h.psig.1 (.step h.psig.2 (.single _))⟩
    · exact ⟨_, .step h.barg.1 (.step h.barg.2 (.single _))⟩
  · exact ⟨_, .step ((h.back hl).2 hX) (.single _)⟩

theorem chain_first {E : α → α → Prop} {a b : α} {p : List α} (h : Chain E a b p) : a = b ∨ ∃ c, E a c := by
  cases h with
  | single => exact Or.inl rfl
  | step h _ => exact Or.inr ⟨_, h⟩

theorem Spec.ShippedNetwork.wf {n : Net} (h : ShippedNetwork n) : WF n := by
  obtain ⟨g, d, hg, rfl⟩ := h
  refine wf_clean (shipped_shows hg).1 ?_
  intro a b hl
  obtain ⟨p, hp⟩ := ShippedNetwork.onward ⟨g, d, hg, rfl⟩ (linked_clean.2 hl)
  rcases chain_first hp with rfl | ⟨c, hc⟩
  · exact ⟨_, hl⟩
  · exact ⟨c, linked_clean.1 hc⟩

theorem Spec.ShippedNetwork.distinct {n : Net} (h : ShippedNetwork n) : DistinctNames n := by
  obtain ⟨g, d, hg, rfl⟩ := h
  exact distinct_clean (shipped_shows hg).1

theorem Spec.ShippedNetwork.ex : ∃ n, ShippedNetwork n := by
  obtain ⟨g, d, h⟩ := shipped_loads
  exact ⟨_, g, d, h, rfl⟩

end Unyts
