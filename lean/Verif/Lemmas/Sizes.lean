import Verif.Lemmas.Typed
import Verif.Lemmas.Clean
import Mathlib.Tactic.FieldSimp

/- Measures that fit the network divide pairs of units as `Typed` requires. -/
namespace Unyts
open Spec

/-! ### factors -/

theorem readFactors_append (den : Bool) (cur s t : Str) :
    readFactors den cur (s ++ '/' :: t) = readFactors den cur s ++ readFactors true [] t := by
  induction s generalizing den cur with
  | nil => simp [readFactors]
  | cons c s ih =>
    rw [List.cons_append, readFactors, readFactors]
    split
    · rw [ih]; rfl
    · split
      · rw [ih]; rfl
      · rw [ih]

theorem readFactors_names (den : Bool) (cur s : Str) :
    (readFactors den cur s).map Prod.snd = (readFactors false cur s).map Prod.snd := by
  induction s generalizing cur with
  | nil => simp [readFactors]
  | cons c s ih =>
    rw [readFactors, readFactors]
    split
    · rfl
    · split
      · rfl
      · exact ih _

theorem factors_slash (s t : Str) : factors (s ++ '/' :: t) = factors s ++ readFactors true [] t :=
  readFactors_append _ _ _ _

theorem mem_factors_slash {s t : Str} {f : Factor} (h : f ∈ factors (s ++ '/' :: t)) :
    (∃ f' ∈ factors s, f'.2 = f.2) ∨ ∃ f' ∈ factors t, f'.2 = f.2 := by
  rw [factors_slash, List.mem_append] at h
  rcases h with h | h
  · exact Or.inl ⟨f, h, rfl⟩
  · right
    have : f.2 ∈ (readFactors true [] t).map Prod.snd := List.mem_map.2 ⟨f, h, rfl⟩
    rw [readFactors_names] at this
    obtain ⟨f', h1, h2⟩ := List.mem_map.1 this
    exact ⟨f', h1, h2⟩

theorem readFactors_dens (den : Bool) (cur s : Str) :
    ((readFactors den cur s).filter fun f => f.1).length = (if den then 1 else 0) + s.count '/' := by
  induction s generalizing den cur with
  | nil => cases den <;> simp [readFactors]
  | cons c s ih =>
    rw [readFactors]
    split
    · next h => subst h; cases den <;> simp [ih]; omega
    · split
      · next h => subst h; cases den <;> simp [ih] <;> omega
      · next h => rw [ih, List.count_cons_of_ne h]

theorem readFactors_length (den : Bool) (cur s : Str) :
    (readFactors den cur s).length = 1 + s.count '/' + s.count '*' := by
  induction s generalizing den cur with
  | nil => simp [readFactors]
  | cons c s ih =>
    rw [readFactors]
    split
    · next h => subst h; simp [ih]; omega
    · split
      · next h => subst h; simp [ih]; omega
      · next h1 h2 => rw [ih, List.count_cons_of_ne h2, List.count_cons_of_ne h1]

theorem factors_simple {u : Str} (h : SimpleName u) : factors u = [(false, u)] := by
  unfold factors; rw [readFactors_simple h.2 h.1]; rfl

theorem factor_simple {u : Str} {f : Factor} (h : f ∈ factors u) : SimpleName f.2 :=
  mem_readFactors (by simp [SimpleName]) h

theorem mem_lstrip_or {cs : List Char} {s : Str} {c : Char} (h : c ∈ s) : c ∈ cs ∨ c ∈ Py.lstrip cs s := by
  induction s with
  | nil => cases h
  | cons x xs ih =>
    rw [Py.lstrip]
    split
    · next hx =>
      rcases List.mem_cons.1 h with rfl | h
      · exact Or.inl hx
      · exact ih h
    · exact Or.inr h

theorem mem_of_strip {s : Str} {c : Char} (h : c ∈ s) : c ∈ Py.wsChars ∨ c ∈ Py.stripWs s := by
  unfold Py.stripWs Py.strip Py.rstrip
  rcases mem_lstrip_or (cs := Py.wsChars) h with h | h
  · exact Or.inl h
  · rcases mem_lstrip_or (cs := Py.wsChars) (List.mem_reverse.2 h) with h | h
    · exact Or.inl h
    · exact Or.inr (List.mem_reverse.2 h)

theorem simple_of_strip {s : Str} (h : SimpleName (Py.stripWs s)) : SimpleName s := by
  refine ⟨fun hc => ?_, fun hc => ?_⟩ <;> rcases mem_of_strip hc with h' | h'
  · revert h'; decide
  · exact h.1 h'
  · revert h'; decide
  · exact h.2 h'

theorem factors_two {a b : Str} (ha : SimpleName a) (hb : SimpleName b) :
    factors (a ++ '/' :: b) = [(false, a), (true, b)] := by
  rw [factors_slash, factors_simple ha, readFactors_simple hb.2 hb.1]; rfl

/-! ### forms -/

namespace Spec.Measures
variable {κ : Type} {M : Measures κ}

theorem HasForm.kind {u : Str} {τ : List (Bool × κ)} (h : M.HasForm u τ) {f : Factor} (hf : f ∈ factors u) :
    ∃ k, M.kind f.2 = some k ∧ (f.1, k) ∈ τ := by
  have : (f.1, M.kind f.2) ∈ (factors u).map fun f => (f.1, M.kind f.2) := List.mem_map.2 ⟨f, hf, rfl⟩
  obtain ⟨p, hp, e⟩ := List.mem_map.1 (h.mem_iff.1 this)
  simp only [Prod.mk.injEq] at e
  exact ⟨p.2, e.2.symm, by rw [← e.1]; exact hp⟩

theorem HasForm.factor {u : Str} {τ : List (Bool × κ)} (h : M.HasForm u τ) {p : Bool × κ} (hp : p ∈ τ) :
    ∃ f ∈ factors u, f.1 = p.1 ∧ M.kind f.2 = some p.2 := by
  have : (p.1, some p.2) ∈ τ.map fun p => (p.1, some p.2) := List.mem_map.2 ⟨p, hp, rfl⟩
  obtain ⟨f, hf, e⟩ := List.mem_map.1 (h.mem_iff.2 this)
  simp only [Prod.mk.injEq] at e
  exact ⟨f, hf, e.1, e.2⟩

theorem HasForm.length {u : Str} {τ : List (Bool × κ)} (h : M.HasForm u τ) : (factors u).length = τ.length := by
  have := h.length_eq
  simpa using this

theorem HasForm.dens {u : Str} {τ : List (Bool × κ)} (h : M.HasForm u τ) :
    ((factors u).filter fun f => f.1).length = (τ.filter fun p => p.1).length := by
  have := (h.filter fun p => p.1).length_eq
  rw [List.filter_map, List.filter_map, List.length_map, List.length_map] at this
  exact this

theorem hasForm_simple {u : Str} (hu : SimpleName u) {τ : List (Bool × κ)} :
    M.HasForm u τ ↔ ∃ k, M.kind u = some k ∧ τ = [(false, k)] := by
  unfold HasForm
  rw [factors_simple hu]
  constructor
  · intro h
    rw [List.map_cons, List.map_nil, List.singleton_perm] at h
    match τ, h with
    | [], h => cases h
    | [(b, k)], h =>
      simp only [List.map_cons, List.map_nil, List.cons.injEq, Prod.mk.injEq, and_true] at h
      exact ⟨k, h.2, by rw [h.1]⟩
    | _ :: _ :: _, h => simp at h
  · rintro ⟨k, h, rfl⟩
    simp [h]

theorem covers_simple {u : Str} (hu : SimpleName u) : M.Covers u ↔ ∃ k, M.kind u = some k ∧ M.Alone k := by
  unfold Covers
  constructor
  · rintro ⟨τ, h1, h2⟩
    obtain ⟨k, hk, rfl⟩ := (hasForm_simple hu).1 h2
    exact ⟨k, hk, h1⟩
  · rintro ⟨k, hk, h⟩
    exact ⟨_, h, (hasForm_simple hu).2 ⟨k, hk, rfl⟩⟩

theorem Covers.kind {u : Str} (h : M.Covers u) {f : Factor} (hf : f ∈ factors u) : (M.kind f.2).isSome = true := by
  obtain ⟨τ, _, h⟩ := h
  obtain ⟨k, hk, _⟩ := h.kind hf
  rw [hk]; rfl

theorem sizeOf_covers {u : Str} (h : M.Covers u) : M.sizeOf u = ((factors u).map M.factorSize).prod := by
  unfold sizeOf
  rw [if_pos fun f hf => h.kind hf]

theorem sizeOf_simple {u : Str} (h : SimpleName u) : M.sizeOf u = M.size u := by
  unfold sizeOf
  rw [factors_simple h]
  split
  · simp [factorSize]
  · rfl

/-- the unit is to be converted to units with the same mark -/
def GoodUnits (M : Measures κ) (a b : Str) : Prop :=
  (M.Covers a ∧ M.Covers b) ∨
    ∃ k, ¬ M.Alone k ∧ SimpleName a ∧ SimpleName b ∧ M.kind a = some k ∧ M.kind b = some k

/-- what the network reaches -/
def NearUnits (M : Measures κ) (a b : Str) : Prop :=
  (M.Covers a ∧ M.Covers b) ∨ ∃ k, ¬ M.Alone k ∧ M.kind a = some k ∧ M.kind b = some k

/-- each form has a kind that `b` lacks -/
def Lacks (M : Measures κ) (b : Str) : Prop :=
  ∀ τ ∈ M.forms, ∃ p ∈ τ, ∀ t ∈ factors b, M.kind (Py.stripWs t.2) ≠ some p.2

/-- what is never converted -/
def BadUnits (M : Measures κ) (d : Dict) (a b : Str) : Prop :=
  M.GoodUnits a a ∧ ((SimpleName a ∧ SimpleName b ∧ ¬ M.GoodUnits a b) ∨
    (M.Covers a ∧ isPair b = true ∧ Py.lower b ∉ d.dimensionless ∧ M.Lacks b))

variable {g : Net} {d : Dict} {fvf : Option Rat}

theorem Fits.covers_kind (F : M.Fits g d fvf) {u : Str} (h : M.Covers u) {k : κ} (hk : M.kind u = some k) :
    SimpleName u ∧ M.Alone k := by
  by_cases hs : SimpleName u
  · obtain ⟨k', h1, h2⟩ := (covers_simple hs).1 h
    rw [hk] at h1
    cases h1
    exact ⟨hs, h2⟩
  · exfalso
    have hne : factors u ≠ [] := by
      intro e
      have := readFactors_length false [] u
      unfold factors at e
      rw [e] at this
      simp at this
      omega
    obtain ⟨f, hf⟩ := List.exists_mem_of_ne_nil _ hne
    have h1 := F.whole u k hk hs f hf
    obtain ⟨k', hk'⟩ := Option.isSome_iff_exists.1 (h.kind hf)
    rw [(F.name _ _ hk').2.1, hk'] at h1
    cases h1

theorem Fits.same_kind (F : M.Fits g d fvf) {a b : Str} (ha : SimpleName a) (hb : SimpleName b) :
    M.GoodUnits a b ↔ ∃ k, M.kind a = some k ∧ M.kind b = some k := by
  constructor
  · rintro (⟨h1, h2⟩ | ⟨k, _, _, _, h1, h2⟩)
    · obtain ⟨k, hk, hk'⟩ := (covers_simple ha).1 h1
      obtain ⟨l, hl, hl'⟩ := (covers_simple hb).1 h2
      exact ⟨k, hk, by rw [hl, F.forms.alone k l hk' hl']⟩
    · exact ⟨k, h1, h2⟩
  · rintro ⟨k, h1, h2⟩
    by_cases hk : M.Alone k
    · exact Or.inl ⟨(covers_simple ha).2 ⟨k, h1, hk⟩, (covers_simple hb).2 ⟨k, h2, hk⟩⟩
    · exact Or.inr ⟨k, hk, ha, hb, h1, h2⟩

theorem good_kind {a : Str} (h : M.GoodUnits a a) {f : Factor} (hf : f ∈ factors a) :
    ∃ k, M.kind f.2 = some k := by
  rcases h with ⟨h, _⟩ | ⟨k, _, hs, _, hk, _⟩
  · exact Option.isSome_iff_exists.1 (h.kind hf)
  · rw [factors_simple hs, List.mem_singleton] at hf
    subst hf
    exact ⟨k, hk⟩

theorem Fits.ord (F : M.Fits g d fvf) {a b : Str} (h : M.GoodUnits a b) : Ordinary d a ∧ Ordinary d b := by
  rcases h with ⟨h1, h2⟩ | ⟨k, _, _, _, h1, h2⟩
  · exact ⟨F.ordinary a (Or.inl h1), F.ordinary b (Or.inl h2)⟩
  · exact ⟨F.ordinary a (Or.inr (by rw [h1]; rfl)), F.ordinary b (Or.inr (by rw [h2]; rfl))⟩

/-- a ratio of the quantity has two factors -/
theorem Fits.ratio (F : M.Fits g d fvf) {a x y : Str} (h : M.Covers a) (hr : ratioParts a = some (x, y)) :
    SimpleName x ∧ SimpleName y ∧ a = x ++ '/' :: y ∧ ∃ j k, M.kind x = some j ∧ M.kind y = some k ∧ j ≠ k ∧
      ∃ τ ∈ M.forms, M.HasForm a τ ∧ τ.Perm [(false, j), (true, k)] := by
  obtain ⟨τ, ht, hf⟩ := h
  obtain ⟨e, hx, hy⟩ := ratioParts_slash hr
  have h1 : a.count '/' = 1 := by
    rw [e, List.count_append, List.count_cons_self, List.count_eq_zero_of_not_mem hx, List.count_eq_zero_of_not_mem hy]
  have h2 := readFactors_dens false [] a
  have h3 : (τ.filter fun p => p.1).length = 1 := by
    rw [← hf.dens]; unfold factors; rw [h2, h1]; rfl
  have h4 := F.forms.ratio τ ht h3
  have h5 := readFactors_length false [] a
  have h6 : a.count '*' = 0 := by
    have := hf.length
    unfold factors at this
    omega
  have h7 : '*' ∉ a := List.count_eq_zero.1 h6
  have sx : SimpleName x := ⟨hx, fun h => h7 (by rw [e]; simp [h])⟩
  have sy : SimpleName y := ⟨hy, fun h => h7 (by rw [e]; simp [h])⟩
  refine ⟨sx, sy, e, ?_⟩
  have hfac : factors a = [(false, x), (true, y)] := by rw [e]; exact factors_two sx sy
  obtain ⟨j, hj, hj'⟩ := hf.kind (f := (false, x)) (by rw [hfac]; simp)
  obtain ⟨k, hk, hk'⟩ := hf.kind (f := (true, y)) (by rw [hfac]; simp)
  refine ⟨j, k, hj, hk, ?_, τ, ht, hf, ?_⟩
  · rintro rfl
    exact F.forms.reduced τ ht j hj' hk'
  · have hp := hf
    unfold HasForm at hp
    rw [hfac] at hp
    simp only [List.map_cons, List.map_nil] at hp
    rw [hj, hk] at hp
    have h8 : ([(false, j), (true, k)].map fun p : Bool × κ => (p.1, some p.2)).Perm (τ.map fun p => (p.1, some p.2)) := hp
    have inj : Function.Injective fun p : Bool × κ => (p.1, some p.2) := by
      rintro ⟨a, b⟩ ⟨c, e⟩ h
      simp only [Prod.mk.injEq, Option.some.injEq] at h
      simp [h]
    exact ((List.map_perm_map_iff inj).1 h8).symm

/-! ### matching factors -/

theorem matching_mem {Good : Str → Str → Prop} {size : Str → Rat} {fs ts : List Factor} {ks : List Rat}
    (h : Matching Good size fs ts ks) {f : Factor} (hf : f ∈ fs) : ∃ t ∈ ts, Good f.2 t.2 := by
  induction h with
  | nil => cases hf
  | @cons f' t fs ts rest k ks hp hg _ _ _ ih =>
    rcases List.mem_cons.1 hf with rfl | hf
    · exact ⟨t, hp.symm.subset List.mem_cons_self, hg⟩
    · obtain ⟨t', h1, h2⟩ := ih hf
      exact ⟨t', hp.symm.subset (List.mem_cons_of_mem _ h1), h2⟩

theorem matching_prod {Good : Str → Str → Prop} {size : Str → Rat} {fs ts : List Factor} {ks : List Rat}
    (h : Matching Good size fs ts ks) (hl : fs.length = ts.length)
    (hs : ∀ f ∈ fs, ∀ t ∈ ts, Good f.2 t.2 → f.1 = t.1) (hz : ∀ t ∈ ts, size t.2 ≠ 0) :
    ks.prod * (ts.map fun f => if f.1 then 1 / size f.2 else size f.2).prod =
      (fs.map fun f => if f.1 then 1 / size f.2 else size f.2).prod := by
  induction h with
  | nil ts =>
    have : ts = [] := List.length_eq_zero_iff.1 hl.symm
    subst this
    simp
  | @cons f t fs ts rest k ks hp hg hk hk0 _ ih =>
    have hl' : fs.length = rest.length := by
      have := hp.length_eq
      simp only [List.length_cons] at hl this
      omega
    have hrest := fun t' (h : t' ∈ rest) => hp.symm.subset (List.mem_cons_of_mem _ h)
    have ih := ih hl' (fun f' hf' t' ht' => hs f' (List.mem_cons_of_mem _ hf') t' (hrest t' ht'))
      fun t' ht' => hz t' (hrest t' ht')
    have ht := hz t (hp.symm.subset List.mem_cons_self)
    have hsg := hs f List.mem_cons_self t (hp.symm.subset List.mem_cons_self) hg
    rw [(hp.map _).prod_eq]
    simp only [List.map_cons, List.prod_cons]
    rw [← ih, ← hsg, Bool.or_self, ← hk]
    cases hf : f.1 with
    | false => simp; ring
    | true =>
      rw [hsg, Bool.or_self] at hk0
      have := hk0 (by rw [← hsg]; exact hf)
      simp only [if_true]
      field_simp

/-! ### the conditions hold -/

theorem Fits.typed (F : M.Fits g d fvf) :
    Typed g d fvf M.NearUnits M.GoodUnits (M.BadUnits d) M.sizeOf where
  symm := by
    rintro a b (⟨h1, h2⟩ | ⟨k, h, h1, h2, h3, h4⟩)
    · exact Or.inl ⟨h2, h1⟩
    · exact Or.inr ⟨k, h, h2, h1, h4, h3⟩
  trans := by
    rintro a b c (⟨h1, h2⟩ | ⟨k, h, h1, h2, h3, h4⟩) (⟨g1, g2⟩ | ⟨k', h', g1, g2, g3, g4⟩)
    · exact Or.inl ⟨h1, g2⟩
    · exact absurd (F.covers_kind h2 g3).2 h'
    · exact absurd (F.covers_kind g1 h4).2 h
    · rw [h4] at g3
      cases g3
      exact Or.inr ⟨k, h, h1, g2, h3, g4⟩
  known := fun h => h.1
  apart := by
    rintro a b ⟨_, ⟨ha, hb, hn⟩ | ⟨ha, hb, _, hl⟩⟩ (⟨h1, h2⟩ | ⟨k, h, h1, h2⟩)
    · exact hn (Or.inl ⟨h1, h2⟩)
    · exact hn (Or.inr ⟨k, h, ha, hb, h1, h2⟩)
    · obtain ⟨τ, ht, hf⟩ := h2
      obtain ⟨p, hp, hp'⟩ := hl τ ht
      obtain ⟨t, h3, _, h4⟩ := hf.factor hp
      exact hp' t h3 (by rw [(F.name _ _ h4).2.1]; exact h4)
    · exact h (F.covers_kind ha h1).2
  near := by
    rintro a (⟨h1, h2⟩ | ⟨k, h, _, _, h1, h2⟩)
    · exact Or.inl ⟨h1, h2⟩
    · exact Or.inr ⟨k, h, h1, h2⟩
  left := by
    rintro a b c hac ⟨_, ⟨_, hb, _⟩ | ⟨ha, hb, h1, h2⟩⟩ hp
    · rw [simple_iff_not_isPair.1 hb] at hp; cases hp
    · rcases hac with ⟨_, h4⟩ | ⟨k, h, _, _, h3, _⟩
      · exact ⟨Or.inl ⟨h4, h4⟩, Or.inr ⟨h4, hb, h1, h2⟩⟩
      · exact absurd (F.covers_kind ha h3).2 h
  pair := by
    rintro a b ⟨_, ⟨ha, _, _⟩ | ⟨_, hb, _⟩⟩ hp
    · rw [simple_iff_not_isPair.1 ha] at hp; cases hp
    · exact hb
  edge := by
    rintro a n m f _ (⟨h1, h2⟩ | ⟨k, h, h1, h2⟩) hd
    · obtain ⟨h3, h4⟩ := F.edge n m f hd h2
      exact ⟨Or.inl ⟨h1, h3⟩, h4⟩
    · obtain ⟨h3, h4⟩ := F.edgeKind n m f k hd h2 h
      exact ⟨Or.inr ⟨k, h, h1, h3⟩, h4⟩
  child := by
    rintro a b u c hab hne hu (h | ⟨k, h, h1, h2⟩)
    · exact Or.inl h
    · exfalso
      have hcov : M.Covers u := by
        rcases hab with hg | ⟨_, ⟨ha, hb, _⟩ | ⟨ha, _⟩⟩
        · rcases hg with ⟨g1, g2⟩ | ⟨_, _, g1, g2, _⟩
          · rcases hu with rfl | ⟨rfl, _⟩
            exacts [g1, g2]
          · rw [simple_iff_not_isPair.1 g1, simple_iff_not_isPair.1 g2] at hne
            exact absurd rfl hne
        · rw [simple_iff_not_isPair.1 ha, simple_iff_not_isPair.1 hb] at hne
          exact absurd rfl hne
        · rcases hu with rfl | ⟨rfl, hg⟩
          · exact ha
          · rcases hg with ⟨_, g2⟩ | ⟨k', hk', _, _, g3, _⟩
            · exact g2
            · exact absurd (F.covers_kind ha g3).2 hk'
      exact h (F.covers_kind hcov h1).2
  rules := by
    intro a b hab hne
    have haa : M.GoodUnits a a := by
      rcases hab with h | h
      · rcases h with ⟨h1, _⟩ | ⟨k, h, h1, _, h3, _⟩
        · exact Or.inl ⟨h1, h1⟩
        · exact Or.inr ⟨k, h, h1, h1, h3, h3⟩
      · exact h.1
    have oa := (F.ord haa).1
    have cov : ∀ x y, ratioParts a = some (x, y) → M.Covers a := by
      intro x y h
      rcases haa with ⟨h1, _⟩ | ⟨_, _, hs, _⟩
      · exact h1
      · exact absurd hs (ratioParts_not_simple (by rw [h]; rfl))
    refine ⟨?_, ?_, ?_⟩
    · intro g'
      unfold quick1
      rw [if_neg hne, if_neg (fun h => oa.date h.1), if_neg (fun h => oa.dimensionless h.1),
        if_neg (fun h => oa.percentage h.1), if_neg (fun h => oa.dimensionless h.1)]
    · unfold tempParts
      split
      · next t1 d1 t2 d2 h1 _ =>
        obtain ⟨_, _, _, j, _, hj, _⟩ := F.ratio (cov _ _ h1) h1
        rw [if_neg (fun h => (F.name _ _ hj).2.2.2 h.1)]
      · rfl
    · unfold quick2
      rw [if_neg (fun h => oa.dimensionless h.1)]
      have hself : ¬ (Py.lower b ∈ d.dimensionless ∧ selfRatio a = true) := by
        rintro ⟨h1, h2⟩
        rcases hab with h | ⟨_, ⟨ha, _⟩ | ⟨_, _, h, _⟩⟩
        · exact (F.ord h).2.dimensionless h1
        · rw [selfRatio_noSlash ha.1] at h2; cases h2
        · exact h h1
      rw [if_neg hself]
      split
      · next x y z t h1 h2 =>
        rw [if_neg]
        rintro ⟨e1, e2⟩
        obtain ⟨sx, sy, _, j, k, hj, hk, hjk, τ, ht, _, hp⟩ := F.ratio (cov _ _ h1) h1
        rw [(F.name _ _ hj).2.1] at e1
        rw [(F.name _ _ hk).2.1] at e2
        have sz : SimpleName z := simple_of_strip (by rw [← e2]; exact sy)
        have st : SimpleName t := simple_of_strip (by rw [← e1]; exact sx)
        have hfb : factors b = [(false, z), (true, t)] := by
          rw [(ratioParts_slash h2).1]; exact factors_two sz st
        rcases hab with (⟨_, hb⟩ | ⟨_, _, hs, _⟩) | ⟨_, ⟨hs, _⟩ | ⟨_, _, _, hl⟩⟩
        · obtain ⟨_, _, _, j', k', hj', hk', _, τ', ht', _, hp'⟩ := F.ratio hb h2
          rw [(F.name _ _ hk').2.1] at e1
          rw [(F.name _ _ hj').2.1] at e2
          subst e1 e2
          rw [hj] at hk'; cases hk'
          rw [hk] at hj'; cases hj'
          by_cases hτ : τ = τ'
          · subst hτ
            have : (false, j) ∈ τ := hp.symm.subset (by simp)
            have := hp'.subset this
            simp at this
            exact hjk this
          · obtain ⟨p, h3, h4⟩ := F.forms.apart τ ht τ' ht' hτ
            have h5 := hp.subset h3
            simp only [List.mem_cons, List.not_mem_nil, or_false] at h5
            rcases h5 with rfl | rfl
            · exact h4 (true, j) (hp'.symm.subset (by simp)) rfl
            · exact h4 (false, k) (hp'.symm.subset (by simp)) rfl
        · exact ratioParts_not_simple (by rw [h1]; rfl) hs
        · exact ratioParts_not_simple (by rw [h1]; rfl) hs
        · obtain ⟨p, h3, h4⟩ := hl τ ht
          rw [hfb] at h4
          have h5 := hp.subset h3
          simp only [List.mem_cons, List.not_mem_nil, or_false] at h5
          rcases h5 with rfl | rfl
          · exact h4 (true, t) (by simp) (by dsimp only; rw [← e1]; exact hj)
          · exact h4 (false, z) (by simp) (by dsimp only; rw [← e2]; exact hk)
      · rfl
  parts := by
    intro a b hab f hf t ht
    have haa : M.GoodUnits a a := by
      rcases hab with h | h
      · rcases h with ⟨h1, _⟩ | ⟨k, h, h1, _, h3, _⟩
        · exact Or.inl ⟨h1, h1⟩
        · exact Or.inr ⟨k, h, h1, h1, h3, h3⟩
      · exact h.1
    have hf := (List.mem_filter.1 hf).1
    have ht := (List.mem_filter.1 ht).1
    obtain ⟨k, hk⟩ := good_kind haa hf
    by_cases h : M.GoodUnits f.2 t.2
    · exact Or.inl h
    · exact Or.inr ⟨(F.same_kind (factor_simple hf) (factor_simple hf)).2 ⟨k, hk, hk⟩,
        Or.inl ⟨factor_simple hf, factor_simple ht, h⟩⟩
  good := by
    intro a b ks hab hm hks
    have allNamed : ∀ u, M.GoodUnits u u → named u = factors u := by
      intro u hu
      unfold named
      rw [List.filter_eq_self]
      intro f hf
      obtain ⟨k, hk⟩ := good_kind hu hf
      exact decide_eq_true (F.name _ _ hk).1
    have size_eq : ∀ f : Factor, SimpleName f.2 → (if f.1 then 1 / M.sizeOf f.2 else M.sizeOf f.2) = M.factorSize f := by
      intro f hf
      rw [sizeOf_simple hf]; rfl
    rcases hab with ⟨ha, hb⟩ | ⟨k, h, sa, sb, ka, kb⟩
    · rw [allNamed a (Or.inl ⟨ha, ha⟩), allNamed b (Or.inl ⟨hb, hb⟩)] at hm
      rw [sizeOf_covers ha, sizeOf_covers hb]
      obtain ⟨τ, ht, hf⟩ := ha
      obtain ⟨τ', ht', hf'⟩ := hb
      have hττ : τ = τ' := by
        by_contra hne
        obtain ⟨p, hp, hp'⟩ := F.forms.apart τ ht τ' ht' hne
        obtain ⟨f, h1, _, h2⟩ := hf.factor hp
        obtain ⟨t, h3, h4⟩ := matching_mem hm h1
        obtain ⟨k, h5, h6⟩ := (F.same_kind (factor_simple h1) (factor_simple h3)).1 h4
        rw [h2] at h5
        cases h5
        obtain ⟨k', h7, h8⟩ := hf'.kind h3
        rw [h6] at h7
        cases h7
        exact hp' _ h8 rfl
      subst hττ
      have := matching_prod hm (by rw [hf.length, hf'.length]) ?_ ?_
      · rw [List.map_congr_left (g := M.factorSize) fun f h => size_eq f (factor_simple h),
          List.map_congr_left (g := M.factorSize) fun f h => size_eq f (factor_simple h)] at this
        exact this
      · intro f hff t htt hg
        obtain ⟨k, h5, h6⟩ := (F.same_kind (factor_simple hff) (factor_simple htt)).1 hg
        obtain ⟨k1, h7, h8⟩ := hf.kind hff
        obtain ⟨k2, h9, h10⟩ := hf'.kind htt
        rw [h5] at h7; cases h7
        rw [h6] at h9; cases h9
        cases hx : f.1 <;> cases hy : t.1 <;> rw [hx] at h8 <;> rw [hy] at h10 <;> try rfl
        · exact absurd h10 (F.forms.reduced τ ht _ h8)
        · exact absurd h8 (F.forms.reduced τ ht _ h10)
      · intro t htt
        obtain ⟨k2, h9, _⟩ := hf'.kind htt
        rw [sizeOf_simple (factor_simple htt)]
        exact (F.name _ _ h9).2.2.1
    · have ga : M.GoodUnits a a := Or.inr ⟨k, h, sa, sa, ka, ka⟩
      have gb : M.GoodUnits b b := Or.inr ⟨k, h, sb, sb, kb, kb⟩
      rw [allNamed a ga, allNamed b gb] at hm
      rw [factors_simple sa, factors_simple sb] at hm
      have := matching_prod hm rfl (by simp) (by
        intro t ht
        rw [List.mem_singleton] at ht
        subst ht
        rw [sizeOf_simple sb]
        exact (F.name _ _ kb).2.2.1)
      simpa using this
  bad := by
    rintro a b ks ⟨haa, ⟨sa, sb, hn⟩ | ⟨ha, _, _, hl⟩⟩ hm hks
    · unfold named at hm
      rw [factors_simple sa, factors_simple sb] at hm
      have hf : ((false, a) : Factor) ∈ ([(false, a)] : List Factor).filter fun f => decide (f.2 ≠ []) := by
        obtain ⟨k, hk⟩ := good_kind haa (f := (false, a)) (by rw [factors_simple sa]; simp)
        exact List.mem_filter.2 ⟨by simp, decide_eq_true (F.name _ _ hk).1⟩
      obtain ⟨t, ht, hg⟩ := matching_mem hm hf
      have := (List.mem_filter.1 ht).1
      rw [List.mem_singleton] at this
      subst this
      exact hn hg
    · obtain ⟨τ, ht, hf⟩ := ha
      obtain ⟨p, hp, hp'⟩ := hl τ ht
      obtain ⟨f, h1, _, h2⟩ := hf.factor hp
      obtain ⟨t, h3, h4⟩ := matching_mem hm
        (List.mem_filter.2 ⟨h1, decide_eq_true (F.name _ _ h2).1⟩ : f ∈ named a)
      have h3 := (List.mem_filter.1 h3).1
      obtain ⟨k, h5, h6⟩ := (F.same_kind (factor_simple h1) (factor_simple h3)).1 h4
      rw [h2] at h5
      cases h5
      exact hp' t h3 (by rw [(F.name _ _ h6).2.1]; exact h6)
  desc := by
    intro a c gens es has hes haa hr hc
    obtain ⟨⟨x, y⟩, hxy⟩ := Option.isSome_iff_exists.1 hr
    have ha : M.Covers a := by
      rcases haa with ⟨h1, _⟩ | ⟨_, _, hs, _⟩
      · exact h1
      · exact absurd hs (ratioParts_not_simple hr)
    obtain ⟨sx, sy, ea, j, k, hj, hk, hjk, τ, ht, hf, hp⟩ := F.ratio ha hxy
    -- names reached from a name of the quantity, or of a kind
    have covC : ∀ {n u v}, Within (strEdge es) n u v → M.Covers u → M.Covers v := by
      rintro n u v ⟨p, hp, _⟩ hu
      induction hp with
      | single => exact hu
      | @step u m v p e _ ih =>
        obtain ⟨l, hl, hv⟩ := e
        obtain ⟨n1, n2, ⟨f, hd⟩, rfl, rfl⟩ := hes _ _ _ hl hv
        refine ih ?_ (F.edge _ _ _ hd hu).1
        simp_all
        omega
    have covK : ∀ {n u v k}, Within (strEdge es) n u v → M.kind u = some k → ¬ M.Alone k → M.kind v = some k := by
      rintro n u v k ⟨p, hp, _⟩ hu hk
      induction hp with
      | single => exact hu
      | @step u m v p e _ ih =>
        obtain ⟨l, hl, hv⟩ := e
        obtain ⟨n1, n2, ⟨f, hd⟩, rfl, rfl⟩ := hes _ _ _ hl hv
        refine ih ?_ (F.edgeKind _ _ _ _ hd hu hk).1
        simp_all
        omega
    -- the kinds of the factors are not alone
    have notAlone : ∀ l, (∃ s, (s, l) ∈ τ) → ¬ M.Alone l := by
      rintro l ⟨s, hl⟩ hal
      have hne : ([(false, l)] : List (Bool × κ)) ≠ τ := by
        intro e
        have := hp.length_eq
        rw [← e] at this
        simp at this
      obtain ⟨p, h1, h2⟩ := F.forms.apart _ hal _ ht hne
      rw [List.mem_singleton] at h1
      subst h1
      exact h2 _ hl rfl
    have hj' : (false, j) ∈ τ := hp.symm.subset (by simp)
    have hk' : (true, k) ∈ τ := hp.symm.subset (by simp)
    have aj := notAlone j ⟨_, hj'⟩
    have ak := notAlone k ⟨_, hk'⟩
    -- descendants of a name
    have descS : ∀ {n : Nat} {u : Str} {gens : Int} {v : Str} {l : κ}, SimpleName u → M.kind u = some l → ¬ M.Alone l →
        v ∈ getDescendantsF es has n u gens true → M.kind v = some l := by
      intro n u gens v l hs hu hl hv
      cases n with
      | zero => simp [getDescendantsF] at hv; rw [hv]; exact hu
      | succ n =>
        rw [getDescendantsF] at hv
        split at hv
        · simp at hv; rw [hv]; exact hu
        · simp only [pairSplit_simple hs, ite_self, Py.mem_union] at hv
          rcases hv with hv | hv | hv
          · simp at hv; rw [hv]; exact hu
          · split at hv
            · exact covK (mem_rounds.1 hv) hu hl
            · cases hv
          · cases hv
    unfold getDescendants at hc
    rw [getDescendantsF] at hc
    have good_a : M.GoodUnits a a ∨ M.BadUnits d a a := Or.inl haa
    split at hc
    · simp at hc; rw [hc]; exact good_a
    · simp only [Py.mem_union] at hc
      rcases hc with hc | hc | hc
      · simp at hc; rw [hc]; exact good_a
      · split at hc
        · exact Or.inl (Or.inl ⟨ha, covC (mem_rounds.1 hc) ha⟩)
        · cases hc
      · have hps : pairSplit a = some (x, y) := by
          unfold ratioParts at hxy
          unfold pairSplit
          split at hxy
          · next x' y' hsp => rw [hsp]; exact hxy
          · cases hxy
        rw [hps] at hc
        simp only [if_true] at hc
        obtain ⟨hc, _⟩ := List.mem_filter.1 hc
        obtain ⟨n, hn, hc⟩ := List.mem_flatMap.1 hc
        obtain ⟨m, hm, rfl⟩ := List.mem_map.1 hc
        have kn : M.kind n = some j := by
          rcases (Py.mem_union).1 hn with hn | hn
          · simp at hn; rw [hn]; exact hj
          · exact descS sx hj aj hn
        have km : M.kind m = some k := by
          rcases (Py.mem_union).1 hm with hm | hm
          · simp at hm; rw [hm]; exact hk
          · exact descS sy hk ak hm
        by_cases hs : SimpleName n ∧ SimpleName m
        · refine Or.inl (Or.inl ⟨ha, τ, ht, ?_⟩)
          unfold HasForm
          rw [factors_two hs.1 hs.2]
          simp only [List.map_cons, List.map_nil, kn, km]
          exact (hp.map fun p => (p.1, some p.2)).symm
        · right
          refine ⟨haa, Or.inr ⟨ha, ?_, ?_, ?_⟩⟩
          · simp [isPair]
          · intro h
            exact F.dimensionless _ h (slash_mem_lower.2 (by simp))
          · -- one of the kinds is missing
            have miss : ∃ l l' : κ, (∃ s, (s, l) ∈ τ) ∧ (∃ s, (s, l') ∈ τ) ∧ l ≠ l' ∧
                ∀ t ∈ factors (n ++ '/' :: m), ∀ q, M.kind (Py.stripWs t.2) = some q → q = l := by
              by_cases hn : SimpleName n
              · have hm : ¬ SimpleName m := fun h => hs ⟨hn, h⟩
                refine ⟨j, k, ⟨_, hj'⟩, ⟨_, hk'⟩, hjk, ?_⟩
                intro t ht q hq
                rcases mem_factors_slash ht with ⟨f, hf, e⟩ | ⟨f, hf, e⟩
                · rw [factors_simple hn, List.mem_singleton] at hf
                  subst hf
                  rw [← e] at hq
                  dsimp only at hq
                  rw [(F.name _ _ kn).2.1, kn] at hq
                  cases hq
                  rfl
                · rw [← e, F.whole m k km hm f hf] at hq
                  cases hq
              · refine ⟨k, j, ⟨_, hk'⟩, ⟨_, hj'⟩, hjk.symm, ?_⟩
                intro t ht q hq
                rcases mem_factors_slash ht with ⟨f, hf, e⟩ | ⟨f, hf, e⟩
                · rw [← e, F.whole n j kn hn f hf] at hq
                  cases hq
                · by_cases hm : SimpleName m
                  · rw [factors_simple hm, List.mem_singleton] at hf
                    subst hf
                    rw [← e] at hq
                    dsimp only at hq
                    rw [(F.name _ _ km).2.1, km] at hq
                    cases hq
                    rfl
                  · rw [← e, F.whole m k km hm f hf] at hq
                    cases hq
            obtain ⟨l, l', ⟨s, hl⟩, ⟨s', hl'⟩, hll, hmiss⟩ := miss
            intro τ' ht'
            by_cases hτ : τ' = τ
            · subst hτ
              exact ⟨_, hl', fun t h e => hll (hmiss t h _ e).symm⟩
            · obtain ⟨p, h1, h2⟩ := F.forms.apart τ' ht' τ ht hτ
              exact ⟨p, h1, fun t h e => h2 _ hl (hmiss t h _ e).symm⟩

end Spec.Measures
end Unyts
