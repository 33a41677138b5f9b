import Verif.Lemmas.ShippedLitre
import Mathlib.Tactic.FieldSimp
import Mathlib.Tactic.Ring

/- How far a chain of conversions of volumes can be off: the factors at the standard barrel are rounded. -/
namespace Unyts
open Spec
set_option maxRecDepth 1000000

abbrev stb : Str := s!!"standard barrel"

theorem sizes_there : ∃ k : Rat, k ≠ 0 ∧ readingOf s!!"standard cubic meter" = some ⟨1000 * k, 0, 0, false⟩ ∧
    readingOf stb = some ⟨barrel * k, 0, 0, false⟩ ∧
    readingOf s!!"standard cubic foot" = some ⟨cubicFoot * k, 0, 0, false⟩ := by
  have := fault_sizes
  generalize ((readingOf s!!"litre").map Reading.s).getD 0 = k at this
  simp only [Bool.and_eq_true, decide_eq_true_eq] at this
  obtain ⟨⟨⟨h1, h2⟩, h3⟩, h4⟩ := this
  exact ⟨k, h1, h2, h3, h4⟩

/-- one of the rounded factors -/
theorem Spec.ShippedNetwork.fault_step {n : Net} (h : ShippedNetwork n) {a b : Str} {f : Fn} (hd : DirectName n a b f)
    (la : labelOf a = some 3) (ua : isUk a = false) (hf : (a, b) ∈ shippedFaults) {fvf : Option Rat} {x y φ : Rat}
    (hxy : f fvf x = .ok y) :
    (b = stb ∧ ∃ E, (E = barrelIn ∨ E = 1 / barrelOut) ∧ shippedReading φ b y = E * shippedReading φ a x) ∨
    (a = stb ∧ ∃ E, (E = 1 / barrelIn ∨ E = barrelOut) ∧ shippedReading φ b y = E * shippedReading φ a x) := by
  obtain ⟨k, hk, r1, r2, r3⟩ := sizes_there
  obtain ⟨c, hc, rfl⟩ := h.shows.1 hd
  have only : ∀ {a b : Str} {c : Cv}, (a, b, c) ∈ faultDecls → a = stb ∨ b = stb →
      (a = s!!"standard cubic meter" ∧ b = stb ∧ c = .fn (.mul .x (.lit (3144907 / 500000)))) ∨
      (a = stb ∧ b = s!!"standard cubic foot" ∧ c = .fn (.mul .x (.lit (701823 / 125000)))) := by
    intro a b c hm hab
    have : (a, b, c) ∈ faultDecls.filter fun d => d.1 == stb || d.2.1 == stb :=
      List.mem_filter.2 ⟨hm, by simpa using hab⟩
    rw [fault_decls] at this
    simpa using this
  have here : a = stb ∨ b = stb := by
    have := fault_names _ hf la ua
    simp only [List.mem_cons, List.not_mem_nil, or_false, Prod.mk.injEq] at this
    rcases this with h | h | h | h
    · exact Or.inr h.2
    · exact Or.inl h.1
    · exact Or.inl h.1
    · exact Or.inr h.2
  have z : ∀ {s : Str} {v : Rat} {x : Rat}, readingOf s = some ⟨v, 0, 0, false⟩ → shippedReading φ s x = v * x := by
    intro s v x hs
    simp only [shippedReading, hs, Reading.at, Bool.false_eq_true, if_false, zpow_zero, mul_one, add_zero]
  rcases shown_fault hc hf with m | ⟨c', rfl, m⟩
  · rcases only m here with ⟨rfl, rfl, rfl⟩ | ⟨rfl, rfl, rfl⟩
    · refine Or.inl ⟨rfl, _, Or.inl rfl, ?_⟩
      simp only [Cv.eval, CExp.eval, bind, Except.bind, Except.ok.injEq] at hxy
      rw [z r1, z r2, ← hxy]
      simp only [barrelIn, barrel, cubicFoot, gallonUS, cubicInch]
      ring
    · refine Or.inr ⟨rfl, _, Or.inr rfl, ?_⟩
      simp only [Cv.eval, CExp.eval, bind, Except.bind, Except.ok.injEq] at hxy
      rw [z r2, z r3, ← hxy]
      simp only [barrelOut, barrel, cubicFoot, gallonUS, cubicInch]
      ring
  · rcases only m here.symm with ⟨rfl, rfl, rfl⟩ | ⟨rfl, rfl, rfl⟩
    · refine Or.inr ⟨rfl, _, Or.inl rfl, ?_⟩
      simp only [Cv.eval, CExp.eval, revFn, bind, Except.bind, pdiv] at hxy
      norm_num at hxy
      cases hxy
      rw [z r1, z r2]
      simp only [barrelIn, barrel, cubicFoot, gallonUS, cubicInch]
      ring
    · refine Or.inl ⟨rfl, _, Or.inr rfl, ?_⟩
      simp only [Cv.eval, CExp.eval, revFn, bind, Except.bind, pdiv] at hxy
      norm_num at hxy
      cases hxy
      rw [z r2, z r3]
      simp only [barrelOut, barrel, cubicFoot, gallonUS, cubicInch]
      ring

theorem avoids_barrel : ∀ {p : List Str}, (∀ s ∈ p, labelOf s = some 3 ∧ isUk s = false) → stb ∉ p → Avoids shippedFaults p
  | [], _, _ => trivial
  | [_], _, _ => trivial
  | a :: b :: p, hp, hs => by
    refine ⟨fun hf => ?_, avoids_barrel (fun s h => hp s (List.mem_cons_of_mem _ h)) fun h => hs (List.mem_cons_of_mem _ h)⟩
    have := fault_names _ hf (hp a (by simp)).1 (hp a (by simp)).2
    simp only [List.mem_cons, List.not_mem_nil, or_false, Prod.mk.injEq] at this
    simp only [List.mem_cons, not_or] at hs
    rcases this with h | h | h | h
    · exact hs.2.1 h.2.symm
    · exact hs.1 h.1.symm
    · exact hs.1 h.1.symm
    · exact hs.2.1 h.2.symm

/-- from the barrel on -/
theorem Spec.ShippedNetwork.from_barrel {n : Net} (h : ShippedNetwork n) {p : List Str} {f : Fn} (ha : AlongNames n (stb :: p) f)
    (hp : ∀ s ∈ stb :: p, labelOf s = some 3 ∧ isUk s = false) (hs : stb ∉ p) {fvf : Option Rat} (hφ : fvf ≠ some 0) {x y : Rat}
    (hxy : f fvf x = .ok y) {b : Str} (hb : (stb :: p).getLast? = some b) :
    ∃ E, (E = 1 ∨ E = 1 / barrelIn ∨ E = barrelOut) ∧
      shippedReading (fvfOr1 fvf) b y = E * shippedReading (fvfOr1 fvf) stb x := by
  generalize hq : stb :: p = q at ha
  cases ha with
  | single c =>
    cases hq
    simp only [List.getLast?_singleton, Option.some.injEq] at hb
    cases hxy
    exact ⟨1, Or.inl rfl, by rw [one_mul, hb]⟩
  | @step c e p' f k hd ha =>
    cases hq
    simp only [Except.bind] at hxy
    split at hxy
    · cases hxy
    · next z hz =>
      have h2 := h.along ha (avoids_barrel (fun s h => hp s (List.mem_cons_of_mem _ h)) hs) hφ hxy rfl
        (by rw [List.getLast?_cons_cons] at hb; exact hb)
      rw [h2]
      by_cases hf : (stb, e) ∈ shippedFaults
      · rcases h.fault_step hd (hp _ (by simp)).1 (hp _ (by simp)).2 hf hz (φ := fvfOr1 fvf) with ⟨h1, _⟩ | ⟨_, E, h1, h3⟩
        · exact absurd (by rw [h1]; simp) hs
        · exact ⟨E, Or.inr h1, h3⟩
      · exact ⟨1, Or.inl rfl, by rw [one_mul]; exact h.reads hd hf hφ hz⟩

/-- the readings at the ends of a chain without repetitions agree, up to the factors at the barrel -/
theorem Spec.ShippedNetwork.along_barrel {n : Net} (h : ShippedNetwork n) {p : List Str} {f : Fn} (ha : AlongNames n p f)
    (hp : ∀ s ∈ p, labelOf s = some 3 ∧ isUk s = false) (hn : p.Nodup) {fvf : Option Rat} (hφ : fvf ≠ some 0) {x y : Rat}
    (hxy : f fvf x = .ok y) {a b : Str} (h1 : p.head? = some a) (hb : p.getLast? = some b) :
    ∃ E F, (E = 1 ∨ E = barrelIn ∨ E = 1 / barrelOut) ∧ (F = 1 ∨ F = 1 / barrelIn ∨ F = barrelOut) ∧
      shippedReading (fvfOr1 fvf) b y = E * F * shippedReading (fvfOr1 fvf) a x := by
  induction ha generalizing x a with
  | single c =>
    simp only [List.head?_cons, Option.some.injEq, List.getLast?_singleton] at h1 hb
    subst h1; subst hb
    cases hxy
    exact ⟨1, 1, Or.inl rfl, Or.inl rfl, by ring⟩
  | @step c e p f k hd ha ih =>
    simp only [List.head?_cons, Option.some.injEq] at h1
    subst h1
    rw [List.nodup_cons] at hn
    by_cases hc : c = stb
    · subst hc
      obtain ⟨F, h2, h3⟩ := h.from_barrel (.step hd ha) hp hn.1 hφ hxy hb
      exact ⟨1, F, Or.inl rfl, h2, by rw [one_mul]; exact h3⟩
    · simp only [Except.bind] at hxy
      split at hxy
      · cases hxy
      · next z hz =>
        have hb' := hb
        rw [List.getLast?_cons_cons] at hb'
        have hp' : ∀ s ∈ e :: p, labelOf s = some 3 ∧ isUk s = false := fun s h => hp s (List.mem_cons_of_mem _ h)
        by_cases he : e = stb
        · subst he
          obtain ⟨F, h2, h3⟩ := h.from_barrel ha hp' (List.nodup_cons.1 hn.2).1 hφ hxy hb'
          by_cases hf : (c, stb) ∈ shippedFaults
          · rcases h.fault_step hd (hp _ (by simp)).1 (hp _ (by simp)).2 hf hz (φ := fvfOr1 fvf) with ⟨_, E, h4, h5⟩ | ⟨h4, _⟩
            · exact ⟨E, F, Or.inr h4, h2, by rw [h3, h5]; ring⟩
            · exact absurd h4 hc
          · exact ⟨1, F, Or.inl rfl, h2, by rw [h3, h.reads hd hf hφ hz]; ring⟩
        · have hf : (c, e) ∉ shippedFaults := by
            intro hf
            rcases h.fault_step hd (hp _ (by simp)).1 (hp _ (by simp)).2 hf hz (φ := 1) with ⟨h4, _⟩ | ⟨h4, _⟩
            · exact he h4
            · exact hc h4
          obtain ⟨E, F, h2, h3, h4⟩ := ih hp' hn.2 hxy rfl hb'
          exact ⟨E, F, h2, h3, by rw [h4, h.reads hd hf hφ hz]⟩

theorem barrel_bound {E F : Rat} (hE : E = 1 ∨ E = barrelIn ∨ E = 1 / barrelOut) (hF : F = 1 ∨ F = 1 / barrelIn ∨ F = barrelOut) :
    |E * F - 1| ≤ 7 / 10000000 := by
  have h1 : barrelIn = 31250016045633231 / 31250000000000000 := by simp only [barrelIn, barrel, gallonUS, cubicInch]; norm_num
  have h2 : barrelOut = 8421876 / 8421875 := by simp only [barrelOut, barrel, cubicFoot, gallonUS, cubicInch]; norm_num
  rw [h1, h2] at hE hF
  rw [abs_le]
  rcases hE with rfl | rfl | rfl <;> rcases hF with rfl | rfl | rfl <;> norm_num

/-- the readings at the ends of a chain of volumes agree to less than one part in a million -/
theorem Spec.ShippedNetwork.along_near {n : Net} (h : ShippedNetwork n) {p : List Str} {f : Fn} (ha : AlongNames n p f)
    (hp : ∀ s ∈ p, labelOf s = some 3 ∧ isUk s = false) (hn : p.Nodup) {fvf : Option Rat} (hφ : fvf ≠ some 0) {x y : Rat}
    (hxy : f fvf x = .ok y) {a b : Str} (h1 : p.head? = some a) (hb : p.getLast? = some b) :
    ∃ E, |E - 1| ≤ 7 / 10000000 ∧ shippedReading (fvfOr1 fvf) b y = E * shippedReading (fvfOr1 fvf) a x := by
  obtain ⟨E, F, h2, h3, h4⟩ := h.along_barrel ha hp hn hφ hxy h1 hb
  exact ⟨E * F, barrel_bound h2 h3, h4⟩

end Unyts
