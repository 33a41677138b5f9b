import Verif.Spec.DemoWorld
import Verif.Spec.Sizes

/- A small concrete network with velocities, used in the examples beside the theorems:
km <-> m, h <-> s, kph <-> km/h. -/
namespace Unyts.DemoSpeed
open Spec Demo

def km : UNode := ⟨0, s!!"km"⟩
def m : UNode := ⟨1, s!!"m"⟩
def h : UNode := ⟨2, s!!"h"⟩
def s : UNode := ⟨3, s!!"s"⟩
def kph : UNode := ⟨4, s!!"kph"⟩
def kmh : UNode := ⟨5, s!!"km/h"⟩

def net : Net where
  edges := [
    (km, [(m, times 1000)]),
    (m, [(km, times (1/1000))]),
    (h, [(s, times 3600)]),
    (s, [(h, times (1/3600))]),
    (kph, [(kmh, times 1)]),
    (kmh, [(kph, times 1)])]
  nextId := 6

theorem direct_cases {a b : UNode} {f : Fn} (hd : Direct net a b f) :
    (a = km ∧ b = m ∧ f = times 1000) ∨ (a = m ∧ b = km ∧ f = times (1/1000)) ∨
    (a = h ∧ b = s ∧ f = times 3600) ∨ (a = s ∧ b = h ∧ f = times (1/3600)) ∨
    (a = kph ∧ b = kmh ∧ f = times 1) ∨ (a = kmh ∧ b = kph ∧ f = times 1) := by
  obtain ⟨l, hl, hf⟩ := hd
  simp only [net, List.mem_cons, List.not_mem_nil, or_false, Prod.mk.injEq] at hl
  rcases hl with ⟨rfl, rfl⟩ | ⟨rfl, rfl⟩ | ⟨rfl, rfl⟩ | ⟨rfl, rfl⟩ | ⟨rfl, rfl⟩ | ⟨rfl, rfl⟩ <;>
    simp only [List.mem_cons, List.not_mem_nil, or_false, Prod.mk.injEq] at hf <;> simp [hf]

theorem wf : WF net where
  keys := by decide
  old := by decide
  closed := by
    intro a b f h
    rcases direct_cases h with h | h | h | h | h | h <;> obtain ⟨rfl, rfl, _⟩ := h <;> decide
  single := by
    intro a l hl
    simp only [net, List.mem_cons, List.not_mem_nil, or_false, Prod.mk.injEq] at hl
    rcases hl with ⟨rfl, rfl⟩ | ⟨rfl, rfl⟩ | ⟨rfl, rfl⟩ | ⟨rfl, rfl⟩ | ⟨rfl, rfl⟩ | ⟨rfl, rfl⟩ <;>
      simp only [List.map_cons, List.map_nil] <;> decide

/-- lengths (0) in metres, times (1) in seconds, velocities (2) in metres per second -/
def measures : Measures Nat where
  kind u := if u = s!!"km" then some 0 else if u = s!!"m" then some 0 else if u = s!!"h" then some 1
    else if u = s!!"s" then some 1 else if u = s!!"kph" then some 2 else none
  size u := if u = s!!"km" then 1000 else if u = s!!"h" then 3600 else if u = s!!"kph" then 5/18 else 1
  forms := [[(false, 2)], [(false, 0), (true, 1)]]

theorem kind_cases {u : Str} {k : Nat} (h : measures.kind u = some k) :
    (u = s!!"km" ∧ k = 0) ∨ (u = s!!"m" ∧ k = 0) ∨ (u = s!!"h" ∧ k = 1) ∨ (u = s!!"s" ∧ k = 1) ∨
      (u = s!!"kph" ∧ k = 2) := by
  unfold measures at h
  dsimp only at h
  split at h
  · next e => cases h; exact Or.inl ⟨e, rfl⟩
  split at h
  · next e => cases h; exact Or.inr (Or.inl ⟨e, rfl⟩)
  split at h
  · next e => cases h; exact Or.inr (Or.inr (Or.inl ⟨e, rfl⟩))
  split at h
  · next e => cases h; exact Or.inr (Or.inr (Or.inr (Or.inl ⟨e, rfl⟩)))
  split at h
  · next e => cases h; exact Or.inr (Or.inr (Or.inr (Or.inr ⟨e, rfl⟩)))
  · cases h

/-- covering is a finite test -/
theorem covers_of {u : Str} {τ : List (Bool × Nat)} (ht : τ ∈ measures.forms)
    (h : (((factors u).map fun f => (f.1, measures.kind f.2)).isPerm (τ.map fun p => (p.1, some p.2))) = true) :
    measures.Covers u := ⟨τ, ht, List.isPerm_iff.1 h⟩

theorem fits (fvf : Option Rat) : measures.Fits net {} fvf where
  forms := by
    constructor
    · intro τ ht k
      simp only [measures, List.mem_cons, List.not_mem_nil, or_false] at ht
      rcases ht with rfl | rfl <;> simp
      rintro rfl; decide
    · decide
    · decide
    · intro k k' h1 h2
      simp [Measures.Alone, measures] at h1 h2
      omega
  name := by
    intro u k h
    rcases kind_cases h with ⟨rfl, rfl⟩ | ⟨rfl, rfl⟩ | ⟨rfl, rfl⟩ | ⟨rfl, rfl⟩ | ⟨rfl, rfl⟩ <;> decide +kernel
  whole := by
    intro u k h hs
    exfalso
    apply hs
    unfold SimpleName
    rcases kind_cases h with ⟨rfl, rfl⟩ | ⟨rfl, rfl⟩ | ⟨rfl, rfl⟩ | ⟨rfl, rfl⟩ | ⟨rfl, rfl⟩ <;> decide
  ordinary := fun u _ => ordinary u
  dimensionless := by intro u h; cases h
  edge := by
    intro n b f hd hc
    have no : ∀ {u : Str} {k : Nat}, SimpleName u → measures.kind u = some k → k ≠ 2 → ¬ measures.Covers u := by
      rintro u k hs hk h2 ⟨τ, ht, hp⟩
      unfold Measures.HasForm factors at hp
      have : readFactors false [] u = [(false, u)] := by
        have key : ∀ (s cur : Str), SimpleName s → readFactors false cur s = [(false, cur ++ s)] := by
          intro s
          induction s with
          | nil => intro cur _; simp [readFactors]
          | cons c s ih =>
            intro cur hs
            unfold SimpleName at hs
            simp only [List.mem_cons, not_or] at hs
            rw [readFactors, if_neg (fun e => hs.2.1 e.symm), if_neg (fun e => hs.1.1 e.symm), ih _ ⟨hs.1.2, hs.2.2⟩]
            simp
        simpa using key u [] hs
      rw [this] at hp
      simp only [List.map_cons, List.map_nil, hk] at hp
      simp only [measures, List.mem_cons, List.not_mem_nil, or_false] at ht
      rcases ht with rfl | rfl
      · have := hp.subset List.mem_cons_self
        simp at this
        exact h2 this
      · simpa using hp.length_eq
    rcases direct_cases hd with h | h | h | h | h | h <;> obtain ⟨rfl, rfl, rfl⟩ := h
    · exact absurd hc (no (k := 0) (by unfold SimpleName; decide) (by decide) (by decide))
    · exact absurd hc (no (k := 0) (by unfold SimpleName; decide) (by decide) (by decide))
    · exact absurd hc (no (k := 1) (by unfold SimpleName; decide) (by decide) (by decide))
    · exact absurd hc (no (k := 1) (by unfold SimpleName; decide) (by decide) (by decide))
    · have e : measures.sizeOf kmh.name = measures.sizeOf kph.name := by decide +kernel
      refine ⟨covers_of (τ := [(false, 0), (true, 1)]) (by decide) (by decide), ?_⟩
      intro x y hf
      simp only [times, Except.ok.injEq] at hf
      subst hf
      rw [e]
      ring
    · have e : measures.sizeOf kmh.name = measures.sizeOf kph.name := by decide +kernel
      refine ⟨covers_of (τ := [(false, 2)]) (by decide) (by decide), ?_⟩
      intro x y hf
      simp only [times, Except.ok.injEq] at hf
      subst hf
      rw [e]
      ring
  edgeKind := by
    intro n b f k hd hk ha
    have s1 : measures.sizeOf km.name = 1000 := by decide +kernel
    have s2 : measures.sizeOf m.name = 1 := by decide +kernel
    have s3 : measures.sizeOf h.name = 3600 := by decide +kernel
    have s4 : measures.sizeOf s.name = 1 := by decide +kernel
    rcases direct_cases hd with h | h | h | h | h | h <;> obtain ⟨rfl, rfl, rfl⟩ := h
    · refine ⟨by rw [← hk]; decide, fun x y hf => ?_⟩
      simp only [times, Except.ok.injEq] at hf
      subst hf; rw [s1, s2]; ring
    · refine ⟨by rw [← hk]; decide, fun x y hf => ?_⟩
      simp only [times, Except.ok.injEq] at hf
      subst hf; rw [s1, s2]; ring
    · refine ⟨by rw [← hk]; decide, fun x y hf => ?_⟩
      simp only [times, Except.ok.injEq] at hf
      subst hf; rw [s3, s4]; ring
    · refine ⟨by rw [← hk]; decide, fun x y hf => ?_⟩
      simp only [times, Except.ok.injEq] at hf
      subst hf; rw [s3, s4]; ring
    · have : k = 2 := by
        have h2 : measures.kind kph.name = some 2 := by decide
        rw [h2] at hk
        cases hk
        rfl
      subst this
      exact absurd (by unfold Measures.Alone; decide) ha
    · exfalso
      have : measures.kind kmh.name = none := by decide
      rw [this] at hk
      cases hk

/-- the process that has loaded this network -/
def world : World := { net := net }

theorem fresh : Fresh world := ⟨wf, rfl, rfl, by unfold Ample; decide⟩

end Unyts.DemoSpeed
