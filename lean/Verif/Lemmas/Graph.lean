import Verif.Spec.Graph

namespace Unyts.Spec

variable {α : Type _} {E : α → α → Prop}

theorem Chain.ne_nil {a b : α} {p : List α} (h : Chain E a b p) : p ≠ [] := by
  cases h <;> simp

theorem Chain.head {a b : α} {p : List α} (h : Chain E a b p) : p.head? = some a := by
  cases h <;> rfl

theorem Chain.head_mem {a b : α} {p : List α} (h : Chain E a b p) : a ∈ p := by
  cases h <;> simp

theorem Chain.last {a b : α} {p : List α} (h : Chain E a b p) : p.getLast? = some b := by
  induction h with
  | single a => rfl
  | step _ h ih =>
    cases h with
    | single => rfl
    | step _ _ => simpa [List.getLast?_cons_cons] using ih

theorem Chain.last_mem {a b : α} {p : List α} (h : Chain E a b p) : b ∈ p :=
  List.mem_of_getLast? h.last

theorem Chain.snoc {a b c : α} {p : List α} (h : Chain E a b p) (e : E b c) : Chain E a c (p ++ [c]) := by
  induction h with
  | single a => exact .step e (.single c)
  | step e' _ ih => exact .step e' (ih e)

theorem Chain.append {a b c : α} {p q : List α} (h : Chain E a b p) (h2 : Chain E b c (b :: q)) :
    Chain E a c (p ++ q) := by
  induction h with
  | single a => exact h2
  | step e _ ih => exact .step e (ih h2)

theorem Chain.eq_cons {a b : α} {p : List α} (h : Chain E a b p) : ∃ q, p = a :: q := by
  cases h with
  | single => exact ⟨[], rfl⟩
  | step _ _ => exact ⟨_, rfl⟩

theorem Chain.trans {a b c : α} {p q : List α} (h : Chain E a b p) (h2 : Chain E b c q) :
    ∃ r, Chain E a c r ∧ r.length + 1 = p.length + q.length := by
  obtain ⟨q', rfl⟩ := h2.eq_cons
  exact ⟨p ++ q', h.append h2, by simp; omega⟩

/-- split a chain at its last node -/
theorem Chain.unsnoc {a c : α} {p : List α} (h : Chain E a c p) :
    p = [a] ∧ a = c ∨ ∃ b q, Chain E a b q ∧ E b c ∧ p = q ++ [c] := by
  induction h with
  | single a => exact Or.inl ⟨rfl, rfl⟩
  | @step a b c p e h ih =>
    right
    rcases ih with ⟨rfl, rfl⟩ | ⟨b', q, hq, e', rfl⟩
    · exact ⟨a, [a], .single a, e, rfl⟩
    · exact ⟨b', a :: q, .step e hq, e', rfl⟩

/-- A chain of nodes from membership: split at a node of the chain. -/
theorem Chain.split {a b x : α} {p : List α} (h : Chain E a b p) (hx : x ∈ p) :
    ∃ p1 p2, Chain E a x p1 ∧ Chain E x b p2 ∧ p1.length + p2.length = p.length + 1 ∧
      (∀ y ∈ p1, y ∈ p) ∧ (∀ y ∈ p2, y ∈ p) := by
  induction h with
  | single a =>
    simp only [List.mem_singleton] at hx
    subst hx
    exact ⟨[x], [x], .single _, .single _, rfl, by simp, by simp⟩
  | @step a b c p e h ih =>
    rcases List.mem_cons.1 hx with rfl | hx
    · exact ⟨[x], x :: p, .single _, .step e h, by simp; omega, by simp, by simp⟩
    · obtain ⟨p1, p2, h1, h2, hl, hm1, hm2⟩ := ih hx
      refine ⟨a :: p1, p2, .step e h1, h2, by simp; omega, ?_, ?_⟩
      · intro y hy
        rcases List.mem_cons.1 hy with rfl | hy
        · simp
        · exact List.mem_cons_of_mem _ (hm1 y hy)
      · intro y hy
        exact List.mem_cons_of_mem _ (hm2 y hy)

/-- Every chain can be shortened to a path over a subset of its nodes. -/
theorem Chain.to_path {a b : α} {p : List α} (h : Chain E a b p) :
    ∃ q, IsPath E a b q ∧ q.length ≤ p.length ∧ ∀ y ∈ q, y ∈ p := by
  generalize hn : p.length = n
  induction n using Nat.strongRecOn generalizing a p with
  | _ n ih =>
    subst hn
    cases h with
    | single => exact ⟨[b], ⟨.single _, by simp⟩, by simp, by simp⟩
    | @step _ b' _ p e h =>
      by_cases ha : a ∈ p
      · obtain ⟨p1, p2, h1, h2, hl, _, hm2⟩ := h.split ha
        have hp1 : p1.length ≥ 1 := by
          cases p1 with
          | nil => exact absurd rfl h1.ne_nil
          | cons => simp
        obtain ⟨q, hq, hql, hqm⟩ := ih p2.length (by simp; omega) h2 rfl
        exact ⟨q, hq, by simp; omega, fun y hy => List.mem_cons_of_mem _ (hm2 y (hqm y hy))⟩
      · obtain ⟨q, hq, hql, hqm⟩ := ih p.length (by simp) h rfl
        refine ⟨a :: q, ⟨.step e hq.1, ?_⟩, by simp; omega, ?_⟩
        · exact List.nodup_cons.2 ⟨fun hm => ha (hqm _ hm), hq.2⟩
        · intro y hy
          rcases List.mem_cons.1 hy with rfl | hy
          · simp
          · exact List.mem_cons_of_mem _ (hqm y hy)

theorem Chain.mono {E' : α → α → Prop} (hE : ∀ a b, E a b → E' a b) {a b : α} {p : List α}
    (h : Chain E a b p) : Chain E' a b p := by
  induction h with
  | single a => exact .single a
  | step e _ ih => exact .step (hE _ _ e) ih

/-- A chain is a chain of any relation that holds for edges between its nodes. -/
theorem Chain.mono_on {E' : α → α → Prop} {a b : α} {p : List α}
    (h : Chain E a b p) (hE : ∀ a ∈ p, ∀ b, E a b → E' a b) : Chain E' a b p := by
  induction h with
  | single a => exact .single a
  | step e _ ih =>
    exact .step (hE _ (by simp) _ e) (ih (fun x hx => hE x (List.mem_cons_of_mem _ hx)))

theorem Chain.reverse (h2 : TwoWay E) {a b : α} {p : List α} (h : Chain E a b p) :
    Chain E b a p.reverse := by
  induction h with
  | single a => exact .single a
  | step e _ ih => simpa using ih.snoc (h2 _ _ e)

theorem Within.mono {n m : Nat} {a b : α} (h : Within E n a b) (hnm : n ≤ m) : Within E m a b := by
  obtain ⟨p, hp, hl⟩ := h
  exact ⟨p, hp, by omega⟩

theorem Within.refl (n : Nat) (a : α) : Within E n a a := ⟨[a], .single a, by simp⟩

theorem Within.symm (h2 : TwoWay E) {n : Nat} {a b : α} (h : Within E n a b) : Within E n b a := by
  obtain ⟨p, hp, hl⟩ := h
  exact ⟨p.reverse, hp.reverse h2, by simpa using hl⟩

theorem Within.trans {n m : Nat} {a b c : α} (h : Within E n a b) (h2 : Within E m b c) :
    Within E (n + m) a c := by
  obtain ⟨p, hp, hl⟩ := h
  obtain ⟨q, hq, hm⟩ := h2
  obtain ⟨r, hr, hrl⟩ := hp.trans hq
  exact ⟨r, hr, by omega⟩

theorem Within.zero {a b : α} : Within E 0 a b ↔ a = b := by
  constructor
  · rintro ⟨p, hp, hl⟩
    cases hp with
    | single => rfl
    | step e h =>
      cases h <;> simp at hl
  · rintro rfl; exact Within.refl _ _

theorem Within.succ {n : Nat} {a c : α} :
    Within E (n + 1) a c ↔ Within E n a c ∨ ∃ b, Within E n a b ∧ E b c := by
  constructor
  · rintro ⟨p, hp, hl⟩
    rcases hp.unsnoc with ⟨rfl, rfl⟩ | ⟨b, q, hq, e, rfl⟩
    · exact Or.inl (Within.refl _ _)
    · exact Or.inr ⟨b, ⟨q, hq, by simp at hl; omega⟩, e⟩
  · rintro (h | ⟨b, ⟨q, hq, hl⟩, e⟩)
    · exact h.mono (by omega)
    · exact ⟨q ++ [c], hq.snoc e, by simp; omega⟩

/-- midpoint of a chain -/
theorem Chain.midpoint {a b : α} {p : List α} (h : Chain E a b p) {n m : Nat} (hl : p.length ≤ n + m + 1) :
    ∃ x ∈ p, Within E n a x ∧ Within E m x b := by
  induction n generalizing a p with
  | zero => exact ⟨a, h.head_mem, Within.refl _ _, p, h, by omega⟩
  | succ n ih =>
    cases h with
    | single => exact ⟨b, by simp, Within.refl _ _, Within.refl _ _⟩
    | @step _ b' _ p e h =>
      obtain ⟨x, hx, ⟨q, hq, hql⟩, h2⟩ := ih h (by simp at hl; omega)
      exact ⟨x, List.mem_cons_of_mem _ hx, ⟨a :: q, .step e hq, by simp; omega⟩, h2⟩

theorem Reach.iff_within {a b : α} : Reach E a b ↔ ∃ n, Within E n a b := by
  constructor
  · rintro ⟨p, hp⟩; exact ⟨p.length, p, hp, by omega⟩
  · rintro ⟨n, p, hp, _⟩; exact ⟨p, hp⟩

theorem Reach.trans {a b c : α} (h : Reach E a b) (h2 : Reach E b c) : Reach E a c := by
  obtain ⟨p, hp⟩ := h
  obtain ⟨q, hq⟩ := h2
  obtain ⟨r, hr, _⟩ := hp.trans hq
  exact ⟨r, hr⟩

end Unyts.Spec
