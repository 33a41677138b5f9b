import Verif.Spec.TupleProducts
import Verif.Props.Formulas

/- C131: products and quotients with tuples of quantities. -/
namespace Unyts
open Spec Quantity

theorem eachLoop_ok (op : Item → PyM Lib Obj) (l : List Item) : ∀ (acc : List Item) (L : Lib) (res : List Item) (L' : Lib),
    eachLoop op l acc L = (.ok res, L') ↔ ∃ out, res = acc ++ out ∧ OnEach op L l out L' := by
  induction l with
  | nil =>
    intro acc L res L'
    simp only [eachLoop]
    constructor
    · intro h
      obtain ⟨rfl, rfl⟩ : acc = res ∧ L = L' := by simpa [pure] using h
      exact ⟨[], by simp, .nil _⟩
    · rintro ⟨out, rfl, h⟩
      cases h; simp [pure]
  | cons x r ih =>
    intro acc L res L'
    simp only [eachLoop]
    constructor
    · intro h
      obtain ⟨o, L1, h1, h⟩ := PyM.bind_ok h
      obtain ⟨i, L2, h2, h⟩ := PyM.bind_ok h
      obtain ⟨out, rfl, hout⟩ := (ih _ _ _ _).1 h
      rcases o with q | v | ⟨a, b⟩
      · obtain ⟨rfl, rfl⟩ : Item.qty q = i ∧ L1 = L2 := by simpa [entry, pure] using h2
        exact ⟨_, by simp, .qty h1 hout⟩
      · obtain ⟨rfl, rfl⟩ : Item.num v = i ∧ L1 = L2 := by simpa [entry, pure] using h2
        exact ⟨_, by simp, .num h1 hout⟩
      · simp [entry, PyM.raise] at h2
    · rintro ⟨out, rfl, h⟩
      cases h with
      | qty h1 h2 =>
        rw [PyM.run_bind_ok h1]
        show eachLoop op r (acc ++ [_]) _ = _
        exact (ih _ _ _ _).2 ⟨_, by simp, h2⟩
      | num h1 h2 =>
        rw [PyM.run_bind_ok h1]
        show eachLoop op r (acc ++ [_]) _ = _
        exact (ih _ _ _ _).2 ⟨_, by simp, h2⟩

theorem eachLoop_error (op : Item → PyM Lib Obj) (l : List Item) : ∀ (acc : List Item) (L L1 L2 : Lib) (out r : List Item)
    (x : Item) (e : PyErr), OnEach op L l out L1 → op x L1 = (.error e, L2) → eachLoop op (l ++ x :: r) acc L = (.error e, L2) := by
  induction l with
  | nil =>
    intro acc L L1 L2 out r x e h he
    cases h
    simp only [List.nil_append, eachLoop]
    exact PyM.run_bind_error he
  | cons y l ih =>
    intro acc L L1 L2 out r x e h he
    simp only [List.cons_append, eachLoop]
    cases h with
    | qty h1 h2 =>
      rw [PyM.run_bind_ok h1]
      exact ih _ _ _ _ _ _ _ _ h2 he
    | num h1 h2 =>
      rw [PyM.run_bind_ok h1]
      exact ih _ _ _ _ _ _ _ _ h2 he

theorem Spec.OnEach.length {op : Item → PyM Lib Obj} {L L' : Lib} {l out : List Item} (h : OnEach op L l out L') :
    out.length = l.length := by
  induction h with
  | nil => rfl
  | qty _ _ ih | num _ _ ih => simpa using ih

/-- C131. For every quantity, tuple and state: `p * l` and `l * p` are the tuple of the products of `p` and the entries, and
`p / l` the tuple of the quotients, in their order and as many; the first product or quotient that raises an error is the error of the
whole. -/
theorem C131_each (p : Quantity) (l : List Item) (L : Lib) :
    (∀ res L', (p.mulTuple l L = (.ok res, L') ↔ OnEach p.mulItem L l res L') ∧
      (p.rmulTuple l L = (.ok res, L') ↔ OnEach p.mulItem L l res L') ∧
      (p.divTuple l L = (.ok res, L') ↔ OnEach p.divItem L l res L')) ∧
    (∀ res L', p.mulTuple l L = (.ok res, L') ∨ p.divTuple l L = (.ok res, L') → res.length = l.length) ∧
    (∀ a x b out L1 e L2, l = a ++ x :: b →
      (OnEach p.mulItem L a out L1 → p.mulItem x L1 = (.error e, L2) → p.mulTuple l L = (.error e, L2)) ∧
      (OnEach p.divItem L a out L1 → p.divItem x L1 = (.error e, L2) → p.divTuple l L = (.error e, L2))) := by
  have key : ∀ (op : Item → PyM Lib Obj) res L', eachLoop op l [] L = (.ok res, L') ↔ OnEach op L l res L' := fun op res L' => by
    rw [eachLoop_ok]; simp
  refine ⟨fun res L' => ⟨key _ _ _, key _ _ _, key _ _ _⟩, fun res L' h => ?_, ?_⟩
  · rcases h with h | h
    · exact ((key _ _ _).1 h).length
    · exact ((key _ _ _).1 h).length
  · rintro a x b out L1 e L2 rfl
    exact ⟨fun h he => eachLoop_error _ _ _ _ _ _ _ _ _ _ h he, fun h he => eachLoop_error _ _ _ _ _ _ _ _ _ _ h he⟩

/-- C131 for shares of unlike quantities, in every state of the shipped library: a fraction or percentage times a tuple of quantities
of any classes is the tuple of their shares, each in its own class and unit. -/
theorem C131_shares {L : Lib} (h : ShippedClasses L) (qs : List Quantity) (hq : ∀ q ∈ qs, ¬ q.unitless = true ∧ Valid L q) (s : Share)
    (hs : s.Written) :
    ∃ p, s.run L = (.ok p, L) ∧ p.mulTuple (qs.map .qty) L = (.ok (scaled (s.number * ·) qs), L) ∧
      p.rmulTuple (qs.map .qty) L = (.ok (scaled (s.number * ·) qs), L) := by
  obtain ⟨-, hr⟩ := Share.result h s hs
  have key : OnEach (⟨shareKind s.unit, s.unit, s.number⟩ : Quantity).mulItem L (qs.map .qty) (scaled (s.number * ·) qs) L := by
    clear hr
    induction qs with
    | nil => exact .nil _
    | cons q r ih =>
      obtain ⟨p', e1, -, e2, -⟩ := C130_share h (hq q (by simp)).1 (hq q (by simp)).2 s hs
      rw [(Share.result h s hs).2] at e1
      obtain rfl : _ = p' := by simpa using e1
      exact .qty e2 (ih fun x hx => hq x (by simp [hx]))
  refine ⟨_, hr, ?_, ?_⟩ <;> exact (eachLoop_ok _ _ _ _ _ _).2 ⟨_, by simp, key⟩

/-- C131, the distributive law for sums of unlike quantities, in every state of the shipped library: the sum of quantities of different
classes is kept as a tuple, and a share of it is the sum of the shares. -/
theorem C131_distributes {L : Lib} (h : ShippedClasses L) (q q' : Quantity) (hq : ¬ q.unitless = true ∧ Valid L q)
    (hq' : ¬ q'.unitless = true ∧ Valid L q') (hk : q.kind ≠ q'.kind) (s : Share) (hs : s.Written) :
    ∃ p a b, s.run L = (.ok p, L) ∧ p.mul q L = (.ok (.qty a), L) ∧ p.mul q' L = (.ok (.qty b), L) ∧
      q.add q' L = (.ok (.pair q q'), L) ∧ a.add b L = (.ok (.pair a b), L) ∧
      p.mulTuple [.qty q, .qty q'] L = (.ok [.qty a, .qty b], L) := by
  obtain ⟨p, e, -, h1, -⟩ := C130_share h hq.1 hq.2 s hs
  obtain ⟨p', e', -, h2, -⟩ := C130_share h hq'.1 hq'.2 s hs
  obtain ⟨p'', e'', h3, -⟩ := C131_shares h [q, q'] (by simp [hq, hq']) s hs
  rw [e] at e' e''
  obtain rfl : p = p' := by simpa using e'
  obtain rfl : p = p'' := by simpa using e''
  have un : ∀ x y : Quantity, ¬ x.unitless = true → ¬ y.unitless = true → x.kind ≠ y.kind → x.add y L = (.ok (.pair x y), L) := by
    intro x y hx hy hxy
    have hx' : x.unitless = false := by simpa using hx
    have hy' : y.unitless = false := by simpa using hy
    have : x.kind ≠ .percentage := fun e => hx (by simp [unitless, e])
    unfold Quantity.add Quantity.addLike
    rw [if_neg (fun e => hxy e.symm)]
    simp [hx', hy', this, pure]
  exact ⟨p, _, _, e, h1, h2, un _ _ hq.1 hq'.1 hk, un _ _ (by simpa [unitless] using hq.1) (by simpa [unitless] using hq'.1) hk, h3⟩

/-- C131 for quotients, in every state of the shipped library: a quantity divided by a tuple of fractions and percentages is the tuple of
the quantities of which it is that share. -/
theorem C131_quotients {L : Lib} (h : ShippedClasses L) {q : Quantity} (hq : ¬ q.unitless = true) (hv : Valid L q) (ss : List Share)
    (ps : List Quantity) (hs : List.Forall₂ (fun s p => s.Written ∧ s.number ≠ 0 ∧ s.run L = (.ok p, L)) ss ps) :
    q.divTuple (ps.map .qty) L = (.ok (ss.map fun s => .qty { q with value := q.value / s.number }), L) ∧
      q.mulTuple (ps.map .qty) L = (.ok (ss.map fun s => .qty { q with value := q.value * s.number }), L) := by
  have key : OnEach q.divItem L (ps.map .qty) (ss.map fun s => .qty { q with value := q.value / s.number }) L ∧
      OnEach q.mulItem L (ps.map .qty) (ss.map fun s => .qty { q with value := q.value * s.number }) L := by
    induction hs with
    | nil => exact ⟨.nil _, .nil _⟩
    | cons h1 _ ih =>
      obtain ⟨hw, hz, hr⟩ := h1
      obtain ⟨p', e1, e2, -, e3⟩ := C130_share h hq hv _ hw
      rw [hr] at e1
      obtain rfl : _ = p' := by simpa using e1
      exact ⟨.qty (e3 hz) ih.1, .qty e2 ih.2⟩
  exact ⟨(eachLoop_ok _ _ _ _ _ _).2 ⟨_, by simp, key.1⟩, (eachLoop_ok _ _ _ _ _ _).2 ⟨_, by simp, key.2⟩⟩

/-- C131 for numbers: a quantity times a tuple of numbers, in every state, is the tuple of the multiples, in its class and unit. -/
theorem C131_numbers {L : Lib} {q : Quantity} (hv : Valid L q) (xs : List Rat) :
    q.mulTuple (xs.map .num) L = (.ok (xs.map fun x => .qty { q with value := q.value * x }), L) := by
  refine (eachLoop_ok _ _ _ _ _ _).2 ⟨_, (List.nil_append _).symm, ?_⟩
  induction xs with
  | nil => exact .nil _
  | cons x r ih =>
    refine .qty ?_ ih
    have c := fun v => construct_valid hv v
    have : q.mulNum x L = (.ok { q with value := q.value * x }, L) := by
      unfold mulNum
      by_cases hk : q.kind = .percentage
      · rw [if_pos hk, c, if_pos hk, mul_div_cancel_right₀ _ (by norm_num)]
      · rw [if_neg hk, c, if_neg hk]
    simp only [mulItem]
    rw [PyM.run_bind_ok this]; rfl

/-- C131: a tuple cannot be divided by a quantity or share; the error changes nothing. -/
theorem C131_not_divided (p : Quantity) (l : List Item) (L : Lib) :
    p.rdivTuple l L = (.error (if p.unitless then .typeError else .notImplemented), L) := by
  unfold rdivTuple; by_cases h : p.unitless = true <;> simp [h, PyM.raise]

/-- half of twelve miles and six hours -/
example : ∃ L p, ((Share.units 50 s!!"%").run L = (.ok p, L)) ∧
    p.mulTuple [.qty ⟨.std s!!"Length", s!!"mile", 12⟩, .qty ⟨.std s!!"Time", s!!"hour", 6⟩] L =
      (.ok [.qty ⟨.std s!!"Length", s!!"mile", 6⟩, .qty ⟨.std s!!"Time", s!!"hour", 3⟩], L) := by
  obtain ⟨L, h, -⟩ := classes_ex
  obtain ⟨n, hn, -⟩ := id h
  have v : ∀ k u, k ∈ [s!!"Length", s!!"Time"] → u ∈ [s!!"mile", s!!"hour"] → (∀ x, Unyts.Quantity.unitless ⟨.std k, u, x⟩ = false) := by
    intro k u _ _ x; rfl
  have v1 : Valid L ⟨.std s!!"Length", s!!"mile", 12⟩ := by
    obtain ⟨l, h1, h2⟩ := (hn.unsigned (u := s!!"mile") ⟨by decide, by decide⟩).2
      ⟨builtIn_mem (q := s!!"Length") (by decide +kernel) (by decide), by decide⟩
    show s!!"mile" ∈ L.names s!!"Length"
    unfold Lib.names; rw [h1]; exact h2
  have v2 : Valid L ⟨.std s!!"Time", s!!"hour", 6⟩ := by
    obtain ⟨l, h1, h2⟩ := (hn.unsigned (u := s!!"hour") ⟨by decide, by decide⟩).2
      ⟨builtIn_mem (q := s!!"Time") (by decide +kernel) (by decide), by decide⟩
    show s!!"hour" ∈ L.names s!!"Time"
    unfold Lib.names; rw [h1]; exact h2
  obtain ⟨p, e, e1, -⟩ := C131_shares h [⟨.std s!!"Length", s!!"mile", 12⟩, ⟨.std s!!"Time", s!!"hour", 6⟩] (by
    intro q hq
    simp only [List.mem_cons, List.not_mem_nil, or_false] at hq
    rcases hq with rfl | rfl
    · exact ⟨by simp [unitless], v1⟩
    · exact ⟨by simp [unitless], v2⟩) (.units 50 s!!"%") (by decide : _ ∈ _)
  refine ⟨L, p, e, ?_⟩
  have hn : (Share.units 50 s!!"%").number = 1 / 2 := by
    simp only [Share.number]; rw [if_pos (by decide)]; norm_num
  rw [hn] at e1
  simp only [scaled, List.map_cons, List.map_nil] at e1
  rw [e1]; norm_num

end Unyts
