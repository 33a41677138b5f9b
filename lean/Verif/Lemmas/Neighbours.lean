import Verif.Lemmas.NearTable
import Verif.Lemmas.LeanSigned
import Verif.Lemmas.ShippedTotal

/- Neighbours of some names in the shipped network, and what the slim search can meet one step around them. -/
namespace Unyts
open Spec
set_option maxRecDepth 1000000

def Near.find : Near → Nat → Option (List Str)
  | .leaf, _ => none
  | .node l k ns r, n => bif Nat.beq n k then some ns else bif Nat.blt n k then l.find n else r.find n

/-- the neighbours of a name of the table -/
def nearOf (s : Str) : Option (List Str) := nearTree.find (code s 1)

def hasCode_near (ns : List Str) (n : Nat) : Bool := ns.any fun x => Nat.beq (code x 1) n

/-- a declared conversion out of or into a name of the table is in the table -/
def nearOk (a b : Str) : Bool :=
  Nat.beq (code a 1) (code b 1) ||
    ((match nearOf a with | some ns => hasCode_near ns (code b 1) | none => true) &&
     (match nearOf b with | some ns => hasCode_near ns (code a 1) | none => true))

theorem near_kinds : (rawDictionary.all fun e => (declsOf (kindInstrs shippedPrefixes e.1 e.2)).all
    fun d => nearOk d.1 d.2.1) = true := by decide +kernel

theorem near_expl : (explicitConversions.all fun e => nearOk e.1 e.2.1) = true := by decide +kernel

theorem nearCode_mem {ns : List Str} {s : Str} (h : hasCode_near ns (code s 1) = true) : s ∈ ns := by
  obtain ⟨x, hx, e⟩ := List.any_eq_true.1 h
  have : x = s := code_inj (Nat.eq_of_beq_eq_true e)
  rwa [← this]

theorem nearOk_mem {a b : Str} (h : nearOk a b = true) :
    (∀ ns, nearOf a = some ns → b = a ∨ b ∈ ns) ∧ (∀ ns, nearOf b = some ns → a = b ∨ a ∈ ns) := by
  unfold nearOk at h
  rw [Bool.or_eq_true, Bool.and_eq_true] at h
  rcases h with h | ⟨h1, h2⟩
  · have : a = b := code_inj (Nat.eq_of_beq_eq_true h)
    exact ⟨fun _ _ => Or.inl this.symm, fun _ _ => Or.inl this⟩
  · constructor
    · intro ns e
      rw [e] at h1
      exact Or.inr (nearCode_mem h1)
    · intro ns e
      rw [e] at h2
      exact Or.inr (nearCode_mem h2)

/-- the table lists all the neighbours -/
theorem Spec.ShippedNetwork.beside {n : Net} (h : ShippedNetwork n) {a b : Str} (hl : LinkedName n a b) {ns : List Str}
    (ha : nearOf a = some ns) : b = a ∨ b ∈ ns := by
  have key : ∀ {x y c}, (x, y, c) ∈ shipped → nearOk x y = true := by
    intro x y c hc
    rcases List.mem_append.1 hc with hc | hc
    · obtain ⟨e, he, hc⟩ := List.mem_flatMap.1 hc
      exact List.all_eq_true.1 (List.all_eq_true.1 near_kinds e he) _ hc
    · obtain ⟨e, he, hc⟩ := List.mem_map.1 hc
      cases hc
      exact List.all_eq_true.1 near_expl e he
  rcases h.linked.1 hl with ⟨c, hc⟩ | ⟨_, _, c, hc⟩
  · exact (nearOk_mem (key hc)).1 ns ha
  · exact (nearOk_mem (key hc)).2 ns ha

/-- what `_get_descendants` finds one step around a unit, at most -/
def nearF : Nat → Str → Option (List Str)
  | 0, u => some [u]
  | n + 1, u =>
    match nearOf u with
    | none => none
    | some ns =>
      match pairSplit u with
      | none => some (u :: ns)
      | some (x, y) =>
        match nearF n x, nearF n y with
        | some X, some Y => some (u :: ns ++ X.flatMap fun a => Y.map fun b => a ++ '/' :: b)
        | _, _ => none

theorem nearF_self {n : Nat} {u : Str} {l : List Str} (h : nearF n u = some l) : u ∈ l := by
  cases n with
  | zero => simp only [nearF, Option.some.injEq] at h; subst h; simp
  | succ n =>
    unfold nearF at h
    split at h
    · cases h
    · split at h
      · simp only [Option.some.injEq] at h; subst h; simp
      · split at h
        · simp only [Option.some.injEq] at h; subst h; simp
        · cases h

/-- one round of children -/
theorem Spec.ShippedNetwork.round {n : Net} (h : ShippedNetwork n) {u c : Str} {ns : List Str} (hu : nearOf u = some ns)
    (hc : c ∈ rounds n.edgesStr 1 [u]) : c = u ∨ c ∈ ns := by
  rw [show rounds n.edgesStr 1 [u] = roundOnce n.edgesStr [u] from rfl, mem_roundOnce] at hc
  rcases hc with hc | ⟨y, hy, hc⟩
  · exact Or.inl (by simpa using hc)
  · rw [List.mem_singleton] at hy
    subst hy
    obtain ⟨na, nb, hl, rfl, rfl⟩ := (Net.strEdge_iff h.wf h.distinct).1 hc
    exact h.beside (let ⟨f, hf⟩ := hl; ⟨f, na, nb, rfl, rfl, hf⟩) hu

theorem Spec.ShippedNetwork.desc {n : Net} (h : ShippedNetwork n) (k : Nat) : ∀ {u c : Str} {l : List Str},
    nearF k u = some l → c ∈ getDescendantsF n.edgesStr n.hasName k u 1 true → c ∈ l := by
  induction k with
  | zero =>
    intro u c l hl hc
    simp only [nearF, Option.some.injEq] at hl
    subst hl
    exact hc
  | succ k ih =>
    intro u c l hl hc
    unfold nearF at hl
    split at hl
    · cases hl
    next ns hns =>
    unfold getDescendantsF at hc
    rw [if_neg (by decide)] at hc
    simp only [if_true, Py.mem_union, List.mem_singleton] at hc
    have base : c = u ∨ c ∈ (if n.hasName u then rounds n.edgesStr (1 : Int).toNat [u] else []) → c = u ∨ c ∈ ns := by
      rintro (hc | hc)
      · exact Or.inl hc
      · split at hc
        · exact h.round hns hc
        · cases hc
    split at hl
    · next hp =>
      simp only [Option.some.injEq] at hl
      subst hl
      rw [hp] at hc
      simp only [List.not_mem_nil, or_false] at hc
      simpa using base hc
    · next x y hp =>
      split at hl
      · next X Y hX hY =>
        simp only [Option.some.injEq] at hl
        subst hl
        rw [hp] at hc
        simp only at hc
        rcases hc with hc | hc | hc
        · rcases base (Or.inl hc) with h | h <;> simp [h]
        · rcases base (Or.inr hc) with h | h <;> simp [h]
        · have hc := (List.mem_filter.1 hc).1
          obtain ⟨a, ha, hc⟩ := List.mem_flatMap.1 hc
          obtain ⟨b, hb, rfl⟩ := List.mem_map.1 hc
          rw [Py.mem_union, List.mem_singleton] at ha hb
          have ha' : a ∈ X := ha.elim (fun e => by subst e; exact nearF_self hX) (ih hX)
          have hb' : b ∈ Y := hb.elim (fun e => by subst e; exact nearF_self hY) (ih hY)
          exact List.mem_append.2 (Or.inr (List.mem_flatMap.2 ⟨a, ha', List.mem_map.2 ⟨b, hb', rfl⟩⟩))
      · cases hl

/-- the units around a unit, and those around its two parts -/
def around (a : Str) : Option (List Str × List Str × List Str) :=
  match nearOf a with
  | none => none
  | some ns =>
    match pairSplit a with
    | none => some (a :: ns, [], [])
    | some (x, y) =>
      match nearF a.length x, nearF a.length y with
      | some X, some Y => some (a :: ns, X, Y)
      | _, _ => none

theorem Spec.ShippedNetwork.around {n : Net} (h : ShippedNetwork n) {a c : Str} {N X Y : List Str} (ha : around a = some (N, X, Y))
    (hc : c ∈ getDescendants n.edgesStr n.hasName a 1 true) : c ∈ N ∨ ∃ x ∈ X, ∃ y ∈ Y, c = x ++ '/' :: y := by
  have key : ∃ l, nearF (a.length + 1) a = some l ∧ ∀ c ∈ l, c ∈ N ∨ ∃ x ∈ X, ∃ y ∈ Y, c = x ++ '/' :: y := by
    unfold Unyts.around at ha
    unfold nearF
    split at ha
    · cases ha
    next ns hns =>
    split at ha
    · next hp =>
      simp only [Option.some.injEq, Prod.mk.injEq] at ha
      obtain ⟨rfl, _⟩ := ha
      exact ⟨_, rfl, fun c hc => Or.inl hc⟩
    · next x y hp =>
      split at ha
      · next X' Y' hX hY =>
        simp only [Option.some.injEq, Prod.mk.injEq] at ha
        obtain ⟨rfl, rfl, rfl⟩ := ha
        refine ⟨_, rfl, fun c hc => ?_⟩
        rcases List.mem_append.1 hc with hc | hc
        · exact Or.inl hc
        · obtain ⟨u, hu, hc⟩ := List.mem_flatMap.1 hc
          obtain ⟨v, hv, rfl⟩ := List.mem_map.1 hc
          exact Or.inr ⟨u, hu, v, hv, rfl⟩
      · cases ha
  obtain ⟨l, hl, hall⟩ := key
  exact hall c (h.desc _ hl hc)

/-- every way to cut a unit at a slash -/
def cuts : Str → List (Str × Str)
  | [] => []
  | c :: s => (if c = '/' then [([], s)] else []) ++ (cuts s).map fun p => (c :: p.1, p.2)

theorem mem_cuts (x y : Str) : (x, y) ∈ cuts (x ++ '/' :: y) := by
  induction x with
  | nil => simp [cuts]
  | cons c x ih =>
    simp only [List.cons_append, cuts, List.mem_append, List.mem_map]
    exact Or.inr ⟨(x, y), ih, rfl⟩

def meets (l m : List Str) : Bool := l.any fun x => m.contains x

def cutIn (X Y : List Str) (c : Str) : Bool := (cuts c).any fun p => X.contains p.1 && Y.contains p.2

/-- nothing is one step around both units -/
def clearOf (p q : List Str × List Str × List Str) : Bool :=
  !meets p.1 q.1 && !p.1.any (cutIn q.2.1 q.2.2) && !q.1.any (cutIn p.2.1 p.2.2) &&
    (p.2.1.isEmpty || q.2.1.isEmpty ||
      (((p.2.1 ++ q.2.1).all (fun x => !x.contains '/') || (p.2.2 ++ q.2.2).all (fun x => !x.contains '/')) &&
        (!meets p.2.1 q.2.1 || !meets p.2.2 q.2.2)))

def clear (a b : Str) : Bool :=
  match around a, around b with
  | some p, some q => clearOf p q
  | _, _ => false

theorem cut_first {x y x' y' : Str} (h : x ++ '/' :: y = x' ++ '/' :: y') (hx : '/' ∉ x) (hx' : '/' ∉ x') : x = x' ∧ y = y' := by
  induction x generalizing x' with
  | nil =>
    cases x' with
    | nil => simpa using h
    | cons c t =>
      simp only [List.nil_append, List.cons_append, List.cons.injEq] at h
      exact absurd (by rw [← h.1]; simp) hx'
  | cons c t ih =>
    cases x' with
    | nil =>
      simp only [List.nil_append, List.cons_append, List.cons.injEq] at h
      exact absurd (by rw [h.1]; simp) hx
    | cons d t' =>
      simp only [List.cons_append, List.cons.injEq] at h
      obtain ⟨rfl, rfl⟩ := ih (x' := t') h.2 (fun hm => hx (List.mem_cons_of_mem _ hm)) (fun hm => hx' (List.mem_cons_of_mem _ hm))
      exact ⟨by rw [h.1], rfl⟩

theorem cut_last {x y x' y' : Str} (h : x ++ '/' :: y = x' ++ '/' :: y') (hy : '/' ∉ y) (hy' : '/' ∉ y') : x = x' ∧ y = y' := by
  have := congrArg List.reverse h
  simp only [List.reverse_append, List.reverse_cons, List.append_assoc, List.singleton_append] at this
  obtain ⟨h1, h2⟩ := cut_first this (by simpa using hy) (by simpa using hy')
  exact ⟨List.reverse_injective h2, List.reverse_injective h1⟩

theorem meets_of {l m : List Str} {x : Str} (h : meets l m = false) (hl : x ∈ l) (hm : x ∈ m) : False := by
  have : meets l m = true := List.any_eq_true.2 ⟨x, hl, List.contains_iff_mem.2 hm⟩
  rw [h] at this; cases this

theorem cutIn_of {X Y l : List Str} {x y : Str} (h : l.any (cutIn X Y) = false) (hl : x ++ '/' :: y ∈ l) (hx : x ∈ X) (hy : y ∈ Y) :
    False := by
  have : l.any (cutIn X Y) = true :=
    List.any_eq_true.2 ⟨_, hl, List.any_eq_true.2 ⟨_, mem_cuts x y, by simp [hx, hy]⟩⟩
  rw [h] at this; cases this

/-- the two descents of one generation do not meet -/
theorem Spec.ShippedNetwork.clear {n : Net} (h : ShippedNetwork n) {a b : Str} (hc : clear a b = true) : NoEarly n a b 5 := by
  intro r h1 h2
  have : r = 1 := by omega
  subst this
  unfold Unyts.clear at hc
  split at hc
  · next p q hp hq =>
    obtain ⟨N, X, Y⟩ := p
    obtain ⟨N', X', Y'⟩ := q
    simp only [clearOf, Bool.and_eq_true, Bool.not_eq_true'] at hc
    obtain ⟨⟨⟨c1, c2⟩, c3⟩, hc⟩ := hc
    rw [List.eq_nil_iff_forall_not_mem]
    intro c hm
    rw [Py.mem_inter] at hm
    rcases h.around hp hm.1 with m1 | ⟨x, hx, y, hy, rfl⟩
    · rcases h.around hq hm.2 with m2 | ⟨x, hx, y, hy, rfl⟩
      · exact meets_of c1 m1 m2
      · exact cutIn_of c2 m1 hx hy
    · rcases h.around hq hm.2 with m2 | ⟨x', hx', y', hy', e⟩
      · exact cutIn_of c3 m2 hx hy
      · have hne : ∀ {l : List Str} {u : Str}, u ∈ l → l.isEmpty = false := by
          intro l u hu
          cases l with
          | nil => cases hu
          | cons => rfl
        rw [hne hx, hne hx', Bool.false_or, Bool.false_or, Bool.and_eq_true] at hc
        obtain ⟨c4, c5⟩ := hc
        have : x = x' ∧ y = y' := by
          rw [Bool.or_eq_true, List.all_eq_true, List.all_eq_true] at c4
          rcases c4 with c4 | c4
          · refine cut_first e ?_ ?_
            · simpa using c4 x (by simp [hx])
            · simpa using c4 x' (by simp [hx'])
          · refine cut_last e ?_ ?_
            · simpa using c4 y (by simp [hy])
            · simpa using c4 y' (by simp [hy'])
        obtain ⟨rfl, rfl⟩ := this
        rw [Bool.or_eq_true, Bool.not_eq_true', Bool.not_eq_true'] at c5
        exact c5.elim (fun c5 => meets_of c5 hx hx') (fun c5 => meets_of c5 hy hy')
  · cases hc

/-! ### roads -/

def roadsOf (s : Str) : List Str := (roadTree.find (code s 1)).getD []

/-- a road is a declared conversion, not one of the three that go one way only -/
def roadOk (a b : Str) : Bool :=
  match labelOf a with
  | none => false
  | some q => ((labelCv q a b).isSome || (labelCv q b a).isSome) && !Spec.oneWay.contains (a, b) && !Spec.oneWay.contains (b, a)

theorem labelCv_some {q : Nat} {a b : Str} {c : Cv} (h : labelCv q a b = some c) : (a, b, c) ∈ shipped := by
  unfold labelCv at h
  rcases Option.or_eq_some_iff.1 h with h | ⟨_, h⟩
  · obtain ⟨e, he, h⟩ := List.mem_flatMap.1 (first_some h)
    exact List.mem_append.2 (Or.inl (List.mem_flatMap.2 ⟨e, (List.mem_filter.1 he).1, h⟩))
  · exact List.mem_append.2 (Or.inr (first_some h))

theorem roads_ok : (roadList.all fun e => roadOk e.1 e.2) = true := by decide +kernel

def Near.all (f : Nat → List Str → Bool) : Near → Bool
  | .leaf => true
  | .node l k ns r => l.all f && f k ns && r.all f

theorem Near.all_find {f : Nat → List Str → Bool} {t : Near} (h : t.all f = true) {n : Nat} {ns : List Str} (hf : t.find n = some ns) :
    f n ns = true := by
  induction t with
  | leaf => cases hf
  | node l k ms r ihl ihr =>
    simp only [Near.all, Bool.and_eq_true] at h
    unfold Near.find at hf
    cases hk : Nat.beq n k with
    | true =>
      rw [hk] at hf
      simp only [cond_true, Option.some.injEq] at hf
      rw [← hf, Nat.eq_of_beq_eq_true hk]
      exact h.1.2
    | false =>
      rw [hk] at hf
      simp only [cond_false] at hf
      cases hb : Nat.blt n k with
      | true => rw [hb] at hf; exact ihl h.1.1 hf
      | false => rw [hb] at hf; exact ihr h.2 hf

/-- the roads of the tree are those of the list -/
theorem roads_listed : (roadTree.all fun k ns => ns.all fun b => roadList.any fun e =>
    (Nat.beq (code e.1 1) k && Nat.beq (code e.2 1) (code b 1)) || (Nat.beq (code e.2 1) k && Nat.beq (code e.1 1) (code b 1))) = true := by
  decide +kernel

theorem Spec.ShippedNetwork.road {n : Net} (h : ShippedNetwork n) {a b : Str} (hr : b ∈ roadsOf a) : LinkedName n a b ∧ LinkedName n b a := by
  have key : ∀ {x y : Str}, roadOk x y = true → LinkedName n x y ∧ LinkedName n y x := by
    intro x y hk
    unfold roadOk at hk
    split at hk
    · cases hk
    next q hq =>
    simp only [Bool.and_eq_true, Bool.or_eq_true, Bool.not_eq_true'] at hk
    have m1 : (x, y) ∉ Spec.oneWay := fun hm => by rw [List.contains_iff_mem.2 hm] at hk; exact absurd hk.1.2 (by simp)
    have m2 : (y, x) ∉ Spec.oneWay := fun hm => by rw [List.contains_iff_mem.2 hm] at hk; exact absurd hk.2 (by simp)
    rcases hk.1.1 with hc | hc
    · have hl := h.linked_at hq hc
      exact ⟨hl, (h.back hl).2 m1⟩
    · have : labelOf y = some q := by
        obtain ⟨c, hc⟩ := Option.isSome_iff_exists.1 hc
        rw [← hq]
        exact decl_label (labelCv_some hc)
      have hl := h.linked_at this hc
      exact ⟨(h.back hl).2 m2, hl⟩
  unfold roadsOf at hr
  cases hf : roadTree.find (code a 1) with
  | none => rw [hf] at hr; simp at hr
  | some ns =>
    rw [hf] at hr
    have := List.all_eq_true.1 (Near.all_find roads_listed hf) b hr
    obtain ⟨e, he, hk⟩ := List.any_eq_true.1 this
    have ok := List.all_eq_true.1 roads_ok e he
    simp only [Bool.or_eq_true, Bool.and_eq_true] at hk
    rcases hk with ⟨k1, k2⟩ | ⟨k1, k2⟩
    · have e1 : e.1 = a := code_inj (Nat.eq_of_beq_eq_true k1)
      have e2 : e.2 = b := code_inj (Nat.eq_of_beq_eq_true k2)
      rw [e1, e2] at ok
      exact key ok
    · have e1 : e.2 = a := code_inj (Nat.eq_of_beq_eq_true k1)
      have e2 : e.1 = b := code_inj (Nat.eq_of_beq_eq_true k2)
      rw [e1, e2] at ok
      exact (key ok).symm

/-- a way of at most `k` roads -/
def way : Nat → Str → Str → Bool
  | 0, a, b => Nat.beq (code a 1) (code b 1)
  | k + 1, a, b => Nat.beq (code a 1) (code b 1) || (roadsOf a).any fun c => way k c b

theorem Spec.ShippedNetwork.way {n : Net} (h : ShippedNetwork n) {k : Nat} {a b : Str} (hw : way k a b = true) :
    ∃ p, Chain (fun x y => LinkedName n x y ∧ LinkedName n y x) a b p ∧ p.length ≤ k + 1 := by
  have same : ∀ {a b : Str} {m : Nat}, Nat.beq (code a 1) (code b 1) = true →
      ∃ p, Chain (fun x y => LinkedName n x y ∧ LinkedName n y x) a b p ∧ p.length ≤ m + 1 := by
    intro a b m e
    have : a = b := code_inj (Nat.eq_of_beq_eq_true e)
    subst this
    exact ⟨[a], .single a, by simp⟩
  induction k generalizing a with
  | zero => exact same hw
  | succ k ih =>
    unfold Unyts.way at hw
    rw [Bool.or_eq_true] at hw
    rcases hw with hw | hw
    · exact same hw
    · obtain ⟨c, hc, hw⟩ := List.any_eq_true.1 hw
      obtain ⟨p, hp, hl⟩ := ih hw
      exact ⟨a :: p, .step (h.road hc) hp, by simp; omega⟩

/-- near enough for the slim search -/
def fits (a b : Str) : Bool := way 2 a b || (way 4 a b && clear a b)

/-- there is a short way, and nothing is met before the middle of it -/
theorem Spec.ShippedNetwork.fits {n : Net} (h : ShippedNetwork n) {a b : Str} (hf : fits a b = true) :
    ∃ p, Chain (fun x y => LinkedName n x y ∧ LinkedName n y x) a b p ∧ p.length ≤ 5 ∧ NoEarly n a b p.length := by
  unfold Unyts.fits at hf
  rw [Bool.or_eq_true, Bool.and_eq_true] at hf
  rcases hf with hf | ⟨hf, hc⟩
  · obtain ⟨p, hp, hl⟩ := h.way hf
    exact ⟨p, hp, by omega, noEarly_short (by omega)⟩
  · obtain ⟨p, hp, hl⟩ := h.way hf
    exact ⟨p, hp, hl, fun r h1 h2 => h.clear hc r h1 (by omega)⟩

end Unyts
