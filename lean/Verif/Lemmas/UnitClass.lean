import Verif.Spec.Quantity
import Verif.Lemmas.ConvValue
import Verif.Lemmas.ConvSelf
import Verif.Lemmas.Clean

/- Frame and inversion lemmas of the model of quantities. -/
namespace Unyts
open Spec

theorem session_append (cs ds : List Call) (w : World) : session (cs ++ ds) w = session ds (session cs w) := by
  unfold session; rw [List.foldl_append]

theorem Spec.Later.refl (L : Lib) : Later L L := ⟨⟨[], by simp, rfl⟩, fun _ _ => rfl, fun _ h => h, rfl, rfl, rfl, rfl⟩

theorem Spec.Later.trans {a b c : Lib} (h1 : Later a b) (h2 : Later b c) : Later a c where
  calls := by
    obtain ⟨cs, hc, e1⟩ := h1.calls
    obtain ⟨ds, hd, e2⟩ := h2.calls
    refine ⟨cs ++ ds, ?_, by rw [session_append, ← e1, e2]⟩
    intro c hm
    rcases List.mem_append.1 hm with h | h
    · exact hc c h
    · exact hd c h
  names := fun k hk => (h2.names k hk).trans (h1.names k hk)
  users := fun u hu => h2.users u (h1.users u hu)
  all := h2.all.trans h1.all
  unitless := h2.unitless.trans h1.unitless
  sf := h2.sf.trans h1.sf
  depth := h2.depth.trans h1.depth

theorem later_world {L : Lib} {w : World} (h : ∃ cs, (∀ c ∈ cs, Asks c) ∧ w = session cs L.w) :
    Later L { L with w := w } := ⟨h, fun _ _ => rfl, fun _ h => h, rfl, rfl, rfl, rfl⟩

theorem dictGet_set_ne {d : UnitDict} {k k' : Str} {v : List Str} (h : k' ≠ k) :
    Py.dictGet (Py.dictSet d k v) k' = Py.dictGet d k' := by
  induction d with
  | nil => simp [Py.dictSet, Py.dictGet, Ne.symm h]
  | cons e d ih =>
    obtain ⟨a, x⟩ := e
    rw [Py.dictSet]
    by_cases ha : a = k
    · rw [if_pos ha, Py.dictGet, Py.dictGet, if_neg (by rw [ha]; exact Ne.symm h), if_neg (by rw [ha]; exact Ne.symm h)]
    · rw [if_neg ha, Py.dictGet, Py.dictGet, ih]

theorem dictGet_set_eq {d : UnitDict} {k : Str} {v : List Str} : Py.dictGet (Py.dictSet d k v) k = some v := by
  induction d with
  | nil => simp [Py.dictSet, Py.dictGet]
  | cons e d ih =>
    obtain ⟨a, x⟩ := e
    rw [Py.dictSet]
    by_cases ha : a = k
    · rw [if_pos ha, Py.dictGet, if_pos ha]
    · rw [if_neg ha, Py.dictGet, if_neg ha, ih]

theorem names_addUser {L : Lib} {u k : Str} (h : k ≠ s!!"UserUnits") : (L.addUser u).names k = L.names k := by
  unfold Lib.addUser
  split
  · rfl
  · simp only [Lib.names, dictGet_set_ne h]

theorem mem_addUser (L : Lib) (u : Str) : u ∈ (L.addUser u).names s!!"UserUnits" := by
  unfold Lib.addUser
  split
  · assumption
  · simp [Lib.names, dictGet_set_eq]

theorem users_addUser {L : Lib} {u v : Str} (h : v ∈ L.names s!!"UserUnits") :
    v ∈ (L.addUser u).names s!!"UserUnits" := by
  unfold Lib.addUser
  split
  · assumption
  · rw [Lib.names, dictGet_set_eq]
    exact List.mem_append_left _ h

theorem addUser_w (L : Lib) (u : Str) : (L.addUser u).w = L.w := by unfold Lib.addUser; split <;> rfl

theorem later_addUser (L : Lib) (u : Str) : Later L (L.addUser u) where
  calls := ⟨[], by simp, addUser_w L u⟩
  names := fun _ h => names_addUser h
  users := fun _ h => users_addUser h
  all := by unfold Lib.addUser; split <;> rfl
  unitless := by unfold Lib.addUser; split <;> rfl
  sf := by unfold Lib.addUser; split <;> rfl
  depth := by unfold Lib.addUser; split <;> rfl

/-- `m` only asks for conversions and builds quantities -/
def Asking (m : PyM Lib α) : Prop := ∀ L, Later L (m L).2

namespace Asking

theorem pure (a : α) : Asking (Pure.pure a : PyM Lib α) := fun L => .refl L
theorem lift (r : Res α) : Asking (PyM.lift r : PyM Lib α) := fun L => .refl L
theorem raise (e : PyErr) : Asking (PyM.raise e : PyM Lib α) := fun L => .refl L
theorem get : Asking (PyM.get : PyM Lib Lib) := fun L => .refl L

theorem bind {m : PyM Lib α} {f : α → PyM Lib β} (hm : Asking m) (hf : ∀ a, Asking (f a)) : Asking (m >>= f) := by
  intro L
  have h1 := hm L
  rw [PyM.run_bind]
  cases hr : m L with
  | mk r L1 =>
    rw [hr] at h1
    cases r with
    | ok a => exact h1.trans (hf a L1)
    | error e => exact h1

theorem convertible (a b : Str) : Asking (libConvertible a b) := fun L =>
  later_world ⟨[.convertible a b none], by simp [Asks], rfl⟩

theorem convert (e : PyErr) (v : Rat) (a b : Str) : Asking (libConvert e v a b) := by
  unfold libConvert
  refine bind (fun L => later_world ⟨[.convert (some v) (some a) (some b) none], by simp [Asks], rfl⟩) fun r => ?_
  split
  · exact pure _
  · exact raise _

theorem construct (k : Kind) (v : Rat) (u : Str) : Asking (construct k v u) := by
  intro L
  cases k with
  | base => unfold Unyts.construct; simp only; split <;> exact .refl L
  | user => exact later_addUser L _
  | dimensionless => unfold Unyts.construct; simp only; split <;> exact .refl L
  | percentage => unfold Unyts.construct; simp only; split <;> exact .refl L
  | std n => unfold Unyts.construct; simp only; split <;> exact .refl L

theorem unitsNamed (v : Rat) (u : Str) (n : Option Str) : Asking (unitsNamed v u n) := by
  unfold Unyts.unitsNamed
  refine bind get fun L => ?_
  simp only
  split
  · exact construct _ _ _
  · split
    · exact construct _ _ _
    · split
      · exact raise _
      · exact bind (lift _) fun _ => bind (lift _) fun _ => bind (construct _ _ _) fun _ => pure _

theorem units (v : Rat) (u : Str) : Asking (units v u) := unitsNamed v u none

theorem toUnitless (q : Quantity) (u : Str) : Asking (q.toUnitless u) := by
  unfold Quantity.toUnitless
  refine bind get fun L => ?_
  split
  · exact pure _
  · split
    · exact bind (construct _ _ _) fun _ => pure _
    · split
      · exact bind (construct _ _ _) fun _ => pure _
      · exact bind (units _ _) fun _ => pure _

theorem «to» (q : Quantity) (u : Str) : Asking (q.to u) := by
  unfold Quantity.to
  split
  · exact toUnitless q u
  · refine bind (convertible _ _) fun b => ?_
    split
    · split
      · exact bind (convert _ _ _ _) fun _ => bind (units _ _) fun _ => pure _
      · exact bind (convert _ _ _ _) fun _ => bind (construct _ _ _) fun _ => pure _
    · split
      · exact pure _
      · exact raise _

theorem compare (c : Quantity.Cmp) (p q : Quantity) : Asking (p.compare c q) := by
  unfold Quantity.compare
  split
  · refine bind («to» _ _) fun r => ?_
    split
    · exact pure _
    · exact raise _
  · exact raise _

theorem addLike (op : Rat → Rat → Rat) (p q : Quantity) : Asking (p.addLike op q) := by
  unfold Quantity.addLike
  have c := fun k v u => bind (construct k v u) fun q => pure (Obj.qty q)
  split
  · split
    · exact c _ _ _
    · refine bind (convertible _ _) fun b => ?_
      split
      · exact bind (convert _ _ _ _) fun _ => c _ _ _
      · refine bind (convertible _ _) fun b => ?_
        split
        · exact bind (convert _ _ _ _) fun _ => c _ _ _
        · exact raise _
  · split
    · exact c _ _ _
    · split
      · exact c _ _ _
      · split
        · exact c _ _ _
        · exact pure _

end Asking

/-! ### Inversion -/

/-- what the constructor of a class builds -/
theorem construct_ok {k : Kind} {v : Rat} {u : Str} {L L' : Lib} {q : Quantity} (h : construct k v u L = (.ok q, L')) :
    q.kind = k ∧ q.value = (if k = .percentage then v / 100 else v) ∧
      q.unit = (if k = .user then Py.stripWs u else u) ∧ L' = (if k = .user then L.addUser (Py.stripWs u) else L) := by
  cases k <;> simp only [construct] at h
  case user => cases h; simp
  all_goals
    split at h
    · cases h; simp
    · cases h

/-- a quantity can be built with the unit of a valid one -/
theorem construct_valid {L : Lib} {q : Quantity} (h : Valid L q) (v : Rat) :
    construct q.kind v q.unit L = (.ok ⟨q.kind, q.unit, if q.kind = .percentage then v / 100 else v⟩, L) := by
  unfold Valid at h
  unfold construct
  cases hk : q.kind <;> simp only [hk] at h
  case user =>
    simp only [h.1, Lib.addUser, if_pos h.2]
    simp
  all_goals simp [h]

theorem valid_construct {k : Kind} {v : Rat} {u : Str} {L L' : Lib} {q : Quantity} (h : construct k v u L = (.ok q, L')) :
    k ≠ .user ∨ Py.stripWs (Py.stripWs u) = Py.stripWs u → Valid L' q := by
  intro hu
  cases k <;> simp only [construct] at h
  case user =>
    cases h
    exact ⟨by simpa using hu, mem_addUser L _⟩
  all_goals
    split at h
    · cases h; assumption
    · cases h

theorem valid_later {L L' : Lib} (h : Later L L') {q : Quantity} (hq : Valid L q)
    (hk : q.kind.key ≠ s!!"UserUnits" ∨ q.kind = .user) : Valid L' q := by
  unfold Valid at *
  cases e : q.kind <;> simp only [e] at hq hk ⊢
  case base => rw [h.all]; exact hq
  case user => exact ⟨hq.1, h.users _ hq.2⟩
  all_goals rw [h.names _ (by simpa using hk)]; exact hq

/-- the calls of the converter inside an operation -/
theorem libConvert_ok {e : PyErr} {v : Rat} {a b : Str} {L L' : Lib} {y : Rat} (h : libConvert e v a b L = (.ok y, L')) :
    convert (some v) (some a) (some b) none L.w = (.ok (some (.num y)), L'.w) ∧ L' = { L with w := L'.w } := by
  unfold libConvert at h
  obtain ⟨r, L1, h1, h2⟩ := PyM.bind_ok h
  unfold onWorld at h1
  simp only [Prod.mk.injEq] at h1
  obtain ⟨e1, rfl⟩ := h1
  split at h2
  · cases h2
    exact ⟨Prod.ext e1 rfl, rfl⟩
  · cases h2

theorem Spec.Later.convertsAs {L L1 : Lib} (h : Later L L1) {B : Str → Rat → Rat} {a b : Str} (hc : ConvertsAs L.w B a b)
    {e : PyErr} {x y : Rat} {L' : Lib} (hr : libConvert e x a b L1 = (.ok y, L')) : B b y = B a x := by
  obtain ⟨cs, hcs, hw⟩ := h.calls
  have := (libConvert_ok hr).1
  rw [hw] at this
  exact hc cs hcs x y _ this

theorem Spec.ConvertsAs.later {L L1 : Lib} (h : Later L L1) {B : Str → Rat → Rat} {a b : Str} (hc : ConvertsAs L.w B a b) :
    ConvertsAs L1.w B a b := by
  obtain ⟨cs, hcs, hw⟩ := h.calls
  intro ds hds x y w' hr
  rw [hw, ← session_append] at hr
  exact hc (cs ++ ds) (by
    intro c hm
    rcases List.mem_append.1 hm with h | h
    · exact hcs c h
    · exact hds c h) x y w' hr

/-! ### names -/

theorem lstrip_head {cs : List Char} {s : Str} {c : Char} (h : (Py.lstrip cs s).head? = some c) : c ∉ cs := by
  induction s with
  | nil => simp [Py.lstrip] at h
  | cons x s ih =>
    rw [Py.lstrip] at h
    split at h
    · exact ih h
    · simp at h; subst h; assumption

theorem lstrip_suffix (cs : List Char) (s : Str) : ∃ p, s = p ++ Py.lstrip cs s := by
  induction s with
  | nil => exact ⟨[], rfl⟩
  | cons x s ih =>
    rw [Py.lstrip]
    split
    · obtain ⟨p, hp⟩ := ih; exact ⟨x :: p, by rw [List.cons_append, ← hp]⟩
    · exact ⟨[], rfl⟩

theorem strip_idem (cs : List Char) (s : Str) : Py.strip cs (Py.strip cs s) = Py.strip cs s := by
  apply Py.strip_of_ends
  intro c hc
  unfold Py.strip Py.rstrip at hc
  rcases hc with hc | hc
  · obtain ⟨p, hp⟩ := lstrip_suffix cs (Py.lstrip cs s).reverse
    apply lstrip_head (s := s)
    rw [← List.reverse_reverse (Py.lstrip cs s), hp, List.reverse_append, List.head?_append, hc]
    rfl
  · rw [List.getLast?_reverse] at hc
    exact lstrip_head hc

theorem stripWs_idem (s : Str) : Py.stripWs (Py.stripWs s) = Py.stripWs s := strip_idem _ s

theorem lstrip_mem {cs : List Char} {s : Str} {c : Char} (h : c ∈ Py.lstrip cs s) : c ∈ s := by
  obtain ⟨p, hp⟩ := lstrip_suffix cs s
  rw [hp]; exact List.mem_append_right _ h

theorem stripWs_mem {s : Str} {c : Char} (h : c ∈ Py.stripWs s) : c ∈ s := by
  unfold Py.stripWs Py.strip Py.rstrip at h
  rw [List.mem_reverse] at h
  have := lstrip_mem h
  rw [List.mem_reverse] at this
  exact lstrip_mem this

theorem literal_plain {q : Char} {u s : Str} (hb : '\\' ∉ u) (h : literal q u = .ok s) : s = u := by
  induction u generalizing s with
  | nil => rw [literal] at h; cases h; rfl
  | cons c r ih =>
    have hc : c ≠ '\\' := fun h => hb (by simp [h])
    rw [literal] at h
    · split at h
      · cases h
      · cases hr : literal q r with
        | error e => rw [hr] at h; cases h
        | ok t =>
          rw [hr] at h
          cases h
          rw [ih (fun h => hb (List.mem_cons_of_mem _ h)) hr]
    · intro _ _ h; exact absurd h hc

/-- what `units` builds -/
theorem units_ok {v : Rat} {u : Str} {L L' : Lib} {q : Quantity} (h : units v u L = (.ok q, L')) :
    (Py.stripWs u ∈ L.w.dic.uncertain ∧ construct .base v (Py.stripWs u) L = (.ok q, L')) ∨
    (Py.stripWs u ∉ L.w.dic.uncertain ∧ (∀ e ∈ L.dict, Py.stripWs u ∉ e.2) ∧
      construct .user v (Py.stripWs u) L = (.ok q, L')) ∨
    (Py.stripWs u ∉ L.w.dic.uncertain ∧ ∃ key l k s r, (key, l) ∈ L.dict ∧ Py.stripWs u ∈ l ∧ kindOf key = .ok k ∧
      evalName (Py.stripWs u) = .ok s ∧ construct k 0 s L = (.ok r, L') ∧
      q = { r with value := if k = .percentage then v / 100 else v }) := by
  unfold units unitsNamed at h
  rw [PyM.run_bind_ok (PyM.run_get _)] at h
  split at h
  · exact Or.inl ⟨by assumption, h⟩
  · rename_i hu
    right
    cases hf : List.find? (fun e : Str × List Str => decide (Py.stripWs u ∈ e.2)) L.dict with
    | none =>
      rw [hf] at h
      refine Or.inl ⟨hu, ?_, h⟩
      intro e he hm
      have := List.find?_eq_none.1 hf e he
      simp at this
      exact this hm
    | some e =>
      obtain ⟨key, l⟩ := e
      rw [hf] at h
      change ((PyM.lift (evalName (Py.stripWs u)) >>= _ : PyM Lib Quantity) L) = _ at h
      obtain ⟨s, L1, h1, h⟩ := PyM.bind_ok h
      obtain ⟨k, L2, h2, h⟩ := PyM.bind_ok h
      obtain ⟨r, L3, h3, h⟩ := PyM.bind_ok h
      have e1 : evalName (Py.stripWs u) = .ok s ∧ L1 = L := by unfold PyM.lift at h1; simp at h1; exact ⟨h1.1, h1.2.symm⟩
      have e2 : kindOf key = .ok k ∧ L2 = L1 := by unfold PyM.lift at h2; simp at h2; exact ⟨h2.1, h2.2.symm⟩
      cases h
      refine Or.inr ⟨hu, key, l, k, s, r, List.mem_of_find?_eq_some hf, ?_, e2.1, e1.1, ?_, rfl⟩
      · have := List.find?_some hf; simpa using this
      · rw [← e1.2, ← e2.2]; exact h3

/-- On a consistent part of the network the conversions between single names convert the readings. -/
theorem convertsAs_on {w : World} (hw : Reachable w) {S : UNode → Prop} {B : Str → Rat → Rat}
    (hB : ConsistentOn w.net w.fvf S fun n => B n.name) {a b : Str} (ha : CleanName a) (hb : CleanName b)
    (oa : Ordinary w.dic a) (hd : ¬ DensityPair w.dic a b) (hS : ∀ na, w.net.getNode a = .ok na → S na) :
    ConvertsAs w B a b := by
  intro cs hcs x y w' hr
  have hs := sound_of_reachable hw
  have hbase := base_session hcs hs.1.wf
  have hk : ∀ c ∈ cs, KeepsAmple c := by intro c hc; have := hcs c hc; cases c <;> trivial
  obtain ⟨y', hy, e⟩ := convert_reads_on (S := S) (soundAmple_session cs hk hs) (by rw [hbase.net, hbase.fvf]; exact hB) ha hb
    (by rw [hbase.dic]; exact oa) (by rw [hbase.dic]; exact hd) (by rw [hbase.net]; exact hS) hr
  cases hy
  rcases e with ⟨rfl, rfl⟩ | ⟨na, nb, h1, h2, h3⟩
  · rfl
  · rw [(getNode_mem h1).2, (getNode_mem h2).2] at h3
    exact h3

/-- On a consistent network the conversions between single names convert the readings. -/
theorem convertsAs_names {w : World} (hw : Reachable w) {B : Str → Rat → Rat}
    (hB : Consistent w.net w.fvf fun n => B n.name) {a b : Str} (ha : CleanName a) (hb : CleanName b)
    (oa : Ordinary w.dic a) (hd : ¬ DensityPair w.dic a b) : ConvertsAs w B a b :=
  convertsAs_on hw hB.on ha hb oa hd fun _ _ => trivial

end Unyts
