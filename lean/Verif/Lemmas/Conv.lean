import Verif.Lemmas.SplitUnit
import Verif.Lemmas.Dfs
import Verif.Lemmas.Build
import Verif.Lemmas.Lean
import Verif.Lemmas.Chordless
import Verif.Spec.Conversion

/- Direct conversions: `_search_network`, `_lambda_conversion`, `_get_conversion`. -/
namespace Unyts
open Spec

/-! ### composition along a path -/

theorem conversion_of_direct {g : Net} (hg : WF g) {a b : UNode} (h : Linked g a b) :
    ∃ f, g.conversion a b = .ok f ∧ Direct g a b f := by
  obtain ⟨f, l, hl, hf⟩ := h
  have hd := dictGet_of_mem hg.keys hl
  unfold Net.conversion Net.lookup
  rw [hd]
  simp only
  cases hfind : l.find? (fun e => decide (e.1 = b)) with
  | none =>
    rw [List.find?_eq_none] at hfind
    have := hfind _ hf
    simp at this
  | some e =>
    have h1 := List.mem_of_find?_eq_some hfind
    have h2 := List.find?_some hfind
    simp at h2
    subst h2
    exact ⟨e.2, rfl, l, hl, h1⟩

theorem bigLambda_chain {g : Net} (hg : WF g) {a b : UNode} {p : List UNode} (h : Chain (Linked g) a b p) :
    ∃ fs, bigLambda g p = .ok fs ∧ Along g p (lambdaLoop fs) := by
  induction h with
  | single a =>
    refine ⟨[], rfl, ?_⟩
    have : lambdaLoop [] = (fun _ x => .ok x : Fn) := by funext _ x; rfl
    rw [this]; exact .single a
  | @step a b c p e h ih =>
    obtain ⟨fs, h1, h2⟩ := ih
    obtain ⟨q, rfl⟩ := h.eq_cons
    obtain ⟨f, hf, hd⟩ := conversion_of_direct hg e
    refine ⟨f :: fs, ?_, ?_⟩
    · simp [bigLambda, hf, h1, bind, Except.bind, pure, Except.pure]
    · exact .step hd h2

theorem lambdaConversion_chain {g : Net} (hg : WF g) {a b : UNode} {p : List UNode}
    (h : Chain (Linked g) a b p) : ∃ f, lambdaConversion g p = .ok f ∧ Along g p f := by
  obtain ⟨fs, h1, h2⟩ := bigLambda_chain hg h
  exact ⟨_, by simp [lambdaConversion, h1, bind, Except.bind, pure, Except.pure], h2⟩

/-- The function kept in the memory and the step-by-step evaluation agree. -/
theorem lambda_apply {g : Net} {p : List UNode} {f : Fn} (h : lambdaConversion g p = .ok f) (fvf : Option Rat)
    (v : Rat) : applyConversion g fvf v p = f fvf v := by
  unfold lambdaConversion at h
  cases hb : bigLambda g p with
  | error e => rw [hb] at h; cases h
  | ok fs =>
    rw [hb] at h
    simp only [bind, Except.bind, pure, Except.pure, Except.ok.injEq] at h
    subst h
    induction p generalizing fs v with
    | nil => simp [bigLambda] at hb; subst hb; rfl
    | cons a p ih =>
      cases p with
      | nil => simp [bigLambda] at hb; subst hb; rfl
      | cons b r =>
        rw [bigLambda] at hb
        cases hc : g.conversion a b with
        | error e => rw [hc] at hb; cases hb
        | ok k =>
          rw [hc] at hb
          cases hb2 : bigLambda g (b :: r) with
          | error e => rw [hb2] at hb; cases hb
          | ok ks =>
            rw [hb2] at hb
            simp only [bind, Except.bind, pure, Except.pure, Except.ok.injEq] at hb
            subst hb
            simp only [applyConversion, Net.convertStep, hc, bind, Except.bind, lambdaLoop]
            cases k fvf v with
            | error e => rfl
            | ok y => exact ih y _ hb2

theorem Along.reads_on {g : Net} {fvf : Option Rat} {S : UNode → Prop} {B : UNode → Rat → Rat}
    (hc : ConsistentOn g fvf S B) {p : List UNode}
    {f : Fn} (h : Along g p f) {a b : UNode} (ha : p.head? = some a) (hb : p.getLast? = some b) (hS : S a) {x y : Rat}
    (hf : f fvf x = .ok y) : B b y = B a x := by
  induction h generalizing a x with
  | single c => simp at ha hb; subst ha hb; cases hf; rfl
  | @step c d p f h hd _ ih =>
    simp only [List.head?_cons, Option.some.injEq] at ha
    subst ha
    rw [List.getLast?_cons_cons] at hb
    dsimp only at hf
    cases hk : f fvf x with
    | error e => rw [hk] at hf; cases hf
    | ok z =>
      rw [hk] at hf
      exact (ih rfl hb (hc.stays _ _ _ hS hd) hf).trans (hc.edge _ _ _ _ _ hS hd hk)

theorem Spec.Consistent.on {g : Net} {fvf : Option Rat} {B : UNode → Rat → Rat} (h : Consistent g fvf B) :
    ConsistentOn g fvf (fun _ => True) B :=
  ⟨fun _ _ _ _ _ => trivial, fun n x y _ => h.inj n x y, fun a b f x y _ => h.edge a b f x y⟩

theorem Along.reads {g : Net} {fvf : Option Rat} {B : UNode → Rat → Rat} (hc : Consistent g fvf B) {p : List UNode}
    {f : Fn} (h : Along g p f) {a b : UNode} (ha : p.head? = some a) (hb : p.getLast? = some b) {x y : Rat}
    (hf : f fvf x = .ok y) : B b y = B a x := Along.reads_on hc.on h ha hb trivial hf

/-! ### the search -/

/-- The parts of the state that no conversion changes. -/
structure SameBase (w w' : World) : Prop where
  net : w'.net = w.net
  fvf : w'.fvf = w.fvf
  par : w'.par = w.par
  dic : w'.dic = w.dic
  es : w'.es = w.es

theorem SameBase.refl (w : World) : SameBase w w := ⟨rfl, rfl, rfl, rfl, rfl⟩

theorem SameBase.trans {w w' w'' : World} (h : SameBase w w') (h2 : SameBase w' w'') : SameBase w w'' :=
  ⟨h2.net.trans h.net, h2.fvf.trans h.fvf, h2.par.trans h.par, h2.dic.trans h.dic, h2.es.trans h.es⟩

theorem SameBase.symm {w w' : World} (h : SameBase w w') : SameBase w' w :=
  ⟨h.net.symm, h.fvf.symm, h.par.symm, h.dic.symm, h.es.symm⟩

/-- A step that only takes the snapshot of names or advances the clock. -/
structure Quiet (w w' : World) : Prop extends SameBase w w' where
  memory : w'.memory = w.memory
  previous : w'.previous = w.previous

theorem Quiet.refl (w : World) : Quiet w w := ⟨.refl w, rfl, rfl⟩

theorem Quiet.trans {w w' w'' : World} (h : Quiet w w') (h2 : Quiet w' w'') : Quiet w w'' :=
  ⟨h.toSameBase.trans h2.toSameBase, h2.memory.trans h.memory, h2.previous.trans h.previous⟩

theorem quiet_snap (w : World) : Quiet w w.snap := ⟨⟨rfl, rfl, rfl, rfl, rfl⟩, rfl, rfl⟩
theorem quiet_tick (w : World) : Quiet w w.tick := ⟨⟨rfl, rfl, rfl, rfl, rfl⟩, rfl, rfl⟩

theorem quiet_ite {c : Prop} [Decidable c] (w : World) : Quiet w (if c then w.snap else w) := by
  split
  · exact quiet_snap w
  · exact .refl w

theorem es_ite {c : Prop} [Decidable c] (w : World) : (if c then w.snap else w).es = w.es := (quiet_ite w).es
theorem net_ite {c : Prop} [Decidable c] (w : World) : (if c then w.snap else w).net = w.net := (quiet_ite w).net

theorem hybridChoice_cases {c : Bool} {l b : Res (Option (List UNode))} {r : Option (List UNode)}
    (h : hybridChoice c l b = .ok r) :
    (∃ x y, l = .ok x ∧ b = .ok y ∧ (r = x ∨ r = y) ∧ (r = none → x = none ∧ y = none)) := by
  unfold hybridChoice at h
  cases l with
  | error e => cases h
  | ok l =>
    cases b with
    | error e => cases h
    | ok b =>
      simp only [bind, Except.bind] at h
      cases l with
      | none => simp at h; subst h; exact ⟨none, b, rfl, rfl, Or.inr rfl, fun e => ⟨rfl, e⟩⟩
      | some p =>
        cases b with
        | none => simp at h; subst h; exact ⟨some p, none, rfl, rfl, Or.inl rfl, by simp⟩
        | some q =>
          simp at h
          subst h
          refine ⟨some p, some q, rfl, rfl, ?_, by simp⟩
          cases c <;> simp

theorem searchNetwork_quiet (a b : Str) (w : World) : Quiet w (searchNetwork a b w).2 := by
  unfold searchNetwork
  split
  · split
    · simp only
      split
      · exact .refl w
      · exact quiet_ite w
      · exact quiet_ite w
      · exact (quiet_ite w).trans (quiet_tick _)
      · exact .refl w
    · exact .refl w
    · exact .refl w
  · exact .refl w

theorem searchNetwork_path {a b : Str} {w : World} {p : List UNode} {w' : World}
    (h : searchNetwork a b w = (.ok (some p), w')) :
    ∃ na nb, w.net.getNode a = .ok na ∧ w.net.getNode b = .ok nb ∧ IsPath (Linked w.net) na nb p := by
  unfold searchNetwork at h
  split at h
  · split at h
    · next na nb hna hnb =>
      refine ⟨na, nb, hna, hnb, ?_⟩
      have dfsS : ∀ {es : List (Str × List Str)} {d : Int}, w.net.dfs es d na nb = .ok (some p) →
          IsPath (Linked w.net) na nb p := by
        intro es d h
        have h' := dfs_sound h
        exact ⟨h'.1.mono (fun _ _ => Net.linked_of_edgeOf), h'.2⟩
      simp only at h
      split at h
      · simp only [Prod.mk.injEq] at h; exact Net.bfs_sound h.1
      · simp only [Prod.mk.injEq, net_ite] at h; exact leanBfs_sound h.1
      · simp only [Prod.mk.injEq, net_ite] at h; exact dfsS h.1
      · simp only [Prod.mk.injEq, net_ite] at h
        obtain ⟨x, y, hx, hy, hr, _⟩ := hybridChoice_cases h.1
        rcases hr with rfl | rfl
        · exact leanBfs_sound hx
        · exact Net.bfs_sound hy
      · cases h
    · cases h
    · cases h
  · cases h

/-- Every search but DFS takes every short cut. -/
theorem searchNetwork_chordless {a b : Str} {w : World} (hg : WF w.net) (ha : w.par.algorithm ≠ .dfs) {p : List UNode}
    {w' : World} (h : searchNetwork a b w = (.ok (some p), w')) : Chordless (Linked w.net) p := by
  unfold searchNetwork at h
  split at h
  · split at h
    · next na nb hna hnb =>
      have hm : na ∈ w.net.nodes := by
        unfold Net.getNode at hna
        split at hna
        · next m hm => cases hna; exact List.mem_of_find?_eq_some hm
        · cases hna
      simp only at h
      split at h
      · simp only [Prod.mk.injEq] at h; exact bfs_chordless hg hm h.1
      · simp only [Prod.mk.injEq, net_ite] at h; exact leanBfs_chordless hg h.1
      · next e => exact absurd e ha
      · simp only [Prod.mk.injEq, net_ite] at h
        obtain ⟨x, y, hx, hy, hr, _⟩ := hybridChoice_cases h.1
        rcases hr with rfl | rfl
        · exact leanBfs_chordless hg hx
        · exact bfs_chordless hg hm hy
      · cases h
    · cases h
    · cases h
  · cases h

/-- A search that found nothing finds nothing again. -/
theorem searchNetwork_none {a b : Str} {w w' w2 : World} (h : searchNetwork a b w = (.ok none, w'))
    (hb : SameBase w w2) : ∃ w3, searchNetwork a b w2 = (.ok none, w3) := by
  unfold searchNetwork at h ⊢
  rw [hb.net]
  split at h
  · next hc =>
    rw [if_pos hc]
    split at h
    · next na nb hna hnb =>
      simp only [hb.par] at h ⊢
      split at h
      · next ha => simp only [Prod.mk.injEq] at h; exact ⟨w2, by rw [h.1]⟩
      · next ha => simp only [Prod.mk.injEq, net_ite, es_ite] at h ⊢; rw [hb.es, hb.net, h.1]; exact ⟨_, rfl, rfl⟩
      · next ha => simp only [Prod.mk.injEq, net_ite, es_ite] at h ⊢; rw [hb.es, hb.net, h.1]; exact ⟨_, rfl, rfl⟩
      · next ha =>
        simp only [Prod.mk.injEq, net_ite, es_ite] at h ⊢
        rw [hb.es, hb.net]
        obtain ⟨x, y, hx, hy, _, hn⟩ := hybridChoice_cases h.1
        obtain ⟨rfl, rfl⟩ := hn rfl
        rw [hx, hy]
        exact ⟨_, rfl, rfl⟩
      · cases h
    · cases h
    · cases h
  · next hc => rw [if_neg hc]; exact ⟨w2, rfl⟩

/-! ### `_get_conversion` -/

@[simp] theorem remember_net (w : World) (a b : Str) (e) : (w.remember a b e).net = w.net := rfl
@[simp] theorem remember_fvf (w : World) (a b : Str) (e) : (w.remember a b e).fvf = w.fvf := rfl
@[simp] theorem remember_par (w : World) (a b : Str) (e) : (w.remember a b e).par = w.par := rfl
@[simp] theorem remember_dic (w : World) (a b : Str) (e) : (w.remember a b e).dic = w.dic := rfl
@[simp] theorem remember_previous (w : World) (a b : Str) (e) : (w.remember a b e).previous = w.previous := rfl

theorem remember_base (w : World) (a b : Str) (e) : SameBase w (w.remember a b e) := ⟨rfl, rfl, rfl, rfl, rfl⟩

theorem remember_get (w : World) (a b : Str) (e) : Py.dictGet (w.remember a b e).memory (a, b) = some e :=
  Py.dictGet_dictSet_same _ _ _

theorem remember_get_ne (w : World) {a b x y : Str} (e) (h : (x, y) ≠ (a, b)) :
    Py.dictGet (w.remember a b e).memory (x, y) = Py.dictGet w.memory (x, y) :=
  Py.dictGet_dictSet_other _ _ h

theorem answer_state (v : Option Rat) (f : Fn) (p : Path) (w : World) : (answer v f p w).2 = w := by
  cases v <;> rfl

/-- the result of `answer` -/
def ansRes (v : Option Rat) (f : Fn) (p : Path) (fvf : Option Rat) : Res (Option (Conv × Path)) :=
  match v with
  | none => .ok (some (.fn f, p))
  | some x => (f fvf x).map fun y => some (.num y, p)

theorem answer_eq (v : Option Rat) (f : Fn) (p : Path) (w : World) : answer v f p w = (ansRes v f p w.fvf, w) := by
  cases v <;> rfl

theorem ansRes_not_none (v : Option Rat) (f : Fn) (p : Path) (fvf : Option Rat) : ansRes v f p fvf ≠ .ok none := by
  cases v with
  | none => simp [ansRes]
  | some x => cases h : f fvf x <;> simp [ansRes, h, Except.map]

/-- What the network search contributes: nothing, or a composition along a path which is remembered. -/
theorem networkConversion_spec (hg : WF w.net) (v : Option Rat) (a b : Str) :
    (∃ e, (searchNetwork a b w).1 = .error e ∧ networkConversion v a b w = (.error e, (searchNetwork a b w).2)) ∨
    (searchNetwork a b w).1 = .ok none ∧ networkConversion v a b w = (.ok none, (searchNetwork a b w).2) ∨
    ∃ p f na nb, (searchNetwork a b w).1 = .ok (some p) ∧ w.net.getNode a = .ok na ∧ w.net.getNode b = .ok nb ∧
      IsPath (Linked w.net) na nb p ∧ Along w.net p f ∧
      networkConversion v a b w = storeAnswer v a b f (p.map Step.node) (searchNetwork a b w).2 := by
  have hq := searchNetwork_quiet a b w
  cases hs : searchNetwork a b w with
  | mk r w1 =>
    rw [hs] at hq
    cases r with
    | error e => exact Or.inl ⟨e, rfl, PyM.run_bind_error hs⟩
    | ok r =>
      cases r with
      | none => exact Or.inr (Or.inl ⟨rfl, PyM.run_bind_ok hs⟩)
      | some p =>
        right; right
        obtain ⟨na, nb, h1, h2, h3⟩ := searchNetwork_path hs
        obtain ⟨f, hf, hal⟩ := lambdaConversion_chain hg h3.1
        refine ⟨p, f, na, nb, rfl, h1, h2, h3, hal, ?_⟩
        have hf1 : lambdaConversion w1.net p = .ok f := by rw [hq.net]; exact hf
        unfold networkConversion
        rw [PyM.run_bind_ok hs]
        simp only
        rw [PyM.run_bind_ok (PyM.run_get _), hf1, PyM.run_bind_ok (PyM.run_lift_ok _ _),
          PyM.run_bind_ok (PyM.run_modify _ _)]
        unfold storeAnswer
        rw [PyM.run_bind_ok (PyM.run_modify _ _)]
        cases v with
        | none => rfl
        | some x =>
          simp only
          rw [lambda_apply hf1]
          unfold answer
          simp only [remember_fvf]
          cases h : f w1.fvf x with
          | error e => exact PyM.run_bind_error rfl
          | ok y => exact PyM.run_bind_ok (PyM.run_lift_ok _ _)

end Unyts
