import Verif.Lemmas.ConvParts
import Verif.Spec.Sizes

/- Conversions of units of several names keep to the sizes of the units: the argument, for any division of pairs of
strings in `Good` (to be converted rightly) and `Bad` (never to be converted). -/
namespace Unyts
open Spec

/-- `m` keeps `I`, and what it returns satisfies `Q`. -/
def Post (I : σ → Prop) (Q : α → Prop) (m : PyM σ α) : Prop :=
  ∀ w, I w → I (m w).2 ∧ ∀ r, (m w).1 = .ok r → Q r

namespace Post
variable {I : σ → Prop}

theorem pure {Q : α → Prop} {a : α} (h : Q a) : Post I Q (Pure.pure a : PyM σ α) := by
  intro w hw; exact ⟨hw, by intro r e; cases e; exact h⟩

theorem raise {Q : α → Prop} (e : PyErr) : Post I Q (PyM.raise e : PyM σ α) := by
  intro w hw; exact ⟨hw, by intro r e; cases e⟩

theorem lift {Q : α → Prop} {r : Res α} (h : ∀ a, r = .ok a → Q a) : Post I Q (PyM.lift r : PyM σ α) := by
  intro w hw; exact ⟨hw, h⟩

theorem get : Post I I (PyM.get : PyM σ σ) := by
  intro w hw; exact ⟨hw, by intro r e; cases e; exact hw⟩

theorem bind {Q : α → Prop} {R : β → Prop} {m : PyM σ α} {f : α → PyM σ β} (hm : Post I Q m)
    (hf : ∀ a, Q a → Post I R (f a)) : Post I R (m >>= f) := by
  intro w hw
  have := hm w hw
  cases hr : m w with
  | mk r w1 =>
    rw [hr] at this
    cases r with
    | ok a => rw [PyM.run_bind_ok hr]; exact hf a (this.2 a rfl) w1 this.1
    | error e => rw [PyM.run_bind_error hr]; exact ⟨this.1, by intro r e; cases e⟩

theorem modify {f : σ → σ} (h : ∀ w, I w → I (f w)) : Post I (fun _ => True) (PyM.modify f) := by
  intro w hw; exact ⟨h w hw, fun _ _ => trivial⟩

theorem of_inv {m : PyM σ α} (h : Inv I m) : Post I (fun _ => True) m := fun w hw => ⟨h w hw, fun _ _ => trivial⟩

theorem inv {Q : α → Prop} {m : PyM σ α} (h : Post I Q m) : Inv I m := fun w hw => (h w hw).1

theorem mono {Q R : α → Prop} {m : PyM σ α} (h : Post I Q m) (hQ : ∀ a, Q a → R a) : Post I R m :=
  fun w hw => ⟨(h w hw).1, fun r hr => hQ r ((h w hw).2 r hr)⟩

end Post

/-- The factors `fs` are matched with different factors among `ts`, each pair `Good`; `ks` are the numbers the library
multiplies. -/
inductive Matching (Good : Str → Str → Prop) (size : Str → Rat) :
    List Factor → List Factor → List Rat → Prop
  | nil (ts : List Factor) : Matching Good size [] ts []
  | cons {f t : Factor} {fs ts rest : List Factor} {k : Rat} {ks : List Rat} : ts.Perm (t :: rest) → Good f.2 t.2 →
      k * size t.2 = size f.2 → ((f.1 || t.1) = true → k ≠ 0) → Matching Good size fs rest ks →
      Matching Good size (f :: fs) ts ((if f.1 || t.1 then 1 / k else k) :: ks)

/-- The lists of names in `es` are conversions of `g`. -/
def SoundNames (g : Net) (es : List (Str × List Str)) : Prop :=
  ∀ u l v, (u, l) ∈ es → v ∈ l → ∃ n m, Linked g n m ∧ n.name = u ∧ m.name = v

/-- the factors with a name -/
def named (u : Str) : List Factor := (factors u).filter fun f => decide (f.2 ≠ [])

/-- The conditions under which the argument works. -/
structure Typed (g : Net) (d : Dict) (fvf : Option Rat) (Near Good Bad : Str → Str → Prop) (size : Str → Rat) : Prop where
  symm : ∀ {a b}, Good a b → Good b a
  trans : ∀ {a b c}, Good a b → Good b c → Good a c
  known : ∀ {a b}, Bad a b → Good a a
  apart : ∀ {a b}, Bad a b → ¬ Near a b
  near : ∀ {a}, Good a a → Near a a
  left : ∀ {a b c}, Good a c → Bad a b → isPair b = true → Bad c b
  pair : ∀ {a b}, Bad a b → isPair a = true → isPair b = true
  edge : ∀ {a n m f}, Good a a → Near a n.name → Direct g n m f →
    Near a m.name ∧ ∀ x y, f fvf x = .ok y → y * size m.name = x * size n.name
  child : ∀ {a b u c}, Good a b ∨ Bad a b → isPair a ≠ isPair b → u = a ∨ (u = b ∧ Good a b) → Near u c → Good u c
  rules : ∀ {a b}, Good a b ∨ Bad a b → a ≠ b →
    (∀ g', quick1 d g' a b = none) ∧ tempParts d a b = none ∧ quick2 d a b = none
  parts : ∀ {a b}, Good a b ∨ Bad a b → ∀ f ∈ named a, ∀ t ∈ named b, Good f.2 t.2 ∨ Bad f.2 t.2
  good : ∀ {a b ks}, Good a b → Matching Good size (named a) (named b) ks → ks ≠ [] → ks.prod * size b = size a
  bad : ∀ {a b ks}, Bad a b → Matching Good size (named a) (named b) ks → ks ≠ [] → False
  desc : ∀ {a c gens es has}, SoundNames g es → Good a a → (ratioParts a).isSome = true →
    c ∈ getDescendants es has a gens true → Good a c ∨ Bad a c

section
variable {g : Net} {d : Dict} {fvf : Option Rat} {Good Bad : Str → Str → Prop} {size : Str → Rat}

/-- `f` converts numbers of `a` to numbers of `b` rightly. -/
def RightFn (fvf : Option Rat) (size : Str → Rat) (a b : Str) (f : Fn) : Prop :=
  ∀ x y, f fvf x = .ok y → y * size b = x * size a

/-- the answer to converting the value `v` is right -/
def RightAns (fvf : Option Rat) (size : Str → Rat) (v : Option Rat) (a b : Str) (c : Conv) : Prop :=
  match v with
  | none => RightFn fvf size a b c.call
  | some x => ∃ y, c = .num y ∧ y * size b = x * size a

/-- What is required of an answer. -/
def Fit (fvf : Option Rat) (Good Bad : Str → Str → Prop) (size : Str → Rat) (v : Option Rat) (a b : Str)
    (r : Option (Conv × Path)) : Prop :=
  ∀ c p, r = some (c, p) → (Good a b → RightAns fvf size v a b c) ∧ ¬ Bad a b

/-- What is required of a conversion found. -/
def FitFn (fvf : Option Rat) (Good Bad : Str → Str → Prop) (size : Str → Rat) (a b : Str)
    (r : Option (Fn × Path)) : Prop :=
  ∀ f p, r = some (f, p) → (Good a b → RightFn fvf size a b f) ∧ ¬ Bad a b

/-- The invariant of the state. -/
structure TInv (g : Net) (d : Dict) (fvf : Option Rat) (Good Bad : Str → Str → Prop) (size : Str → Rat) (w : World) :
    Prop where
  wf : WF w.net
  sub : ∀ n m f, Direct w.net n m f → Direct g n m f
  dic : w.dic = d
  fvfEq : w.fvf = fvf
  es : ∀ l, w.edgesStr = some l → SoundNames g l
  memory : ∀ a b e, Py.dictGet w.memory (a, b) = some e → FitFn fvf Good Bad size a b e

theorem mem_dictSet_or {d : List (Str × List Str)} {k k' : Str} {v v' : List Str} (h : (k', v') ∈ Py.dictSet d k v) :
    (k', v') ∈ d ∨ (k' = k ∧ v' = v) := by
  induction d with
  | nil => simp [Py.dictSet] at h; exact Or.inr h
  | cons e r ih =>
    obtain ⟨k0, v0⟩ := e
    rw [Py.dictSet] at h
    split at h
    · next hk =>
      rcases List.mem_cons.1 h with h | h
      · simp only [Prod.mk.injEq] at h
        exact Or.inr ⟨by rw [h.1]; exact hk, h.2⟩
      · exact Or.inl (List.mem_cons_of_mem _ h)
    · rcases List.mem_cons.1 h with h | h
      · exact Or.inl (by rw [h]; exact List.mem_cons_self)
      · rcases ih h with h | h
        · exact Or.inl (List.mem_cons_of_mem _ h)
        · exact Or.inr h

theorem soundNames_net (g : Net) : SoundNames g g.edgesStr := by
  have key : ∀ (es : List (UNode × List (UNode × Fn))), (∀ e ∈ es, e ∈ g.edges) → ∀ acc, SoundNames g acc →
      SoundNames g (es.foldl (fun d e => Py.dictSet d e.1.name (e.2.map fun c => c.1.name)) acc) := by
    intro es
    induction es with
    | nil => intro _ acc h; exact h
    | cons e r ih =>
      intro he acc h
      refine ih (fun e' h' => he e' (List.mem_cons_of_mem _ h')) _ ?_
      intro u l v hl hv
      rcases mem_dictSet_or hl with hl | ⟨rfl, rfl⟩
      · exact h u l v hl hv
      · obtain ⟨c, hc, rfl⟩ := List.mem_map.1 hv
        exact ⟨e.1, c.1, ⟨c.2, e.2, he e List.mem_cons_self, hc⟩, rfl, rfl⟩
  exact key g.edges (fun _ h => h) [] (by intro u l v hl; cases hl)

theorem soundNames_sub {g g' : Net} (h : ∀ n m f, Direct g' n m f → Direct g n m f) {es : List (Str × List Str)}
    (hs : SoundNames g' es) : SoundNames g es := by
  intro u l v hl hv
  obtain ⟨n, m, ⟨f, hf⟩, h1, h2⟩ := hs u l v hl hv
  exact ⟨n, m, ⟨f, h _ _ _ hf⟩, h1, h2⟩

theorem TInv.names {w : World} (h : TInv g d fvf Good Bad size w) : SoundNames g w.es := by
  unfold World.es
  cases e : w.edgesStr with
  | none => exact soundNames_sub h.sub (soundNames_net _)
  | some l => exact h.es l e

theorem tinv_basic : Basic (TInv g d fvf Good Bad size) where
  snap := by
    intro w h
    refine ⟨h.wf, h.sub, h.dic, h.fvfEq, ?_, h.memory⟩
    intro l hl
    have := h.names
    unfold World.es at this
    simp only [World.snap, Option.some.injEq] at hl
    rw [← hl]
    exact this
  tick := fun w h => ⟨h.wf, h.sub, h.dic, h.fvfEq, h.es, h.memory⟩
  prev := fun w x _ h => ⟨h.wf, h.sub, h.dic, h.fvfEq, h.es, h.memory⟩

theorem tinv_wf : NeedsWF (TInv g d fvf Good Bad size) := fun _ h => h.wf

theorem tinv_remember {w : World} (h : TInv g d fvf Good Bad size w) {a b : Str} {e : Option (Fn × Path)}
    (he : FitFn fvf Good Bad size a b e) : TInv g d fvf Good Bad size (w.remember a b e) := by
  refine ⟨h.wf, h.sub, h.dic, h.fvfEq, h.es, ?_⟩
  intro x y e' hm
  by_cases hxy : (x, y) = (a, b)
  · simp only [Prod.mk.injEq] at hxy
    obtain ⟨rfl, rfl⟩ := hxy
    rw [remember_get] at hm
    cases hm
    exact he
  · rw [remember_get_ne _ _ hxy] at hm
    exact h.memory x y e' hm

variable {Near : Str → Str → Prop} (T : Typed g d fvf Near Good Bad size)
include T

theorem Typed.refl {a b : Str} (h : Good a b) : Good a a := T.trans h (T.symm h)

/-- Along the network one stays among the `Good`, with the right number. -/
theorem Typed.along {p : List UNode} {f : Fn} (h : Along g p f) {a b : UNode} (ha : p.head? = some a)
    (hb : p.getLast? = some b) {u : Str} (hu : Good u u) (hk : Near u a.name) :
    Near u b.name ∧ RightFn fvf size a.name b.name f := by
  induction h generalizing a with
  | single c =>
    simp only [List.head?_cons, Option.some.injEq, List.getLast?_singleton] at ha hb
    subst ha hb
    exact ⟨hk, by intro x y e; cases e; rfl⟩
  | @step c m p f k hd _ ih =>
    simp only [List.head?_cons, Option.some.injEq] at ha
    subst ha
    rw [List.getLast?_cons_cons] at hb
    obtain ⟨h1, h2⟩ := T.edge hu hk hd
    obtain ⟨h3, h4⟩ := ih rfl hb h1
    refine ⟨h3, ?_⟩
    intro x y e
    dsimp only at e
    cases hf : f fvf x with
    | error e' => rw [hf] at e; cases e
    | ok z =>
      rw [hf] at e
      exact (h4 z y e).trans (h2 x z hf)

theorem Typed.path {w : World} (hw : TInv g d fvf Good Bad size w) {na nb : UNode} {a b : Str} {p : List UNode} {f : Fn}
    (ha : w.net.getNode a = .ok na) (hb : w.net.getNode b = .ok nb) (hp : IsPath (Linked w.net) na nb p)
    (hf : Along w.net p f) (path : Path) : FitFn fvf Good Bad size a b (some (f, path)) := by
  replace hf := along_mono hw.sub hf
  obtain ⟨h1, h2⟩ := isPath_ends hp
  intro f' p' e
  cases e
  rw [← (getNode_mem ha).2, ← (getNode_mem hb).2]
  exact ⟨fun h => (T.along hf h1 h2 (T.refl h) (T.near (T.refl h))).2,
    fun h => T.apart h (T.along hf h1 h2 (T.known h) (T.near (T.known h))).1⟩

theorem Typed.keepsPaths : KeepsPaths (TInv g d fvf Good Bad size) := by
  intro w a b p f na nb h _ ha hb hp _ hf
  exact tinv_remember h (T.path h ha hb hp hf _)

omit T in
theorem post_answer {v : Option Rat} {a b : Str} {f : Fn} {p : Path} (h : FitFn fvf Good Bad size a b (some (f, p))) :
    Post (TInv g d fvf Good Bad size) (Fit fvf Good Bad size v a b) (answer v f p) := by
  intro w hw
  rw [answer_eq]
  refine ⟨hw, ?_⟩
  intro r hr c q e
  subst e
  obtain ⟨h1, h2⟩ := h f p rfl
  refine ⟨fun hg => ?_, h2⟩
  cases v with
  | none =>
    simp only [ansRes, Except.ok.injEq, Option.some.injEq, Prod.mk.injEq] at hr
    rw [← hr.1]
    exact h1 hg
  | some x =>
    simp only [ansRes] at hr
    rw [hw.fvfEq] at hr
    cases hf : f fvf x with
    | error e => rw [hf] at hr; cases hr
    | ok y =>
      rw [hf] at hr
      simp only [Except.map, Except.ok.injEq, Option.some.injEq, Prod.mk.injEq] at hr
      exact ⟨y, hr.1.symm, h1 hg x y hf⟩

omit T in
theorem post_store {v : Option Rat} {a b : Str} {f : Fn} {p : Path} (h : FitFn fvf Good Bad size a b (some (f, p))) :
    Post (TInv g d fvf Good Bad size) (Fit fvf Good Bad size v a b) (storeAnswer v a b f p) := by
  unfold storeAnswer
  exact .bind (.modify fun w hw => tinv_remember hw h) fun _ _ => post_answer h

omit T in
theorem fit_none {v : Option Rat} {a b : Str} : Fit fvf Good Bad size v a b none := by intro c p e; cases e

omit T in
theorem fitFn_none {a b : Str} : FitFn fvf Good Bad size a b none := by intro c p e; cases e

omit T in
/-- any answer fits a pair that is not in question -/
theorem fit_other {v : Option Rat} {a b : Str} (h : ¬ (Good a b ∨ Bad a b)) (r : Option (Conv × Path)) :
    Fit fvf Good Bad size v a b r := fun _ _ _ => ⟨fun hg => absurd (Or.inl hg) h, fun hb => h (Or.inr hb)⟩

omit T in
theorem fitFn_other {a b : Str} (h : ¬ (Good a b ∨ Bad a b)) (r : Option (Fn × Path)) :
    FitFn fvf Good Bad size a b r := fun _ _ _ => ⟨fun hg => absurd (Or.inl hg) h, fun hb => h (Or.inr hb)⟩

theorem Typed.post_getConv (n : Nat) (uc : Option Bool) (v : Option Rat) (a b : Str) :
    Post (TInv g d fvf Good Bad size) (Fit fvf Good Bad size v a b) (getConv n uc v a b) := by
  by_cases hab : Good a b ∨ Bad a b
  · cases n with
    | zero => exact .pure fit_none
    | succ n =>
      intro w hw
      rw [getConv, getConvBody]
      cases hm : (if resolveCache w uc then Py.dictGet w.memory (a, b) else none) with
      | some e =>
        have he : FitFn fvf Good Bad size a b e := by
          split at hm
          · exact hw.memory a b e hm
          · cases hm
        match e with
        | none => exact ⟨hw, by intro r e; cases e; exact fit_none⟩
        | some (f, p) => exact post_answer he w hw
      | none =>
        simp only
        by_cases e : a = b
        · subst e
          have hq : quick1 w.dic w.net a a = some (idFn, [nodeOrName w.net a]) := by simp [quick1]
          rw [hq]
          refine post_answer (v := v) (fun f p e => ?_) w hw
          cases e
          refine ⟨fun _ x y e => by cases e; rfl, fun hb => ?_⟩
          exact T.apart hb (T.near (T.known hb))
        · obtain ⟨h1, h2, h3⟩ := T.rules hab e
          rw [hw.dic, h1]
          simp only
          rw [h2]
          simp only
          rw [h3]
          simp only
          have hb := searchNetwork_quiet a b w
          have hs := inv_searchNetwork tinv_basic a b w hw
          rcases networkConversion_spec hw.wf v a b with ⟨e, _, h2⟩ | ⟨_, h2⟩ | ⟨p, f, na, nb, _, h2, h3, h4, h5, h6⟩
          · rw [h2]; exact ⟨hs, by intro r e; cases e⟩
          · rw [h2]; exact ⟨hs, by intro r e; cases e; exact fit_none⟩
          · rw [h6]
            exact post_store (T.path hw h2 h3 h4 h5 _) _ hs
  · intro w hw
    exact ⟨inv_getConv tinv_basic tinv_wf T.keepsPaths n uc v a b w hw, fun r _ => fit_other hab r⟩

theorem Typed.post_matchPart (n : Nat) (uc : Option Bool) (nf : Bool) (f : Factor) (ts : List Factor)
    (h : ∀ t ∈ ts, Good f.2 t.2 ∨ Bad f.2 t.2) :
    Post (TInv g d fvf Good Bad size) (fun r => ∀ k p rest, r = some (k, p, rest) → ∃ t k0, ts.Perm (t :: rest) ∧
      Good f.2 t.2 ∧ k0 * size t.2 = size f.2 ∧ ((f.1 || t.1) = true → k0 ≠ 0) ∧ k = if f.1 || t.1 then 1 / k0 else k0)
      (matchPart (getConv n uc) nf f ts) := by
  induction ts with
  | nil => exact .pure (by intro k p rest e; cases e)
  | cons t ts ih =>
    rw [matchPart]
    refine .bind (T.post_getConv n uc (some 1) f.2 t.2) fun r hr => ?_
    match r with
    | some (c, p) =>
      obtain ⟨h1, h2⟩ := hr c p rfl
      have hg : Good f.2 t.2 := (h t List.mem_cons_self).resolve_right h2
      obtain ⟨y, rfl, hy⟩ := h1 hg
      rw [one_mul] at hy
      simp only [Conv.toNum]
      refine .bind (Q := fun k => k = y) (.lift (by intro a e; cases e; rfl)) fun k hk => ?_
      subst hk
      split
      · next hc =>
        refine .bind (Q := fun q => k ≠ 0 ∧ q = 1 / k) (.lift ?_) fun q hq => ?_
        · intro q hq
          unfold pdiv at hq
          split at hq
          · cases hq
          · next hk => cases hq; exact ⟨hk, rfl⟩
        · refine .pure ?_
          intro k' p' rest e
          simp only [Option.some.injEq, Prod.mk.injEq] at e
          obtain ⟨rfl, rfl, rfl⟩ := e
          exact ⟨t, k, .refl _, hg, hy, fun _ => hq.1, by rw [if_pos hc]; exact hq.2⟩
      · next hc =>
        refine .pure ?_
        intro k' p' rest e
        simp only [Option.some.injEq, Prod.mk.injEq] at e
        obtain ⟨rfl, rfl, rfl⟩ := e
        exact ⟨t, k, .refl _, hg, hy, fun h => absurd h hc, by rw [if_neg hc]⟩
    | none =>
      simp only
      refine .bind (ih fun t ht => h t (List.mem_cons_of_mem _ ht)) fun r hr => ?_
      match r with
      | none => exact .pure (by intro k p rest e; cases e)
      | some (k, p, rest) =>
        refine .pure ?_
        intro k' p' rest' e
        simp only [Option.some.injEq, Prod.mk.injEq] at e
        obtain ⟨rfl, rfl, rfl⟩ := e
        obtain ⟨t', k0, hp, hh⟩ := hr k p rest rfl
        exact ⟨t', k0, (hp.cons t).trans (.swap _ _ _), hh⟩

theorem Typed.post_matchParts (n : Nat) (uc : Option Bool) (nf : Bool) (fs ts : List Factor)
    (h : ∀ f ∈ fs, ∀ t ∈ ts, Good f.2 t.2 ∨ Bad f.2 t.2) :
    Post (TInv g d fvf Good Bad size) (fun r => ∀ l, r = some l → Matching Good size fs ts (l.map Prod.fst))
      (matchParts (getConv n uc) nf fs ts) := by
  induction fs generalizing nf ts with
  | nil => exact .pure (by intro l e; cases e; exact .nil _)
  | cons f fs ih =>
    rw [matchParts]
    refine .bind (T.post_matchPart n uc nf f ts (h f List.mem_cons_self)) fun r hr => ?_
    match r with
    | none => exact .pure (by intro l e; cases e)
    | some (k, p, rest) =>
      obtain ⟨t, k0, hp, h1, h2, h3, rfl⟩ := hr k p rest rfl
      refine .bind (ih true rest fun f' hf t' ht => h f' (List.mem_cons_of_mem _ hf) t'
        (hp.symm.subset (List.mem_cons_of_mem _ ht))) fun r hr => ?_
      match r with
      | none => exact .pure (by intro l e; cases e)
      | some l =>
        refine .pure ?_
        intro l' e
        simp only [Option.some.injEq] at e
        subst e
        exact .cons hp h1 h2 h3 (hr l rfl)

theorem Typed.post_split (n : Nat) (uc : Option Bool) (a b : Str) :
    Post (TInv g d fvf Good Bad size) (FitFn fvf Good Bad size a b) (splitStage (getConv n uc) a b) := by
  by_cases hab : Good a b ∨ Bad a b
  · unfold splitStage
    rw [operands_eq, operands_eq]
    refine .bind (T.post_matchParts n uc false (named a) (named b) (T.parts hab)) fun r hr => ?_
    match r with
    | none => exact .pure fitFn_none
    | some [] => exact .pure fitFn_none
    | some ((k, p) :: l) =>
      have hm := hr _ rfl
      refine .pure ?_
      intro f q e
      simp only [Option.some.injEq, Prod.mk.injEq] at e
      obtain ⟨rfl, rfl⟩ := e
      refine ⟨fun hg => ?_, fun hb => T.bad hb hm (by simp)⟩
      have := T.good hg hm (by simp)
      intro x y e
      simp only [scaleFn, Except.ok.injEq] at e
      subst e
      rw [foldl_prod]
      rw [List.map_cons, List.prod_cons] at this
      rw [mul_assoc, this]
  · exact fun w hw => ⟨inv_splitStage (fun v a b => (T.post_getConv n uc v a b).inv) a b w hw,
      fun r _ => fitFn_other hab r⟩

/-- Where the one-to-pair stage goes: to a unit of the same kind. -/
theorem Typed.pairChild {w : World} (hw : TInv g d fvf Good Bad size w) {u c : Str} (h : getPairChild w.net u = .ok (some c)) (hu : Good u u) : Near u c := by
  have kids : ∀ {n : UNode} {ks : List UNode}, w.net.childrenOf n = .ok ks → Near u n.name → ∀ k ∈ ks, Near u k.name := by
    intro n ks hk hn k hkk
    have : Linked w.net n k := Net.linked_of_edgeOf ⟨ks, hk, hkk⟩
    obtain ⟨f, hf⟩ := this
    exact (T.edge hu hn (hw.sub _ _ _ hf)).1
  have first : ∀ {ks : List UNode}, (∀ k ∈ ks, Near u k.name) →
      ∀ {x : Str}, firstShortest ((ks.map (·.name)).filter isPair) = some x → Near u x := by
    intro ks hk x hx
    obtain ⟨k, hk1, rfl⟩ := List.mem_map.1 (List.mem_filter.1 (firstShortest_mem hx)).1
    exact hk k hk1
  have hgc : ∀ ks : List UNode, (∀ k ∈ ks, Near u k.name) → pairGrandchild w.net ks = .ok (some c) → Near u c := by
    intro ks
    induction ks with
    | nil => intro _ h; simp [pairGrandchild] at h
    | cons k ks ih =>
      intro hk h
      rw [pairGrandchild] at h
      cases hkk : w.net.childrenOf k with
      | error e => rw [hkk] at h; cases h
      | ok l =>
        rw [hkk] at h
        simp only [bind, Except.bind] at h
        split at h
        · next x hx => cases h; exact first (kids hkk (hk k List.mem_cons_self)) hx
        · exact ih (fun k' hk' => hk k' (List.mem_cons_of_mem _ hk')) h
  unfold getPairChild at h
  cases hn : w.net.getNode u with
  | error e => rw [hn] at h; cases h
  | ok n =>
    rw [hn] at h
    simp only [bind, Except.bind] at h
    cases hk : w.net.childrenOf n with
    | error e => rw [hk] at h; cases h
    | ok l =>
      rw [hk] at h
      simp only at h
      have hu' : Near u n.name := by rw [(getNode_mem hn).2]; exact T.near hu
      split at h
      · next x hx => cases h; exact first (kids hk hu') hx
      · exact hgc _ (kids hk hu') h

omit T in
/-- two conversions in a row -/
theorem fit_comp {a b c : Str} {f k : Conv} (h1 : RightFn fvf size a c f.call) (h2 : RightFn fvf size c b k.call) :
    RightFn fvf size a b (compFn f k) := by
  intro x y e
  unfold compFn at e
  cases hf : f.call fvf x with
  | error e' => rw [hf] at e; cases e
  | ok z =>
    rw [hf] at e
    exact (h2 z y e).trans (h1 x z hf)

/-- the conversions `cv` makes are as they should be -/
def GoodCalls (g : Net) (d : Dict) (fvf : Option Rat) (Good Bad : Str → Str → Prop) (size : Str → Rat)
    (cv : Option Rat → Str → Str → CallM) : Prop :=
  ∀ v a b, Post (TInv g d fvf Good Bad size) (Fit fvf Good Bad size v a b) (cv v a b)

theorem Typed.post_pair {cv : Option Rat → Str → Str → CallM} (hcv : GoodCalls g d fvf Good Bad size cv) (a b : Str) :
    Post (TInv g d fvf Good Bad size) (FitFn fvf Good Bad size a b) (pairStage cv a b) := by
  unfold pairStage
  refine .bind .get fun w hw => ?_
  by_cases h1 : (isPair b && !isPair a) = true
  · rw [if_pos h1]
    refine .bind (Q := fun r => getPairChild w.net a = .ok r) (.lift fun _ h => h) fun r hr => ?_
    match r with
    | none => exact .pure fitFn_none
    | some c =>
      refine .bind (hcv none a c) fun r1 hr1 => .bind (hcv none c b) fun r2 hr2 => ?_
      match r1, r2 with
      | none, _ => exact .pure fitFn_none
      | some _, none => exact .pure fitFn_none
      | some (f, p), some (k, q) =>
        refine .pure ?_
        intro f' p' e
        simp only [Option.some.injEq, Prod.mk.injEq] at e
        obtain ⟨rfl, rfl⟩ := e
        rw [Bool.and_eq_true, Bool.not_eq_true'] at h1
        have hne : isPair a ≠ isPair b := by rw [h1.1, h1.2]; simp
        refine ⟨fun hg => ?_, fun hb => ?_⟩
        · have hac := T.child (Or.inl hg) hne (Or.inl rfl) (T.pairChild hw hr (T.refl hg))
          exact fit_comp ((hr1 f p rfl).1 hac) ((hr2 k q rfl).1 (T.trans (T.symm hac) hg))
        · exact (hr2 k q rfl).2 (T.left (T.child (Or.inr hb) hne (Or.inl rfl) (T.pairChild hw hr (T.known hb))) hb h1.1)
  · rw [if_neg h1]
    by_cases h2 : (isPair a && !isPair b) = true
    · rw [if_pos h2]
      refine .bind (Q := fun r => getPairChild w.net b = .ok r) (.lift fun _ h => h) fun r hr => ?_
      match r with
      | none => exact .pure fitFn_none
      | some c =>
        refine .bind (hcv none c b) fun r1 hr1 => .bind (hcv none a c) fun r2 hr2 => ?_
        match r2, r1 with
        | none, _ => exact .pure fitFn_none
        | some _, none => exact .pure fitFn_none
        | some (f, p), some (k, q) =>
          refine .pure ?_
          intro f' p' e
          simp only [Option.some.injEq, Prod.mk.injEq] at e
          obtain ⟨rfl, rfl⟩ := e
          rw [Bool.and_eq_true, Bool.not_eq_true'] at h2
          have hne : isPair a ≠ isPair b := by rw [h2.1, h2.2]; simp
          refine ⟨fun hg => ?_, fun hb => ?_⟩
          · have hbc := T.child (Or.inl hg) hne (Or.inr ⟨rfl, hg⟩) (T.pairChild hw hr (T.refl (T.symm hg)))
            exact fit_comp ((hr2 f p rfl).1 (T.trans hg hbc)) ((hr1 k q rfl).1 (T.symm hbc))
          · have := T.pair hb h2.1
            rw [this] at h2
            simp at h2
    · rw [if_neg h2]
      exact .pure fitFn_none

/-- a conversion kept in a variable: right if there is one -/
def RightOpt (fvf : Option Rat) (size : Str → Rat) (a b : Str) (c : Option Conv) : Prop :=
  RightFn fvf size a b (callOpt c)

theorem Typed.post_loop {cv : Option Rat → Str → Str → CallM} (hcv : GoodCalls g d fvf Good Bad size cv) {a b : Str}
    (hb : isPair b = true) (m : Option Nat) (l : List (Option Nat × Str))
    (hl : ∀ x ∈ l, Good a x.2 ∨ Bad a x.2) (path sh : Nat) (best : Option Path) (last : Option Conv × Option Conv)
    (hbest : best.isSome = true → ¬ Bad a b)
    (hlast : Good a b → RightFn fvf size a b (fun fvf x => do let y ← callOpt last.1 fvf x; callOpt last.2 fvf y)) :
    Post (TInv g d fvf Good Bad size) (fun r => (r.1.isSome = true → ¬ Bad a b) ∧
      (Good a b → RightFn fvf size a b (fun fvf x => do let y ← callOpt r.2.1 fvf x; callOpt r.2.2 fvf y)))
      (ratioLoop cv a b m l path sh best last) := by
  induction l generalizing path sh best last with
  | nil => exact .pure ⟨hbest, hlast⟩
  | cons x r ih =>
    obtain ⟨gn, child⟩ := x
    rw [ratioLoop]
    split
    · exact .pure ⟨hbest, hlast⟩
    · refine .bind (hcv none a child) fun r1 hr1 => .bind (hcv none child b) fun r2 hr2 => ?_
      have hc : Good a child ∨ Bad a child := hl _ List.mem_cons_self
      have hrest := fun x hx => hl x (List.mem_cons_of_mem _ hx)
      -- the last conversions are right
      have hlast' : Good a b → RightFn fvf size a b
          (fun fvf x => do let y ← callOpt (r1.map (·.1)) fvf x; callOpt (r2.map (·.1)) fvf y) := by
        intro hg x y e
        match r1, r2 with
        | none, _ => cases e
        | some (f, p), none =>
          exfalso
          dsimp only [Option.map, callOpt] at e
          cases hf : f.call fvf x with
          | error e' => rw [hf] at e; cases e
          | ok z => rw [hf] at e; cases e
        | some (f, p), some (k, q) =>
          obtain ⟨f1, f2⟩ := hr1 f p rfl
          have hac := hc.resolve_right f2
          exact fit_comp (f1 hac) ((hr2 k q rfl).1 (T.trans (T.symm hac) hg)) x y e
      match r1, r2, hr1, hr2, hlast' with
      | none, _, _, _, hlast' => exact ih hrest _ _ _ _ hbest hlast'
      | some (f, p), none, _, _, hlast' => exact ih hrest _ _ _ _ hbest hlast'
      | some (f, p), some (k, q), hr1, hr2, hlast' =>
        have hnb : ¬ Bad a b := by
          intro hbad
          have hac := hc.resolve_right (hr1 f p rfl).2
          exact (hr2 k q rfl).2 (T.left hac hbad hb)
        dsimp only
        split
        · exact .pure ⟨fun _ => hnb, hlast'⟩
        · exact ih hrest _ _ _ _ (fun _ => hnb) hlast'

omit T in
theorem post_desc (u : Str) (gens : Int) : Post (TInv g d fvf Good Bad size)
    (fun r => ∃ es has, SoundNames g es ∧ r = getDescendants es has u gens true) (descM u gens) := by
  intro w hw
  refine ⟨inv_descM tinv_basic u gens w hw, ?_⟩
  intro r hr
  unfold descM at hr
  dsimp only at hr
  rw [es_ite, net_ite] at hr
  cases hr
  exact ⟨_, _, hw.names, rfl⟩

omit T in
theorem post_total (a b : Str) (l : List Str) : Post (TInv g d fvf Good Bad size)
    (fun r => ∀ x ∈ r, x.2 ∈ l) (totalGenerations a b l) := by
  induction l with
  | nil => exact .pure (by simp)
  | cons u us ih =>
    rw [totalGenerations]
    refine .bind (.of_inv (inv_genLoop tinv_basic _ _ _ _)) fun x _ =>
      .bind (.of_inv (inv_genLoop tinv_basic _ _ _ _)) fun y _ => .bind ih fun r hr => .pure ?_
    intro z hz
    rcases List.mem_cons.1 hz with rfl | hz
    · exact List.mem_cons_self
    · exact List.mem_cons_of_mem _ (hr z hz)

omit T in
theorem mem_insertPair {x z : Option Nat × Str} {l : List (Option Nat × Str)} (h : z ∈ insertPair x l) : z = x ∨ z ∈ l := by
  induction l with
  | nil => simp [insertPair] at h; exact Or.inl h
  | cons y ys ih =>
    rw [insertPair] at h
    split at h
    · simpa using h
    · rcases List.mem_cons.1 h with rfl | h
      · simp
      · rcases ih h with h | h
        · exact Or.inl h
        · exact Or.inr (List.mem_cons_of_mem _ h)

omit T in
theorem mem_sortPairs {z : Option Nat × Str} {l : List (Option Nat × Str)} (h : z ∈ sortPairs l) : z ∈ l := by
  induction l with
  | nil => cases h
  | cons y ys ih =>
    rcases mem_insertPair h with rfl | h
    · exact List.mem_cons_self
    · exact List.mem_cons_of_mem _ (ih h)

omit T in
theorem isPair_ratio {u : Str} (h : (ratioParts u).isSome = true) : isPair u = true := by
  cases hp : isPair u with
  | true => rfl
  | false => exact absurd (simple_iff_not_isPair.2 hp) (ratioParts_not_simple h)

theorem Typed.post_ratio {cv : Option Rat → Str → Str → CallM} (hcv : GoodCalls g d fvf Good Bad size cv) (a b : Str) :
    Post (TInv g d fvf Good Bad size) (FitFn fvf Good Bad size a b) (ratioStage cv a b) := by
  by_cases hab : Good a b ∨ Bad a b
  · unfold ratioStage
    split
    · next hc =>
      rw [Bool.and_eq_true] at hc
      have ha : Good a a := by rcases hab with h | h; exacts [T.refl h, T.known h]
      unfold ratioConversion
      refine .bind .get fun w hw => .bind (post_desc _ _) fun f1 hf1 => .bind (post_desc _ _) fun f2 hf2 =>
        .bind (post_total _ _ _) fun gens hgens => ?_
      split
      · exact .raise _
      · refine .bind (T.post_loop hcv (isPair_ratio hc.2) _ _ ?_ _ _ _ _ (by simp) ?_) fun r hr => ?_
        · intro x hx
          have := hgens x (mem_sortPairs hx)
          rw [List.mem_eraseDups] at this
          have h1 : x.2 ∈ f1 := by
            unfold Py.inter at this
            exact (List.mem_filter.1 this).1
          obtain ⟨es, has, hs, rfl⟩ := hf1
          exact T.desc hs ha hc.1 h1
        · intro _ x y e
          cases e
        · obtain ⟨best, fr, «to»⟩ := r
          cases best with
          | none => exact .pure fitFn_none
          | some p =>
            refine .pure ?_
            intro f q e
            simp only [Option.some.injEq, Prod.mk.injEq] at e
            obtain ⟨rfl, rfl⟩ := e
            exact ⟨hr.2, hr.1 rfl⟩
    · exact .pure fitFn_none
  · refine fun w hw => ⟨inv_ratioStage tinv_basic (fun v a b _ => (hcv v a b).inv) a b w hw,
      fun r _ => fitFn_other hab r⟩

theorem Typed.post_converter (n : Nat) (uc : Option Bool) : GoodCalls g d fvf Good Bad size (converter n uc) := by
  induction n generalizing uc with
  | zero => intro v a b; exact .pure fit_none
  | succ n ih =>
    intro v a b w hw
    rw [converter]
    dsimp only
    split
    · exact ⟨hw, by intro r e; cases e; exact fit_none⟩
    · refine Post.bind (T.post_getConv n uc v a b) (fun r hr => ?_) w hw
      match r with
      | some r => exact .pure hr
      | none =>
        refine .bind (.modify fun w h => ⟨h.wf, h.sub, h.dic, h.fvfEq, h.es, h.memory⟩) fun _ _ => ?_
        unfold indirect
        refine .bind (T.post_split n uc a b) fun r hr => ?_
        match r with
        | some (f, p) => exact post_store hr
        | none =>
          refine .bind (T.post_pair (ih uc) a b) fun r hr => ?_
          match r with
          | some (f, p) => exact post_store hr
          | none =>
            refine .bind (T.post_ratio (ih none) a b) fun r hr => ?_
            match r with
            | some (f, p) => exact post_store hr
            | none =>
              exact .bind (.modify fun w h => tinv_remember h fitFn_none) fun _ _ => .pure fit_none

theorem Typed.post_top (uc : Option Bool) : GoodCalls g d fvf Good Bad size (converterTop uc) := by
  intro v a b w hw
  exact T.post_converter _ uc v a b w hw

/-! ### sessions -/

theorem Typed.inv_top : ∀ uc v a b, Inv (TInv g d fvf Good Bad size) (converterTop uc v a b) :=
  fun uc v a b => (T.post_top uc v a b).inv

omit T in
theorem tinv_prev (w : World) (pv : List (Str × Str)) (h : TInv g d fvf Good Bad size w) :
    TInv g d fvf Good Bad size { w with previous := pv } := ⟨h.wf, h.sub, h.dic, h.fvfEq, h.es, h.memory⟩

/-- the answer of `convert` -/
theorem Typed.convert {w w' : World} (hw : TInv g d fvf Good Bad size w) {a b : Str} (ha : CleanUnit a) (hb : CleanUnit b)
    (hd : ¬ DensityPair d a b) {uc : Option Bool} {v : Option Rat} {c : Conv} (hg : Good a b ∨ Bad a b)
    (h : convert v (some a) (some b) uc w = (.ok (some c), w')) : Good a b ∧ RightAns fvf size v a b c := by
  rw [convert_clean ha hb, convertClean_eq hw.wf (hw.dic ▸ hd)] at h
  simp only [Prod.mk.injEq] at h
  obtain ⟨p, hp⟩ := finish_ok h.1
  have := (T.post_top uc v a b _ (tinv_prev w [] hw)).2 _ hp c p rfl
  have hg := hg.resolve_right this.2
  exact ⟨hg, this.1 hg⟩

end

/-- calls never remove conversions -/
theorem run_grows (c : Call) {w : World} (hg : WF w.net) :
    WF (c.run w).net ∧ ∀ n m f, Direct w.net n m f → Direct (c.run w).net n m f := by
  have asks : Asks c → WF (c.run w).net ∧ ∀ n m f, Direct w.net n m f → Direct (c.run w).net n m f := by
    intro h
    have := base_asks h hg
    rw [this.net]
    exact ⟨hg, fun _ _ _ h => h⟩
  cases c with
  | convert v a b uc => exact asks trivial
  | convertible a b uc => exact asks trivial
  | simPandas v a b uc => exact asks trivial
  | search a b => exact asks trivial
  | setUnit a =>
    obtain ⟨g, h1, h2, _, h3, h4⟩ := setUnit_spec hg a
    simp only [Call.run, setUnitW, h1]
    exact ⟨h2, fun x y f hf => (h4 x y f).2 hf⟩
  | setConversion a b f rev =>
    obtain ⟨g, na, nb, h1, h2, _, _, _, h3, h4⟩ := setConversion_spec hg a b f rev
    simp only [Call.run, setConversionW, h1]
    exact ⟨h2, fun x y k hk => (h4 x y k).2 (Or.inl hk)⟩
  | setFvf b => exact ⟨hg, fun _ _ _ h => h⟩
  | cleanMemory => exact ⟨hg, fun _ _ _ h => h⟩
  | settings p => exact ⟨hg, fun _ _ _ h => h⟩

theorem session_grows (cs : List Call) {w : World} (hg : WF w.net) :
    WF (session cs w).net ∧ ∀ n m f, Direct w.net n m f → Direct (session cs w).net n m f := by
  induction cs generalizing w with
  | nil => exact ⟨hg, fun _ _ _ h => h⟩
  | cons c cs ih =>
    obtain ⟨h1, h2⟩ := run_grows c hg
    obtain ⟨h3, h4⟩ := ih h1
    exact ⟨h3, fun _ _ _ h => h4 _ _ _ (h2 _ _ _ h)⟩

section
variable {g : Net} {d : Dict} {fvf : Option Rat} {Near Good Bad : Str → Str → Prop} {size : Str → Rat}

theorem Typed.run (T : Typed g d fvf Near Good Bad size) {c : Call} (hc : KeepsFvf c) {w : World}
    (h : TInv g d fvf Good Bad size w) (hs : ∀ n m f, Direct (c.run w).net n m f → Direct g n m f) :
    TInv g d fvf Good Bad size (c.run w) := by
  have hg := (run_grows c h.wf).1
  cases c with
  | convert v a b uc => exact inv_convert T.inv_top tinv_prev v a b uc w h
  | convertible a b uc => exact inv_convertible T.inv_top a b uc w h
  | simPandas v a b uc => exact inv_simPandas T.inv_top v a b uc w h
  | search a b => exact inv_searchNetwork tinv_basic a b w h
  | setUnit a =>
    obtain ⟨g', h1, _⟩ := setUnit_spec h.wf a
    simp only [Call.run, setUnitW, h1] at hs hg ⊢
    exact ⟨hg, hs, h.dic, h.fvfEq, h.es, h.memory⟩
  | setConversion a b f rev =>
    obtain ⟨g', na, nb, h1, _⟩ := setConversion_spec h.wf a b f rev
    simp only [Call.run, setConversionW, h1] at hs hg ⊢
    exact ⟨hg, hs, h.dic, h.fvfEq, h.es, h.memory⟩
  | setFvf b => cases hc
  | cleanMemory => exact ⟨h.wf, h.sub, h.dic, h.fvfEq, h.es, by intro a b e he; cases he⟩
  | settings p => exact ⟨h.wf, h.sub, h.dic, h.fvfEq, h.es, h.memory⟩

theorem Typed.session (T : Typed g d fvf Near Good Bad size) {cs : List Call} (hc : ∀ c ∈ cs, KeepsFvf c) {w : World}
    (h : TInv g d fvf Good Bad size w) (hs : ∀ n m f, Direct (session cs w).net n m f → Direct g n m f) :
    TInv g d fvf Good Bad size (session cs w) := by
  induction cs generalizing w with
  | nil => exact h
  | cons c cs ih =>
    have h1 := T.run (hc c List.mem_cons_self) h fun n m f hf =>
      hs n m f ((session_grows cs (run_grows c h.wf).1).2 n m f hf)
    exact ih (fun c' h' => hc c' (List.mem_cons_of_mem _ h')) h1 hs

end
end Unyts
