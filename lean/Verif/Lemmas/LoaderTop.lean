import Verif.Lemmas.LoaderEnd

/- `_load_network` as a whole. -/
namespace Unyts
open Spec

/-- the conversions written one by one, as declarations -/
def explDecls (expl : List (Str × Str × CExp)) : List (Str × Str × Cv) := expl.map fun e => (e.1, e.2.1, .fn e.2.2)

/-- everything declared -/
def allDecls (P : Prefixes) (expl : List (Str × Str × CExp)) (d : RawDict) : List (Str × Str × Cv) :=
  dictDecls P d ++ explDecls expl

theorem declsOf_expl (expl : List (Str × Str × CExp)) :
    declsOf (expl.map fun e => .edge e.1 e.2.1 (.fn e.2.2)) = explDecls expl := by
  induction expl with
  | nil => rfl
  | cons e r ih =>
    have h : declsOf ((e :: r).map fun e => Instr.edge e.1 e.2.1 (.fn e.2.2)) =
        (e.1, e.2.1, Cv.fn e.2.2) :: declsOf (r.map fun e => Instr.edge e.1 e.2.1 (.fn e.2.2)) := rfl
    rw [h, ih]; rfl

theorem nodesOf_expl (expl : List (Str × Str × CExp)) :
    nodesOf (expl.map fun e => .edge e.1 e.2.1 (.fn e.2.2)) = [] := by
  induction expl with
  | nil => rfl
  | cons e r ih => exact ih

theorem basesOf_expl (expl : List (Str × Str × CExp)) :
    basesOf (expl.map fun e => .edge e.1 e.2.1 (.fn e.2.2)) = [] := by
  induction expl with
  | nil => rfl
  | cons e r ih => exact ih

theorem flatMap_congr' {α β : Type _} {l : List α} {f g : α → List β} (h : ∀ a ∈ l, f a = g a) :
    l.flatMap f = l.flatMap g := by
  induction l with
  | nil => rfl
  | cons a l ih => rw [List.flatMap_cons, List.flatMap_cons, h a (by simp), ih fun x hx => h x (by simp [hx])]

theorem reverseKeys_eq {d : RawDict} (hd : (d.map Prod.fst).Nodup) :
    reverseKeys d = (d.map Prod.fst).flatMap fun k =>
      if Py.subStr s!!"_REVERSE" k then (match Py.dictGet d k with | some v => v.keys | none => []) else [] := by
  unfold reverseKeys
  rw [List.flatMap_map]
  apply flatMap_congr'
  intro e he
  rw [dictGet_of_mem hd (k := e.1) (v := e.2) he]

theorem reverseKeys_grown {d d' : RawDict} (hd : (d.map Prod.fst).Nodup) (h : Grown d d') :
    reverseKeys d' = reverseKeys d := by
  rw [reverseKeys_eq hd, reverseKeys_eq (by rw [h.keys]; exact hd), h.keys]
  apply flatMap_congr'
  intro k hk
  by_cases hs : Py.subStr s!!"_REVERSE" k = true
  · rw [if_pos hs, if_pos hs, h.same k (subStr_mem hs (by decide))]
  · rw [if_neg hs, if_neg hs]

theorem fromVolume_grown {d d' : RawDict} (h : Grown d d') :
    (d'.any fun e => Py.subStr s!!"_FROMvolume" e.1) = d.any fun e => Py.subStr s!!"_FROMvolume" e.1 := by
  have e : ∀ d : RawDict, (d.any fun e => Py.subStr s!!"_FROMvolume" e.1) =
      (d.map Prod.fst).any fun k => Py.subStr s!!"_FROMvolume" k := by
    intro d; rw [List.any_map]; rfl
  rw [e, e, h.keys]

/-- What a load that succeeds gives: the first declaration of each pair, completed by the reverse pass. -/
theorem load_spec {P : Prefixes} {expl : List (Str × Str × CExp)} {d d' : RawDict} {g : Net}
    (hd : (d.map Prod.fst).Nodup) (h : loadNetwork P expl d = .ok (g, d')) :
    Tidy g ∧ Shows g (withReverse (first (allDecls P expl d)) (reverseKeys d)) := by
  simp only [loadNetwork, bind, Except.bind] at h
  split at h
  · cases h
  · next st1 h1 =>
    split at h
    · cases h
    · next st2 h2 =>
      split at h
      · cases h
      · next g3 h3 =>
        obtain ⟨gr1, ns, b1, _⟩ := loadKinds_built hd (fun e he => he) built_empty (Grown.refl d) h1
        have b2 := execAll_built b1 h2
        have gr2 := gr1.trans (execAll_grown (by rw [basesOf_expl]; simp) h2)
        rw [declsOf_expl, List.nil_append] at b2
        rw [reverseKeys_grown hd gr2] at h3
        have hg : g3 = g := by
          split at h
          · cases h
          · split at h
            · cases h
            · cases h; rfl
        subst hg
        by_cases hu : ∀ u ∈ reverseKeys d, u ∈ st2.net.nodes.map UNode.name
        · obtain ⟨g', e1, t, _, s⟩ := reverseAll_spec b2.tidy b2.shows hu
          rw [h3] at e1
          cases e1
          exact ⟨t, s⟩
        · -- the pass raises at the first name without a node
          exfalso
          have stop : ∀ (us : List Str) (g : Net), Tidy g → (∃ R, Shows g R) →
              (∃ g', reverseAll us g = .ok g') → ∀ u ∈ us, u ∈ g.nodes.map UNode.name := by
            intro us
            induction us with
            | nil => simp
            | cons u us ih =>
              rintro g t ⟨R, s⟩ ⟨g', e⟩
              have hun : u ∈ g.nodes.map UNode.name := by
                simp only [reverseAll, reverseName, bind, Except.bind] at e
                cases hn : g.getNode u with
                | error x => rw [hn] at e; cases e
                | ok n =>
                  obtain ⟨m1, m2⟩ := Net.getNode_ok hn
                  exact List.mem_map.2 ⟨n, m1, m2⟩
              obtain ⟨g1, e1, t1, n1, s1⟩ := reverseName_spec t s hun
              simp only [reverseAll, e1, bind, Except.bind] at e
              have := ih g1 t1 ⟨_, s1⟩ ⟨g', e⟩
              rw [n1] at this
              intro x hx
              rcases List.mem_cons.1 hx with rfl | hx
              · exact hun
              · exact this x hx
          exact hu (stop _ _ b2.tidy ⟨_, b2.shows⟩ ⟨_, h3⟩)

/-- the conditions under which a dictionary loads -/
structure Loadable (P : Prefixes) (expl : List (Str × Str × CExp)) (d : RawDict) : Prop where
  nodup : (d.map Prod.fst).Nodup
  base : ∀ k v, (k, v) ∈ d → '_' ∈ k → ∃ l, (kindBase k, RawVal.names l) ∈ d
  table : ∀ k v, (k, v) ∈ d → Py.subStr s!!"_NAMES" k = true → ∃ t, v = .table t
  ends : ∀ e ∈ expl, e.1 ∈ dictNames P d ∧ e.2.1 ∈ dictNames P d
  rev : ∀ u ∈ reverseKeys d, u ∈ dictNames P d
  noVolume : (d.any fun e => Py.subStr s!!"_FROMvolume" e.1) = false
  data : s!!"dataBYTE" ∈ d.map Prod.fst ∧ s!!"dataBIT" ∈ d.map Prod.fst ∧ s!!"UserUnits" ∈ d.map Prod.fst

theorem closeDict_ok {d : RawDict} (h : s!!"dataBYTE" ∈ d.map Prod.fst ∧ s!!"dataBIT" ∈ d.map Prod.fst ∧
    s!!"UserUnits" ∈ d.map Prod.fst) : ∃ d', closeDict d = .ok d' := by
  have key : ∀ k : Str, '_' ∉ k → k ∈ d.map Prod.fst → ∃ v, Py.dictGet
      ((d.filter fun e => '_' ∉ e.1).map fun e => (e.1, RawVal.names e.2.keys.eraseDups)) k = some v := by
    intro k hk hm
    rw [List.mem_map] at hm
    obtain ⟨e, he, rfl⟩ := hm
    cases hg : Py.dictGet ((d.filter fun e => '_' ∉ e.1).map fun e => (e.1, RawVal.names e.2.keys.eraseDups)) e.1 with
    | some v => exact ⟨v, rfl⟩
    | none =>
      refine absurd ?_ (dictGet_none.1 hg)
      rw [List.map_map, List.mem_map]
      exact ⟨e, List.mem_filter.2 ⟨he, by simpa using hk⟩, rfl⟩
  obtain ⟨x, hx⟩ := key _ (by decide) h.1
  obtain ⟨y, hy⟩ := key _ (by decide) h.2.1
  obtain ⟨z, hz⟩ := key _ (by decide) h.2.2
  unfold closeDict
  simp only [hx, hy, hz]
  exact ⟨_, rfl⟩

/-- a loadable dictionary loads without an exception -/
theorem load_runs {P : Prefixes} {expl : List (Str × Str × CExp)} {d : RawDict} (h : Loadable P expl d) :
    ∃ g d', loadNetwork P expl d = .ok (g, d') := by
  obtain ⟨st1, h1⟩ := loadKinds_runs (P := P) h.nodup h.base h.table (fun e he => he) built_empty (Grown.refl d)
    (st := ⟨Net.empty, d⟩)
  obtain ⟨gr1, ns, b1, n1⟩ := loadKinds_built h.nodup (fun e he => he) built_empty (Grown.refl d) h1
  rw [List.nil_append, List.nil_append] at b1
  obtain ⟨st2, h2⟩ := execAll_runs (is := expl.map fun e => .edge e.1 e.2.1 (.fn e.2.2)) (B := fun _ => False) b1
    (by simp) (by
      have : ∀ l : List (Str × Str × CExp), (∀ e ∈ l, e.1 ∈ ns ∧ e.2.1 ∈ ns) →
          Runs (fun _ => False) ns (l.map fun e => Instr.edge e.1 e.2.1 (.fn e.2.2)) := by
        intro l
        induction l with
        | nil => intro _; trivial
        | cons e l ih => exact fun hl => ⟨(hl e (by simp)).1, (hl e (by simp)).2, ih fun x hx => hl x (by simp [hx])⟩
      exact this expl fun e he => ⟨n1 _ (h.ends e he).1, n1 _ (h.ends e he).2⟩)
  have b2 := execAll_built b1 h2
  rw [nodesOf_expl, List.append_nil] at b2
  have gr2 := gr1.trans (execAll_grown (by rw [basesOf_expl]; simp) h2)
  obtain ⟨g3, h3, _⟩ := reverseAll_spec b2.tidy b2.shows (us := reverseKeys d)
    (fun u hu => by rw [b2.names]; exact n1 _ (h.rev u hu))
  obtain ⟨d', h4⟩ := closeDict_ok (d := st2.dict) (by rw [gr2.keys]; exact h.data)
  refine ⟨g3, d', ?_⟩
  simp only [loadNetwork, h1, h2, bind, Except.bind, reverseKeys_grown h.nodup gr2, h3, fromVolume_grown gr2, h.noVolume,
    h4]
  rfl

end Unyts
