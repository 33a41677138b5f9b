import Verif.Lemmas.Loader

/- The loop over the kinds of units. -/
namespace Unyts
open Spec

theorem subStr_mem {a s : Str} (h : Py.subStr a s = true) {c : Char} (hc : c ∈ a) : c ∈ s := by
  induction s with
  | nil => simp [Py.subStr] at h; subst h; exact hc
  | cons b bs ih =>
    simp only [Py.subStr, Bool.or_eq_true] at h
    rcases h with h | h
    · exact (List.isPrefixOf_iff_prefix.1 h).subset hc
    · exact List.mem_cons_of_mem _ (ih h)

theorem kindBase_plain (k : Str) : '_' ∉ kindBase k := by
  unfold kindBase
  cases h : Py.splitOn '_' k with
  | nil => simp
  | cons p ps => simp; exact Py.mem_splitOn_no_sep (c := '_') (s := k) (by rw [h]; simp)

/-- Everything that holds of the parts of the body of the loop holds of the body. -/
theorem kindInstrs_ind {P : Prefixes} {k : Str} {v : RawVal} (Q : List Instr → Prop) (nil : Q [])
    (app : ∀ a b, Q a → Q b → Q (a ++ b))
    (plain : '_' ∉ k → Q (v.keys.map .node))
    (names : Py.subStr s!!"_NAMES" k = true → Q (namesInstrs (kindBase k) v))
    (spaces : Py.subStr s!!"_SPACES" k = true → Q (spacesInstrs (kindBase k) v))
    (si : ∀ i, '_' ∈ k → Q (prefixInstrs (kindBase k) (column P.si i) v))
    (data : ∀ i, '_' ∈ k → Q (prefixInstrs (kindBase k) (column P.data i) v))
    (ogf : ∀ i, '_' ∈ k → Q (prefixInstrs (kindBase k) (column P.ogf i) v))
    (plural : ∀ f, '_' ∈ k → Q (pluralInstrs (kindBase k) f v))
    (cased : ∀ f, '_' ∈ k → Q (caseInstrs (kindBase k) f v)) :
    Q (kindInstrs P k v) := by
  have und : ∀ s, Py.subStr s k = true → '_' ∈ s → '_' ∈ k := fun s h hs => subStr_mem h hs
  unfold kindInstrs
  simp only
  refine app _ _ (app _ _ (app _ _ (app _ _ (app _ _ (app _ _ (app _ _ (app _ _ (app _ _ ?_ ?_) ?_) ?_) ?_) ?_) ?_) ?_) ?_) ?_
  · split
    · exact plain ‹_›
    · exact nil
  · split
    · exact names ‹_›
    · exact nil
  · split
    · exact spaces ‹_›
    · exact nil
  · split
    · next h => exact si _ (und _ h.1 (by decide))
    · split
      · next h => exact si _ (und _ h.1 (by decide))
      · split
        · next h => exact si _ (und _ h.1 (by decide))
        · split
          · next h => exact si _ (und _ h.1 (by decide))
          · exact nil
  · split
    · next h => exact data _ (und _ h.1 (by decide))
    · exact nil
  · split
    · next h => exact data _ (und _ h.1 (by decide))
    · exact nil
  · split
    · next h => exact ogf _ (und _ h.1 (by decide))
    · exact nil
  · split
    · next h =>
      have hk := und _ h (by decide)
      refine app _ _ (app _ _ (plural _ hk) ?_) ?_
      · split
        · exact plural _ hk
        · exact nil
      · split
        · exact plural _ hk
        · exact nil
    · exact nil
  · split
    · next h => exact cased _ (und _ h (by decide))
    · exact nil
  · split
    · next h => exact cased _ (und _ h (by decide))
    · exact nil

theorem has_plain {s k : Str} (hk : '_' ∉ k) (hs : '_' ∈ s) : Py.subStr s k = false := by
  cases h : Py.subStr s k with
  | false => rfl
  | true => exact absurd (subStr_mem h hs) hk

/-- a kind without flags only adds nodes -/
theorem kindInstrs_plain {P : Prefixes} {k : Str} {v : RawVal} (hk : '_' ∉ k) :
    kindInstrs P k v = v.keys.map .node := by
  have e : ∀ s : Str, '_' ∈ s → (Py.subStr s k = true) = False := by
    intro s hs; rw [has_plain hk hs]; simp
  unfold kindInstrs
  simp only [hk, not_false_eq_true, if_true, e s!!"_NAMES" (by decide), e s!!"_SPACES" (by decide), e s!!"_SI" (by decide),
    e s!!"_linearSI" (by decide), e s!!"_DATA" (by decide), e s!!"_OGF" (by decide), e s!!"_PLURALwS" (by decide),
    e s!!"_UPPER" (by decide), e s!!"_LOWER" (by decide), false_and, if_false, List.append_nil]

/-! ## Which kinds the body appends to -/

theorem basesOf_flatMap {α : Type _} {l : List α} {f : α → List Instr} {b : Str}
    (h : ∀ x ∈ l, ∀ b' ∈ basesOf (f x), b' = b) : ∀ b' ∈ basesOf (l.flatMap f), b' = b := by
  intro b' hb'
  unfold basesOf at hb'
  rw [List.mem_filterMap] at hb'
  obtain ⟨i, hi, he⟩ := hb'
  obtain ⟨x, hx, hix⟩ := List.mem_flatMap.1 hi
  exact h x hx b' (List.mem_filterMap.2 ⟨i, hix, he⟩)

theorem basesOf_kind (P : Prefixes) (k : Str) (v : RawVal) : ∀ b ∈ basesOf (kindInstrs P k v), b = kindBase k := by
  apply kindInstrs_ind (fun is => ∀ b ∈ basesOf is, b = kindBase k)
  · simp [basesOf]
  · intro a b ha hb x hx
    rw [basesOf_append] at hx
    rcases List.mem_append.1 hx with h | h
    · exact ha x h
    · exact hb x h
  · intro _ b hb
    simp [basesOf] at hb
  · intro _
    cases v with
    | table t =>
      refine basesOf_flatMap fun e _ b hb => ?_
      rw [basesOf_append] at hb
      rcases List.mem_append.1 hb with h | h
      · simpa [basesOf] using h
      · refine basesOf_flatMap (fun s _ b hb => ?_) b h
        simpa [basesOf] using hb
    | names l =>
      refine basesOf_flatMap fun e _ b hb => ?_
      simpa [basesOf] using hb
  · intro _
    refine basesOf_flatMap fun r _ => basesOf_flatMap fun e _ b hb => ?_
    rw [basesOf_append] at hb
    rcases List.mem_append.1 hb with h | h
    · split at h
      · simpa [basesOf] using h
      · simp [basesOf] at h
    · refine basesOf_flatMap (fun s _ b hb => ?_) b h
      simpa [basesOf] using hb
  all_goals
    intro _ _
    first
    | refine basesOf_flatMap fun u _ b hb => ?_
      rw [basesOf_append] at hb
      rcases List.mem_append.1 hb with h | h
      · simpa [basesOf] using h
      · refine basesOf_flatMap (fun s _ b hb => ?_) b h
        simpa [basesOf] using hb
    | refine basesOf_flatMap fun u _ b hb => ?_
      simpa [basesOf] using hb
    | refine basesOf_flatMap fun u _ => basesOf_flatMap fun s _ b hb => ?_
      simpa [basesOf] using hb

/-! ## When the statements succeed -/

/-- every statement of the sequence finds what it needs, given nodes with the names `ns` and lists for the kinds `B` -/
def Runs (B : Str → Prop) : List Str → List Instr → Prop
  | _, [] => True
  | ns, .node s :: is => Runs B (ns ++ [s]) is
  | ns, .edge a b _ :: is => a ∈ ns ∧ b ∈ ns ∧ Runs B ns is
  | ns, .append b _ :: is => B b ∧ Runs B ns is
  | _, .fail _ :: _ => False

theorem Runs.mono {B : Str → Prop} {ns ms : List Str} {is : List Instr} (h : Runs B ns is) (hs : ∀ s ∈ ns, s ∈ ms) :
    Runs B ms is := by
  induction is generalizing ns ms with
  | nil => trivial
  | cons i is ih =>
    cases i with
    | node s =>
      refine ih (ns := ns ++ [s]) h ?_
      intro x hx
      simp only [List.mem_append, List.mem_singleton] at hx ⊢
      exact hx.imp (hs x) id
    | edge a b c => exact ⟨hs _ h.1, hs _ h.2.1, ih h.2.2 hs⟩
    | append b s => exact ⟨h.1, ih h.2 hs⟩
    | fail e => exact h

theorem Runs.append {B : Str → Prop} {ns : List Str} {is js : List Instr} (h : Runs B ns is) (h2 : Runs B ns js) :
    Runs B ns (is ++ js) := by
  induction is generalizing ns with
  | nil => exact h2
  | cons i is ih =>
    cases i with
    | node s => exact ih h (h2.mono (by simp +contextual))
    | edge a b c => exact ⟨h.1, h.2.1, ih h.2.2 h2⟩
    | append b s => exact ⟨h.1, ih h.2 h2⟩
    | fail e => exact h

theorem Runs.flatMap {B : Str → Prop} {ns : List Str} {α : Type _} {l : List α} {f : α → List Instr}
    (h : ∀ x ∈ l, Runs B ns (f x)) : Runs B ns (l.flatMap f) := by
  induction l with
  | nil => trivial
  | cons x l ih =>
    rw [List.flatMap_cons]
    exact (h x (by simp)).append (ih fun y hy => h y (by simp [hy]))

/-- sequences that succeed do not stop at an exception -/
theorem execAll_runs {B : Str → Prop} {is : List Instr} {st : LoadState} {ds ns} (h : Built st.net ds ns)
    (hB : ∀ b, B b → ∃ l, Py.dictGet st.dict b = some (.names l)) (hr : Runs B ns is) :
    ∃ st', execAll is st = .ok st' := by
  induction is generalizing st ds ns with
  | nil => exact ⟨st, rfl⟩
  | cons i is ih =>
    have go : ∀ st1, i.exec st = .ok st1 → Runs B (ns ++ nodesOf [i]) is →
        (∀ b, B b → ∃ l, Py.dictGet st1.dict b = some (.names l)) → ∃ st', execAll (i :: is) st = .ok st' := by
      intro st1 h1 hr hB
      obtain ⟨st', hs⟩ := ih (Instr.exec_built h h1) hB hr
      exact ⟨st', by simp only [execAll, h1, bind, Except.bind]; exact hs⟩
    cases i with
    | node s =>
      refine go ⟨⟨st.net.edges ++ [(⟨st.net.nextId, s⟩, [])], st.net.nextId + 1⟩, st.dict⟩
        (by simp only [Instr.exec, Net.addName_ok h.tidy.wf s, bind, Except.bind]) ?_ hB
      simpa [nodesOf, Runs] using hr
    | edge a b c =>
      obtain ⟨ha, hb, hr⟩ := hr
      obtain ⟨na, hna⟩ := h.getNode ha
      obtain ⟨nb, hnb⟩ := h.getNode hb
      have hg := Net.addEdge_ok c.eval (Net.getNode_ok hna).1 (Net.getNode_ok hnb).1
      refine go ⟨⟨Net.appendEdge st.net.edges na nb c.eval, st.net.nextId⟩, st.dict⟩
        (by simp only [Instr.exec, hna, hnb, hg, bind, Except.bind]) ?_ hB
      simpa [nodesOf] using hr
    | append b s =>
      obtain ⟨hb, hr⟩ := hr
      obtain ⟨l, hl⟩ := hB b hb
      refine go ⟨st.net, Py.dictSet st.dict b (.names (l ++ [s]))⟩ (by simp only [Instr.exec, hl]) ?_ ?_
      · simpa [nodesOf] using hr
      · intro b' hb'
        by_cases he : b' = b
        · subst he; exact ⟨_, Py.dictGet_dictSet_same _ _ _⟩
        · obtain ⟨l', hl'⟩ := hB b' hb'
          exact ⟨l', (Py.dictGet_dictSet_other _ _ he).trans hl'⟩
    | fail e => exact hr.elim

/-- the body of the loop succeeds for a kind with flags if there is a list for its base, and for `_NAMES` only if the
value is a table -/
theorem kindInstrs_runs {B : Str → Prop} {P : Prefixes} {k : Str} {v : RawVal}
    (hB : '_' ∈ k → B (kindBase k)) (hn : Py.subStr s!!"_NAMES" k = true → ∃ t, v = .table t) (ns : List Str) :
    Runs B ns (kindInstrs P k v) := by
  apply kindInstrs_ind (Runs B ns)
  · trivial
  · intro a b ha hb; exact ha.append hb
  · intro _
    have : ∀ (l : List Str), l.map Instr.node = l.flatMap fun s => [Instr.node s] := by
      intro l; induction l with
      | nil => rfl
      | cons a l ih => rw [List.map_cons, ih, List.flatMap_cons]; rfl
    rw [this]
    exact .flatMap fun s _ => trivial
  · intro h
    have hb := hB (subStr_mem h (by decide))
    obtain ⟨t, rfl⟩ := hn h
    refine .flatMap fun e _ => ?_
    refine ⟨hb, Runs.flatMap fun s _ => ?_⟩
    simp [Runs, hb]
  · intro h
    have hb := hB (subStr_mem h (by decide))
    refine .flatMap fun r _ => .flatMap fun e _ => Runs.append ?_ (.flatMap fun s _ => ?_)
    · split
      · simp [Runs, hb]
      · trivial
    · simp [Runs, hb]
  all_goals
    intro _ h
    have hb := hB h
    first
    | refine .flatMap fun e _ => ⟨hb, Runs.flatMap fun s _ => ?_⟩
      simp [Runs, hb]
      done
    | refine .flatMap fun e _ => ?_
      simp [Runs, hb]
      done
    | refine .flatMap fun e _ => .flatMap fun s _ => ?_
      simp [Runs, hb]

/-! ## All the kinds -/

/-- the conversions declared by the kinds of a dictionary -/
def dictDecls (P : Prefixes) (d : RawDict) : List (Str × Str × Cv) := d.flatMap fun e => declsOf (kindInstrs P e.1 e.2)

/-- the names declared by the kinds of a dictionary -/
def dictNames (P : Prefixes) (d : RawDict) : List Str := d.flatMap fun e => nodesOf (kindInstrs P e.1 e.2)

theorem declsOf_nodes (l : List Str) : declsOf (l.map .node) = [] := by
  induction l with
  | nil => rfl
  | cons a l ih => simp [declsOf]

theorem nodesOf_nodes (l : List Str) : nodesOf (l.map .node) = l := by
  induction l with
  | nil => rfl
  | cons a l ih => simp only [nodesOf, List.map_cons, List.filterMap_cons]; exact congrArg (a :: ·) ih

theorem keys_names (l : List Str) : (RawVal.names l).keys = l := by
  simp [RawVal.keys, RawVal.entries, Function.comp_def]

theorem loadKinds_cons {P : Prefixes} {k : Str} {ks : List Str} {st st' : LoadState}
    (e : loadKinds P (k :: ks) st = .ok st') : ∃ st1, loadKind P st k = .ok st1 ∧ loadKinds P ks st1 = .ok st' := by
  simp only [loadKinds, bind, Except.bind] at e
  split at e
  · cases e
  · next st1 h1 => exact ⟨st1, h1, e⟩

theorem loadKind_grown {P : Prefixes} {k : Str} {st st' : LoadState} (e : loadKind P st k = .ok st') :
    Grown st.dict st'.dict := by
  unfold loadKind at e
  split at e
  · cases e
  · exact execAll_grown (fun b hb => basesOf_kind P k _ b hb ▸ kindBase_plain k) e

theorem loadKind_built {P : Prefixes} {d : RawDict} (hd : (d.map Prod.fst).Nodup) {k : Str} {v : RawVal}
    (hk : (k, v) ∈ d) {st st' : LoadState} {ds ns} (h : Built st.net ds ns) (hg : Grown d st.dict)
    (e : loadKind P st k = .ok st') :
    ∃ ns', Built st'.net (ds ++ declsOf (kindInstrs P k v)) (ns ++ ns') ∧
      ∀ s ∈ nodesOf (kindInstrs P k v), s ∈ ns' := by
  have hv := dictGet_of_mem hd hk
  unfold loadKind at e
  by_cases hu : '_' ∈ k
  · rw [hg.same k hu, hv] at e
    exact ⟨_, execAll_built h e, fun s hs => hs⟩
  · cases v with
    | names l =>
      obtain ⟨l', hl'⟩ := hg.more k l hv
      rw [hl'] at e
      have := execAll_built h e
      rw [kindInstrs_plain hu, declsOf_nodes, nodesOf_nodes] at this
      rw [kindInstrs_plain hu, declsOf_nodes, nodesOf_nodes]
      rw [keys_names] at this ⊢
      exact ⟨_, this, fun s hs => List.mem_append.2 (Or.inl hs)⟩
    | table t =>
      rw [hg.table k t hv] at e
      exact ⟨_, execAll_built h e, fun s hs => hs⟩

theorem loadKinds_built {P : Prefixes} {d : RawDict} (hd : (d.map Prod.fst).Nodup) {r : RawDict}
    (hr : ∀ e ∈ r, e ∈ d) {st st' : LoadState} {ds ns} (h : Built st.net ds ns) (hg : Grown d st.dict)
    (e : loadKinds P (r.map Prod.fst) st = .ok st') :
    Grown d st'.dict ∧ ∃ ns', Built st'.net (ds ++ dictDecls P r) (ns ++ ns') ∧ ∀ s ∈ dictNames P r, s ∈ ns' := by
  induction r generalizing st ds ns with
  | nil => cases e; exact ⟨hg, [], by simpa [dictDecls] using h, by simp [dictNames]⟩
  | cons x r ih =>
    obtain ⟨k, v⟩ := x
    obtain ⟨st1, h1, e⟩ := loadKinds_cons e
    obtain ⟨n1, b1, m1⟩ := loadKind_built (v := v) hd (hr _ List.mem_cons_self) h hg h1
    obtain ⟨g2, n2, b2, m2⟩ := ih (fun e he => hr e (by simp [he])) b1 (hg.trans (loadKind_grown h1)) e
    refine ⟨g2, n1 ++ n2, ?_, ?_⟩
    · simp only [dictDecls, List.flatMap_cons, List.append_assoc] at b2 ⊢
      exact b2
    · intro s hs
      simp only [dictNames, List.flatMap_cons, List.mem_append] at hs ⊢
      exact hs.imp (m1 s) (m2 s)

/-- the kinds of a dictionary load without an exception -/
theorem loadKinds_runs {P : Prefixes} {d : RawDict} (hd : (d.map Prod.fst).Nodup)
    (hb : ∀ k v, (k, v) ∈ d → '_' ∈ k → ∃ l, (kindBase k, RawVal.names l) ∈ d)
    (hn : ∀ k v, (k, v) ∈ d → Py.subStr s!!"_NAMES" k = true → ∃ t, v = .table t)
    {r : RawDict} (hr : ∀ e ∈ r, e ∈ d) {st : LoadState} {ds ns} (h : Built st.net ds ns) (hg : Grown d st.dict) :
    ∃ st', loadKinds P (r.map Prod.fst) st = .ok st' := by
  induction r generalizing st ds ns with
  | nil => exact ⟨st, rfl⟩
  | cons x r ih =>
    obtain ⟨k, v⟩ := x
    have hk := hr _ (List.mem_cons_self)
    have hv := dictGet_of_mem hd hk
    have hB : ∀ b, (∃ l, (b, RawVal.names l) ∈ d) → ∃ l, Py.dictGet st.dict b = some (.names l) := by
      rintro b ⟨l, hl⟩
      obtain ⟨l', hl'⟩ := hg.more b l (dictGet_of_mem hd hl)
      exact ⟨_, hl'⟩
    have step : ∃ st1, loadKind P st k = .ok st1 := by
      have key : ∀ v', Py.dictGet st.dict k = some v' →
          (Py.subStr s!!"_NAMES" k = true → ∃ t, v' = .table t) → ∃ st1, loadKind P st k = .ok st1 := by
        intro v' hv' ht
        obtain ⟨st1, h1⟩ := execAll_runs (is := kindInstrs P k v') (B := fun b => ∃ l, (b, RawVal.names l) ∈ d) h hB
          (kindInstrs_runs (fun hu => hb k v hk hu) ht ns)
        exact ⟨st1, by unfold loadKind; rw [hv']; exact h1⟩
      cases v with
      | names l =>
        obtain ⟨l', hl'⟩ := hg.more k l hv
        refine key _ hl' fun h => ?_
        obtain ⟨t, ht⟩ := hn k _ hk h
        cases ht
      | table t => exact key _ (hg.table k t hv) fun _ => ⟨t, rfl⟩
    obtain ⟨st1, h1⟩ := step
    obtain ⟨n1, b1, _⟩ := loadKind_built hd hk h hg h1
    obtain ⟨st', h2⟩ := ih (fun e he => hr e (by simp [he])) b1 (hg.trans (loadKind_grown h1))
    exact ⟨st', by simp only [List.map_cons, loadKinds, h1, bind, Except.bind]; exact h2⟩

end Unyts
