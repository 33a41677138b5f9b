import Verif.Lemmas.LoaderTop

/- The dictionary `_load_network` leaves: which names each kind lists. -/
namespace Unyts
open Spec

/-- the names a sequence of statements appends to the kind `b` -/
def appendsOf (b : Str) (is : List Instr) : List Str :=
  is.filterMap fun i => match i with | .append b' s => if b' = b then some s else none | _ => none

theorem appendsOf_append (b : Str) (is js : List Instr) : appendsOf b (is ++ js) = appendsOf b is ++ appendsOf b js :=
  List.filterMap_append

theorem mem_appendsOf {b s : Str} {is : List Instr} : s ∈ appendsOf b is ↔ Instr.append b s ∈ is := by
  unfold appendsOf
  rw [List.mem_filterMap]
  constructor
  · rintro ⟨i, hi, h⟩
    split at h
    · split at h
      · next h' => cases h; subst h'; exact hi
      · cases h
    · cases h
  · intro h
    exact ⟨_, h, by simp⟩

/-- what the kinds of the dictionary `d` append to the kind `b` -/
def allAppends (P : Prefixes) (d : RawDict) (b : Str) : List Str := d.flatMap fun e => appendsOf b (kindInstrs P e.1 e.2)

theorem execAll_appends {is : List Instr} {st st' : LoadState} (e : execAll is st = .ok st') {b : Str} {l : List Str}
    (h : Py.dictGet st.dict b = some (.names l)) : Py.dictGet st'.dict b = some (.names (l ++ appendsOf b is)) := by
  induction is generalizing st l with
  | nil => cases e; simpa [appendsOf] using h
  | cons i is ih =>
    obtain ⟨st1, h1, e⟩ := execAll_cons e
    rw [show i :: is = [i] ++ is from rfl, appendsOf_append, ← List.append_assoc]
    apply ih e
    cases i with
    | node s => obtain ⟨g, hn, rfl⟩ := exec_node h1; simpa [appendsOf] using h
    | edge x y c => obtain ⟨_, _, g, _, _, _, rfl⟩ := exec_edge h1; simpa [appendsOf] using h
    | fail x => cases h1
    | append b' s =>
      obtain ⟨l', hl', rfl⟩ := exec_append h1
      by_cases hb : b' = b
      · subst hb
        rw [h] at hl'
        cases hl'
        simp only [Py.dictGet_dictSet_same]
        simp [appendsOf]
      · rw [Py.dictGet_dictSet_other _ _ (Ne.symm hb), h]
        simp [appendsOf, hb]

theorem appendsOf_nodes (b : Str) (l : List Str) : appendsOf b (l.map .node) = [] := by
  induction l with
  | nil => rfl
  | cons a l ih => exact ih

theorem loadKind_appends {P : Prefixes} {d : RawDict} (hd : (d.map Prod.fst).Nodup) {k : Str} {v : RawVal}
    (hk : (k, v) ∈ d) {st st' : LoadState} (hg : Grown d st.dict) (e : loadKind P st k = .ok st') {b : Str} {l : List Str}
    (h : Py.dictGet st.dict b = some (.names l)) :
    Py.dictGet st'.dict b = some (.names (l ++ appendsOf b (kindInstrs P k v))) := by
  have hv := dictGet_of_mem hd hk
  unfold loadKind at e
  by_cases hu : '_' ∈ k
  · rw [hg.same k hu, hv] at e
    exact execAll_appends e h
  · split at e
    · cases e
    · next v' hv' =>
      have := execAll_appends e h
      rw [kindInstrs_plain hu, appendsOf_nodes] at this ⊢
      exact this

theorem loadKinds_appends {P : Prefixes} {d : RawDict} (hd : (d.map Prod.fst).Nodup) {r : RawDict}
    (hr : ∀ e ∈ r, e ∈ d) {st st' : LoadState} (hg : Grown d st.dict) (e : loadKinds P (r.map Prod.fst) st = .ok st')
    {b : Str} {l : List Str} (h : Py.dictGet st.dict b = some (.names l)) :
    Py.dictGet st'.dict b = some (.names (l ++ allAppends P r b)) := by
  induction r generalizing st l with
  | nil => cases e; simpa [allAppends] using h
  | cons x r ih =>
    obtain ⟨k, v⟩ := x
    obtain ⟨st1, h1, e⟩ := loadKinds_cons e
    have := ih (fun e he => hr e (by simp [he])) (hg.trans (loadKind_grown h1)) e
      (loadKind_appends hd (hr _ List.mem_cons_self) hg h1 h)
    simpa [allAppends, List.append_assoc] using this

/-- the dictionary before it is closed -/
theorem load_raw {P : Prefixes} {expl : List (Str × Str × CExp)} {d d' : RawDict} {g : Net}
    (hd : (d.map Prod.fst).Nodup) (h : loadNetwork P expl d = .ok (g, d')) :
    ∃ d1, Grown d d1 ∧ closeDict d1 = .ok d' ∧
      ∀ b l, (b, RawVal.names l) ∈ d → Py.dictGet d1 b = some (.names (l ++ allAppends P d b)) := by
  simp only [loadNetwork, bind, Except.bind] at h
  split at h
  · cases h
  · next st1 h1 =>
    split at h
    · cases h
    · next st2 h2 =>
      split at h
      · cases h
      · next g3 h3 =>
        have gr1 := (loadKinds_built hd (fun e he => he) built_empty (Grown.refl d) h1).1
        have gr2 := gr1.trans (execAll_grown (by rw [basesOf_expl]; simp) h2)
        refine ⟨st2.dict, gr2, ?_, ?_⟩
        · split at h
          · cases h
          · split at h
            · cases h
            · next h4 => cases h; exact h4
        · intro b l hb
          have := execAll_appends h2 (loadKinds_appends hd (fun e he => he) (Grown.refl d) h1 (dictGet_of_mem hd hb))
          have e : appendsOf b (expl.map fun e => .edge e.1 e.2.1 (.fn e.2.2)) = [] := by
            clear h h2 h3 this
            induction expl with
            | nil => rfl
            | cons e r ih => exact ih
          rw [e, List.append_nil] at this
          exact this

theorem dictGet_filter {β : Type _} {d : List (Str × β)} {q : Str × β → Bool} {k : Str} (hq : ∀ v, q (k, v) = true) :
    Py.dictGet (d.filter q) k = Py.dictGet d k := by
  induction d with
  | nil => rfl
  | cons e d ih =>
    obtain ⟨k', v⟩ := e
    by_cases h : k' = k
    · subst h; simp [hq, Py.dictGet]
    · by_cases h' : q (k', v) = true
      · simp [h', Py.dictGet, h, ih]
      · simp [h', Py.dictGet, h, ih]

theorem dictGet_map {β γ : Type _} {d : List (Str × β)} (f : β → γ) {k : Str} :
    Py.dictGet (d.map fun e => (e.1, f e.2)) k = (Py.dictGet d k).map f := by
  induction d with
  | nil => rfl
  | cons e d ih =>
    obtain ⟨k', v⟩ := e
    by_cases h : k' = k
    · subst h; simp [Py.dictGet]
    · simp [Py.dictGet, h, ih]

theorem closeDict_get {d d' : RawDict} (h : closeDict d = .ok d') {k : Str} (hk : '_' ∉ k)
    (h1 : k ≠ s!!"dataBYTE") (h2 : k ≠ s!!"dataBIT") (h3 : k ≠ s!!"Data") :
    Py.dictGet d' k = (Py.dictGet d k).map fun v => .names v.keys.eraseDups := by
  simp only [closeDict] at h
  split at h
  · cases h
    rw [dictGet_filter (by intro v; simp [h1, h2]), Py.dictGet_dictSet_other _ _ h3, dictGet_map (fun v : RawVal => RawVal.names v.keys.eraseDups),
      dictGet_filter (by intro v; simp [hk])]
  · cases h

theorem closeDict_data {d d' : RawDict} (h : closeDict d = .ok d') :
    ∃ x y, Py.dictGet d s!!"dataBYTE" = some x ∧ Py.dictGet d s!!"dataBIT" = some y ∧
      Py.dictGet d' s!!"Data" = some (.names (x.keys.eraseDups ++ y.keys.eraseDups)) := by
  simp only [closeDict] at h
  split at h
  · next x y z hx hy hz =>
    rw [dictGet_map (fun v : RawVal => RawVal.names v.keys.eraseDups), dictGet_filter (by intro v; simp)] at hx hy
    rw [Option.map_eq_some_iff] at hx hy
    obtain ⟨x', hx', rfl⟩ := hx
    obtain ⟨y', hy', rfl⟩ := hy
    cases h
    refine ⟨x', y', hx', hy', ?_⟩
    rw [dictGet_filter (by intro v; simp), Py.dictGet_dictSet_same]
    simp only [keys_names]
  · cases h

theorem closeDict_keys {d d' : RawDict} (h : closeDict d = .ok d') :
    d'.map Prod.fst = ((if s!!"Data" ∈ d.map Prod.fst then (d.map Prod.fst).filter fun k => '_' ∉ k
      else ((d.map Prod.fst).filter fun k => '_' ∉ k) ++ [s!!"Data"]).filter
      fun k => k ≠ s!!"dataBYTE" ∧ k ≠ s!!"dataBIT") := by
  have keysSet : ∀ (d : RawDict) (k : Str) (v : RawVal), (Py.dictSet d k v).map Prod.fst =
      if k ∈ d.map Prod.fst then d.map Prod.fst else d.map Prod.fst ++ [k] := by
    intro d k v
    induction d with
    | nil => rfl
    | cons e d ih =>
      obtain ⟨k', v'⟩ := e
      by_cases hk : k' = k
      · subst hk; simp [Py.dictSet]
      · simp only [Py.dictSet, hk, if_false, List.map_cons, ih, List.mem_cons, Ne.symm hk, false_or]
        split <;> rfl
  simp only [closeDict] at h
  split at h
  · cases h
    have e1 : ∀ (l : RawDict), (l.filter fun e => decide (e.1 ≠ s!!"dataBYTE" ∧ e.1 ≠ s!!"dataBIT")).map Prod.fst =
        (l.map Prod.fst).filter fun k => decide (k ≠ s!!"dataBYTE" ∧ k ≠ s!!"dataBIT") := by
      intro l; rw [List.filter_map]; rfl
    rw [e1, keysSet]
    have e2 : ((d.filter fun e => decide ('_' ∉ e.1)).map fun e => (e.1, RawVal.names e.2.keys.eraseDups)).map Prod.fst =
        (d.map Prod.fst).filter fun k => decide ('_' ∉ k) := by
      rw [List.map_map, List.filter_map]; rfl
    rw [e2]
    congr 1
    have : s!!"Data" ∈ (d.map Prod.fst).filter (fun k => decide ('_' ∉ k)) ↔ s!!"Data" ∈ d.map Prod.fst := by
      rw [List.mem_filter]
      exact ⟨fun h => h.1, fun h => ⟨h, by decide⟩⟩
    simp only [this]
  · cases h

end Unyts
