import Verif.Lemmas.Network

namespace Unyts
open Spec

set_option linter.unusedSectionVars false
variable {α : Type _} [DecidableEq α]

/-- outcome of `dfs_` from `node` with the set `vis` (before `node` is added) -/
structure DfsPost (ch : α → Res (List α)) (useful : α → Bool) (tgt node : α) (vis : List α)
    (pq res vis' : List α) : Prop where
  grow : ∀ x ∈ vis, x ∈ vis'
  self : node ∈ vis'
  outcome :
    (∃ r, res = pq ++ r ∧ r ≠ [] ∧ Chain (edgeOf ch) node tgt (node :: r) ∧ (node :: r).Nodup ∧
      ∀ x ∈ r, x ∉ vis) ∨
    (res = pq ∧ (tgt ∈ vis' → tgt ∈ vis ∨ tgt = node) ∧
      ∀ x ∈ vis', x ∉ vis → ∀ c, edgeOf ch x c → useful c = true → c ∈ vis')

/-- loop invariant of the `for` over children -/
theorem dfsKids_post {ch : α → Res (List α)} {useful : α → Bool} {tgt node : α}
    {call : α → List α → List α → Option (Res (List α × List α))}
    (hcall : ∀ c vis pq res vis', call c vis pq = some (.ok (res, vis')) →
      DfsPost ch useful tgt c vis pq res vis')
    {vis0 : List α} {all : List α} (hall : ch node = .ok all)
    {cs vis pq res vis' : List α} (hcs : ∃ done, all = done ++ cs ∧ ∀ c ∈ done, useful c = true → c ∈ vis)
    (hv : ∀ x ∈ node :: vis0, x ∈ vis)
    (htgt : tgt ∈ vis → tgt ∈ vis0 ∨ tgt = node)
    (hclosed : ∀ x ∈ vis, x ∉ vis0 → x ≠ node → ∀ c, edgeOf ch x c → useful c = true → c ∈ vis)
    (h : dfsKids call useful tgt cs vis pq = some (.ok (res, vis'))) :
    DfsPost ch useful tgt node vis0 pq res vis' := by
  induction cs generalizing vis with
  | nil =>
    simp only [dfsKids, Option.some.injEq, Except.ok.injEq, Prod.mk.injEq] at h
    obtain ⟨rfl, rfl⟩ := h
    obtain ⟨done, hdone, hd⟩ := hcs
    simp only [List.append_nil] at hdone
    subst hdone
    refine ⟨fun x hx => hv x (by simp [hx]), hv node (by simp), Or.inr ⟨rfl, htgt, ?_⟩⟩
    intro x hx hx0 c hc hu
    by_cases hxn : x = node
    · subst hxn
      obtain ⟨cs', hcs', hm⟩ := hc
      rw [hall] at hcs'
      cases hcs'
      exact hd c hm hu
    · exact hclosed x hx hx0 hxn c hc hu
  | cons c cs ih =>
    obtain ⟨done, hdone, hd⟩ := hcs
    have hcmem : c ∈ all := by rw [hdone]; simp
    have hedge : edgeOf ch node c := ⟨all, hall, hcmem⟩
    have hsnoc : all = (done ++ [c]) ++ cs := by simp [hdone]
    unfold dfsKids at h
    split at h
    · next hcv =>
      refine ih ⟨done ++ [c], hsnoc, ?_⟩ hv htgt hclosed h
      intro d hd' hu
      rcases List.mem_append.1 hd' with hd' | hd'
      · exact hd d hd' hu
      · simp at hd'; subst hd'; exact hcv
    · next hcv =>
      split at h
      · next hu0 =>
        refine ih ⟨done ++ [c], hsnoc, ?_⟩ hv htgt hclosed h
        intro d hd' hu
        rcases List.mem_append.1 hd' with hd' | hd'
        · exact hd d hd' hu
        · simp at hd'; subst hd'; rw [hu0] at hu; cases hu
      · split at h
        · next hct =>
          subst hct
          simp only [Option.some.injEq, Except.ok.injEq, Prod.mk.injEq] at h
          obtain ⟨rfl, rfl⟩ := h
          have hcn : c ≠ node := fun e => hcv (e ▸ hv node (by simp))
          refine ⟨fun x hx => hv x (by simp [hx]), hv node (by simp), Or.inl ⟨[c], rfl, by simp, ?_, ?_, ?_⟩⟩
          · exact .step hedge (.single c)
          · simp; exact fun e => hcn e.symm
          · intro x hx; simp at hx; subst hx; exact fun hm => hcv (hv x (by simp [hm]))
        · next hct =>
          split at h
          · cases h
          · cases h
          · next tp vis2 hc2 =>
            have post := hcall c vis [c] tp vis2 hc2
            have hv2 : ∀ x ∈ node :: vis0, x ∈ vis2 := fun x hx => post.grow x (hv x hx)
            rcases post.outcome with ⟨r, hr, hrne, hchain, hnd, hfresh⟩ | ⟨hr, htg, hcl⟩
            · have htp : tgt ∈ tp := by
                rw [hr]
                exact hchain.last_mem
              rw [if_pos htp] at h
              simp only [Option.some.injEq, Except.ok.injEq, Prod.mk.injEq] at h
              obtain ⟨rfl, rfl⟩ := h
              refine ⟨fun x hx => hv2 x (by simp [hx]), hv2 node (by simp),
                Or.inl ⟨tp, rfl, by rw [hr]; simp, ?_, ?_, ?_⟩⟩
              · rw [hr]; exact .step hedge hchain
              · rw [hr]
                refine List.nodup_cons.2 ⟨?_, hnd⟩
                intro hm
                rcases List.mem_cons.1 hm with hm | hm
                · exact hcv (hm ▸ hv node (by simp))
                · exact hfresh _ hm (hv node (by simp))
              · intro x hx
                rw [hr] at hx
                rcases List.mem_cons.1 hx with hx | hx
                · subst hx; exact fun hm => hcv (hv x (by simp [hm]))
                · exact fun hm => hfresh _ hx (hv x (by simp [hm]))
            · have htp : tgt ∉ tp := by
                rw [hr]; simp; exact fun e => hct e.symm
              rw [if_neg htp] at h
              refine ih ⟨done ++ [c], hsnoc, ?_⟩ hv2 ?_ ?_ h
              · intro d hd' hu
                rcases List.mem_append.1 hd' with hd' | hd'
                · exact post.grow _ (hd d hd' hu)
                · simp at hd'; subst hd'; exact post.self
              · intro hm
                rcases htg hm with hm | hm
                · exact htgt hm
                · exact absurd hm.symm hct
              · intro x hx hx0 hxn d hd' hu
                by_cases hxv : x ∈ vis
                · exact post.grow _ (hclosed x hxv hx0 hxn d hd' hu)
                · exact hcl x hx hxv d hd' hu

theorem dfsNode_post {ch : α → Res (List α)} {useful : α → Bool} {tgt : α} {n : Nat} :
    ∀ {node : α} {vis pq res vis' : List α}, dfsNode ch useful tgt n node vis pq = some (.ok (res, vis')) →
      DfsPost ch useful tgt node vis pq res vis' := by
  induction n with
  | zero => intro _ _ _ _ _ h; simp [dfsNode] at h
  | succ n ih =>
    intro node vis pq res vis' h
    unfold dfsNode at h
    split at h
    · cases h
    · next cs hcs =>
      refine dfsKids_post (fun c vis pq res vis' hc => ih hc) hcs ⟨[], rfl, by simp⟩ (fun x hx => hx) ?_ ?_ h
      · intro hm
        rcases List.mem_cons.1 hm with hm | hm
        · exact Or.inr hm
        · exact Or.inl hm
      · intro x hx hx0 hxn
        rcases List.mem_cons.1 hx with hx | hx
        · exact absurd hx hxn
        · exact absurd hx hx0

theorem dfsKids_error {ch : α → Res (List α)} {useful : α → Bool} {tgt node start : α}
    {call : α → List α → List α → Option (Res (List α × List α))}
    (hcall : ∀ c vis pq e, Reach (edgeOf ch) start c → call c vis pq = some (.error e) →
      ∃ x, Reach (edgeOf ch) start x ∧ ch x = .error e)
    (hs : Reach (edgeOf ch) start node) {cs vis pq : List α} (hcs : ∀ c ∈ cs, edgeOf ch node c) {e : PyErr}
    (h : dfsKids call useful tgt cs vis pq = some (.error e)) :
    ∃ x, Reach (edgeOf ch) start x ∧ ch x = .error e := by
  induction cs generalizing vis with
  | nil => simp [dfsKids] at h
  | cons c cs ih =>
    have ih' := fun {vis} => ih (vis := vis) (fun d hd => hcs d (by simp [hd]))
    have hreach : Reach (edgeOf ch) start c := hs.trans ⟨_, .step (hcs c (by simp)) (.single c)⟩
    unfold dfsKids at h
    split at h
    · exact ih' h
    · split at h
      · exact ih' h
      · split at h
        · cases h
        · split at h
          · cases h
          · next e' hc => cases h; exact hcall c _ _ e hreach hc
          · split at h
            · cases h
            · exact ih' h

theorem dfsNode_error {ch : α → Res (List α)} {useful : α → Bool} {tgt start : α} {n : Nat} :
    ∀ {node : α} {vis pq : List α} {e : PyErr}, Reach (edgeOf ch) start node →
      dfsNode ch useful tgt n node vis pq = some (.error e) →
      ∃ x, Reach (edgeOf ch) start x ∧ ch x = .error e := by
  induction n with
  | zero => intro _ _ _ _ _ h; simp [dfsNode] at h
  | succ n ih =>
    intro node vis pq e hs h
    unfold dfsNode at h
    split at h
    · next e' he => cases h; exact ⟨node, hs, he⟩
    · next cs hcs =>
      exact dfsKids_error (fun c vis pq e hr hc => ih hr hc) hs (fun c hc => ⟨cs, hcs, hc⟩) h

/-- number of nodes of `U` not yet visited -/
def unvisited (U vis : List α) : Nat := (U.filter (· ∉ vis)).length

theorem unvisited_mono {U vis vis' : List α} (h : ∀ x ∈ vis, x ∈ vis') : unvisited U vis' ≤ unvisited U vis := by
  unfold unvisited
  induction U with
  | nil => simp
  | cons u U ih =>
    simp only [List.filter_cons]
    by_cases h1 : u ∈ vis
    · simp [h1, h u h1]; simpa using ih
    · by_cases h2 : u ∈ vis'
      · simp [h1, h2]; simp at ih; omega
      · simp [h1, h2]; simpa using ih

theorem unvisited_cons {U vis : List α} {x : α} (hx : x ∈ U) (hv : x ∉ vis) :
    unvisited U (x :: vis) < unvisited U vis := by
  induction U with
  | nil => simp at hx
  | cons u U ih =>
    have hm : unvisited U (x :: vis) ≤ unvisited U vis := unvisited_mono (by intro y hy; simp [hy])
    unfold unvisited at hm ih ⊢
    simp only [List.filter_cons]
    by_cases hu : u = x
    · subst hu
      simp [hv]
      simp at hm
      omega
    · have hxU : x ∈ U := by
        rcases List.mem_cons.1 hx with h | h
        · exact absurd h.symm hu
        · exact h
      have := ih hxU
      by_cases h1 : u ∈ vis
      · simp [h1]; simpa using this
      · simp [h1, hu]; simpa using this

theorem dfsKids_terminates {ch : α → Res (List α)} {useful : α → Bool} {tgt : α} {U : List α} {n : Nat}
    (ih : ∀ node vis pq, node ∈ U → node ∉ vis → unvisited U vis ≤ n →
      dfsNode ch useful tgt n node vis pq ≠ none)
    {cs vis pq : List α} (hcs : ∀ c ∈ cs, c ∈ U) (hn : unvisited U vis ≤ n) :
    dfsKids (dfsNode ch useful tgt n) useful tgt cs vis pq ≠ none := by
  induction cs generalizing vis with
  | nil => simp [dfsKids]
  | cons c cs ihc =>
    have ih' := fun {vis} (h : unvisited U vis ≤ n) => ihc (vis := vis) (fun d hd => hcs d (by simp [hd])) h
    unfold dfsKids
    split
    · exact ih' hn
    · next hcv =>
      split
      · exact ih' hn
      · split
        · simp
        · split
          · next hnone => exact absurd hnone (ih c vis [c] (hcs c (by simp)) hcv hn)
          · simp
          · next tp vis2 hc2 =>
            split
            · simp
            · exact ih' (Nat.le_trans (unvisited_mono (dfsNode_post hc2).grow) hn)

theorem dfsNode_terminates {ch : α → Res (List α)} {useful : α → Bool} {tgt : α} {U : List α}
    (hU : ∀ x cs, ch x = .ok cs → ∀ c ∈ cs, c ∈ U) {n : Nat} :
    ∀ {node : α} {vis pq : List α}, node ∈ U → node ∉ vis → unvisited U vis ≤ n →
      dfsNode ch useful tgt n node vis pq ≠ none := by
  induction n with
  | zero =>
    intro node vis pq hn hv hu
    have := unvisited_cons hn hv
    omega
  | succ n ih =>
    intro node vis pq hn hv hu
    unfold dfsNode
    split
    · simp
    · next cs hcs =>
      refine dfsKids_terminates (fun node vis pq h1 h2 h3 => ih h1 h2 h3) (hU node cs hcs) ?_
      have := unvisited_cons hn hv
      omega

/-- What DFS returns is a path. -/
theorem dfs_sound {ch : α → Res (List α)} {useful : α → Bool} {N : Nat} {start tgt : α} {p : List α}
    (h : dfs ch useful N start tgt = .ok (some p)) : IsPath (edgeOf ch) start tgt p := by
  unfold dfs at h
  split at h
  · cases h
  · cases h
  · next pq vis' hd =>
    split at h
    · next ht =>
      cases h
      rcases (dfsNode_post hd).outcome with ⟨r, hr, _, hc, hn, _⟩ | ⟨hr, _, _⟩
      · subst hr; exact ⟨hc, hn⟩
      · subst hr
        simp at ht
        subst ht
        exact ⟨.single _, by simp⟩
    · cases h

/-- DFS finds the target whenever every node on the way passes the pruning test. -/
theorem dfs_complete {ch : α → Res (List α)} {useful : α → Bool} {N : Nat} {start tgt : α} {U : List α}
    (hU : ∀ x cs, ch x = .ok cs → ∀ c ∈ cs, c ∈ U) (hsU : start ∈ U) (hN : U.length ≤ N + 1)
    (hok : ∀ x, Reach (edgeOf ch) start x → ∃ cs, ch x = .ok cs)
    (huse : ∀ c, Reach (edgeOf ch) start c → Reach (edgeOf ch) c tgt → useful c = true)
    (hreach : Reach (edgeOf ch) start tgt) :
    ∃ p, dfs ch useful N start tgt = .ok (some p) := by
  unfold dfs
  have hterm : dfsNode ch useful tgt (N + 1) start [] [start] ≠ none := by
    refine dfsNode_terminates hU hsU (by simp) ?_
    unfold unvisited
    exact Nat.le_trans (List.length_filter_le _ _) hN
  split
  · next h => exact absurd h hterm
  · next e h =>
    obtain ⟨x, hx, hxe⟩ := dfsNode_error (start := start) ⟨_, .single start⟩ h
    obtain ⟨cs, hcs⟩ := hok x hx
    rw [hxe] at hcs; cases hcs
  · next pq vis' hd =>
    by_cases ht : tgt ∈ pq
    · exact ⟨pq, by rw [if_pos ht]⟩
    · exfalso
      have post := dfsNode_post hd
      rcases post.outcome with ⟨r, hr, _, hc, _, _⟩ | ⟨hr, htg, hcl⟩
      · subst hr
        exact ht (by simpa using hc.last_mem)
      · subst hr
        have hst : tgt ≠ start := by simpa using ht
        have key : ∀ {x t : α} {p : List α}, Chain (edgeOf ch) x t p → t = tgt → Reach (edgeOf ch) start x →
            x ∈ vis' → tgt ∈ vis' := by
          clear hreach
          intro x t p hp
          induction hp with
          | single a => intro e _ h; exact e ▸ h
          | @step a b c p e h ih =>
            intro hct hra hav
            have hrb : Reach (edgeOf ch) start b := hra.trans ⟨_, .step e (.single b)⟩
            exact ih hct hrb (hcl a hav (by simp) b e (huse b hrb ⟨p, hct ▸ h⟩))
        obtain ⟨p, hp⟩ := hreach
        have := key hp rfl ⟨_, .single start⟩ post.self
        rcases htg this with h | h
        · simp at h
        · exact hst h

end Unyts
