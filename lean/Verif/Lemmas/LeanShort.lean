import Verif.Lemmas.LeanOn

/- `lean_BFS` on a part of the network whose conversions go both ways, but for one short cut. -/
namespace Unyts
open Spec

/-- the conversions that go both ways between units with `P` -/
def bothWays {α : Type _} (E : α → α → Prop) (P : α → Prop) (x y : α) : Prop := P x ∧ P y ∧ E x y ∧ E y x

/-- In the part `P` every conversion goes both ways, except the one from `u` to `v`, which is a short cut: from `u` to
`m` and from `m` to `v` there are conversions in both directions. Apart from `m`, what `v` converts to converts to
nothing else. -/
structure Shortcut {α : Type _} (E : α → α → Prop) (P : α → Prop) (u v m : α) : Prop where
  close : ∀ x y, P x → E x y → P y ∧ (E y x ∨ (x = u ∧ y = v))
  start : bothWays E P u m
  finish : bothWays E P m v
  leaves : ∀ y, E v y → y = v ∨ y = m ∨ ∀ z, E y z → z = v ∨ z = y

variable {α : Type _} {E : α → α → Prop} {P : α → Prop} {u v m : α}

theorem bothWays_symm : TwoWay (bothWays E P) := fun _ _ h => ⟨h.2.1, h.1, h.2.2.2, h.2.2.1⟩

/-- `v` or one of the units that only convert to it -/
def AtEnd (E : α → α → Prop) (v m y : α) : Prop := y = v ∨ E v y ∧ y ≠ m

theorem within_step {n : Nat} {a b c : α} (e : E a b) (h : Within E n b c) : Within E (n + 1) a c := by
  obtain ⟨p, hp, hl⟩ := h
  exact ⟨_, .step e hp, by simpa using hl⟩

theorem within_snoc {n : Nat} {a b c : α} (h : Within E n a b) (e : E b c) : Within E (n + 1) a c := by
  obtain ⟨p, hp, hl⟩ := h
  exact ⟨_, hp.snoc e, by simpa using hl⟩

namespace Shortcut

/-- a walk does not use the short cut, or uses it at some point for the last time -/
theorem cut (h : Shortcut E P u v m) {n : Nat} {a x : α} (ha : P a) (hw : Within E n a x) :
    Within (bothWays E P) n a x ∨ ∃ i j, Within (bothWays E P) i a u ∧ Within (bothWays E P) j v x ∧ i + j + 1 ≤ n := by
  obtain ⟨p, hp, hl⟩ := hw
  induction hp generalizing n with
  | single => exact Or.inl (Within.refl _ _)
  | @step a b c p e _ ih =>
    obtain ⟨hb, hr⟩ := h.close _ _ ha e
    simp only [List.length_cons] at hl
    obtain ⟨k, rfl⟩ : ∃ k, n = k + 1 := by
      have : p ≠ [] := by rintro rfl; cases ‹Chain E b c []›
      have := List.length_pos_iff.2 this
      exact ⟨n - 1, by omega⟩
    rcases ih hb (n := k) (by omega) with h1 | ⟨i, j, h1, h2, h3⟩
    · rcases hr with hr | ⟨rfl, rfl⟩
      · exact Or.inl (within_step ⟨ha, hb, e, hr⟩ h1)
      · exact Or.inr ⟨0, k, Within.refl _ _, h1, by omega⟩
    · rcases hr with hr | ⟨rfl, rfl⟩
      · exact Or.inr ⟨i + 1, j, within_step ⟨ha, hb, e, hr⟩ h1, h2, by omega⟩
      · exact Or.inr ⟨0, j, Within.refl _ _, h2, by omega⟩

/-- leaving the end goes through `m` -/
theorem away (h : Shortcut E P u v m) {k : Nat} {x y : α} (hx : AtEnd E v m x) (hw : Within (bothWays E P) k x y) :
    AtEnd E v m y ∨ ∃ j, j + 1 = k ∧ Within (bothWays E P) j m y := by
  induction k generalizing y with
  | zero => rw [Within.zero] at hw; subst hw; exact Or.inl hx
  | succ k ih =>
    rw [Within.succ] at hw
    rcases hw with hw | ⟨b, hw, he⟩
    · rcases ih hw with h1 | ⟨j, h1, h2⟩
      · exact Or.inl h1
      · exact Or.inr ⟨j + 1, by omega, h2.mono (by omega)⟩
    · rcases ih hw with h1 | ⟨j, h1, h2⟩
      · rcases h1 with rfl | ⟨h1, hm⟩
        · by_cases hy : y = m
          · subst hy; exact Or.inr ⟨k, rfl, Within.refl _ _⟩
          · exact Or.inl (Or.inr ⟨he.2.2.1, hy⟩)
        · rcases h.leaves _ h1 with rfl | rfl | hz
          · by_cases hy : y = m
            · subst hy; exact Or.inr ⟨k, rfl, Within.refl _ _⟩
            · exact Or.inl (Or.inr ⟨he.2.2.1, hy⟩)
          · exact absurd rfl hm
          · rcases hz _ he.2.2.1 with rfl | rfl
            · exact Or.inl (Or.inl rfl)
            · exact Or.inl (Or.inr ⟨h1, hm⟩)
      · exact Or.inr ⟨j + 1, by omega, within_snoc h2 he⟩

theorem end_near (h : Shortcut E P u v m) {b : α} (hb : AtEnd E v m b) :
    Within (bothWays E P) 1 b v := by
  rcases hb with rfl | ⟨h1, h2⟩
  · exact Within.refl _ _
  · obtain ⟨hp, hr⟩ := h.close _ _ h.finish.2.1 h1
    rcases hr with hr | ⟨e1, e2⟩
    · exact within_step ⟨hp, h.finish.2.1, hr, h1⟩ (Within.refl 0 _)
    · subst e2; exact Within.refl _ _

/-- When the balls around `a` and `b` meet, they meet at a point from which the way back to `a` is in the ball, and the
way to `b` but for its last step. The exception: from `u` to what only converts to `v`. -/
theorem meets (h : Shortcut E P u v m) {r : Nat} (hr : 1 ≤ r) {a b x : α} (ha : P a) (hb : P b) (hax : Within E r a x)
    (hbx : Within E r b x) (hex : ¬ (a = u ∧ AtEnd E v m b ∧ b ≠ v)) :
    ∃ y, Within E r a y ∧ Within E r b y ∧ Within (bothWays E P) r y a ∧ Within (bothWays E P) (r + 1) y b := by
  have sub : ∀ {n : Nat} {a b : α}, Within (bothWays E P) n a b → Within E n a b := by
    rintro n a b ⟨p, hp, hl⟩
    exact ⟨p, hp.mono fun _ _ e => e.2.2.1, hl⟩
  have sy : ∀ {n : Nat} {a b : α}, Within (bothWays E P) n a b → Within (bothWays E P) n b a :=
    fun h => Within.symm bothWays_symm h
  have fin : ∀ {y : α}, Within (bothWays E P) r a y → Within (bothWays E P) r b y →
      ∃ y, Within E r a y ∧ Within E r b y ∧ Within (bothWays E P) r y a ∧ Within (bothWays E P) (r + 1) y b :=
    fun {y} h1 h2 => ⟨y, sub h1, sub h2, sy h1, (sy h2).mono (by omega)⟩
  -- a point joined to `a` both ways
  have one : ∀ {x : α}, Within (bothWays E P) r a x → Within E r b x →
      ∃ y, Within E r a y ∧ Within E r b y ∧ Within (bothWays E P) r y a ∧ Within (bothWays E P) (r + 1) y b := by
    intro x h1 h2
    rcases h.cut hb h2 with h3 | ⟨i, j, h3, h4, h5⟩
    · exact fin h1 h3
    · refine ⟨x, sub h1, h2, sy h1, ?_⟩
      have h6 := (sy h4).trans (within_step (bothWays_symm _ _ h.finish) (within_step (bothWays_symm _ _ h.start) (sy h3)))
      exact h6.mono (by omega)
  rcases h.cut ha hax with h1 | ⟨i, j, h1, h2, h3⟩
  · exact one h1 hbx
  · have am : Within (bothWays E P) r a m := (within_snoc h1 h.start).mono (by omega)
    rcases h.cut hb hbx with h4 | ⟨i', j', h4, h5, h6⟩
    · rcases h.away (Or.inl rfl) h2 with hx | ⟨k, hk, hx⟩
      · rcases h.away hx (sy h4) with hb' | ⟨k, hk, hb'⟩
        · by_cases hr2 : 2 ≤ r
          · refine fin am (Within.mono (within_snoc (h.end_near hb') (bothWays_symm _ _ h.finish)) hr2)
          · have i0 : i = 0 := by omega
            subst i0
            rw [Within.zero] at h1
            by_cases hbv : b = v
            · subst hbv
              exact fin am (Within.mono (within_step (bothWays_symm _ _ h.finish) (Within.refl 0 _)) (by omega))
            · exact absurd ⟨h1, hb', hbv⟩ hex
        · exact fin am ((sy hb').mono (by omega))
      · exact one (((within_snoc h1 h.start).trans hx).mono (by omega)) hbx
    · exact fin (h1.mono (by omega)) (h4.mono (by omega))

end Shortcut

/-- `lean_BFS` finds a path in such a part within its range. -/
theorem leanBfs_shortcut {g : Net} (hg : WF g) {P : UNode → Prop} {u v m : UNode} (h : Shortcut (Linked g) P u v m)
    (hd : DistinctNames g) {k : Nat} {a b : UNode} (ha : a ∈ g.nodes) (hb : b ∈ g.nodes) (pa : P a) (pb : P b)
    (sa : SimpleName a.name) (sb : SimpleName b.name) (hex : ¬ (a = u ∧ AtEnd (Linked g) v m b ∧ b ≠ v))
    (hw : Within (bothWays (Linked g) P) (2 * (k + 1)) a b) :
    ∃ q, leanBfs g g.edgesStr k a b = .ok (some q) := by
  have sub : ∀ {n : Nat} {a b : UNode}, Within (bothWays (Linked g) P) n a b → Within (Linked g) n a b := by
    rintro n a b ⟨p, hp, hl⟩
    exact ⟨p, hp.mono fun _ _ e => e.2.2.1, hl⟩
  obtain ⟨gen, hgm, hl, hor⟩ := leanLoop_spec
    (desc := fun u g' => getDescendants g.edgesStr g.hasName u g' true) (a := a.name) (b := b.name)
    (acc := ([], 0)) (generationsList_ne k)
  have hg0 := generationsList_nonneg (Int.natCast_nonneg k) hgm
  obtain ⟨r, hr⟩ : ∃ r : Nat, gen + 1 = (r : Int) := ⟨(gen + 1).toNat, by omega⟩
  simp only [hr] at hl hor
  obtain ⟨x, hax, hbx⟩ : ∃ x, Within (Linked g) r a x ∧ Within (Linked g) r b x := by
    rcases hor with hne | hlast
    · obtain ⟨x, hx⟩ := List.exists_mem_of_ne_nil _ hne
      rw [Py.mem_inter, mem_desc_simple hg hd ha sa, mem_desc_simple hg hd hb sb] at hx
      obtain ⟨⟨y, hy, hay, rfl⟩, z, hz, hbz, hyz⟩ := hx
      obtain rfl := hd _ hz _ hy hyz
      exact ⟨z, hay, hbz⟩
    · rw [generationsList_last] at hlast
      have : r = k + 1 := by simp only [Option.some.injEq] at hlast; omega
      subst this
      obtain ⟨p, hp, hpl⟩ := hw
      obtain ⟨x, _, h1, h2⟩ := hp.midpoint (n := k + 1) (m := k + 1) (by omega)
      exact ⟨x, sub h1, sub (h2.symm bothWays_symm)⟩
  obtain ⟨y, ay, byy, ya, yb⟩ := h.meets (by omega) pa pb hax hbx hex
  have node : ∀ {n : Nat} {a b : UNode}, a ∈ g.nodes → Within (Linked g) n a b → b ∈ g.nodes := by
    rintro n a b ha ⟨q, hq, _⟩
    exact Net.reach_mem_nodes hg (fun _ _ h => h) ha ⟨q, hq⟩
  have hyn := node ha ay
  have ysel : y.name ∈ Py.inter (getDescendants g.edgesStr g.hasName a.name r true)
      (getDescendants g.edgesStr g.hasName b.name r true) := by
    rw [Py.mem_inter, mem_desc_simple hg hd ha sa, mem_desc_simple hg hd hb sb]
    exact ⟨⟨y, hyn, ay, rfl⟩, y, hyn, byy, rfl⟩
  have cov : ∀ z, Within (Linked g) r y z → z.name ∈ leanSelection g.edgesStr g.hasName a.name b.name k := by
    intro z hz
    unfold leanSelection
    rw [hl]
    simp only
    rw [Py.mem_union]
    exact Or.inr (List.mem_flatMap.2 ⟨y.name, ysel, mem_desc_of_ball hg hd hyn hz (node hyn hz) _⟩)
  unfold leanBfs
  simp only
  generalize leanSelection g.edgesStr g.hasName a.name b.name k = sel at cov
  have back : ∀ (n : Nat) {z : UNode}, n ≤ r → Within (bothWays (Linked g) P) n y z →
      Reach (edgeOf (slimChildren g sel)) z y := by
    intro n
    induction n with
    | zero => intro z _ hz; rw [Within.zero] at hz; subst hz; exact ⟨_, .single _⟩
    | succ n ih =>
      intro z hn hz
      have hz0 := hz
      rw [Within.succ] at hz
      rcases hz with hz | ⟨c, hc, he⟩
      · exact ih (by omega) hz
      · obtain ⟨p, hp⟩ := ih (by omega) hc
        exact ⟨_, .step (slim_of_linked hg he.2.2.2 (cov z ((sub hz0).mono hn))) hp⟩
  have forth : ∀ (n : Nat) {z : UNode}, n ≤ r + 1 → Within (bothWays (Linked g) P) n y z →
      Reach (edgeOf (slimChildren g sel)) y z := by
    intro n
    induction n with
    | zero => intro z _ hz; rw [Within.zero] at hz; subst hz; exact ⟨_, .single _⟩
    | succ n ih =>
      intro z hn hz
      rw [Within.succ] at hz
      rcases hz with hz | ⟨c, hc, he⟩
      · exact ih (by omega) hz
      · obtain ⟨p, hp⟩ := ih (by omega) hc
        exact ⟨_, hp.snoc (slim_of_linked hg he.2.2.1 (cov c ((sub hc).mono (by omega))))⟩
  have hreach := (back r (Nat.le_refl r) ya).trans (forth _ (Nat.le_refl _) yb)
  have hne : (g.edges.filter fun e => e.1.name ∈ sel) ≠ [] := by
    obtain ⟨⟨k', l⟩, he, rfl⟩ := List.mem_map.1 hyn
    exact List.ne_nil_of_mem (List.mem_filter.2 ⟨he, by simpa using cov _ (Within.refl _ _)⟩)
  rw [if_neg hne]
  rcases slim_bfs_spec (g := g) (sel := sel) (start := a) (tgt := b) with ⟨q, hq, _⟩ | ⟨_, hno⟩
  · exact ⟨q, hq⟩
  · exact absurd hreach hno

end Unyts
