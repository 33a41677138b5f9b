import Verif.Lemmas.ConvValue

/- Pairs of names that are joined by conversions are never noted as tried in vain. -/
namespace Unyts
open Spec
variable {S : Str → Str → Prop}

/-- No pair of names in `S` that are joined by conversions is noted as tried in vain. -/
def Untried (S : Str → Str → Prop) (w : World) : Prop := ∀ a b na nb, S a b → w.net.getNode a = .ok na →
  w.net.getNode b = .ok nb → Reach (Linked w.net) na nb → (a, b) ∉ w.previous

theorem untried_of_same {w w' : World} (hn : w'.net = w.net) (hp : w'.previous = w.previous) (h : Untried S w) :
    Untried S w' := by
  intro a b na nb
  rw [hn, hp]
  exact h a b na nb

theorem untried_append {w : World} {x : Str × Str} (h : Untried S w)
    (hx : ∀ na nb, S x.1 x.2 → w.net.getNode x.1 = .ok na → w.net.getNode x.2 = .ok nb → ¬ Reach (Linked w.net) na nb) :
    Untried S { w with previous := w.previous ++ [x] } := by
  intro a b na nb sab h1 h2 h3 hm
  rcases List.mem_append.1 hm with hm | hm
  · exact h a b na nb sab h1 h2 h3 hm
  · rw [← List.mem_singleton.1 hm] at hx
    exact hx na nb sab h1 h2 h3

def UT (S : Str → Str → Prop) (w : World) : Prop := WF w.net ∧ Untried S w

theorem ut_basic (hS : ∀ a b, S a b → SimpleName a ∧ SimpleName b) : Basic (UT S) where
  snap := fun _ h => ⟨h.1, untried_of_same rfl rfl h.2⟩
  tick := fun _ h => ⟨h.1, untried_of_same rfl rfl h.2⟩
  prev := fun _ _ hx h => ⟨h.1, untried_append h.2 fun _ _ hs => absurd (hS _ _ hs) hx⟩

theorem ut_paths : KeepsPaths (UT S) := fun _ _ _ _ _ _ _ h _ _ _ _ _ _ => ⟨h.1, untried_of_same rfl rfl h.2⟩

theorem ut_at (a b : Str) : KeepsAt (UT S) a b := fun _ _ h => ⟨h.1, untried_of_same rfl rfl h.2⟩

/-- a pair of names that are joined is found by `_get_conversion` -/
theorem getConv_found {w : World} (h : FindsInvOn S w) {a b : Str} (sab : S a b) {na nb : UNode} (hna : w.net.getNode a = .ok na)
    (hnb : w.net.getNode b = .ok nb) (hr : Reach (Linked w.net) na nb) (n : Nat) (uc : Option Bool) (v : Option Rat) :
    (getConv (n + 1) uc v a b w).1 ≠ .ok none := by
  intro h1
  obtain ⟨hs, hf, hn, hS⟩ := h
  obtain ⟨_, _, hcase⟩ := getConv_direct hs.1.wf n uc v (tempParts_noSlash (hS a b sab).1.1)
    (rfl : getConv (n + 1) uc v a b w = _)
  rcases hcase with ⟨f, q, h3, _⟩ | ⟨e, h3, _⟩ | ⟨_, _, hwhy⟩
  · exact ansRes_not_none _ _ _ _ (h3.symm.trans h1)
  · rw [h1] at h3; cases h3
  · rcases hwhy with h4 | ⟨_, _, h4⟩
    · unfold memHit at h4
      split at h4
      · exact hn a b na nb sab hna hnb hr h4
      · cases h4
    · obtain ⟨r, hr', hne⟩ := hf w (.refl w) a b na nb sab hna hnb
      rw [h4] at hr'
      cases hr'
      exact hne hr rfl

def AskInv (S : Str → Str → Prop) (w : World) : Prop := FindsInvOn S w ∧ Untried S w

theorem askInv_converterTop (uc : Option Bool) (v : Option Rat) (a b : Str) : Inv (AskInv S) (converterTop uc v a b) := by
  intro w h
  refine ⟨findsInv_converterTop uc v a b w h.1, ?_⟩
  obtain ⟨hs, _, _, hS⟩ := id h.1
  rw [converterTop_eq]
  obtain ⟨n, hbud⟩ := ample_budget hs.2
  rw [hbud]
  by_cases hab : SimpleName a ∧ SimpleName b
  · by_cases hpr : (a, b) ∈ w.previous
    · rw [converter]; dsimp only; rw [if_pos hpr]; exact h.2
    · rcases converter_simple hs.1.wf hab.1 hab.2 n uc v hpr with ⟨h1, _⟩ | ⟨h1, w2, hb, _, hp, h2⟩
      · rw [h1]
        exact (inv_getConv (ut_basic hS) (fun _ h => h.1) ut_paths (n + 1) uc v a b w ⟨hs.1.wf, h.2⟩).2
      · rw [h2]
        refine untried_of_same (w := { w with previous := w.previous ++ [(a, b)] }) hb.net hp (untried_append h.2 ?_)
        intro na nb sab h3 h4 h5
        exact getConv_found h.1 sab h3 h4 h5 n uc v h1
  · exact (inv_converter (ut_basic hS) (fun _ h => h.1) ut_paths (fun a b _ => ut_at a b) _ uc v a b (ut_at a b)
      (fun w h => (ut_basic hS).prev w (a, b) hab h) w ⟨hs.1.wf, h.2⟩).2

theorem askInv_asks {c : Call} (hc : Asks c) {w : World} (h : AskInv S w) : AskInv S (c.run w) := by
  cases c with
  | convert v a b uc =>
    exact inv_convert_forget askInv_converterTop (fun w h => ⟨findsInv_prev h.1, fun _ _ _ _ _ _ _ _ hm => by cases hm⟩) v a b uc w h
  | convertible a b uc => exact inv_convertible askInv_converterTop a b uc w h
  | simPandas v a b uc => exact inv_simPandas askInv_converterTop v a b uc w h
  | search a b => 
    have hq := searchNetwork_quiet a b w
    exact ⟨findsInv_asks (c := .search a b) trivial h.1, untried_of_same hq.net hq.previous h.2⟩
  | _ => cases hc

/-- whatever was asked -/
theorem askInv_session {cs : List Call} (hc : ∀ c ∈ cs, Asks c) {w : World} (h : AskInv S w) : AskInv S (session cs w) := by
  induction cs generalizing w with
  | nil => exact h
  | cons c cs ih => exact ih (fun c' h => hc c' (List.mem_cons_of_mem _ h)) (askInv_asks (hc c List.mem_cons_self) h)

theorem askInv_fresh {w : World} (hw : Fresh w) (h : FindsInvOn S w) : AskInv S w :=
  ⟨h, fun _ _ _ _ _ _ _ _ hm => by rw [hw.previous] at hm; cases hm⟩

end Unyts
