import Verif.Lemmas.ConvSelf

/- A name and itself are never noted as tried in vain. -/
namespace Unyts
open Spec

def NoSelf (w : World) : Prop := ∀ a, SimpleName a → (a, a) ∉ w.previous

def NS (w : World) : Prop := WF w.net ∧ NoSelf w

theorem ns_basic : Basic NS where
  snap := fun _ h => h
  tick := fun _ h => h
  prev := fun _ x hx h => ⟨h.1, fun a ha hm => by
    rcases List.mem_append.1 hm with hm | hm
    · exact h.2 a ha hm
    · rw [← List.mem_singleton.1 hm] at hx
      exact hx ⟨ha, ha⟩⟩

def SelfAsk (w : World) : Prop := SoundAmple w ∧ NoSelf w

theorem selfAsk_converterTop (uc : Option Bool) (v : Option Rat) (a b : Str) : Inv SelfAsk (converterTop uc v a b) := by
  intro w h
  have hs := inv_converterTop uc v a b w h.1
  refine ⟨hs, ?_⟩
  rw [converterTop_eq]
  obtain ⟨n, hbud⟩ := ample_budget h.1.2
  rw [hbud]
  have hwf := h.1.1.wf
  by_cases hab : SimpleName a ∧ SimpleName b
  · by_cases hpr : (a, b) ∈ w.previous
    · rw [converter]; dsimp only; rw [if_pos hpr]; exact h.2
    · rcases converter_simple hwf hab.1 hab.2 n uc v hpr with ⟨h1, _⟩ | ⟨h1, w2, _, _, hp, h2⟩
      · rw [h1]
        exact (inv_getConv ns_basic (fun _ h => h.1) (fun _ _ _ _ _ _ _ h _ _ _ _ _ _ => h) (n + 1) uc v a b w ⟨hwf, h.2⟩).2
      · rw [h2]
        intro x hx hm
        change (x, x) ∈ w2.previous at hm
        rw [hp] at hm
        rcases List.mem_append.1 hm with hm | hm
        · exact h.2 x hx hm
        · cases List.mem_singleton.1 hm
          rw [getConv_self n uc v (memHit_self_simple h.1.1 hx uc)] at h1
          exact ansRes_not_none _ _ _ _ h1
  · exact (inv_converter ns_basic (fun _ h => h.1) (fun _ _ _ _ _ _ _ h _ _ _ _ _ _ => h) (fun _ _ _ _ _ h => h) _ uc v a b
      (fun _ _ h => h) (fun w h => ns_basic.prev w (a, b) hab h) w ⟨hwf, h.2⟩).2

theorem selfAsk_call {c : Call} (hc : KeepsAmple c) {w : World} (h : SelfAsk w) : SelfAsk (c.run w) := by
  have hs := soundAmple_call hc h.1
  cases c with
  | convert v a b uc =>
    exact inv_convert_forget selfAsk_converterTop (fun w h => ⟨soundAmple_prev h.1, fun _ _ hm => by cases hm⟩) v a b uc w h
  | convertible a b uc => exact inv_convertible selfAsk_converterTop a b uc w h
  | simPandas v a b uc => exact inv_simPandas selfAsk_converterTop v a b uc w h
  | search a b =>
    refine ⟨hs, ?_⟩
    have e : (Call.run (.search a b) w).previous = w.previous := (searchNetwork_quiet a b w).previous
    unfold NoSelf; rw [e]; exact h.2
  | setUnit a =>
    refine ⟨hs, ?_⟩
    have e : (Call.run (.setUnit a) w).previous = w.previous := by simp only [Call.run, setUnitW]; split <;> rfl
    unfold NoSelf; rw [e]; exact h.2
  | setConversion a b f rev =>
    refine ⟨hs, ?_⟩
    have e : (Call.run (.setConversion a b f rev) w).previous = w.previous := by
      simp only [Call.run, setConversionW]; split <;> rfl
    unfold NoSelf; rw [e]; exact h.2
  | setFvf b => exact ⟨hs, h.2⟩
  | cleanMemory => exact ⟨hs, h.2⟩
  | settings p => exact ⟨hs, h.2⟩

theorem selfAsk_session (cs : List Call) (hc : ∀ c ∈ cs, KeepsAmple c) {w : World} (h : SelfAsk w) :
    SelfAsk (session cs w) := by
  induction cs generalizing w with
  | nil => exact h
  | cons c cs ih => exact ih (fun c' h' => hc c' (List.mem_cons_of_mem _ h')) (selfAsk_call (hc c List.mem_cons_self) h)

theorem selfAsk_of_reachable {w : World} (h : Reachable w) : SelfAsk w := by
  obtain ⟨w0, cs, hf, hc, rfl⟩ := h
  exact selfAsk_session cs hc ⟨⟨sound_fresh hf.wf hf.memory, hf.ample⟩, fun _ _ hm => by rw [hf.previous] at hm; cases hm⟩

end Unyts
