import Verif.Lemmas.ConvRepeat

/- Questions that failed fail again. -/
namespace Unyts
open Spec

theorem hybridChoice_error {c : Bool} {l b : Res (Option (List UNode))} {e : PyErr} (h : hybridChoice c l b = .error e)
    (c' : Bool) : hybridChoice c' l b = .error e := by
  unfold hybridChoice at *
  cases l with
  | error _ => exact h
  | ok l =>
    cases b with
    | error _ => exact h
    | ok b =>
      cases l with
      | none => cases h
      | some p => cases b <;> cases h

/-- A search that raised raises again. -/
theorem searchNetwork_error {a b : Str} {w w' w2 : World} {e : PyErr} (h : searchNetwork a b w = (.error e, w'))
    (hb : SameBase w w2) : ∃ w3, searchNetwork a b w2 = (.error e, w3) := by
  unfold searchNetwork at h ⊢
  rw [hb.net]
  split at h
  · next hc =>
    rw [if_pos hc]
    split at h
    · next na nb hna hnb =>
      simp only [hb.par] at h ⊢
      split at h
      · next ha => simp only [Prod.mk.injEq] at h; exact ⟨w2, by rw [h.1]⟩
      · next ha => simp only [Prod.mk.injEq, net_ite, es_ite] at h ⊢; rw [hb.es, hb.net, h.1]; exact ⟨_, rfl, rfl⟩
      · next ha => simp only [Prod.mk.injEq, net_ite, es_ite] at h ⊢; rw [hb.es, hb.net, h.1]; exact ⟨_, rfl, rfl⟩
      · next ha =>
        simp only [Prod.mk.injEq, net_ite, es_ite] at h ⊢
        rw [hb.es, hb.net, hybridChoice_error h.1]
        exact ⟨_, rfl, rfl⟩
      · next ha => simp only [Prod.mk.injEq] at h ⊢; exact ⟨w2, h.1, rfl⟩
    · simp only [Prod.mk.injEq] at h ⊢; exact ⟨w2, h.1, rfl⟩
    · simp only [Prod.mk.injEq] at h ⊢; exact ⟨w2, h.1, rfl⟩
  · cases h

theorem memHit_congr {w w' : World} (hp : w'.par = w.par) (hm : w'.memory = w.memory) (uc : Option Bool) (a b : Str) :
    memHit w' uc a b = memHit w uc a b := by unfold memHit resolveCache; rw [hp, hm]

/-- With the cache on, `_get_conversion` outside the temperature ratios repeats whatever it did. -/
theorem getConv_direct_again {w w' : World} (hg : WF w.net) {n : Nat} {uc : Option Bool} (hc : resolveCache w uc = true)
    {v : Option Rat} {a b : Str} (ht : tempParts w.dic a b = none) {r : Res (Option (Conv × Path))}
    (h : getConv (n + 1) uc v a b w = (r, w')) : (getConv (n + 1) uc v a b w').1 = r := by
  have hb : SameBase w w' := by have := base_getConv hg (n + 1) uc v a b; rw [h] at this; exact this
  have ht' : tempParts w'.dic a b = none := by rw [hb.dic]; exact ht
  obtain ⟨_, _, hcase⟩ := getConv_direct hg n uc v ht h
  rcases hcase with ⟨f, p, h1, _, _, _, h3⟩ | ⟨e, h1, h2, h3, h4, h5⟩ | ⟨h1, h2, h3⟩
  · rw [h3 hc w' (.refl _) n v]; exact h1.symm
  · dsimp only at h1 h4
    subst h1
    rw [getConv_eq n uc v w' ht', memHit_congr hb.par h4, h2, hb.quick, h3]
    simp only
    obtain ⟨w3, hs⟩ := searchNetwork_error (w' := (searchNetwork a b w).2) (by rw [← h5]) hb
    unfold networkConversion
    rw [PyM.run_bind_error hs]
  · dsimp only at h1 h2
    subst h1
    rw [getConv_eq n uc v w' ht', memHit_congr hb.par h2]
    rcases h3 with h3 | ⟨h3, h4, h5⟩
    · rw [h3]
    · rw [h3, hb.quick, h4]
      simp only
      obtain ⟨w3, hs⟩ := searchNetwork_none (w' := (searchNetwork a b w).2) (by rw [← h5]) hb
      unfold networkConversion
      rw [PyM.run_bind_ok hs]
      rfl

/-- With the cache on, an exception of `_get_conversion` is raised again. -/
theorem getConv_error_again {w w' : World} (hg : WF w.net) {n : Nat} {uc : Option Bool} (hc : resolveCache w uc = true)
    {v : Option Rat} {a b : Str} {e : PyErr} (h : getConv n uc v a b w = (.error e, w')) :
    (getConv n uc v a b w').1 = .error e := by
  cases n with
  | zero => cases h
  | succ n =>
    cases ht : tempParts w.dic a b with
    | none => exact getConv_direct_again hg hc ht h
    | some t =>
      obtain ⟨t1, d1, t2, d2⟩ := t
      obtain ⟨ea, eb, nt1, nd1, nt2, nd2, m1, m2⟩ := tempParts_some ht
      have hsl : '/' ∈ a := by rw [ea]; simp
      cases hm : memHit w uc a b with
      | some x =>
        cases x with
        | none => rw [getConv_hit_none n uc v hm] at h; cases h
        | some fp =>
          obtain ⟨f, p⟩ := fp
          have h0 := h
          rw [getConv_hit_some n uc v hm, answer_eq] at h
          have := (Prod.mk.inj h).2
          subst this
          rw [h0]
      | none =>
        cases hq : quick1 w.dic w.net a b with
        | some fp =>
          obtain ⟨f, q⟩ := fp
          have h0 := h
          have hcall : getConv (n + 1) uc v a b w = answer v f q w := by
            rw [getConv, getConvBody]
            show (match memHit w uc a b with
              | some none => _
              | some (some (f, p)) => _
              | none => _) = _
            rw [hm]
            simp only [hq]
          rw [hcall, answer_eq] at h
          have := (Prod.mk.inj h).2
          subst this
          rw [h0]
        | none =>
          have hgt := getConv_temp n uc v w hm hq ht
          rw [hgt, hc] at h
          have hbase : SameBase w w' := by
            have := base_getConv hg (n + 1) uc v a b
            rw [hgt, hc, h] at this; exact this
          have hq' : quick1 w'.dic w'.net a b = none := by rw [hbase.dic, hbase.net]; exact hq
          have ht' : tempParts w'.dic a b = some (t1, d1, t2, d2) := by rw [hbase.dic]; exact ht
          have hc' : resolveCache w' uc = true := by rw [hbase.resolve]; exact hc
          -- the inner call
          cases hin : getConv n (some true) (some 1) d1 d2 w with
          | mk ri wi =>
            -- without the factor of the two scales nothing is asked
            cases hk : Py.dictGet w.dic.tempRatio (t1, t2) with
            | none =>
              have h0 := h
              unfold tempConversion at h
              rw [PyM.run_bind_ok (PyM.run_get _), hk] at h
              have hw : w = w' := (Prod.mk.inj h).2
              subst hw
              rw [hgt, hc, h0]
            | some k =>
              have hwi : w' = wi := by
                unfold tempConversion at h
                rw [PyM.run_bind_ok (PyM.run_get _), hk] at h
                simp only at h
                cases ri with
                | error e' => rw [PyM.run_bind_error hin] at h; exact (Prod.mk.inj h).2.symm
                | ok ri =>
                  rw [PyM.run_bind_ok hin] at h
                  match ri with
                  | none => simp only at h; split at h <;> exact (Prod.mk.inj h).2.symm
                  | some (c, p) =>
                    simp only at h
                    cases hcn : c.toNum with
                    | error e' => rw [hcn] at h; exact (Prod.mk.inj h).2.symm
                    | ok den =>
                      rw [hcn, PyM.run_bind_ok (PyM.run_lift_ok _ _), answer_eq] at h
                      exact (Prod.mk.inj h).2.symm
              subst hwi
              have hm' : memHit w' uc a b = none := by
                cases n with
                | zero =>
                  have : w' = w := (Prod.mk.inj hin).2.symm
                  rw [this]; exact hm
                | succ n =>
                  obtain ⟨hoth, _, _⟩ := getConv_direct hg n (some true) (some 1) (tempParts_noSlash nd1) hin
                  have hne : (a, b) ≠ (d1, d2) := by
                    intro e
                    simp only [Prod.mk.injEq] at e
                    exact nd1 (e.1 ▸ hsl)
                  unfold memHit
                  unfold memHit at hm
                  rw [hbase.resolve, hoth a b hne]
                  exact hm
              have hin' : (getConv n (some true) (some 1) d1 d2 w').1 = ri := by
                cases n with
                | zero => exact (Prod.mk.inj hin).1
                | succ n => exact getConv_direct_again hg rfl (tempParts_noSlash nd1) hin
              rw [getConv_temp n uc v w' hm' hq' ht', hc']
              cases hin2 : getConv n (some true) (some 1) d1 d2 w' with
              | mk r2 w2 =>
                rw [hin2] at hin'
                dsimp only at hin'
                subst hin'
                have hb2 : SameBase w' w2 := by
                  have := base_getConv (w := w') (by rw [hbase.net]; exact hg) n (some true) (some 1) d1 d2
                  rw [hin2] at this; exact this
                have hk' : Py.dictGet w'.dic.tempRatio (t1, t2) = some k := by rw [hbase.dic]; exact hk
                unfold tempConversion at h ⊢
                rw [PyM.run_bind_ok (PyM.run_get _), hk] at h
                rw [PyM.run_bind_ok (PyM.run_get _), hk']
                simp only at h ⊢
                cases r2 with
                | error e' =>
                  rw [PyM.run_bind_error hin] at h
                  rw [PyM.run_bind_error hin2]
                  exact (Prod.mk.inj h).1
                | ok r2 =>
                  rw [PyM.run_bind_ok hin] at h
                  rw [PyM.run_bind_ok hin2]
                  match r2 with
                  | none =>
                    simp only at h ⊢
                    rw [hbase.par]
                    split at h
                    · next hre => rw [if_pos hre]; exact (Prod.mk.inj h).1
                    · cases h
                  | some (c, p) =>
                    simp only at h ⊢
                    cases hcn : c.toNum with
                    | error e' => rw [hcn] at h; exact (Prod.mk.inj h).1
                    | ok den =>
                      rw [hcn, PyM.run_bind_ok (PyM.run_lift_ok _ _), answer_eq] at h
                      rw [PyM.run_bind_ok (PyM.run_lift_ok _ _), answer_eq, hb2.fvf]
                      exact (Prod.mk.inj h).1

end Unyts
