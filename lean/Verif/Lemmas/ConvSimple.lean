import Verif.Lemmas.ConvFrame

/- `_get_conversion` and `_converter` call by call: what is remembered, and what a second call answers. -/
namespace Unyts
open Spec

theorem tempParts_noSlash {d : Dict} {a b : Str} (h : '/' ∉ a) : tempParts d a b = none := by
  unfold tempParts ratioParts
  rw [Py.splitOn_of_not_mem h]

theorem ratioParts_simple {a : Str} (h : '/' ∉ a) : ratioParts a = none := by
  unfold ratioParts
  rw [Py.splitOn_of_not_mem h]

theorem toNat_ofNat_small {n : Nat} (h : n < 0xd800) : (Char.ofNat n).toNat = n := by
  have hv : n.isValidChar := Or.inl h
  simp only [Char.ofNat, hv, dif_pos, Char.toNat, Char.ofNatAux]
  rfl

theorem lowerC_eq_slash {c : Char} : Py.lowerC c = '/' ↔ c = '/' := by
  have key : ∀ (lo hi : Char), lo ≤ c → c ≤ hi → 47 < lo.toNat → hi.toNat < 1000 → Char.ofNat (c.toNat + 32) ≠ '/' := by
    intro lo hi h1 h2 h3 h4 h
    have h1' : lo.toNat ≤ c.toNat := h1
    have h2' : c.toNat ≤ hi.toNat := h2
    have e := toNat_ofNat_small (n := c.toNat + 32) (by omega)
    rw [h] at e
    have : ('/' : Char).toNat = 47 := rfl
    omega
  constructor
  · intro h
    unfold Py.lowerC at h
    split at h
    · next hc => exact absurd h (key _ _ hc.1 hc.2 (by decide) (by decide))
    · split at h
      · next hc => exact absurd h (key _ _ hc.1 hc.2.1 (by decide) (by decide))
      · split at h
        · next hc => exact absurd h (key _ _ hc.1 hc.2 (by decide) (by decide))
        · exact h
  · rintro rfl; decide

theorem slash_mem_lower {a : Str} : '/' ∈ Py.lower a ↔ '/' ∈ a := by
  unfold Py.lower
  rw [List.mem_map]
  constructor
  · rintro ⟨c, hc, h⟩
    rw [lowerC_eq_slash] at h
    exact h ▸ hc
  · intro h; exact ⟨'/', h, by decide⟩

theorem selfRatio_noSlash {a : Str} (h : '/' ∉ a) : selfRatio a = false := by
  unfold selfRatio
  rw [ratioParts_simple (fun hh => h (slash_mem_lower.1 hh))]

theorem quick2_simple {d : Dict} {a b : Str} (ha : '/' ∉ a) (hb : '/' ∉ b) : quick2 d a b = none := by
  unfold quick2
  rw [selfRatio_noSlash ha, selfRatio_noSlash hb, ratioParts_simple ha]
  simp

/-- the entry of the memory that `_get_conversion` looks at -/
def memHit (w : World) (uc : Option Bool) (a b : Str) : Option (Option (Fn × Path)) :=
  if resolveCache w uc then Py.dictGet w.memory (a, b) else none

/-- the quick cases when the temperature ratios do not apply -/
def quick (w : World) (a b : Str) : Option (Fn × Path) :=
  match quick1 w.dic w.net a b with
  | some r => some r
  | none => quick2 w.dic a b

theorem getConv_eq (n : Nat) (uc : Option Bool) (v : Option Rat) {a b : Str} (w : World)
    (ht : tempParts w.dic a b = none) :
    getConv (n + 1) uc v a b w = match memHit w uc a b with
      | some none => (.ok none, w)
      | some (some (f, p)) => answer v f p w
      | none => match quick w a b with
        | some (f, p) => answer v f p w
        | none => networkConversion v a b w := by
  rw [getConv, getConvBody]
  show (match memHit w uc a b with
    | some none => _
    | some (some (f, p)) => _
    | none => _) = _
  cases memHit w uc a b with
  | some e => cases e <;> rfl
  | none =>
    simp only [quick]
    cases quick1 w.dic w.net a b with
    | some r => rfl
    | none =>
      simp only [ht]
      rfl

theorem getConv_temp (n : Nat) (uc : Option Bool) (v : Option Rat) {a b t1 d1 t2 d2 : Str} (w : World)
    (hm : memHit w uc a b = none) (hq : quick1 w.dic w.net a b = none)
    (ht : tempParts w.dic a b = some (t1, d1, t2, d2)) :
    getConv (n + 1) uc v a b w = tempConversion (getConv n (some (resolveCache w uc))) v t1 d1 t2 d2 w := by
  rw [getConv, getConvBody]
  show (match memHit w uc a b with
    | some none => _
    | some (some (f, p)) => _
    | none => _) = _
  rw [hm]
  simp only [hq, ht]

theorem tempParts_some {d : Dict} {a b t1 d1 t2 d2 : Str} (h : tempParts d a b = some (t1, d1, t2, d2)) :
    a = t1 ++ '/' :: d1 ∧ b = t2 ++ '/' :: d2 ∧ '/' ∉ t1 ∧ '/' ∉ d1 ∧ '/' ∉ t2 ∧ '/' ∉ d2 ∧
      t1 ∈ d.temperature ∧ t2 ∈ d.temperature := by
  unfold tempParts at h
  split at h
  · next x y z t h1 h2 =>
    split at h
    · next hc =>
      simp only [Option.some.injEq, Prod.mk.injEq] at h
      obtain ⟨rfl, rfl, rfl, rfl⟩ := h
      obtain ⟨e1, n1, n2⟩ := ratioParts_slash h1
      obtain ⟨e2, n3, n4⟩ := ratioParts_slash h2
      exact ⟨e1, e2, n1, n2, n3, n4, hc⟩
    · cases h
  · cases h

/-- Two states in which `_get_conversion` sees the same things. -/
structure Alike (w w' : World) : Prop where
  net : w'.net = w.net
  fvf : w'.fvf = w.fvf
  par : w'.par = w.par
  dic : w'.dic = w.dic
  pos : ∀ k e, Py.dictGet w.memory k = some (some e) → Py.dictGet w'.memory k = some (some e)
  abs : ∀ a b, Py.dictGet w.memory (a, b) = none → (¬ (SimpleName a ∧ SimpleName b) ∨ quick w a b ≠ none) →
    Py.dictGet w'.memory (a, b) = none

theorem Alike.of_memory {w w' : World} (net : w'.net = w.net) (fvf : w'.fvf = w.fvf) (par : w'.par = w.par)
    (dic : w'.dic = w.dic) (memory : w'.memory = w.memory) : Alike w w' :=
  ⟨net, fvf, par, dic, fun k e h => by rw [memory]; exact h, fun a b h _ => by rw [memory]; exact h⟩

theorem Alike.refl (w : World) : Alike w w := .of_memory rfl rfl rfl rfl rfl

theorem Alike.quick {w w' : World} (h : Alike w w') (a b : Str) : quick w' a b = quick w a b := by
  unfold Unyts.quick; rw [h.net, h.dic]

theorem Alike.trans {w w' w'' : World} (h : Alike w w') (h2 : Alike w' w'') : Alike w w'' :=
  ⟨h2.net.trans h.net, h2.fvf.trans h.fvf, h2.par.trans h.par, h2.dic.trans h.dic,
    fun k e hk => h2.pos k e (h.pos k e hk),
    fun a b hk hq => h2.abs a b (h.abs a b hk hq) (by rw [h.quick]; exact hq)⟩

theorem SameBase.resolve {w w' : World} (h : SameBase w w') (uc : Option Bool) :
    resolveCache w' uc = resolveCache w uc := by unfold resolveCache; rw [h.par]

theorem SameBase.quick {w w' : World} (h : SameBase w w') (a b : Str) : quick w' a b = quick w a b := by
  unfold Unyts.quick; rw [h.net, h.dic]

/-- Without a slash in the first name, `_get_conversion` writes at most the entry of its own pair; and it answers
either with a function that a later call will use again, or with nothing. -/
theorem getConv_direct {w : World} (hg : WF w.net) (n : Nat) (uc : Option Bool) (v : Option Rat) {a b : Str}
    (ht : tempParts w.dic a b = none) {r : Res (Option (Conv × Path)) × World}
    (hr : getConv (n + 1) uc v a b w = r) :
    (∀ x y, (x, y) ≠ (a, b) → Py.dictGet r.2.memory (x, y) = Py.dictGet w.memory (x, y)) ∧
    r.2.previous = w.previous ∧
    ((∃ f p, r.1 = ansRes v f p w.fvf ∧
        (quick w a b = some (f, p) ∨ Py.dictGet r.2.memory (a, b) = some (some (f, p))) ∧
        (memHit w uc a b = none → quick w a b = some (f, p) ∨
          ∃ na nb q, w.net.getNode a = .ok na ∧ w.net.getNode b = .ok nb ∧ IsPath (Linked w.net) na nb q ∧
            Along w.net q f ∧ p = q.map Step.node) ∧
        (∀ e, memHit w uc a b = some e → e = some (f, p)) ∧
        (resolveCache w uc = true → ∀ w2, Alike r.2 w2 → ∀ m v',
          getConv (m + 1) uc v' a b w2 = (ansRes v' f p w.fvf, w2))) ∨
     (∃ e, r.1 = .error e ∧ memHit w uc a b = none ∧ quick w a b = none ∧ r.2.memory = w.memory ∧
        (searchNetwork a b w).1 = .error e) ∨
     (r.1 = .ok none ∧ r.2.memory = w.memory ∧
        (memHit w uc a b = some none ∨
          memHit w uc a b = none ∧ quick w a b = none ∧ (searchNetwork a b w).1 = .ok none))) := by
  rw [getConv_eq n uc v w ht] at hr
  -- what a state alike the result answers
  have again : ∀ (w1 w2 : World), SameBase w w1 → Alike w1 w2 → tempParts w2.dic a b = none := by
    intro w1 w2 h1 h2
    rw [h2.dic, h1.dic]; exact ht
  cases hm : memHit w uc a b with
  | some e =>
    rw [hm] at hr
    cases e with
    | none =>
      simp only at hr
      subst hr
      exact ⟨fun _ _ _ => rfl, rfl, Or.inr (Or.inr ⟨rfl, rfl, Or.inl rfl⟩)⟩
    | some fp =>
      obtain ⟨f, p⟩ := fp
      simp only [answer_eq] at hr
      subst hr
      have hd : resolveCache w uc = true ∧ Py.dictGet w.memory (a, b) = some (some (f, p)) := by
        unfold memHit at hm
        split at hm
        · next h => exact ⟨h, hm⟩
        · cases hm
      refine ⟨fun _ _ _ => rfl, rfl, Or.inl ⟨f, p, rfl, Or.inr hd.2, by simp, by simp, ?_⟩⟩
      intro _ w2 h2 m v'
      rw [getConv_eq m uc v' w2 (again w w2 (.refl w) h2)]
      have : memHit w2 uc a b = some (some (f, p)) := by
        unfold memHit resolveCache at *
        rw [h2.par, hd.1, h2.pos _ _ hd.2]; rfl
      rw [this]
      simp only [answer_eq, h2.fvf]
  | none =>
    rw [hm] at hr
    cases hq : quick w a b with
    | some fp =>
      obtain ⟨f, p⟩ := fp
      rw [hq] at hr
      simp only [answer_eq] at hr
      subst hr
      refine ⟨fun _ _ _ => rfl, rfl, Or.inl ⟨f, p, rfl, Or.inl rfl, fun _ => Or.inl rfl, by simp, ?_⟩⟩
      intro hc w2 h2 m v'
      rw [getConv_eq m uc v' w2 (again w w2 (.refl w) h2)]
      have h3 : memHit w2 uc a b = none := by
        unfold memHit resolveCache at *
        rw [hc] at hm
        rw [h2.par, hc, h2.abs a b hm (Or.inr (by rw [hq]; simp))]
        rfl
      have h4 : quick w2 a b = some (f, p) := by
        unfold quick at *; rw [h2.net, h2.dic]; exact hq
      rw [h3, h4]
      simp only [answer_eq, h2.fvf]
    | none =>
      rw [hq] at hr
      simp only at hr
      have hqs := searchNetwork_quiet a b w
      rcases networkConversion_spec hg v a b with ⟨e, h1, h2⟩ | ⟨h1, h2⟩ | ⟨p, f, na, nb, h1, h2, h3, h4, h5, h6⟩
      · rw [h2] at hr
        subst hr
        exact ⟨fun x y _ => by rw [hqs.memory], hqs.previous,
          Or.inr (Or.inl ⟨e, rfl, rfl, rfl, hqs.memory, h1⟩)⟩
      · rw [h2] at hr
        subst hr
        exact ⟨fun x y _ => by rw [hqs.memory], hqs.previous,
          Or.inr (Or.inr ⟨rfl, hqs.memory, Or.inr ⟨rfl, rfl, h1⟩⟩)⟩
      · have hst : storeAnswer v a b f (p.map Step.node) (searchNetwork a b w).2 =
            (ansRes v f (p.map Step.node) w.fvf,
              (searchNetwork a b w).2.remember a b (some (f, p.map Step.node))) := by
          unfold storeAnswer
          rw [PyM.run_bind_ok (PyM.run_modify _ _), answer_eq]
          simp [hqs.fvf]
        rw [h6, hst] at hr
        subst hr
        refine ⟨?_, hqs.previous, Or.inl ⟨f, _, rfl, Or.inr (remember_get _ _ _ _), ?_, by simp, ?_⟩⟩
        · intro x y hxy
          simp only
          rw [remember_get_ne _ _ hxy, hqs.memory]
        · exact fun _ => Or.inr ⟨na, nb, p, h2, h3, h4, h5, rfl⟩
        · intro hc w2 h2' m v'
          have hb : SameBase w ((searchNetwork a b w).2.remember a b (some (f, p.map Step.node))) :=
            hqs.toSameBase.trans (remember_base _ _ _ _)
          rw [getConv_eq m uc v' w2 (again _ w2 hb h2')]
          have : memHit w2 uc a b = some (some (f, p.map Step.node)) := by
            unfold memHit resolveCache at *
            rw [h2'.par, hb.par, hc, h2'.pos _ _ (remember_get _ _ _ _)]
            rfl
          rw [this]
          simp only [answer_eq, h2'.fvf, hb.fvf]

theorem ansRes_ok {v : Option Rat} {f : Fn} {p q : Path} {fvf : Option Rat} {c : Conv}
    (h : ansRes v f p fvf = .ok (some (c, q))) :
    q = p ∧ ((v = none ∧ c = .fn f) ∨ ∃ x y, v = some x ∧ f fvf x = .ok y ∧ c = .num y) := by
  cases v with
  | none => simp [ansRes] at h; exact ⟨h.2.symm, Or.inl ⟨rfl, h.1.symm⟩⟩
  | some x =>
    cases hf : f fvf x with
    | error e => simp [ansRes, hf, Except.map] at h
    | ok y =>
      simp [ansRes, hf, Except.map] at h
      exact ⟨h.2.symm, Or.inr ⟨x, y, rfl, hf, h.1.symm⟩⟩

/-- the temperature ratios, step by step -/
theorem tempConversion_ok {inner : Option Rat → Str → Str → CallM} {v : Option Rat} {t1 d1 t2 d2 : Str} {w : World}
    {k : Rat} (hk : Py.dictGet w.dic.tempRatio (t1, t2) = some k) {den : Rat} {p : Path} {w1 : World}
    (hi : inner (some 1) d1 d2 w = (.ok (some (.num den, p)), w1)) :
    tempConversion inner v t1 d1 t2 d2 w =
      (ansRes v (fun _ x => pdiv (x * k) den) ([.str ['*'], .num k, .str ['/'], .num 1] ++ p) w1.fvf, w1) := by
  unfold tempConversion
  rw [PyM.run_bind_ok (PyM.run_get _), hk]
  simp only
  rw [PyM.run_bind_ok hi]
  simp only [Conv.toNum]
  rw [PyM.run_bind_ok (PyM.run_lift_ok _ _), answer_eq]

/-- With the cache on, a call that answered answers again in the same way, for every value, and changes nothing. -/
theorem getConv_repeat {w w' : World} (hg : WF w.net) {n : Nat} {uc : Option Bool} (hc : resolveCache w uc = true)
    {v : Option Rat} {a b : Str} {c : Conv} {p : Path} (h : getConv n uc v a b w = (.ok (some (c, p)), w')) :
    ∃ f, ansRes v f p w.fvf = .ok (some (c, p)) ∧ w'.previous = w.previous ∧
      ∀ w2, Alike w' w2 → ∀ v', getConv n uc v' a b w2 = (ansRes v' f p w.fvf, w2) := by
  cases n with
  | zero => simp [getConv] at h
  | succ n =>
    have hb : SameBase w w' := by have := base_getConv hg (n + 1) uc v a b; rw [h] at this; exact this
    cases ht : tempParts w.dic a b with
    | none =>
      obtain ⟨_, hprev, hcase⟩ := getConv_direct hg n uc v ht h
      rcases hcase with ⟨f, q, h1, _, _, _, h3⟩ | ⟨e, h1, _⟩ | ⟨h1, _⟩
      · obtain ⟨rfl, _⟩ := ansRes_ok h1.symm
        exact ⟨f, h1.symm, hprev, fun w2 h2 v' => h3 hc w2 h2 n v'⟩
      · cases h1
      · cases h1
    | some t =>
      obtain ⟨t1, d1, t2, d2⟩ := t
      obtain ⟨ea, eb, nt1, nd1, nt2, nd2, m1, m2⟩ := tempParts_some ht
      have hsl : '/' ∈ a := by rw [ea]; simp
      cases hm : memHit w uc a b with
      | some e =>
        -- the memory answered
        have hd : Py.dictGet w.memory (a, b) = some e := by
          unfold memHit at hm; rw [hc] at hm; exact hm
        have hcall : ∀ v w2, w2.par = w.par → Py.dictGet w2.memory (a, b) = some e → getConv (n + 1) uc v a b w2 =
            (match e with
            | none => (.ok none, w2)
            | some (f, p) => answer v f p w2) := by
          intro v w2 hp hmem
          rw [getConv, getConvBody]
          have : (if resolveCache w2 uc then Py.dictGet w2.memory (a, b) else none) = some e := by
            unfold resolveCache at *; rw [hp, hmem, hc]; rfl
          rw [this]
          cases e <;> rfl
        rw [hcall v w rfl hd] at h
        cases e with
        | none => simp at h
        | some fp =>
          obtain ⟨f, q⟩ := fp
          simp only [answer_eq, Prod.mk.injEq] at h
          obtain ⟨h1, rfl⟩ := h
          obtain ⟨rfl, _⟩ := ansRes_ok h1
          refine ⟨f, h1, rfl, fun w2 h2 v' => ?_⟩
          rw [hcall v' w2 h2.par (h2.pos _ _ hd)]
          simp only [answer_eq, h2.fvf]
      | none =>
        have hn0 : Py.dictGet w.memory (a, b) = none := by unfold memHit at hm; rw [hc] at hm; exact hm
        have hcomp : ∀ {q : Prop}, ¬ (SimpleName a ∧ SimpleName b) ∨ q := Or.inl fun hh => hh.1.1 hsl
        cases hq : quick1 w.dic w.net a b with
        | some fp =>
          obtain ⟨f, q⟩ := fp
          have hcall : ∀ v w2, w2.par = w.par → Py.dictGet w2.memory (a, b) = none → w2.dic = w.dic → w2.net = w.net →
              getConv (n + 1) uc v a b w2 = answer v f q w2 := by
            intro v w2 hp hmem hdic hnet
            rw [getConv, getConvBody]
            have : (if resolveCache w2 uc then Py.dictGet w2.memory (a, b) else none) = none := by
              rw [hmem]; split <;> rfl
            rw [this]
            simp only [hdic, hnet, hq]
          rw [hcall v w rfl hn0 rfl rfl, answer_eq] at h
          simp only [Prod.mk.injEq] at h
          obtain ⟨h1, rfl⟩ := h
          obtain ⟨rfl, _⟩ := ansRes_ok h1
          refine ⟨f, h1, rfl, fun w2 h2 v' => ?_⟩
          rw [hcall v' w2 h2.par (h2.abs a b hn0 hcomp) h2.dic h2.net]
          simp only [answer_eq, h2.fvf]
        | none =>
          rw [getConv_temp n uc v w hm hq ht] at h
          have h0 := h
          unfold tempConversion at h
          rw [PyM.run_bind_ok (PyM.run_get _)] at h
          cases hk : Py.dictGet w.dic.tempRatio (t1, t2) with
          | none => rw [hk] at h; simp [PyM.raise] at h
          | some k =>
            rw [hk] at h
            simp only at h
            obtain ⟨r, w1, hi, hrest⟩ := PyM.bind_ok h
            cases r with
            | none =>
              simp only at hrest
              split at hrest <;> simp [PyM.raise] at hrest
            | some cp =>
              obtain ⟨c1, p1⟩ := cp
              rw [hc] at hi
              cases n with
              | zero => simp [getConv] at hi
              | succ n =>
                obtain ⟨hmem, hprev, hcase⟩ := getConv_direct hg n (some true) (some 1)
                  (tempParts_noSlash nd1) hi
                have hb1 : SameBase w w1 := by
                  have := base_getConv hg (n + 1) (some true) (some 1) d1 d2; rw [hi] at this; exact this
                rcases hcase with ⟨f1, q1, h1, _, _, _, h3⟩ | ⟨e, h1, _⟩ | ⟨h1, _⟩
                · obtain ⟨rfl, hcc⟩ := ansRes_ok h1.symm
                  rcases hcc with ⟨h, _⟩ | ⟨x, den, hx, hf, rfl⟩
                  · cases h
                  · rw [hc, tempConversion_ok hk hi] at h0
                    simp only [Prod.mk.injEq] at h0
                    obtain ⟨hres, rfl⟩ := h0
                    rw [hb1.fvf] at hres
                    obtain ⟨rfl, _⟩ := ansRes_ok hres
                    refine ⟨_, hres, hprev, fun w2 h2 v' => ?_⟩
                    have hne : (a, b) ≠ (d1, d2) := by
                      intro e
                      simp only [Prod.mk.injEq] at e
                      exact nd1 (e.1 ▸ hsl)
                    have hm2 : memHit w2 uc a b = none := by
                      unfold memHit
                      rw [h2.abs a b (by rw [hmem a b hne]; exact hn0) hcomp]
                      split <;> rfl
                    have hc2 : resolveCache w2 uc = true := by
                      unfold resolveCache at *; rw [h2.par, hb1.par]; exact hc
                    rw [getConv_temp (n + 1) uc v' w2 hm2 (by rw [h2.dic, h2.net, hb1.dic, hb1.net]; exact hq)
                      (by rw [h2.dic, hb1.dic]; exact ht), hc2]
                    have hin := h3 rfl w2 h2 n (some 1)
                    rw [← h1] at hin
                    rw [tempConversion_ok (by rw [h2.dic, hb1.dic]; exact hk) hin, h2.fvf, hb1.fvf]
                · cases h1
                · cases h1

end Unyts
