import Verif.Model.Constants
import Verif.Props.Compounds
import Verif.Props.Physics
import Verif.Props.Rounding
import Verif.Props.ShippedRates

/- C119: the density that is set is the density used. C120: the formation volume factor that is set. -/
namespace Unyts
open Spec Quantity
set_option maxRecDepth 1000000

/-! ### C119: what is stored -/

/-- a call of the converter that only asks keeps the settings and the units -/
theorem onWorld_base {α : Type} {m : PyM World α} (hm : ∀ w : World, WF w.net → SameBase w (m w).2) {L : Lib} (hg : WF L.w.net) :
    SameBase L.w (onWorld m L).2.w ∧ (onWorld m L).2.dict = L.dict := ⟨hm L.w hg, rfl⟩

theorem libConvertible_base (a b : Str) {L : Lib} (hg : WF L.w.net) :
    SameBase L.w (libConvertible a b L).2.w ∧ (libConvertible a b L).2.dict = L.dict :=
  onWorld_base (fun _ h => base_asks (c := .convertible a b none) trivial h) hg

theorem libConvert_base (e : PyErr) (x : Rat) (a b : Str) {L : Lib} (hg : WF L.w.net) :
    SameBase L.w (libConvert e x a b L).2.w ∧ (libConvert e x a b L).2.dict = L.dict := by
  have h := onWorld_base (fun _ h => base_convert h (some x) (some a) (some b) none) hg
  unfold libConvert
  cases hc : onWorld (convert (some x) (some a) (some b) none) L with
  | mk r L' =>
    rw [hc] at h
    cases r with
    | error e => rw [PyM.run_bind_error hc]; exact h
    | ok o =>
      rw [PyM.run_bind_ok hc]
      rcases o with _ | ⟨_ | _⟩ <;> exact h

theorem densityTo_base {q : Quantity} {n : Str} (hk : q.kind = .std n) (u : Str) {L : Lib} (hg : WF L.w.net) :
    SameBase L.w (q.to u L).2.w ∧ (q.to u L).2.dict = L.dict := by
  obtain ⟨_, a, x⟩ := q
  obtain rfl : _ = Kind.std n := hk
  unfold Quantity.to
  rw [if_neg (by simp [unitless])]
  have h1 := libConvertible_base a u hg
  cases hc : libConvertible a u L with
  | mk r L1 =>
    rw [hc] at h1
    cases r with
    | error e => rw [PyM.run_bind_error hc]; exact h1
    | ok c =>
      rw [PyM.run_bind_ok hc]
      cases c with
      | false => exact h1
      | true =>
        rw [if_pos rfl]
        dsimp only
        have h2 := libConvert_base .wrongValue x a u (L := L1) (by rw [h1.1.net]; exact hg)
        cases hd : libConvert .wrongValue x a u L1 with
        | mk r L2 =>
          rw [hd] at h2
          cases r with
          | error e => rw [PyM.run_bind_error hd]; exact ⟨h1.1.trans h2.1, h2.2.trans h1.2⟩
          | ok y =>
            rw [PyM.run_bind_ok hd]
            have h3 : (construct (.std n) y u L2).2 = L2 := by unfold construct; dsimp only; split <;> rfl
            cases he : construct (.std n) y u L2 with
            | mk r L3 =>
              rw [he] at h3
              subst h3
              cases r with
              | error e => rw [PyM.run_bind_error he]; exact ⟨h1.1.trans h2.1, h2.2.trans h1.2⟩
              | ok q => rw [PyM.run_bind_ok he]; exact ⟨h1.1.trans h2.1, h2.2.trans h1.2⟩

theorem densityNumber_base (d : DensityArg) (u : Str) {L : Lib} (hg : WF L.w.net) :
    SameBase L.w (densityNumber d u L).2.w ∧ (densityNumber d u L).2.dict = L.dict := by
  cases d with
  | num x => exact ⟨.refl _, rfl⟩
  | other => exact ⟨.refl _, rfl⟩
  | qty q =>
    unfold densityNumber
    dsimp only
    by_cases hk : q.kind = .std s!!"Density"
    · rw [if_pos hk]
      have h := densityTo_base hk gcm3 hg
      cases hc : q.to gcm3 L with
      | mk r L' =>
        rw [hc] at h
        cases r with
        | error e => rw [PyM.run_bind_error hc]; exact h
        | ok o =>
          rw [PyM.run_bind_ok hc]
          cases o <;> exact h
    · rw [if_neg hk]
      exact ⟨.refl _, rfl⟩

theorem densityConverted_base (x : Rat) (u : Str) {L : Lib} (hg : WF L.w.net) :
    SameBase L.w (densityConverted x u L).2.w ∧ (densityConverted x u L).2.dict = L.dict := by
  have h := onWorld_base (fun _ h => base_convert h (some x) (some u) (some gcm3) none) hg
  unfold densityConverted
  cases hc : onWorld (convert (some x) (some u) (some gcm3) none) L with
  | mk r L' =>
    rw [hc] at h
    rcases r with e | _ | ⟨_ | _⟩
    · cases e <;> exact h
    all_goals exact h

/-- C119, for every argument, every unit and every state. When `set_density` returns, the density is a number and no other
setting, unit or conversion has changed; when it raises, the density is what it was. -/
theorem C119_set_or_unchanged (d : DensityArg) (u : Str) (L : Lib) (hg : WF L.w.net) :
    let r := setDensity d u L
    r.2.w.net = L.w.net ∧ r.2.w.dic = L.w.dic ∧ r.2.w.fvf = L.w.fvf ∧ r.2.dict = L.dict ∧
      ((r.1 = .ok () ∧ ∃ y, r.2.w.par = { L.w.par with density := some y }) ∨
        ((∃ e, r.1 = .error e) ∧ r.2.w.par = L.w.par)) := by
  dsimp only
  unfold setDensity
  have h1 := densityNumber_base d u hg
  cases hc : densityNumber d u L with
  | mk r L1 =>
    rw [hc] at h1
    cases r with
    | error e => rw [PyM.run_bind_error hc]; exact ⟨h1.1.net, h1.1.dic, h1.1.fvf, h1.2, Or.inr ⟨⟨e, rfl⟩, h1.1.par⟩⟩
    | ok p =>
      obtain ⟨x, v⟩ := p
      rw [PyM.run_bind_ok hc]
      dsimp only
      by_cases hv : Py.lower v ∈ densityUnits
      · rw [if_pos hv]
        exact ⟨h1.1.net, h1.1.dic, h1.1.fvf, h1.2, Or.inl ⟨rfl, x, by
          show ({ L1.w.par with density := some x } : Params) = _
          rw [h1.1.par]⟩⟩
      · rw [if_neg hv]
        have h2 := densityConverted_base x v (L := L1) (by rw [h1.1.net]; exact hg)
        cases hd : densityConverted x v L1 with
        | mk r L2 =>
          rw [hd] at h2
          have hb := h1.1.trans h2.1
          cases r with
          | error e => rw [PyM.run_bind_error hd]; exact ⟨hb.net, hb.dic, hb.fvf, h2.2.trans h1.2, Or.inr ⟨⟨e, rfl⟩, hb.par⟩⟩
          | ok y =>
            rw [PyM.run_bind_ok hd]
            exact ⟨hb.net, hb.dic, hb.fvf, h2.2.trans h1.2, Or.inl ⟨rfl, y, by
              show ({ L2.w.par with density := some y } : Params) = _
              rw [hb.par]⟩⟩

/-- C119, in every state: a number in g/cm3, whichever of its three spellings and in small or capital letters, is the density
from then on, and `get_density` gives it back. Without a density `get_density` raises. -/
theorem C119_stored (x : Rat) {u : Str} (hu : Py.lower u ∈ [s!!"g/cc", s!!"g/cm3", s!!"g/cm³"]) (L : Lib) :
    setDensity (.num x) u L = (.ok (), { L with w := { L.w with par := { L.w.par with density := some x } } }) := by
  unfold setDensity
  rw [PyM.run_bind_ok (show densityNumber (.num x) u L = (.ok (x, u), L) from rfl)]
  dsimp only
  rw [if_pos (show Py.lower u ∈ densityUnits from hu)]
  rfl

/-- C119, in every state: a number in another unit is stored as what `convert` makes of it in g/cm3, and without a conversion
the density stays. -/
theorem C119_converted (x : Rat) {u : Str} (hu : Py.lower u ∉ [s!!"g/cc", s!!"g/cm3", s!!"g/cm³"]) (L : Lib) (hg : WF L.w.net) :
    (∀ y w', convert (some x) (some u) (some s!!"g/cm3") none L.w = (.ok (some (.num y)), w') →
      (setDensity (.num x) u L).1 = .ok () ∧ (setDensity (.num x) u L).2.w.par.density = some y) ∧
    (∀ w', convert (some x) (some u) (some s!!"g/cm3") none L.w = (.error .noConversionFound, w') ∨
        convert (some x) (some u) (some s!!"g/cm3") none L.w = (.ok none, w') →
      (setDensity (.num x) u L).1 = .error .valueError ∧ (setDensity (.num x) u L).2.w.par.density = L.w.par.density) := by
  have h0 : setDensity (.num x) u L = (do storeDensity (← densityConverted x u)) L := by
    unfold setDensity
    rw [PyM.run_bind_ok (show densityNumber (.num x) u L = (.ok (x, u), L) from rfl)]
    dsimp only
    rw [if_neg (show ¬ Py.lower u ∈ densityUnits from hu)]
  constructor
  · intro y w' h
    have h1 : densityConverted x u L = (.ok y, { L with w := w' }) := by
      unfold densityConverted onWorld gcm3
      rw [h]
    rw [h0, PyM.run_bind_ok h1]
    exact ⟨rfl, rfl⟩
  · intro w' h
    have hb := base_convert hg (some x) (some u) (some s!!"g/cm3") none
    have h1 : densityConverted x u L = (.error .valueError, { L with w := w' }) := by
      unfold densityConverted onWorld gcm3
      rcases h with h | h <;> rw [h]
    rw [h0, PyM.run_bind_error h1]
    refine ⟨rfl, ?_⟩
    have : w'.par = L.w.par := by
      have := hb.par
      rcases h with h | h <;> (rw [h] at this; exact this)
    show w'.par.density = _
    rw [this]

/-- C119: what is not a number nor a density is refused, in every state. -/
theorem C119_refused (L : Lib) (u : Str) :
    setDensity .other u L = (.error .valueError, L) ∧
      ∀ q : Quantity, q.kind ≠ .std s!!"Density" → setDensity (.qty q) u L = (.error .valueError, L) := by
  refine ⟨rfl, fun q hq => ?_⟩
  unfold setDensity
  rw [PyM.run_bind_error (e := .valueError) (s' := L)]
  unfold densityNumber
  dsimp only
  rw [if_neg hq]
  rfl

theorem density_listed {L : Lib} (hL : ShippedClasses L) : s!!"g/cc" ∈ L.names s!!"Density" ∧ s!!"g/cm3" ∈ L.names s!!"Density" := by
  obtain ⟨n, h, _⟩ := hL
  have : ∀ u ∈ [s!!"g/cc", s!!"g/cm3"], u ∈ L.names s!!"Density" := by
    intro u hu
    have h1 : BuiltIn s!!"Density" u ∧ u ∉ unlistedUnits := by
      simp only [List.mem_cons, List.not_mem_nil, or_false] at hu
      rcases hu with rfl | rfl <;> exact ⟨builtIn_mem (by decide +kernel) (by decide), by decide⟩
    obtain ⟨l, hl, hm⟩ := (h.lists s!!"Density" u).2 (Or.inl (Or.inl h1))
    unfold Lib.names
    rw [hl]
    exact hm
  exact ⟨this _ (by simp), this _ (by simp)⟩

theorem getDensity_some {L : Lib} {d : Rat} (h : L.w.par.density = some d) (hm : s!!"g/cc" ∈ L.names s!!"Density") :
    getDensity L = (.ok ⟨.std s!!"Density", s!!"g/cc", d⟩, L) := by
  unfold getDensity
  rw [PyM.run_bind_ok (PyM.run_get _), h]
  simp [construct, Kind.key, hm]

/-- C119: `get_density` after `set_density`, on the library as it is shipped: the number in g/cc, and nothing changes. Without
a density it raises, in every state. -/
theorem C119_get {L : Lib} (hL : ShippedClasses L) (x : Rat) {u : Str} (hu : Py.lower u ∈ [s!!"g/cc", s!!"g/cm3", s!!"g/cm³"]) :
    ((do setDensity (.num x) u; getDensity) L).1 = .ok ⟨.std s!!"Density", s!!"g/cc", x⟩ ∧
      (L.w.par.density = none → getDensity L = (.error .valueError, L)) := by
  constructor
  · rw [PyM.run_bind_ok (C119_stored x hu L)]
    exact congrArg Prod.fst (getDensity_some (L := { L with w := { L.w with par := { L.w.par with density := some x } } }) rfl (density_listed hL).1)
  · intro h
    unfold getDensity
    rw [PyM.run_bind_ok (PyM.run_get _), h]
    rfl

/-! ### C119: what it is used for -/

/-- the ratios of a weight and a volume that the network joins with g/cm3 -/
theorem density_gate : ∀ b ∈ weightSizes, ∀ a ∈ volumeSizes,
    (b.1 ++ '/' :: a.1) ∈ [s!!"g/cm3", s!!"g/cc", s!!"lb/ft3", s!!"lb/stb"] ∨
      islandOf s!!"g/cm3" ≠ islandOf (b.1 ++ '/' :: a.1) := by
  decide +kernel

theorem weight_facts : ∀ b ∈ weightSizes, b.1 ≠ [] ∧ Py.stripWs b.1 ≠ s!!"cm3" ∧ b.1 ∉ uncertainNames ∧ b.1 ∉ unlistedUnits := by
  decide +kernel

theorem volume_facts : ∀ a ∈ volumeSizes, a.1 ∉ uncertainNames ∧ a.1 ∉ unlistedUnits := by
  decide +kernel

theorem weight_two : (∀ e ∈ weightSizes, e.1 = s!!"g" → e.2 = 1) ∧ ∀ e ∈ weightSizes, e.1 = s!!"lb" → e.2 = 45359237 / 100000 := by
  constructor <;> decide +kernel

theorem volume_three (_ : Str) : ∀ f ∈ volumeSizes, (f.1 = s!!"cm3" → f.2 = 1 / 1000) ∧ (f.1 = s!!"cc" → f.2 = 1 / 1000) ∧
    (f.1 = s!!"ft3" → f.2 = cubicFoot) := by
  decide +kernel

section
variable {w : World} {a b : Str} {sa sb : Rat}

theorem density_apart (hw : Started w) (hn : islandOf s!!"g/cm3" ≠ islandOf (b ++ '/' :: a)) :
    ¬ Reach (LinkedName w.net) s!!"g/cm3" (b ++ '/' :: a) ∧ ¬ Reach (LinkedName w.net) (b ++ '/' :: a) s!!"g/cm3" :=
  ⟨apart_of_island hw.shipped.network hn, apart_of_island hw.shipped.network (Ne.symm hn)⟩

theorem density_beside {fvf : Option Rat} (ma : (a, sa) ∈ volumeSizes) (mb : (b, sb) ∈ weightSizes) :
    Beside (Measured fvf) (factors s!!"g/cm3") (factors (b ++ '/' :: a)) 1 (1000 * sa / sb) ∧
      Beside (Measured fvf) (factors (b ++ '/' :: a)) (factors s!!"g/cm3") 1 (sb / sa / 1000) := by
  have ca := (sized_volume (Or.inl ma)).1.clean
  have cb := sized_clean (Or.inr (Or.inr rfl)) _ mb
  have na := (sized_volume (Or.inl ma)).2.2
  have nb := (sized_label (Or.inr (Or.inr rfl)) _ mb).1
  have e0 : factors s!!"g/cm3" = [(false, s!!"g"), (true, s!!"cm3")] := by decide +kernel
  have mg : (s!!"g", (1 : Rat)) ∈ weightSizes := by decide +kernel
  have mc : (s!!"cm3", (1 / 1000 : Rat)) ∈ volumeSizes := by decide +kernel
  rw [e0, factors_ratio cb.2 ca.2]
  constructor
  · have := Beside.num (R := Measured fvf) (.standard ⟨weightSizes, 1, sb, Or.inr (Or.inr rfl), mg, mb, rfl⟩)
      (.den (.volume mc ma) .nil)
    have e : (1 / sb * (1 / (1 / 1000 / sa)) : Rat) = 1000 * sa / sb := by field_simp
    rw [← e]
    exact this
  · have := Beside.num (R := Measured fvf) (.standard ⟨weightSizes, sb, 1, Or.inr (Or.inr rfl), mb, mg, rfl⟩)
      (.den (.volume ma mc) .nil)
    have e : (sb / 1 * (1 / (sa / (1 / 1000))) : Rat) = sb / sa / 1000 := by field_simp
    rw [← e]
    exact this

theorem density_straight (ca : CleanName a) (mb : (b, sb) ∈ weightSizes) :
    ¬ Swapped s!!"g/cm3" (b ++ '/' :: a) ∧ ¬ Swapped (b ++ '/' :: a) s!!"g/cm3" := by
  have cb := sized_clean (Or.inr (Or.inr rfl)) _ mb
  have h1 := (weight_facts _ mb).2.1
  have e1 : Py.splitOn '/' (b ++ '/' :: a) = [b, a] := by simpa using splitOn_pair cb.2.1 ca.2.1
  have e2 : (Py.splitOn '/' s!!"g/cm3").map Py.stripWs = [s!!"g", s!!"cm3"] := by decide +kernel
  constructor
  · refine not_swapped ?_
    rw [e1, e2]
    intro h
    simp only [List.map_cons, List.map_nil, List.reverse_cons, List.reverse_nil, List.nil_append, List.cons_append, List.cons.injEq] at h
    exact h1 h.2.1.symm
  · refine not_swapped ?_
    rw [e1, e2]
    intro h
    simp only [List.map_cons, List.map_nil, List.reverse_cons, List.reverse_nil, List.nil_append, List.cons_append, List.cons.injEq] at h
    exact h1 h.1

/-- two names of the network that convert directly into each other, on the library as it is shipped -/
theorem direct_shipped (hw : Started w) {cs : List Call} (hcs : ∀ c ∈ cs, Asks c) {q : Nat} (hq : q ∉ [3, 32, 34]) (la : labelOf a = some q)
    (lb : labelOf b = some q) {c : Cv} (hc : labelCv q a b = some c) (hback : (a, b) ∉ Spec.oneWay) (ca : CleanUnit a)
    (cb : CleanUnit b) (hab : a ≠ b) (fa : ∀ f ∈ factors a, f.2 ≠ []) (fb : ∀ f ∈ factors b, f.2 ≠ []) (hsw : ¬ Swapped a b)
    (hT : ∀ f, (factors a).head? = some f → labelOf f.2 ≠ some 1) (hs : ¬ (Spec.SimpleName a ∧ Spec.SimpleName b)) (uc : Option Bool)
    (hm : uc.getD w.par.cache = false ∨ ∀ c ∈ cs, AsksNames w c) {x y : Rat} (hy : c.eval w.fvf x = .ok y) :
    (convert (some x) (some a) (some b) uc (session cs w)).1 = .ok (some (.num y)) := by
  have hn := hw.shipped.network
  simp only [List.mem_cons, List.not_mem_nil, or_false, not_or] at hq
  have hl : LinkedName w.net a b := hn.linked_at la (by rw [hc]; rfl)
  obtain ⟨na, nb, ea, eb, hd⟩ := (hn.at la hc).2 rfl
  have mna : na ∈ w.net.nodes := by obtain ⟨l, hl, _⟩ := hd; exact List.mem_map.2 ⟨_, hl, rfl⟩
  have mnb := hw.fresh.wf.closed _ _ _ hd
  have hback : Linked w.net nb na := by
    obtain ⟨f, x, y, ex, ey, hf⟩ := (hn.back hl).2 hback
    have mx : x ∈ w.net.nodes := by obtain ⟨l, hl, _⟩ := hf; exact List.mem_map.2 ⟨_, hl, rfl⟩
    obtain rfl := hn.distinct _ mnb _ mx (eb.trans ex.symm)
    obtain rfl := hn.distinct _ mna _ (hw.fresh.wf.closed _ _ _ hf) (ea.trans ey.symm)
    exact ⟨f, hf⟩
  exact C106_direct hw.fresh hw.algorithm hn.distinct hw.edges (by have := hw.generations; omega) hcs ca cb hab
    (hw.shipped.ordinary_any (hn.linked_names hl).1 fa (by rw [la]; simp [hq]) (by rw [la]; simp [hq]))
    (hw.shipped.ordinary_any (hn.linked_names hl).2 fb (by rw [lb]; simp [hq]) (by rw [lb]; simp [hq]))
    hsw (not_tempRatios hw fun _ => hT) (hw.shipped.noDensity_any fa fb (by rw [la]; simp [hq]) (by rw [lb]; simp [hq]))
    (hm.imp id fun h => ⟨h, hs⟩) (ea ▸ getNode_of_mem hn.distinct mna) (eb ▸ getNode_of_mem hn.distinct mnb) hd hback hy

/-- the densities next to g/cm3, in it -/
def nearDensities : List (Str × Rat) := [(s!!"g/cc", 1), (s!!"lb/ft3", 31213980288072303 / 500000000000000)]

theorem density_next (hw : Started w) {cs : List Call} (hcs : ∀ c ∈ cs, Asks c) {u : Str} {k : Rat} (hu : (u, k) ∈ nearDensities)
    (uc : Option Bool) (hm : uc.getD w.par.cache = false ∨ ∀ c ∈ cs, AsksNames w c) (d : Rat) :
    (convert (some d) (some s!!"g/cm3") (some u) uc (session cs w)).1 = .ok (some (.num (d * k))) := by
  have h0 : ∀ e ∈ nearDensities, labelOf e.1 = some 10 ∧ (s!!"g/cm3", e.1) ∉ Spec.oneWay ∧
      (∀ f ∈ factors e.1, f.2 ≠ []) ∧ s!!"g/cm3" ≠ e.1 ∧
      (Py.splitOn '/' s!!"g/cm3").map Py.stripWs ≠ ((Py.splitOn '/' e.1).map Py.stripWs).reverse ∧
      ('(' ∉ e.1 ∧ ')' ∉ e.1 ∧ (∀ c ∈ e.1.head?.toList ++ e.1.getLast?.toList, c ∉ [' ', '"', '\'']) ∧ e.1 ≠ s!!"Empty") := by
    decide +kernel
  obtain ⟨h1, h2, h3, h4, h5, h6⟩ := h0 _ hu
  have hcv : ∃ c, labelCv 10 s!!"g/cm3" u = some c ∧ c.eval w.fvf d = .ok (d * k) := by
    simp only [nearDensities, List.mem_cons, List.not_mem_nil, or_false, Prod.mk.injEq] at hu
    rcases hu with ⟨rfl, rfl⟩ | ⟨rfl, rfl⟩
    · exact ⟨.fn .x, by decide +kernel, by rw [mul_one]; rfl⟩
    · exact ⟨.fn (.mul .x (.lit (31213980288072303 / 500000000000000))), by decide +kernel, rfl⟩
  obtain ⟨c, hc, hv⟩ := hcv
  exact direct_shipped hw hcs (q := 10) (by decide) (by decide +kernel) h1 hc h2 (cleanUnit_of (by decide)) (cleanUnit_of h6) h4
    (by decide +kernel) h3 (not_swapped h5) (by decide +kernel) (fun h => absurd h.1 (by unfold Spec.SimpleName; decide)) uc hm hv

/-- the density in the ratio of a weight and a volume -/
theorem density_ratio (hw : Started w) (hg : 17 ≤ w.par.maxGenerations) (hφ : w.fvf ≠ some 0)
    (ma : (a, sa) ∈ volumeSizes) (mb : (b, sb) ∈ weightSizes) (hn : (b ++ '/' :: a) ≠ s!!"lb/stb")
    {cs : List Call} (hcs : ∀ c ∈ cs, Asks c)
    (uc : Option Bool) (hm : uc.getD w.par.cache = false ∨ ∀ c ∈ cs, AsksNames w c) (d : Rat) :
    ∃ y, (convert (some d) (some s!!"g/cm3") (some (b ++ '/' :: a)) uc (session cs w)).1 = .ok (some (.num y)) ∧
      Close 1 y (d * (1000 * sa / sb)) := by
  obtain ⟨fa, na, _⟩ := sized_volume (Or.inl ma)
  have cb := sized_clean (Or.inr (Or.inr rfl)) _ mb
  obtain ⟨nb, _⟩ := weight_facts _ mb
  have hgc : CleanUnit s!!"g/cm3" := Demo.cleanUnit_of (by decide)
  have hba : CleanUnit (b ++ '/' :: a) := cleanUnit_ratio cb fa.clean nb na '/' (Or.inl rfl)
  have sizes : ∀ e ∈ weightSizes, ∀ f ∈ volumeSizes, (e.1 = s!!"g" → e.2 = 1) ∧ (e.1 = s!!"lb" → e.2 = 45359237 / 100000) ∧
      (f.1 = s!!"cm3" → f.2 = 1 / 1000) ∧ (f.1 = s!!"cc" → f.2 = 1 / 1000) ∧ (f.1 = s!!"ft3" → f.2 = cubicFoot) := by
    intro e he f hf
    exact ⟨weight_two.1 e he, weight_two.2 e he, volume_three e.1 f hf⟩
  obtain ⟨s1, s2, s3, s4, s5⟩ := sizes _ mb _ ma
  rcases density_gate _ mb _ ma with h | hisl
  · simp only [List.mem_cons, List.not_mem_nil, or_false] at h
    rcases h with h | h | h | h
    · obtain ⟨rfl, rfl⟩ := cut_first (x' := s!!"g") (y' := s!!"cm3") h cb.2.1 (by decide)
      refine ⟨d, C11_self _ (hw.reachable hcs) _ hgc ⟨'g', by simp, by decide⟩ ?_ uc d, ?_⟩
      · rw [(base_session hcs hw.fresh.wf).dic]
        exact hw.shipped.noDensity_signed (by unfold Spec.SimpleName; decide) (by unfold Spec.SimpleName; decide) (by decide +kernel) (by decide +kernel)
      · obtain rfl : sb = _ := s1 rfl
        obtain rfl : sa = _ := s3 rfl
        norm_num [Close]
        positivity
    · obtain ⟨rfl, rfl⟩ := cut_first (x' := s!!"g") (y' := s!!"cc") h cb.2.1 (by decide)
      refine ⟨d * 1, density_next hw hcs (u := s!!"g/cc") (by simp [nearDensities]) uc hm d, ?_⟩
      obtain rfl : sb = _ := s1 rfl
      obtain rfl : sa = _ := s4 rfl
      norm_num [Close]
      positivity
    · obtain ⟨rfl, rfl⟩ := cut_first (x' := s!!"lb") (y' := s!!"ft3") h cb.2.1 (by decide)
      refine ⟨_, density_next hw hcs (u := s!!"lb/ft3") (k := 31213980288072303 / 500000000000000) (by simp [nearDensities]) uc hm d, ?_⟩
      obtain rfl : sb = _ := s2 rfl
      obtain rfl : sa = _ := s5 rfl
      unfold Close cubicFoot cubicInch
      rw [← mul_sub, abs_mul, abs_mul]
      norm_num
      have := abs_nonneg d
      linarith
    · exact absurd h hn
  · exact C103_rates hw hg hφ hcs hgc hba (by unfold Spec.SimpleName; decide) (density_beside ma mb).1 (by decide)
      (density_straight fa.clean mb).1 (density_apart hw hisl).1 uc hm d

/-- the density is used, in a process that has just started with it -/
theorem weigh (hw : Started w) {d : Rat} (hd : w.par.density = some d)
    (ma : (a, sa) ∈ volumeSizes) (mb : (b, sb) ∈ weightSizes)
    {cs : List Call} (hcs : ∀ c ∈ cs, Asks c) (uc : Option Bool)
    (hr : ∃ y, (convert (some d) (some s!!"g/cm3") (some (b ++ '/' :: a)) uc (session cs w)).1 = .ok (some (.num y)) ∧
      Close 1 y (d * (1000 * sa / sb))) (x : Rat) :
    ∃ y, (convert (some x) (some a) (some b) uc (session cs w)).1 = .ok (some (.num y)) ∧ Close 1 y (x * d * (1000 * sa / sb)) := by
  obtain ⟨fa, na, _⟩ := sized_volume (Or.inl ma)
  have cb := sized_clean (Or.inr (Or.inr rfl)) _ mb
  obtain ⟨nb, _, ub, lb⟩ := weight_facts _ mb
  obtain ⟨ua, la⟩ := volume_facts _ ma
  have hgc : CleanUnit s!!"g/cm3" := Demo.cleanUnit_of (by decide)
  have hbase := base_session hcs hw.fresh.wf
  obtain ⟨k, hk, hc⟩ := hr
  obtain ⟨dd, hd1, hd2⟩ := id hw.shipped
  have hden : ¬ DensityPair (session cs w).dic s!!"g/cm3" (b ++ '/' :: a) := by
    rw [hbase.dic]
    refine hw.shipped.noDensity_signed (by unfold Spec.SimpleName; decide) (by simp [Spec.SimpleName]) (by decide +kernel) ?_
    rw [factors_ratio cb.2 fa.clean.2]
    simp [na, nb]
  refine ⟨x * k, congrArg Prod.fst (C21_volume_to_weight_partial (session cs w) _ (by rw [hbase.net]; exact hw.fresh.wf) a b fa.clean cb
    na nb ?_ ?_ ?_ ?_ d (by rw [hbase.par]; exact hd) hden uc k (Prod.ext hk rfl) x), ?_⟩
  · rw [hbase.dic, hd2]; exact ua
  · rw [hbase.dic, hd2]; exact ub
  · rw [hbase.dic, hd2]
    exact kindStart_mem.2 ((hd1.unsigned fa.clean.2).2 ⟨fa.volume, la⟩)
  · rw [hbase.dic, hd2]
    exact kindStart_mem.2 ((hd1.unsigned cb.2).2 ⟨(weight_size.choose_spec.2 _ mb).2.1, lb⟩)
  · unfold Close at hc ⊢
    rw [show x * k - x * d * (1000 * sa / sb) = x * (k - d * (1000 * sa / sb)) by ring,
      show x * d * (1000 * sa / sb) = x * (d * (1000 * sa / sb)) by ring, abs_mul, abs_mul]
    have := mul_le_mul_of_nonneg_left hc (abs_nonneg x)
    calc _ ≤ _ := this
      _ = _ := by ring

/-- C119, for a density given in another unit: after `import unyts`, when only conversions between single names were asked
for, a number in weight per volume, given as a number and a unit, is stored in g/cm3, to one part in a million. -/
theorem C119_sizes_partial {L : Lib} (hw : Started w) (hg : 17 ≤ w.par.maxGenerations) (hφ : w.fvf ≠ some 0) (hN : AskedNames w L)
    (ma : (a, sa) ∈ volumeSizes) (mb : (b, sb) ∈ weightSizes)
    (hn : (b ++ '/' :: a) ∉ [s!!"g/cm3", s!!"g/cc", s!!"lb/ft3", s!!"lb/stb"]) (hl : Py.lower (b ++ '/' :: a) ∉ densityUnits) (d : Rat) :
    ∃ y, (setDensity (.num d) (b ++ '/' :: a) L).1 = .ok () ∧ (setDensity (.num d) (b ++ '/' :: a) L).2.w.par.density = some y ∧
      Close 1 y (d * (sb / sa / 1000)) := by
  obtain ⟨fa, na, _⟩ := sized_volume (Or.inl ma)
  have cb := sized_clean (Or.inr (Or.inr rfl)) _ mb
  obtain ⟨nb, _⟩ := weight_facts _ mb
  have hgc : CleanUnit s!!"g/cm3" := Demo.cleanUnit_of (by decide)
  have hba : CleanUnit (b ++ '/' :: a) := cleanUnit_ratio cb fa.clean nb na '/' (Or.inl rfl)
  have hisl : islandOf s!!"g/cm3" ≠ islandOf (b ++ '/' :: a) := (density_gate _ mb _ ma).resolve_left hn
  obtain ⟨_, cs, hcs, e⟩ := hN
  have hask : ∀ c ∈ cs, Asks c := fun c hc => asksNames_asks (hcs c hc)
  obtain ⟨y, hy, hc⟩ := C103_rates hw hg hφ hask hba hgc (by simp [Spec.SimpleName]) (density_beside ma mb).2 (by decide)
    (density_straight fa.clean mb).2 (density_apart hw hisl).2 none (Or.inr hcs) d
  have h := (C119_converted d hl L (by rw [e, (base_session hask hw.fresh.wf).net]; exact hw.fresh.wf)).1 y
    (convert (some d) (some (b ++ '/' :: a)) (some s!!"g/cm3") none L.w).2 (Prod.ext (by rw [e]; exact hy) rfl)
  exact ⟨y, h.1, h.2, hc⟩

/-- C119, for a density given as a quantity, `Density(d, 'kg/m3')` say: it is stored in g/cm3, to one part in a million. -/
theorem C119_quantity_partial {L : Lib} (hw : Started w) (hg : 17 ≤ w.par.maxGenerations) (hφ : w.fvf ≠ some 0) (hN : AskedNames w L)
    (hL : ShippedClasses L) (ma : (a, sa) ∈ volumeSizes) (mb : (b, sb) ∈ weightSizes)
    (hn : (b ++ '/' :: a) ∉ [s!!"g/cm3", s!!"g/cc", s!!"lb/ft3", s!!"lb/stb"]) (d : Rat) (u : Str) :
    ∃ y, (setDensity (.qty ⟨.std s!!"Density", b ++ '/' :: a, d⟩) u L).1 = .ok () ∧
      (setDensity (.qty ⟨.std s!!"Density", b ++ '/' :: a, d⟩) u L).2.w.par.density = some y ∧ Close 1 y (d * (sb / sa / 1000)) := by
  obtain ⟨fa, na, _⟩ := sized_volume (Or.inl ma)
  have cb := sized_clean (Or.inr (Or.inr rfl)) _ mb
  obtain ⟨nb, _⟩ := weight_facts _ mb
  have hgc : CleanUnit s!!"g/cm3" := Demo.cleanUnit_of (by decide)
  have hba : CleanUnit (b ++ '/' :: a) := cleanUnit_ratio cb fa.clean nb na '/' (Or.inl rfl)
  have hisl : islandOf s!!"g/cm3" ≠ islandOf (b ++ '/' :: a) := (density_gate _ mb _ ma).resolve_left hn
  obtain ⟨L', c, hc, h1, _, _⟩ := C103_quantity_partial hw hg hφ hN (by simp [Spec.SimpleName]) hba hgc (density_beside ma mb).2 (by decide)
    (density_straight fa.clean mb).2 (density_apart hw hisl).2 (density_listed hL).2 d
  have hd : densityNumber (.qty ⟨.std s!!"Density", b ++ '/' :: a, d⟩) u L = (.ok (d * c, s!!"g/cm3"), L') := by
    unfold densityNumber gcm3
    dsimp only
    rw [if_pos rfl, PyM.run_bind_ok h1]
    rfl
  have hs : setDensity (.qty ⟨.std s!!"Density", b ++ '/' :: a, d⟩) u L = storeDensity (d * c) L' := by
    unfold setDensity
    rw [PyM.run_bind_ok hd]
    dsimp only
    rw [if_pos (by decide)]
  rw [hs]
  refine ⟨d * c, rfl, rfl, ?_⟩
  unfold Close at hc ⊢
  rw [← mul_sub, abs_mul, abs_mul]
  have := mul_le_mul_of_nonneg_left hc (abs_nonneg d)
  calc _ ≤ _ := this
    _ = _ := by push_cast; ring

end

/-- the hypotheses are met: `set_density(850, 'kg/m3')` stores 0.85 -/
example : ∃ L : Lib, AskedNames L.w L ∧ ∃ y, (setDensity (.num 850) s!!"kg/m3" L).1 = .ok () ∧
    (setDensity (.num 850) s!!"kg/m3" L).2.w.par.density = some y ∧ |y - 85 / 100| < 1 / 1000000 := by
  obtain ⟨w, hw, hp, hf⟩ := started_ex
  have hN : AskedNames w ⟨w, [], [], [], fun _ => [], 0⟩ := ⟨by rw [hp], [], by simp, rfl⟩
  refine ⟨⟨w, [], [], [], fun _ => [], 0⟩, hN, ?_⟩
  obtain ⟨y, h1, h2, h3⟩ := C119_sizes_partial hw (by rw [hp]; decide) (by rw [hf]; simp) hN (a := s!!"m3") (b := s!!"kg") (sa := 1000)
    (sb := 1000) (by decide +kernel) (by decide +kernel) (by decide) (by decide) 850
  refine ⟨y, h1, h2, ?_⟩
  unfold Close at h3
  norm_num at h3
  rw [abs_le] at h3
  rw [abs_lt]
  constructor <;> linarith [h3.1, h3.2]

/-! ### C120 -/

/-- C120, in every state: `set_fvf` with a number, or with a text that is one, sets that number, and changes no unit, no
conversion and no other setting; `get_fvf` then gives it to four decimals. -/
theorem C120_set (s : FvfState) (x : Rat) {arg : FvfArg} (ha : arg = .num x ∨ ∃ t, arg = .numeral x t) :
    (setFvfArg arg s).w = { s.w with fvf := some x } ∧
      ∃ y, getFvf (setFvfArg arg s) = .ok y ∧ RoundedTo 4 x y ∧ |y - x| ≤ 1 / 20000 := by
  have h : (setFvfArg arg s).w = { s.w with fvf := some x } := by
    rcases ha with rfl | ⟨t, rfl⟩ <;> rfl
  refine ⟨h, pyRound x 4, ?_, pyRound_rounds x 4, ?_⟩
  · unfold getFvf
    rw [h]
  · obtain ⟨k, _, h2, _⟩ := pyRound_rounds x 4
    rw [abs_sub_comm]
    norm_num at h2
    linarith

/-- C120: after `import unyts` and `set_fvf(b)` the volumes of the reservoir convert to those of the stock tank by that factor,
and back. -/
theorem C120_used (s : FvfState) (hw : Started s.w) (hg : 17 ≤ s.w.par.maxGenerations) {β : Rat} (h0 : β ≠ 0) {arg : FvfArg}
    (ha : arg = .num β ∨ ∃ t, arg = .numeral β t) {cs : List Call} (hcs : ∀ c ∈ cs, Asks c) {a b : Str} {sa sb : Rat}
    (ma : (a, sa) ∈ reservoirSizes) (mb : (b, sb) ∈ volumeSizes) (uc : Option Bool) (x : Rat) :
    (∃ y, (convert (some x) (some a) (some b) uc (session cs (setFvfArg arg s).w)).1 = .ok (some (.num y)) ∧
      Close 2 y (x * sa / sb / β)) ∧
    (∃ y, (convert (some x) (some b) (some a) uc (session cs (setFvfArg arg s).w)).1 = .ok (some (.num y)) ∧
      Close 2 y (x * sb / sa * β)) := by
  rw [(C120_set s β ha).1]
  have hw' : Started { s.w with fvf := some β } :=
    ⟨⟨hw.fresh.wf, hw.fresh.memory, hw.fresh.previous, hw.fresh.ample⟩, hw.shipped, hw.algorithm, hw.edges, hw.generations⟩
  obtain ⟨h1, h2, _⟩ := C102_formation hw' hg rfl h0 hcs ma mb uc x
  exact ⟨h1, h2⟩

/-- C120 fails of what is no number: a text like '1,2', or a number of NumPy's, is not refused. The factor in use stays, and the
settings keep what was given, so the two differ. -/
theorem C120_refused_fails (s : FvfState) {arg : FvfArg} (ha : arg = .other ∨ ∃ t, arg = .text t) :
    setFvfArg arg s = ⟨s.w, some arg⟩ := by
  rcases ha with rfl | ⟨t, rfl⟩ <;> rfl

/-- C120 fails of a process that has set no factor: `get_fvf` raises AttributeError, whatever factor the settings keep. -/
theorem C120_get_fails (s : FvfState) (h : s.w.fvf = none) : getFvf s = .error .attributeError := by
  unfold getFvf
  rw [h]

example : ∃ s : FvfState, Started s.w ∧ s.w.fvf = none ∧ ∃ y,
    (convert (some 10) (some s!!"rb") (some s!!"stb") none (session [] (setFvfArg (.numeral (5 / 4) s!!"1.25") s).w)).1 = .ok (some (.num y)) ∧
      |y - 8| < 1 / 10000 := by
  obtain ⟨w, hw, hp, hf⟩ := started_ex
  refine ⟨⟨w, none⟩, hw, hf, ?_⟩
  obtain ⟨⟨y, h1, h2⟩, _⟩ := C120_used ⟨w, none⟩ hw (by rw [hp]; decide) (β := 5 / 4) (by norm_num) (arg := .numeral (5 / 4) s!!"1.25")
    (Or.inr ⟨_, rfl⟩) (cs := []) (by simp) (a := s!!"rb") (b := s!!"stb") (sa := barrel) (sb := barrel) (by decide +kernel) (by decide +kernel) none 10
  refine ⟨y, h1, ?_⟩
  unfold Close barrel gallonUS cubicInch at h2
  norm_num at h2
  rw [abs_le] at h2
  rw [abs_lt]
  constructor <;> linarith [h2.1, h2.2]

end Unyts
