import Verif.Props.Arithmetic
import Verif.Lemmas.UnitOps

/-! C66, C67, C75: divisions and remainders of quantities, and what operations leave behind. -/
namespace Unyts
open Spec Quantity

/-! ### C66: floor division and remainder -/

/-- The amounts that `//` and `%` work with: `y` is the second quantity in the unit of the first. -/
theorem quotient_parts {L L' : Lib} {op : Rat → Rat → Res Rat} {p q d : Quantity} (hp : p.unitless = false)
    (hq : q.unitless = false) {B : Str → Rat → Rat} (hcv : ConvertsAs L.w B q.unit p.unit)
    (hsame : p.unit = q.unit ∨ ∀ L', libConvertible q.unit p.unit L ≠ (.ok false, L'))
    (h : p.divLike op q L = (.ok d, L')) :
    ∃ y, B p.unit y = B q.unit q.value ∧ op p.value y = .ok (shown d) := by
  obtain ⟨n1, n2⟩ := notUnitless hp hq
  unfold divLike at h
  rw [n1, n2, if_neg (by simp), if_neg (by simp), if_neg (by simp [hq])] at h
  have lift : ∀ {r : Res Rat} {x : Rat} {L1 L2 : Lib}, (PyM.lift r : PyM Lib Rat) L1 = (.ok x, L2) → r = .ok x := by
    intro r x L1 L2 h
    unfold PyM.lift at h
    exact (Prod.mk.inj h).1
  by_cases he : p.unit = q.unit
  · rw [if_pos he] at h
    obtain ⟨x, L1, h1, h⟩ := PyM.bind_ok h
    obtain ⟨u, L2, h2, h⟩ := PyM.bind_ok h
    exact ⟨q.value, by rw [he], by rw [lift h1, shown_units h]⟩
  · rw [if_neg he] at h
    obtain ⟨b, L1, h1, h⟩ := PyM.bind_ok h
    have hb : b = true := by
      cases b with
      | true => rfl
      | false => rcases hsame with hs | hs
                 · exact absurd hs he
                 · exact absurd h1 (hs L1)
    subst hb
    rw [if_pos rfl] at h
    have l1 : Later L L1 := by have := Asking.convertible q.unit p.unit L; rw [h1] at this; exact this
    obtain ⟨y, L2, h2, h⟩ := PyM.bind_ok h
    obtain ⟨x, L3, h3, h⟩ := PyM.bind_ok h
    obtain ⟨u, L4, h4, h⟩ := PyM.bind_ok h
    exact ⟨y, l1.convertsAs hcv h2, by rw [lift h3, shown_units h]⟩

theorem remainder_parts {L L' : Lib} {p q m : Quantity} (hp : p.unitless = false)
    (hq : q.unitless = false) {B : Str → Rat → Rat} (hcv : ConvertsAs L.w B q.unit p.unit)
    (hsame : p.unit = q.unit ∨ ∀ L', libConvertible q.unit p.unit L ≠ (.ok false, L'))
    (h : p.mod q L = (.ok m, L')) :
    ∃ y, B p.unit y = B q.unit q.value ∧ pyMod p.value y = .ok (shown m) ∧
      ('\\' ∉ p.unit → m.unit = Py.stripWs p.unit) := by
  obtain ⟨n1, n2⟩ := notUnitless hp hq
  unfold mod at h
  rw [n1, n2, if_neg (by simp), if_neg (by simp), if_neg (by simp [hq])] at h
  have lift : ∀ {r : Res Rat} {x : Rat} {L1 L2 : Lib}, (PyM.lift r : PyM Lib Rat) L1 = (.ok x, L2) → r = .ok x := by
    intro r x L1 L2 h
    unfold PyM.lift at h
    exact (Prod.mk.inj h).1
  by_cases he : p.unit = q.unit
  · rw [if_pos he] at h
    obtain ⟨x, L1, h1, h⟩ := PyM.bind_ok h
    exact ⟨q.value, by rw [he], by rw [lift h1, shown_units h], fun hb => unit_units hb h⟩
  · rw [if_neg he] at h
    obtain ⟨b, L1, h1, h⟩ := PyM.bind_ok h
    have hb : b = true := by
      cases b with
      | true => rfl
      | false => rcases hsame with hs | hs
                 · exact absurd hs he
                 · exact absurd h1 (hs L1)
    subst hb
    rw [if_pos rfl] at h
    have l1 : Later L L1 := by have := Asking.convertible q.unit p.unit L; rw [h1] at this; exact this
    obtain ⟨y, L2, h2, h⟩ := PyM.bind_ok h
    obtain ⟨x, L3, h3, h⟩ := PyM.bind_ok h
    exact ⟨y, l1.convertsAs hcv h2, by rw [lift h3, shown_units h], fun hb => unit_units hb h⟩

/-- the law of floor division and remainder for numbers -/
theorem floor_mod {x y d m : Rat} (h1 : floorDiv x y = .ok d) (h2 : pyMod x y = .ok m) :
    d * y + m = x ∧ (∃ k : Int, d = k) ∧ (0 < y → 0 ≤ m ∧ m < y) ∧ (y < 0 → y < m ∧ m ≤ 0) := by
  unfold floorDiv at h1
  unfold pyMod at h2
  split at h1
  · cases h1
  · rename_i hy
    rw [if_neg hy] at h2
    injection h1 with h1
    injection h2 with h2
    subst h1 h2
    have f1 : ((x / y).floor : Rat) ≤ x / y := Rat.floor_le _
    have f2 : x / y < ((x / y).floor : Rat) + 1 := by exact_mod_cast Rat.lt_floor_add_one (x / y)
    have hx : x = y * (x / y) := by field_simp
    refine ⟨by ring, ⟨_, rfl⟩, fun h => ?_, fun h => ?_⟩
    · constructor
      · nlinarith
      · nlinarith
    · constructor
      · nlinarith
      · nlinarith

/-- C66. `d = p // q` and then `m = p % q`, for quantities whose units are the same or of which the library says, when
it is asked, that the second converts to the first: `d` is a whole number, `d` times the second quantity plus `m` is the
first, and `m` has the sign of the second quantity and is smaller; it is given in the first unit. Missing: units that do
not convert, see `C66_unrelated_fails`. -/
theorem C66_law_partial (L L1 L2 : Lib) (B : Str → Rat → Rat) (p q d m : Quantity) (hp : p.unitless = false)
    (hq : q.unitless = false) (hinj : ∀ x y, B p.unit x = B p.unit y → x = y) (hcv : ConvertsAs L.w B q.unit p.unit)
    (hsame : p.unit = q.unit ∨ ∀ L0, Later L L0 → ∀ L', libConvertible q.unit p.unit L0 ≠ (.ok false, L'))
    (hd : p.floordiv q L = (.ok d, L1)) (hm : p.mod q L1 = (.ok m, L2)) :
    ∃ y, B p.unit y = B q.unit q.value ∧ shown d * y + shown m = p.value ∧ (∃ k : Int, shown d = k) ∧
      (0 < y → 0 ≤ shown m ∧ shown m < y) ∧ (y < 0 → y < shown m ∧ shown m ≤ 0) ∧
      ('\\' ∉ p.unit → m.unit = Py.stripWs p.unit) := by
  have l1 : Later L L1 := by have := Asking.divLike floorDiv p q L; unfold floordiv at hd; rw [hd] at this; exact this
  obtain ⟨y, hy, e1⟩ := quotient_parts hp hq hcv (hsame.imp_right fun h => h L (.refl L)) hd
  obtain ⟨z, hz, e2, e3⟩ := remainder_parts hp hq (hcv.later l1) (hsame.imp_right fun h => h L1 l1) hm
  obtain rfl := hinj y z (hy.trans hz.symm)
  obtain ⟨a, b, c, e⟩ := floor_mod e1 e2
  exact ⟨y, hy, a, b, c, e, e3⟩

example : let r1 := (⟨.std s!!"Length", s!!"yd", 5⟩ : Quantity).floordiv ⟨.std s!!"Length", s!!"ft", 2⟩ Demo.lib
    let r2 := (⟨.std s!!"Length", s!!"yd", 5⟩ : Quantity).mod ⟨.std s!!"Length", s!!"ft", 2⟩ r1.2
    r1.1 = .ok ⟨.user, s!!"yd/yd", 7⟩ ∧ r2.1 = .ok ⟨.std s!!"Length", s!!"yd", 1/3⟩ := by decide +kernel

/-- C66 is false of units that do not convert: the remainder of 5 inches by 2 grams is one inch. -/
theorem C66_unrelated_fails :
    ((⟨.std s!!"Length", s!!"in", 5⟩ : Quantity).mod ⟨.user, s!!"g", 2⟩ Demo.lib).1 =
      .ok ⟨.std s!!"Length", s!!"in", 1⟩ ∧ (libConvertible s!!"g" s!!"in" Demo.lib).1 = .ok false := by decide +kernel

/-! ### C67: dividing by a number -/

/-- C67. Dividing a quantity by a number keeps its class and its unit and divides the number, when the class is the
first of the dictionary that has the unit and the name is not ambiguous. Missing: the other quantities, see
`C67_class_fails`. -/
theorem C67_divides_partial (L L' : Lib) (q r : Quantity) (x : Rat) (hb : '\\' ∉ q.unit)
    (hs : Py.stripWs q.unit = q.unit) (hk : kindOf q.kind.key = .ok q.kind)
    (hfirst : q.kind = .percentage ∨
      (q.unit ∉ L.w.dic.uncertain ∧ ∃ l, (L.dict.find? fun e => q.unit ∈ e.2) = some (q.kind.key, l)))
    (h : q.divNum x L = (.ok r, L')) :
    x ≠ 0 ∧ r.kind = q.kind ∧ r.unit = q.unit ∧ r.value = q.value / x := by
  unfold divNum at h
  obtain ⟨y, L1, h1, h'⟩ := PyM.bind_ok h
  clear h
  rename' h' => h
  have hy : x ≠ 0 ∧ y = q.value / x ∧ L1 = L := by
    unfold PyM.lift pdiv at h1
    split at h1
    · cases h1
    · cases h1; exact ⟨by assumption, rfl, rfl⟩
  obtain ⟨hx, rfl, rfl⟩ := hy
  refine ⟨hx, ?_⟩
  split at h
  · rename_i hpc
    obtain ⟨e1, e2, e3, _⟩ := construct_ok h
    rw [if_pos hpc] at e2
    rw [if_neg (by rw [hpc]; simp)] at e3
    exact ⟨e1, e3, by rw [e2]; ring⟩
  · rename_i hpc
    obtain ⟨hun, l, hf⟩ := hfirst.resolve_left hpc
    unfold units unitsNamed at h
    rw [PyM.run_bind_ok (PyM.run_get _)] at h
    simp only [hs] at h
    rw [if_neg hun, hf] at h
    simp only [Option.isSome_none, Bool.false_eq_true, if_false] at h
    obtain ⟨s, L2, h2, g1⟩ := PyM.bind_ok h
    obtain ⟨k, L3, h3, g2⟩ := PyM.bind_ok g1
    obtain ⟨c, L4, h4, g3⟩ := PyM.bind_ok g2
    have hes : evalName q.unit = .ok s := by unfold PyM.lift at h2; exact (Prod.mk.inj h2).1
    have hsu : s = q.unit := literal_plain hb hes
    have hkk : k = q.kind := by
      unfold PyM.lift at h3
      rw [hk] at h3
      have := (Prod.mk.inj h3).1
      injection this with this
      exact this.symm
    subst hsu hkk
    have hr : r = { c with value := if q.kind = .percentage then (q.value / x) / 100 else q.value / x } := by
      cases g3; rfl
    obtain ⟨e1, _, e3, _⟩ := construct_ok h4
    subst hr
    refine ⟨e1, ?_, by simp [hpc]⟩
    simp only [e3]
    split
    · exact hs
    · rfl

example : ((⟨.std s!!"Length", s!!"yd", 5⟩ : Quantity).divNum 2 Demo.lib).1 = .ok ⟨.std s!!"Length", s!!"yd", 5/2⟩ ∧
    (Demo.lib.dict.find? fun e => s!!"yd" ∈ e.2) = some (s!!"Length", [s!!"in", s!!"ft", s!!"yd", s!!"mi"]) ∧
    kindOf (Kind.std s!!"Length").key = .ok (.std s!!"Length") := by decide +kernel

/-- a name that two classes have, as `F` is in the dictionary of the library -/
def Demo.faradLib : Lib :=
  { Demo.lib with dict := [(s!!"Temperature", [s!!"F"]), (s!!"Capacitance", [s!!"F"])], allUnits := [s!!"F"] }

/-- C67 is false of a unit that an earlier class of the dictionary has too: half of 10 F (farad) is 5 F, a
temperature. -/
theorem C67_class_fails : Valid Demo.faradLib ⟨.std s!!"Capacitance", s!!"F", 10⟩ ∧
    ((⟨.std s!!"Capacitance", s!!"F", 10⟩ : Quantity).divNum 2 Demo.faradLib).1 =
      .ok ⟨.std s!!"Temperature", s!!"F", 5⟩ := by decide +kernel

/-! ### C75: operations on quantities leave the library as it is -/

/-- Afterwards the network, the settings, the lists of units of all classes but the user's, are as before; the user's
list has grown at most. -/
structure Undisturbed (L L' : Lib) : Prop where
  net : L'.w.net = L.w.net
  par : L'.w.par = L.w.par
  fvf : L'.w.fvf = L.w.fvf
  names : ∀ k, k ≠ s!!"UserUnits" → L'.names k = L.names k
  users : ∀ u ∈ L.names s!!"UserUnits", u ∈ L'.names s!!"UserUnits"

theorem undisturbed {m : PyM Lib α} (h : Asking m) (L : Lib) (hg : WF L.w.net) : Undisturbed L (m L).2 := by
  have l := h L
  obtain ⟨cs, hcs, hw⟩ := l.calls
  have hb := base_session hcs hg
  rw [← hw] at hb
  exact ⟨hb.net, hb.par, hb.fvf, l.names, l.users⟩

/-- C75. No operation on quantities, be it successful or not, changes the network, the settings or the units of any
class, but for new names of the user's. -/
theorem C75_undisturbed (L : Lib) (hg : WF L.w.net) (p q : Quantity) (x : Rat) (n : Int) (u : Str) (c : Cmp) :
    Undisturbed L (p.add q L).2 ∧ Undisturbed L (p.sub q L).2 ∧ Undisturbed L (p.mul q L).2 ∧
    Undisturbed L (p.div q L).2 ∧ Undisturbed L (p.floordiv q L).2 ∧ Undisturbed L (p.mod q L).2 ∧
    Undisturbed L (p.powInt n L).2 ∧ Undisturbed L (p.roundTo n L).2 ∧ Undisturbed L (p.neg L).2 ∧
    Undisturbed L (p.abs L).2 ∧ Undisturbed L (p.addNum x L).2 ∧ Undisturbed L (p.subNum x L).2 ∧
    Undisturbed L (p.rsubNum x L).2 ∧ Undisturbed L (p.mulNum x L).2 ∧ Undisturbed L (p.divNum x L).2 ∧
    Undisturbed L (p.rdivNum x L).2 ∧ Undisturbed L (p.compare c q L).2 ∧ Undisturbed L (p.to u L).2 ∧
    Undisturbed L (units x u L).2 :=
  ⟨undisturbed (.addLike _ p q) L hg, undisturbed (.addLike _ p q) L hg, undisturbed (.mul p q) L hg,
    undisturbed (.div p q) L hg, undisturbed (.divLike _ p q) L hg, undisturbed (.mod p q) L hg,
    undisturbed (.powInt p n) L hg, undisturbed (.roundTo p n) L hg, undisturbed (.neg p) L hg, undisturbed (.abs p) L hg,
    undisturbed (.addNum p x) L hg, undisturbed (.subNum p x) L hg, undisturbed (.rsubNum p x) L hg,
    undisturbed (.mulNum p x) L hg, undisturbed (.divNum p x) L hg, undisturbed (.rdivNum p x) L hg,
    undisturbed (.compare c p q) L hg, undisturbed (.to p u) L hg, undisturbed (.units x u) L hg⟩

example : WF Demo.lib.w.net ∧ ((Demo.oneYard.mulBase Demo.oneFoot Demo.lib).2.names s!!"UserUnits") = [s!!"yd2"] ∧
    Demo.lib.names s!!"UserUnits" = [] := ⟨Demo.wf, by decide +kernel, by decide +kernel⟩

end Unyts
