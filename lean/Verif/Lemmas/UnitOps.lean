import Verif.Lemmas.UnitClass

/- Operations on quantities only ask for conversions and build quantities. -/
namespace Unyts.Asking
open Spec

theorem factors {div : Str → PyM Lib Str} (h : ∀ u, Asking (div u)) (u2 : Str) (all : List Str) :
    ∀ us r, Asking (divideFactors div u2 all us r) := by
  intro us
  induction us with
  | nil => intro r; exact pure _
  | cons u us ih =>
    intro r
    unfold divideFactors
    split
    · exact pure _
    · refine bind (lift _) fun _ => bind (lift _) fun _ => ?_
      split
      · exact bind (h _) fun _ => ih _
      · exact ih _

theorem operations (names : List Str) (sf : Rat → Str) : ∀ n a b,
    Asking (unitProduct names sf libConvertible n a b) ∧ Asking (unitDivision names sf libConvertible n a b) := by
  intro n
  induction n with
  | zero => intro a b; exact ⟨by unfold unitProduct; exact raise _, by unfold unitDivision; exact raise _⟩
  | succ n ih =>
    intro a b
    constructor
    · unfold unitProduct
      dsimp only
      split
      · exact pure _
      · split
        · exact pure _
        · split
          · refine bind (lift _) fun (_, _) => ?_
            dsimp only
            split <;> exact pure _
          · refine bind (convertible _ _) fun c => ?_
            split
            · exact (ih _ _).1
            · refine bind (lift _) fun (_, _) => bind (lift _) fun (_, _) => ?_
              dsimp only
              split
              · exact (ih _ _).2
              · split
                · exact (ih _ _).2
                · refine bind (convertible _ _) fun c => ?_
                  split <;> exact pure _
    · unfold unitDivision
      dsimp only
      split
      · exact pure _
      · split
        · exact bind (lift _) fun _ => pure _
        · refine bind ?_ fun c => ?_
          · split
            · exact convertible _ _
            · exact pure _
          · split
            · exact (ih _ _).2
            · refine bind (lift _) fun (_, _) => bind (lift _) fun (_, _) => ?_
              dsimp only
              split
              · exact (ih _ _).1
              · split
                · exact (ih _ _).1
                · refine bind (convertible _ _) fun c => ?_
                  split
                  · exact pure _
                  · refine bind ?_ fun c => ?_
                    · split
                      · exact lift _
                      · exact pure _
                    · split
                      · exact bind (factors (fun u => (ih _ _).2) _ _ _ _) fun _ => pure _
                      · exact pure _

theorem product (a b : Str) : Asking (libProduct a b) := fun L => (operations _ _ _ _ _).1 L
theorem division (a b : Str) : Asking (libDivision a b) := fun L => (operations _ _ _ _ _).2 L

theorem baseFactor (a b : Str) : Asking (baseFactor a b) := by
  unfold Unyts.baseFactor
  refine bind (lift _) fun _ => bind (lift _) fun _ => bind (convertible _ _) fun c => ?_
  split
  · exact bind (convert _ _ _ _) fun _ => bind (lift _) fun _ => pure _
  · exact pure _

theorem neg (q : Quantity) : Asking q.neg := by unfold Quantity.neg; split <;> exact construct _ _ _
theorem abs (q : Quantity) : Asking q.abs := by unfold Quantity.abs; split <;> exact construct _ _ _
theorem addNum (q : Quantity) (x : Rat) : Asking (q.addNum x) := by
  unfold Quantity.addNum; split <;> exact construct _ _ _
theorem subNum (q : Quantity) (x : Rat) : Asking (q.subNum x) := by
  unfold Quantity.subNum; split <;> exact construct _ _ _
theorem rsubNum (q : Quantity) (x : Rat) : Asking (q.rsubNum x) := bind (neg q) fun _ => addNum _ _
theorem mulNum (q : Quantity) (x : Rat) : Asking (q.mulNum x) := by
  unfold Quantity.mulNum; split <;> exact construct _ _ _
theorem divNum (q : Quantity) (x : Rat) : Asking (q.divNum x) := by
  unfold Quantity.divNum
  refine bind (lift _) fun _ => ?_
  split
  · exact construct _ _ _
  · exact units _ _
theorem rdivNum (q : Quantity) (x : Rat) : Asking (q.rdivNum x) := by
  unfold Quantity.rdivNum
  refine bind (lift _) fun _ => ?_
  split
  · exact units _ _
  · split <;> exact units _ _

theorem mulBase (p q : Quantity) : Asking (p.mulBase q) := by
  unfold Quantity.mulBase
  have cs := fun v a b => bind (product a b) fun u => units v u
  split
  · exact construct _ _ _
  · split
    · exact construct _ _ _
    · split
      · exact construct _ _ _
      · split
        · exact cs _ _ _
        · refine bind (convertible _ _) fun b => ?_
          split
          · exact bind (convert _ _ _ _) fun _ => cs _ _ _
          · refine bind (convertible _ _) fun b => ?_
            split
            · exact bind (convert _ _ _ _) fun _ => cs _ _ _
            · refine bind (baseFactor _ _) fun b => ?_
              split <;> exact cs _ _ _

theorem mul (p q : Quantity) : Asking (p.mul q) := by
  unfold Quantity.mul
  refine bind (mulBase p q) fun r => ?_
  split
  · exact «to» _ _
  · exact pure _

theorem divLike (op : Rat → Rat → Res Rat) (p q : Quantity) : Asking (p.divLike op q) := by
  unfold Quantity.divLike
  have cs := fun v a b => bind (division a b) fun u => units v u
  split
  · exact bind (lift _) fun _ => construct _ _ _
  · split
    · exact bind (lift _) fun _ => construct _ _ _
    · split
      · exact bind (lift _) fun _ => construct _ _ _
      · split
        · exact bind (lift _) fun _ => cs _ _ _
        · refine bind (convertible _ _) fun b => ?_
          split
          · exact bind (convert _ _ _ _) fun _ => bind (lift _) fun _ => cs _ _ _
          · refine bind (baseFactor _ _) fun b => ?_
            split <;> exact bind (lift _) fun _ => cs _ _ _

theorem div (p q : Quantity) : Asking (p.div q) := by
  unfold Quantity.div
  refine bind (divLike _ p q) fun r => ?_
  split
  · exact «to» _ _
  · exact pure _

theorem mod (p q : Quantity) : Asking (p.mod q) := by
  unfold Quantity.mod
  split
  · exact bind (lift _) fun _ => construct _ _ _
  · split
    · exact bind (lift _) fun _ => construct _ _ _
    · split
      · exact bind (lift _) fun _ => construct _ _ _
      · split
        · exact bind (lift _) fun _ => units _ _
        · refine bind (convertible _ _) fun b => ?_
          split
          · exact bind (convert _ _ _ _) fun _ => bind (lift _) fun _ => units _ _
          · refine bind (baseFactor _ _) fun b => ?_
            split <;> exact bind (lift _) fun _ => units _ _

theorem powInt (q : Quantity) (n : Int) : Asking (q.powInt n) := by
  unfold Quantity.powInt
  split
  · exact bind (lift _) fun _ => construct _ _ _
  · exact bind get fun _ => bind (lift _) fun _ => bind (lift _) fun _ => units _ _

theorem roundTo (q : Quantity) (n : Int) : Asking (q.roundTo n) := construct _ _ _

end Unyts.Asking
