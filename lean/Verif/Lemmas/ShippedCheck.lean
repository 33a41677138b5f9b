import Verif.Lemmas.Shipped

/- The readings of the shipped units: every declared conversion respects them, but for eight. -/
namespace Unyts
open Spec
set_option maxRecDepth 1000000

/-- a number for a name -/
def code : Str → Nat → Nat
  | [], n => n
  | c :: s, n => code s (n * 2097152 + c.toNat)

def Table.find : Table → Nat → Option Reading
  | .leaf, _ => none
  | .node l k sn sd on od e api _ r, n =>
    bif Nat.beq n k then some ⟨mkRat sn sd, mkRat on od, e, api⟩
    else bif Nat.blt n k then l.find n else r.find n

/-- the reading of a name -/
def readingOf (s : Str) : Option Reading := shippedTable.find (code s 1)

/-- the declared conversions that contradict the others -/
def faultDecls : List (Str × Str × Cv) :=
  [(s!!"psi gauge", s!!"psi", .same), (s!!"psi", s!!"psi gauge", .same),
   (s!!"bar gauge", s!!"bar", .same), (s!!"bar", s!!"bar gauge", .same),
   (s!!"bar gauge", s!!"psi gauge", .fn (.mul .x (.lit (725188688661 / 50000000000)))),
   (s!!"gillUK", s!!"fluid ounce UK", .fn (.mul .x (.lit 4))),
   (s!!"standard cubic meter", s!!"standard barrel", .fn (.mul .x (.lit (3144907 / 500000)))),
   (s!!"standard barrel", s!!"standard cubic foot", .fn (.mul .x (.lit (701823 / 125000))))]

def respectsTable (d : Str × Str × Cv) : Bool :=
  match readingOf d.1, readingOf d.2.1 with
  | some p, some q => d.2.2.respects p q
  | _, _ => false

def checkDecl (d : Str × Str × Cv) : Bool := respectsTable d || faultDecls.contains d

/-- no reading has scale zero -/
def Table.scales : Table → Bool
  | .leaf => true
  | .node l _ sn sd _ _ _ _ _ r => l.scales && Nat.blt 0 sn && Nat.blt 0 sd && r.scales

theorem table_scales : shippedTable.scales = true := by decide +kernel

theorem dict_checked : (rawDictionary.all fun e =>
    (declsOf (kindInstrs shippedPrefixes e.1 e.2)).all fun d => d.2.2.linear && checkDecl d) = true := by decide +kernel

theorem expl_checked : ((explDecls explicitConversions).all fun d => checkDecl d && (d.2.2.linear ||
    (explDecls explicitConversions).any fun r => r.1 == d.2.1 && r.2.1 == d.1)) = true := by decide +kernel

end Unyts
