import Verif.Bytes

/-!
# What a character wildcard segment means

Stated without reference to the matching algorithm.
-/

namespace Gofre.Spec

/-- `Glob eqv p u`: the text `u` is described by the wildcard `p`, where `?` is any one
character, `*` is any run of characters (possibly empty) and any other character stands
for itself up to `eqv`. -/
inductive Glob (eqv : UInt8 → UInt8 → Prop) : Str → Str → Prop
  | nil : Glob eqv [] []
  | any {p u c} : Glob eqv p u → Glob eqv (63 :: p) (c :: u)
  | star {p u} (w : Str) : Glob eqv p u → Glob eqv (42 :: p) (w ++ u)
  | lit {p u pc uc} : pc ≠ 63 → pc ≠ 42 → eqv uc pc → Glob eqv p u →
      Glob eqv (pc :: p) (uc :: u)

/-- No two adjacent `*` (guaranteed for every accepted pattern segment). -/
def NoDoubleStar (p : Str) : Prop := ¬ ∃ a b, p = a ++ 42 :: 42 :: b

/-- `a` describes a proper beginning of the text. -/
def Reaches (eqv : UInt8 → UInt8 → Prop) (a url : Str) : Prop := ∃ v w, url = v ++ w ∧ w ≠ [] ∧ Glob eqv a v

/-- Lower-case letters of Latin-1 whose upper-case partner is 32 positions below. -/
def isLowerLetter (n : Nat) : Prop := (97 ≤ n ∧ n ≤ 122) ∨ (224 ≤ n ∧ n ≤ 254 ∧ n ≠ 247)

/-- Two characters are the same, up to letter case if `ci`. -/
def sameLetter (ci : Bool) (a b : UInt8) : Prop :=
  a = b ∨ (ci = true ∧
    ((isLowerLetter a.toNat ∧ b.toNat + 32 = a.toNat) ∨
     (isLowerLetter b.toNat ∧ a.toNat + 32 = b.toNat)))

end Gofre.Spec
