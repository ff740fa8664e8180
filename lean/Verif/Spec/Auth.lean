import Verif.Bytes

/-!
# What permissions mean

Scopes are given by their list of levels; accesses are sets of bits.
-/

namespace Gofre.Spec

/-- A list of scope levels: at least one, none containing the separator. -/
def Levels (ls : List Str) : Prop := ls ≠ [] ∧ ∀ l ∈ ls, (47 : UInt8) ∉ l

/-- The scope text with the given levels: `l₀/l₁/…`. -/
def scopeText : List Str → Str
  | [] => []
  | [l] => l
  | l :: ls => l ++ 47 :: scopeText ls

/-- The level of `ls` that governs depth `i`: its own level `i`, or its last one. -/
def governing (ls : List Str) (i : Nat) : Option Str :=
  if i < ls.length then ls[i]? else ls.getLast?

/-- `ls` covers `ms`: `ms` is at least as deep and at each depth the governing level is
`*` or equal. -/
def Covers (ls ms : List Str) : Prop :=
  ls.length ≤ ms.length ∧
  ∀ i m, ms[i]? = some m → governing ls i = some b!"*" ∨ governing ls i = some m

/-- Every access bit of `b` is in `a`. -/
def BitsWithin (b a : UInt32) : Prop :=
  ∀ i : Nat, b.toNat.testBit i = true → a.toNat.testBit i = true

/-- What a permission with scope `s` and access `a` grants of scope `t` and access `b`: every access, when the levels of the one scope
cover those of the other. -/
def Grants (s : Str) (a : UInt32) (t : Str) (b : UInt32) : Prop :=
  BitsWithin b a ∧ ∃ ls ms, Levels ls ∧ Levels ms ∧ s = scopeText ls ∧ t = scopeText ms ∧ Covers ls ms

/-- The number written in decimal, most significant digit first. -/
def number : Str → Nat := fun v => v.foldl (fun n c => n * 10 + (c.toNat - 48)) 0

/-- `s` is the text of a permission: a scope of at most three levels, a colon and the access as a
decimal number of 32 bits. -/
def PermissionText (s scope : Str) (access : Nat) : Prop :=
  ∃ ls d, Levels ls ∧ ls.length ≤ 3 ∧ scope = scopeText ls ∧ s = scope ++ 58 :: d ∧
    d ≠ [] ∧ (∀ c ∈ d, 48 ≤ c.toNat ∧ c.toNat ≤ 57) ∧ number d = access ∧ access < 2 ^ 32

end Gofre.Spec
