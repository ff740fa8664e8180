import Verif.Bytes

/-!
# White space around texts, and lists with commas
-/

namespace Gofre.Spec

/-- The code points that are white space in Unicode. -/
def WhiteSpace (n : Nat) : Prop :=
  (9 ≤ n ∧ n ≤ 13) ∨ n = 0x20 ∨ n = 0x85 ∨ n = 0xa0 ∨ n = 0x1680 ∨ (0x2000 ≤ n ∧ n ≤ 0x200a) ∨ n = 0x2028 ∨ n = 0x2029 ∨ n = 0x202f ∨
    n = 0x205f ∨ n = 0x3000

instance (n : Nat) : Decidable (WhiteSpace n) := by unfold WhiteSpace; infer_instance

/-- UTF-8, for code points of at most three bytes. -/
def utf8 (n : Nat) : Str :=
  if n < 0x80 then [UInt8.ofNat n]
  else if n < 0x800 then [UInt8.ofNat (0xc0 + n / 64), UInt8.ofNat (0x80 + n % 64)]
  else [UInt8.ofNat (0xe0 + n / 4096), UInt8.ofNat (0x80 + n / 64 % 64), UInt8.ofNat (0x80 + n % 64)]

/-- A text of nothing but white space. -/
inductive Gap : Str → Prop
  | nil : Gap []
  | cons {n : Nat} {s : Str} : WhiteSpace n → Gap s → Gap (utf8 n ++ s)

/-- What is left of the first text without the white space around it. -/
structure Trims (s m : Str) : Prop where
  parts : ∃ pre post, s = pre ++ m ++ post ∧ Gap pre ∧ Gap post
  first : ∀ n, WhiteSpace n → ¬ utf8 n <+: m
  last : ∀ n, WhiteSpace n → ¬ utf8 n <:+ m

/-- One of the texts between the commas of a list. -/
def Between (v p : Str) : Prop :=
  44 ∉ p ∧ ∃ pre post, v = pre ++ p ++ post ∧ (pre = [] ∨ pre.getLast? = some 44) ∧ (post = [] ∨ post.head? = some 44)

/-- A member of a list with commas. -/
def Member (v m : Str) : Prop := ∃ p, Between v p ∧ Trims p m

end Gofre.Spec
