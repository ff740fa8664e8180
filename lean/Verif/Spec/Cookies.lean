import Verif.Model.Response

/-! # What C64 and C65 mean -/

namespace Gofre.Spec
open Gofre.Response

/-- What identifies a cookie for a client (RFC 6265, 5.3). -/
def SameCookie (a b : Cookie) : Prop := a.name = b.name ∧ a.path = b.path ∧ a.domain = b.domain

/-- `k` was added and no cookie with its identity was added later. -/
def LastOf (added : List (Option Cookie)) (k : Cookie) : Prop :=
  ∃ pre post, added = pre ++ some k :: post ∧ ∀ k', some k' ∈ post → ¬ SameCookie k' k

/-- Names and domains without a colon: those of all cookies that net/http sends. -/
def NoColon (k : Cookie) : Prop := 58 ∉ k.name ∧ 58 ∉ k.domain

/-- A byte that begins an ASCII character, upper-cased. -/
def Upper (b u : UInt8) : Prop := (b.toNat < 97 ∨ 122 < b.toNat) ∧ u = b ∨ (97 ≤ b.toNat ∧ b.toNat ≤ 122) ∧ u.toNat + 32 = b.toNat

end Gofre.Spec
