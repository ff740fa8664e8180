import Verif.Spec.Browser

/-!
# What browsers remember of a preflight, and what they show to scripts

Written from the Fetch standard (CORS-preflight fetch, main fetch, CORS-safelisted response-header names), not from the code.
-/

namespace Gofre.Spec

/-- For how many seconds the answer to a preflight is remembered (browsers may remember it for a shorter time): the number in the header, five
when there is none. -/
def rememberedFor (hd : Map Str) : Nat :=
  match Map.get? hd b!"Access-Control-Max-Age" with
  | some v => (decimal (unblank v)).getD 5
  | none => 5

/-- The names every script may read. -/
def openNames : List Str :=
  [b!"cache-control", b!"content-language", b!"content-length", b!"content-type", b!"expires", b!"last-modified", b!"pragma"]

/-- A script of another origin may read the header of the given name in a response it may read: an open name, or a listed one that is not about
cookies; `*` stands for all when no cookies were sent. -/
def Shown (credentials : Bool) (hd : Map Str) (n : Str) : Prop :=
  small n ∈ openNames ∨
    (small n ∉ [b!"set-cookie", b!"set-cookie2"] ∧
      ((∃ a ∈ membersOf hd b!"Access-Control-Expose-Headers", small a = small n) ∨
        (credentials = false ∧ b!"*" ∈ membersOf hd b!"Access-Control-Expose-Headers")))

end Gofre.Spec
