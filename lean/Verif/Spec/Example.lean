import Verif.Model.Example
import Verif.Spec.Auth

/-! # Which handler of the example server a path is meant for -/

namespace Gofre.Spec
open Gofre.Mux

/-- The handler for a path with the segments given, none for 404: the literal routes before the
variable ones, one segment for each variable, anything below the assets. -/
def exampleAnswer : List Str → Option ExRoute
  | [] => some .index
  | [a] => if a = b!"download" then some .download else if a = b!"sse" then some .sse else none
  | [a, b] =>
    if a = b!"assets" then some .assets
    else if a = b!"text" then some (if b = b!"plain" then .textPlain else if b = b!"html" then .textHtml else .textVar)
    else if a = b!"tmpl" then some .tmpl
    else if a = b!"oauth" ∧ b = b!"initiate" then some .initiate
    else none
  | [a, b, _] =>
    if a = b!"assets" then some .assets
    else if a = b!"json" then some .json
    else if a = b!"oauth" ∧ b = b!"authorize" then some .authorize
    else if a = b!"security" ∧ b = b!"authorize" then some .security
    else none
  | a :: _ => if a = b!"assets" then some .assets else none

/-- The variables of each route and the segment of the path each stands for, counted from 0. -/
def exampleVars : ExRoute → List (Str × Nat)
  | .authorize => [(b!"providerName", 2)]
  | .textVar => [(b!"plain", 1)]
  | .json => [(b!"user", 1), (b!"id", 2)]
  | .tmpl => [(b!"tmplName", 1)]
  | .security => [(b!"permission", 2)]
  | _ => []

/-- A text granting the deletion: a decimal number of 32 bits with bit 3 set. -/
def GrantsDelete (v : Str) : Prop :=
  v ≠ [] ∧ (∀ c ∈ v, 48 ≤ c.toNat ∧ c.toNat ≤ 57) ∧ number v < 2 ^ 32 ∧ (number v).testBit 3 = true

end Gofre.Spec
