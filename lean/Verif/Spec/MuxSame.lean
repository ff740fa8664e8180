import Verif.Spec.Mux

/-!
# Routers that are the same

`Verif.Spec.Mux` describes programs as if every `RouteUsingPathPrefix` gave a new router.  Here a
call with an empty prefix, or with the prefix the router already has, gives that router again.
Programs are read backwards, newest call first.
-/

namespace Gofre.Spec
open Gofre.Mux
variable {H : Type}

/-- The prefix `q` asks for no router other than the one with prefix `old`. -/
def Idle (old q : Str) : Prop := q = [] ∨ q = old

instance (old q : Str) : Decidable (Idle old q) := inferInstanceAs (Decidable (_ ∨ _))

/-- Prefix of value `v` after a program. -/
def prefixAt : List (Op H) → Nat → Str
  | [], _ => []
  | .clone p :: ops, v => if v = count ops then prefixAt ops p else prefixAt ops v
  | .sub p q :: ops, v =>
    if v = count ops then if Idle (prefixAt ops p) q then prefixAt ops p else joinPath (prefixAt ops p) q
    else prefixAt ops v
  | .common _ _ :: ops, v => prefixAt ops v
  | .handle .. :: ops, v => prefixAt ops v
  | .debug .. :: ops, v => prefixAt ops v

/-- The router a value stands for, named by the first value that stood for it. -/
def routerOf : List (Op H) → Nat → Nat
  | [], v => v
  | .sub p q :: ops, v =>
    if v = count ops then if Idle (prefixAt ops p) q then routerOf ops p else v else routerOf ops v
  | .clone _ :: ops, v => if v = count ops then v else routerOf ops v
  | .common _ _ :: ops, v => routerOf ops v
  | .handle .. :: ops, v => routerOf ops v
  | .debug .. :: ops, v => routerOf ops v

/-- Common middlewares of value `v` after a program: those its origin had when it was split off,
then those added to the router it stands for. -/
def commonAt : List (Op H) → Nat → List (Option (H → H))
  | [], _ => []
  | .clone p :: ops, v => if v = count ops then commonAt ops p else commonAt ops v
  | .sub p _ :: ops, v => if v = count ops then commonAt ops p else commonAt ops v
  | .common p ms :: ops, v => if p < count ops ∧ routerOf ops v = routerOf ops p then commonAt ops v ++ ms else commonAt ops v
  | .handle .. :: ops, v => commonAt ops v
  | .debug .. :: ops, v => commonAt ops v

/-- Routes registered by a program, oldest route first. -/
def routesMade : List (Op H) → List (Route H)
  | [] => []
  | .handle v method path h ms :: ops =>
    if v < count ops then
      routesMade ops ++ [⟨method, joinPath (prefixAt ops v) path, wrapAll (wrapAll h ms) (commonAt ops v)⟩]
    else routesMade ops
  | .debug v d :: ops =>
    if v < count ops then
      routesMade ops ++ (debugNames d).map fun e => ⟨b!"GET", joinPath (prefixAt ops v) e.1, e.2⟩
    else routesMade ops
  | _ :: ops => routesMade ops

end Gofre.Spec
