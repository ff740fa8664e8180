import Verif.Model.Mux

/-!
# Independent description of muxes, sub-routers and middleware order

The description reads a program backwards: to find the common middlewares or the prefix of a
value one looks at the calls made before, newest first.  Every `Clone` and every
`RouteUsingPathPrefix` gives a new router.
-/

namespace Gofre.Spec
open Gofre.Mux
variable {H : Type}

/-- Apply middlewares so that the first of the list is outermost; nil ones are skipped. -/
def wrapAll (h : H) : List (Option (H → H)) → H
  | [] => h
  | none :: ms => wrapAll h ms
  | some m :: ms => m (wrapAll h ms)

/-- Join with exactly one slash at the joint: drop one trailing slash on the left, one leading
slash on the right, and put one in between; an empty side changes nothing. -/
def joinPath (a b : Str) : Str :=
  if a = [] then b else if b = [] then a
  else (if a.getLast? = some slash then a.dropLast else a) ++ [slash] ++
    (if b.head? = some slash then b.tail else b)

/-- Number of values obtained by a program (given newest call first). -/
def count : List (Op H) → Nat
  | [] => 1
  | .clone v :: ops => if v < count ops then count ops + 1 else count ops
  | .sub v _ :: ops => if v < count ops then count ops + 1 else count ops
  | .common _ _ :: ops => count ops
  | .handle .. :: ops => count ops
  | .debug .. :: ops => count ops

/-- Prefix of value `v` after a program (newest call first). -/
def prefixOf : List (Op H) → Nat → Str
  | [], _ => []
  | .clone p :: ops, v => if v = count ops then prefixOf ops p else prefixOf ops v
  | .sub p q :: ops, v => if v = count ops then joinPath (prefixOf ops p) q else prefixOf ops v
  | .common _ _ :: ops, v => prefixOf ops v
  | .handle .. :: ops, v => prefixOf ops v
  | .debug .. :: ops, v => prefixOf ops v

/-- Common middlewares of value `v` after a program (newest call first): those its origin had
when it was split off, then those added to it. -/
def commonOf : List (Op H) → Nat → List (Option (H → H))
  | [], _ => []
  | .clone p :: ops, v => if v = count ops then commonOf ops p else commonOf ops v
  | .sub p _ :: ops, v => if v = count ops then commonOf ops p else commonOf ops v
  | .common p ms :: ops, v => if v = p then commonOf ops v ++ ms else commonOf ops v
  | .handle .. :: ops, v => commonOf ops v
  | .debug .. :: ops, v => commonOf ops v

/-- The debug endpoints: below `/debug/pprof/` the profiles, and the variables. -/
def debugNames (d : Debug H) : List (Str × H) :=
  (b!"/debug/pprof/", d.index) ::
    ([b!"allocs", b!"block", b!"goroutine", b!"heap", b!"mutex", b!"threadcreate"].map fun n => (b!"/debug/pprof/" ++ n, d.index)) ++
    ([(b!"cmdline", d.cmdline), (b!"profile", d.profile), (b!"symbol", d.symbol), (b!"trace", d.trace)].map fun e =>
      (b!"/debug/pprof/" ++ e.1, e.2)) ++ [(b!"/debug/vars", d.vars)]

/-- Routes registered by a program (newest call first), oldest route first.  Debug endpoints are
registered as the library provides them. -/
def routesOf : List (Op H) → List (Route H)
  | [] => []
  | .handle v method path h ms :: ops =>
    if v < count ops then
      routesOf ops ++ [⟨method, joinPath (prefixOf ops v) path, wrapAll (wrapAll h ms) (commonOf ops v)⟩]
    else routesOf ops
  | .debug v d :: ops =>
    if v < count ops then
      routesOf ops ++ (debugNames d).map fun e => ⟨b!"GET", joinPath (prefixOf ops v) e.1, e.2⟩
    else routesOf ops
  | _ :: ops => routesOf ops

/-- Every sub-router of the program is made with a non-empty prefix that differs from the
prefix of the router it is made from (newest call first). -/
def RealSplits : List (Op H) → Prop
  | [] => True
  | .sub p q :: ops => q ≠ [] ∧ q ≠ prefixOf ops p ∧ RealSplits ops
  | _ :: ops => RealSplits ops

/-- The program switches debug endpoints on. -/
def UsesDebug (ops : List (Op H)) : Prop := ∃ v d, Op.debug v d ∈ ops

end Gofre.Spec
