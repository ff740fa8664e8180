import Verif.Model.App

/-!
# Handlers and middlewares that do not bring a nonce back
-/

namespace Gofre.Spec
open Gofre.App
variable {σ : Type}

/-- A nonce that is not in the cache, and is not the one the random source gives to this request, is not in the
cache afterwards; the handler has no influence on clock and random source. -/
def Stays (n : Str) (h : AHandler (CsrfState σ)) : Prop :=
  ∀ vars ctx req (w : CsrfState σ), Map.get? w.cache n = none → (∀ b, w.env.rnd = some b → Csrf.hex b ≠ n) →
    Map.get? (h vars ctx req w).2.cache n = none ∧ (h vars ctx req w).2.env = w.env

/-- A middleware keeps a property of handlers; one that was not given does. -/
def KeepsP {H : Type} (P : H → Prop) : Option (H → H) → Prop
  | none => True
  | some m => ∀ h, P h → P (m h)

/-- All that a call brings into the application has the property or keeps it. -/
def OpKeeps {H : Type} (P : H → Prop) : Mux.Op H → Prop
  | .clone _ => True
  | .sub _ _ => True
  | .common _ ms => ∀ m ∈ ms, KeepsP P m
  | .handle _ _ _ h ms => P h ∧ ∀ m ∈ ms, KeepsP P m
  | .debug _ d => P d.index ∧ P d.cmdline ∧ P d.profile ∧ P d.symbol ∧ P d.trace ∧ P d.vars

end Gofre.Spec
