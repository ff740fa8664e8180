import Verif.Model.Login
import Verif.Spec.Form
import Verif.Spec.Nonce

/-!
# Handlers that a client without an issued state cannot tell apart, and handlers that issue no state
-/

namespace Gofre.Spec
open Gofre.App
variable {σ : Type}

/-- The text is a state that was issued and is still valid at a time. -/
def Live (c : Cache.Cache) (t : Int) (st : Str) : Prop := ∃ e, c.lookup st = some e ∧ t < e

/-- For a request that carries no live state the two handlers do the same. -/
def Alike (h h' : AHandler (LoginState σ)) : Prop :=
  ∀ vars ctx req (w : LoginState σ), ¬ Live w.cache w.now (given req b!"state") → h vars ctx req w = h' vars ctx req w

/-- A middleware keeps a relation between handlers; one that was not given does. -/
def KeepsR {H : Type} (R : H → H → Prop) : Option (H → H) → Prop
  | none => True
  | some m => ∀ h h', R h h' → R (m h) (m h')

/-- All middlewares that a call brings into the application keep the relation. -/
def OpKeepsR {H : Type} (R : H → H → Prop) : Mux.Op H → Prop
  | .clone _ => True
  | .sub _ _ => True
  | .common _ ms => ∀ m ∈ ms, KeepsR R m
  | .handle _ _ _ _ ms => ∀ m ∈ ms, KeepsR R m
  | .debug _ _ => True

/-- A text that is not a state valid at a time `t` does not become one, unless it is the state text this request was given, and that
for a lifetime that reaches beyond `t`. -/
def Quiet (lifetime : Int) (st : Str) (t : Int) (h : AHandler (LoginState σ)) : Prop :=
  ∀ vars ctx req (w : LoginState σ), ¬ Live w.cache t st → ¬ (w.rnd = st ∧ t < w.now + lifetime) → ¬ Live (h vars ctx req w).2.cache t st

/-- A text that is not a state valid at a time `t` does not become one. -/
def Mute (st : Str) (t : Int) (h : AHandler (LoginState σ)) : Prop :=
  ∀ vars ctx req (w : LoginState σ), ¬ Live w.cache t st → ¬ Live (h vars ctx req w).2.cache t st

/-- A state valid at a time `t` stays so, unless this request was given the same text. -/
def Keeping (st : Str) (t : Int) (h : AHandler (LoginState σ)) : Prop :=
  ∀ vars ctx req (w : LoginState σ), Live w.cache t st → w.rnd ≠ st → Live (h vars ctx req w).2.cache t st

end Gofre.Spec
