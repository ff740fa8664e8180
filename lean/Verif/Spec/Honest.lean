import Verif.Model.AnyCache

/-! # Caches that keep the promise of the interface, and requests served at the same time -/

namespace Gofre.Spec
open Gofre.AnyCache

/-- A record of calls in which `Contains` never says yes without reason: the key was added by a call that reported no error, has not run out and
was not removed in the meantime.  A cache may forget keys. -/
def Honest (calls : List Call) : Prop :=
  ∀ pre post now k, calls = pre ++ .contains now k true :: post →
    ∃ p q t d, pre = p ++ .add t k d none :: q ∧ now < t + d ∧ Call.remove k ∉ q

/-- The calls of several requests in one record, those of each in their order; requests may be unfinished. -/
def Woven (each : List (List Call)) (record : List (Nat × Call)) : Prop :=
  ∀ (i : Nat) c, (i, c) ∈ record → ∃ l, each[i]? = some l ∧ (record.filterMap fun x => if x.1 = i then some x.2 else none) <+: l

end Gofre.Spec
