import Verif.Model.Config
import Verif.Model.Router

/-!
# Making a MuxHandler (`gofre.go:99-138`): how it ends
-/

namespace Gofre.Config
open Gofre.Path
variable {T L : Type}

/-- How a constructor ends: with a mux, with an error, with a panic, with the end of the process
(`log.Fatalf`), or not at all. -/
inductive Construction
  | made
  | error
  | panics
  | ends
  | hangs
  deriving DecidableEq, Repr

/-- The pattern of the assets (`gofre.go:126-132`). -/
def assetsRoute (contextPath mapping : Str) : Str :=
  (if contextPath = b!"/" then [] else contextPath) ++ b!"/" ++ mapping ++ b!"/**"

/-- `NewMuxHandler` (`gofre.go:120-138`); `config` is a pointer or nil, which `setDefaults` does not
look for.  The handler of the assets has the number 0. -/
def construct (x : Ext) (other : Str → Str) (parse : Str → Option T) (logDefault : L) (s : Store T L) (config : Option Nat) : Construction :=
  match config with
  | none => .panics
  | some p =>
    match (newMuxHandler parse logDefault s p).2 with
    | none => .error
    | some m =>
      match m.assets with
      | none => .made
      | some (contextPath, mapping, _) =>
        match handle x other sortSiblings (newRouter m.ci) b!"GET" (assetsRoute contextPath mapping) 0 with
        | .returned _ => .made
        | .panicked _ => .panics
        | .hangs => .hangs

/-- `NewMuxHandlerWithDefaultConfig` (`gofre.go:100-102`); `p` is the address of the new `Config`. -/
def constructDefault (x : Ext) (other : Str → Str) (parse : Str → Option T) (logDefault : L) (s : Store T L) (p : Nat) : Construction :=
  construct x other parse logDefault (s.setCfg p {}) (some p)

/-- `NewMuxHandlerWithDefaultConfigAndTemplateSupport` (`gofre.go:105-107`) with
`NewDefaultResourcesConfig` (`gofre.go:110-116`), which ends the process when `setDefaults` fails;
`p` and `q` are the addresses of the new `Config` and `ResourcesConfig`. -/
def constructTemplates (x : Ext) (other : Str → Str) (parse : Str → Option T) (logDefault : L) (s : Store T L) (p q : Nat) : Construction :=
  match ({} : Res T).setDefaults parse with
  | (_, false) => .ends
  | (r, true) => construct x other parse logDefault ((s.setRes q r).setCfg p { resources := some q }) (some p)

end Gofre.Config
