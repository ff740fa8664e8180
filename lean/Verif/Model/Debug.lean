import Verif.Model.Mux

/-!
# What the debug endpoints show (`gofre.go:320-334`)

The handlers come from `net/http/pprof` and `expvar`; of them only what their documentation says
about the request is modelled, not the contents of the pages.
-/

namespace Gofre.Mux

/-- The page that is sent. -/
inductive Shown
  | listing
  | profile (name : Str)
  | cmdline
  | cpu
  | symbol
  | trace
  | vars
  deriving DecidableEq

/-- `pprof.Index`, registered for seven paths (`gofre.go:322-328`): the text after "/debug/pprof/"
at the start of the request path names the profile; without such text the listing is shown.
A name that is no profile is answered with 404, which is not distinguished here. -/
def pprofIndex (path : Str) : Shown :=
  if (b!"/debug/pprof/").isPrefixOf path = true ∧ path.drop (b!"/debug/pprof/").length ≠ [] then
    .profile (path.drop (b!"/debug/pprof/").length)
  else .listing

/-- The library handlers given to `EnableDebugEndpoints` (`gofre.go:322-333`); only `pprof.Index`
looks at the path. -/
def library : Debug (Str → Shown) :=
  ⟨pprofIndex, fun _ => .cmdline, fun _ => .cpu, fun _ => .symbol, fun _ => .trace, fun _ => .vars⟩

end Gofre.Mux
