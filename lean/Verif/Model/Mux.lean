import Verif.Bytes

/-!
# MuxHandler (`gofre.go`)

`H` is the type of handlers; a middleware is any function `H → H`, `none` is a nil middleware.
The router is represented by the list of calls made to `router.Handle`, in order.
-/

namespace Gofre.Mux
variable {H : Type}

/-- `wrapMiddleware` (`gofre.go:340-352`): the loop runs over the indices from the last to the
first, i.e. over the reversed slice. -/
def wrapLoop : H → List (Option (H → H)) → H
  | h, [] => h
  | h, none :: ms => wrapLoop h ms
  | h, some m :: ms => wrapLoop (m h) ms

/-- `wrapMiddleware` (`gofre.go:340-352`). -/
def wrapMiddleware (h : H) (ms : List (Option (H → H))) : H :=
  if ms.length = 0 then h else wrapLoop h ms.reverse

/-- `resolvePath` (`gofre.go:301-317`). -/
def resolvePath (pathPrefix path : Str) : Str :=
  if pathPrefix.length = 0 then path
  else if path.length = 0 then pathPrefix
  else if pathPrefix.getLast? = some slash ∧ path.head? = some slash then pathPrefix ++ path.drop 1
  else if pathPrefix.getLast? ≠ some slash ∧ path.head? ≠ some slash then pathPrefix ++ slash :: path
  else pathPrefix ++ path

/-- `MuxHandler` without router and config, which clones share (`gofre.go:92-98`). -/
structure Mux (H : Type) where
  pathPrefix : Str
  common : List (Option (H → H))

/-- A call of `router.Handle`. -/
structure Route (H : Type) where
  method : Str
  path : Str
  handler : H

/-- All muxes created so far, what the `i`-th `*MuxHandler` value obtained by the program
points to, and the registered routes.  Value 0 is the mux made by `NewMuxHandler`. -/
structure World (H : Type) where
  muxes : List (Mux H)
  vals : List Nat
  routes : List (Route H)

/-- `NewMuxHandler` (`gofre.go:120-138`) with `ResourcesConfig` nil. -/
def World.init : World H := ⟨[⟨[], []⟩], [0], []⟩

/-- The context path as `NewMuxHandler` uses it (`gofre.go:126-129`), after the default of
`setDefaults` (`gofre.go:76-78`). -/
def contextPath (cfg : Str) : Str := if cfg = [] ∨ cfg = [slash] then [] else cfg

/-- The path of the assets up to and including the last slash (`gofre.go:132`), which is also
what is stripped from request paths.  `mapping` is `AssetsMappingPath` after the default of
`setDefaults` (`gofre.go:50-52`). -/
def assetsPrefix (cfg mapping : Str) : Str :=
  contextPath cfg ++ [slash] ++ (if mapping = [] then b!"assets" else mapping) ++ [slash]

/-- `NewMuxHandler` (`gofre.go:120-138`): with resources the route of the assets is registered;
`files p` is the file server behind `http.StripPrefix(p, ·)`.  `cfg` is `ContextPath`, `res` the
`AssetsMappingPath` when `ResourcesConfig` is not nil.  Failing to parse the templates is not
modelled. -/
def World.new (cfg : Str) (res : Option Str) (files : Str → H) : World H :=
  { World.init with routes := match res with
    | none => []
    | some mapping => [⟨b!"GET", assetsPrefix cfg mapping ++ b!"**", files (assetsPrefix cfg mapping)⟩] }

/-- The library handlers used by `EnableDebugEndpoints`. -/
structure Debug (H : Type) where
  index : H
  cmdline : H
  profile : H
  symbol : H
  trace : H
  vars : H

/-- The paths and handlers of `EnableDebugEndpoints` (`gofre.go:320-334`), in order. -/
def debugTable (d : Debug H) : List (Str × H) :=
  [(b!"/debug/pprof/", d.index), (b!"/debug/pprof/allocs", d.index), (b!"/debug/pprof/block", d.index),
   (b!"/debug/pprof/goroutine", d.index), (b!"/debug/pprof/heap", d.index), (b!"/debug/pprof/mutex", d.index),
   (b!"/debug/pprof/threadcreate", d.index), (b!"/debug/pprof/cmdline", d.cmdline), (b!"/debug/pprof/profile", d.profile),
   (b!"/debug/pprof/symbol", d.symbol), (b!"/debug/pprof/trace", d.trace), (b!"/debug/vars", d.vars)]

/-- Calls of a program; muxes are named by the order in which their values were obtained. -/
inductive Op (H : Type)
  | clone (v : Nat)
  | sub (v : Nat) (pathPrefix : Str)
  | common (v : Nat) (ms : List (Option (H → H)))
  | handle (v : Nat) (method path : Str) (h : H) (ms : List (Option (H → H)))
  | debug (v : Nat) (d : Debug H)

/-- The calls of `HandleOAUTH2WithCustomPaths` (`gofre.go:198-268`) with the two handlers it
makes. -/
def oauthOps (v : Nat) (initiatePath basePath : Str) (hi hc : H) (ims cms : List (Option (H → H))) : List (Op H) :=
  [.handle v b!"GET" initiatePath hi ims, .handle v b!"GET" (basePath ++ b!"/{providerName}") hc cms]

/-- The mux a value points to. -/
def World.deref (w : World H) (v : Nat) : Option (Nat × Mux H) :=
  match w.vals[v]? with
  | none => none
  | some i => match w.muxes[i]? with
    | none => none
    | some m => some (i, m)

/-- One call (`Clone` `gofre.go:155-162`, `RouteUsingPathPrefix` `gofre.go:166-176`,
`CommonMiddlewares` `gofre.go:179-183`, `HandleRequest` `gofre.go:296-299`,
`EnableDebugEndpoints` `gofre.go:320-334`).  Calls on values that do not exist do nothing. -/
def step (w : World H) : Op H → World H
  | .clone v =>
    match w.deref v with
    | none => w
    | some (_, m) => { w with muxes := w.muxes ++ [⟨m.pathPrefix, m.common⟩], vals := w.vals ++ [w.muxes.length] }
  | .sub v p =>
    match w.deref v with
    | none => w
    | some (i, m) =>
      if p.length = 0 ∨ p = m.pathPrefix then { w with vals := w.vals ++ [i] }
      else { w with
        muxes := w.muxes ++ [⟨resolvePath m.pathPrefix p, m.common⟩], vals := w.vals ++ [w.muxes.length] }
  | .common v ms =>
    match w.deref v with
    | none => w
    | some (i, m) => { w with muxes := w.muxes.set i { m with common := m.common ++ ms } }
  | .handle v method path h ms =>
    match w.deref v with
    | none => w
    | some (_, m) => { w with routes := w.routes ++
        [⟨method, resolvePath m.pathPrefix path, wrapMiddleware (wrapMiddleware h ms) m.common⟩] }
  | .debug v d =>
    match w.deref v with
    | none => w
    | some (_, m) =>
      let added := (debugTable d).map fun e => ⟨b!"GET", resolvePath m.pathPrefix e.1, e.2⟩
      { w with routes := w.routes ++ added }

/-- A program. -/
def run (w : World H) (ops : List (Op H)) : World H := ops.foldl step w

end Gofre.Mux
