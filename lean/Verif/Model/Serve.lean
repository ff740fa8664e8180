import Verif.Model.Router
import Verif.Model.Response

/-!
# A request from the router to the connection (`router/router.go:66-104`)
-/

namespace Gofre.Serve
open Gofre.Path Gofre.Http Gofre.Response
variable {c : Codec}

/-- What a handler call gives: an error, a panic, neither response nor error, or a response. -/
inductive Act
  | fails
  | panics
  | noResponse
  | responds (r : Resp)

/-- A bare status (`router/router.go:83,88,97`). -/
def bare (code : Int) : WRes c :=
  match ({} : Wr c).writeHeader code with
  | none => .panic {}
  | some w => .ret true w

/-- `ServeHTTP` (`router/router.go:66-104`) over a fresh response writer; `ret false` when the
error of `resp.Write` is logged. -/
def serve (x : Ext) (other : Str → Str) (env : Env) (r : Router) (act : Nat → Act) (req : RReq) (path : Str) (buf : List USeg)
    (fuel : Nat) : Option (WRes c) :=
  match parseURLPath path buf with
  | none => some (.panic {})
  | some segs =>
    match r.matchers (toUpper other req.method) with
    | none => some (bare 404)
    | some m =>
      (matchM (matchUrl x r.ci path) m segs fuel).map fun
        | .panic => .panic {}
        | .none => bare 404
        | .found p _ =>
          match act p.attachment with
          | .fails => bare 500
          | .panics => .panic {}
          | .noResponse => .panic {}
          | .responds resp => resp.write env req {}

end Gofre.Serve
