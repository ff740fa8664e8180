import Verif.Model.App
import Verif.Spec.Mux
import Verif.Spec.Route

/-!
# Which route serves a request, and the methods of the five registration functions
-/

namespace Gofre.Spec
open Gofre.Path (Ext)
variable {H : Type}

/-- The route is for the method of the request and its pattern describes the path; `vars` are the
texts of its variables. -/
structure Serves (x : Ext) (ci : Bool) (rt : Mux.Route H) (method path : Str) (vars : Str → Str) : Prop where
  same : SameMethod rt.method method
  described : ∃ p bs, Path.parsePattern x ci rt.path = .ok p ∧ Layout x ci p.segments (segmentsOf path) bs ∧
    ∀ name, vars name = (valueIn name p.segments bs).getD []

/-- The patterns of the routes. -/
def patternsOf (x : Ext) (ci : Bool) (rts : List (Mux.Route H)) : List Path.Pattern :=
  rts.filterMap fun rt => match Path.parsePattern x ci rt.path with
    | .ok p => some p
    | .error => none
    | .panic => none
    | .hangs => none

open Classical in
/-- The routes for a method. -/
noncomputable def routesOn (method : Str) (rts : List (Mux.Route H)) : List (Mux.Route H) := rts.filter fun rt => SameMethod rt.method method

/-- What an answer depends on besides the response: method and protocol of the request and its first `Accept-Encoding`. -/
def shown (q : App.AReq) : Response.RReq :=
  { method := q.req.method, protoMajor := q.protoMajor, acceptEncoding := ((q.req.headers.lookup b!"Accept-Encoding").getD []).headD [] }

/-- The five registration functions. -/
inductive Verb
  | get
  | post
  | put
  | patch
  | delete

/-- The method each of them is named after. -/
def Verb.name : Verb → Str
  | .get => b!"GET"
  | .post => b!"POST"
  | .put => b!"PUT"
  | .patch => b!"PATCH"
  | .delete => b!"DELETE"

end Gofre.Spec
