import Verif.Model.Middleware
import Verif.Model.Build
import Verif.Model.Serve

/-!
# Middlewares that make or wrap responses, up to the connection
(`middleware/errors.go:31-37`, `middleware/compress.go:12-22`, `router/router.go:93-103`)
-/

namespace Gofre.Stack
open Gofre.Http Gofre.Response Gofre.Serve
variable {σ : Type} {c : Codec}

/-- What handlers behind middlewares return: a response, or a compressing response around nil (made by
`CompressResponse` when the handler returns neither response nor error); every method of the latter panics. -/
inductive MResp
  | resp (r : Resp)
  | hollow

/-- `Error()` of the error values (`errors/errors.go:5-47`).  (`NewBadRequest(nil)` and
`NewObjectNotFound(nil)`, whose `Error` panics, are not modelled.) -/
def errorMessage : Err → Str
  | .badRequest m => m
  | .notFound m => m
  | .unauthorized => b!"unauthorized request"
  | .wrongCredentials => b!"wrong credentials"
  | .accessDenied => b!"access denied"
  | .other m => m

/-- `ErrJsonResponse` (`middleware/errors.go:31-37`); `quote` is the JSON encoding of a text. -/
def errJsonResponse (quote : Str → Str) : Middleware σ MResp :=
  MW.errResponse fun status err => .resp (Build.json status (some (some (Build.errorObject quote (errorMessage err)))))

/-- `CompressResponse` (`middleware/compress.go:12-22`).  With an unusable level the response next to
the error is a nil pointer in a non-nil interface; nothing in the framework looks at a response that comes
with an error. -/
def compressResponse (level : Int) : Middleware σ MResp := fun handler ctx req s =>
  match handler ctx req s with
  | (.ret _ (some e), s') => (.ret none (some e), s')
  | (.ret none none, s') =>
    if level < -1 ∨ level > 9 then (.ret none (some (.other b!"compression level not supported")), s')
    else (.ret (some .hollow) none, s')
  | (.ret (some .hollow) none, s') =>
    if level < -1 ∨ level > 9 then (.ret none (some (.other b!"compression level not supported")), s')
    else (.ret (some .hollow) none, s')
  | (.ret (some (.resp r)) none, s') =>
    match newCompress r level with
    | none => (.ret none (some (.other b!"compression level not supported")), s')
    | some r' => (.ret (some (.resp r')) none, s')
  | (.panic v, s') => (.panic v, s')

/-- What the router makes of a handler's results (`router/router.go:95-103`).  Writing a hollow response panics;
what it leaves in the connection's buffer before that (`net/http` then closes the connection) is not tracked. -/
def act : HRes MResp → Act
  | .ret _ (some _) => .fails
  | .ret none none => .noResponse
  | .ret (some .hollow) none => .panics
  | .ret (some (.resp r)) none => .responds r
  | .panic _ => .panics

/-- The connection after a handler was called (`router/router.go:95-103`). -/
def deliver (env : Env) (req : RReq) (res : HRes MResp) : WRes c :=
  match act res with
  | .fails => bare 500
  | .panics => .panic {}
  | .noResponse => .panic {}
  | .responds r => r.write env req {}

end Gofre.Stack
