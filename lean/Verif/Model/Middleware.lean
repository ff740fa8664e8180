import Verif.Model.Handler

/-!
# Authorisation, panic and error middlewares
(`middleware/authz.go`, `middleware/auth.go`, `middleware/panic.go`, `middleware/errors.go`)
-/

namespace Gofre.MW
variable {σ ρ : Type}

/-- The `matchAllPermissions` loop (`middleware/authz.go:49-53`). -/
def hasAll (p : Principal) : List Auth.Permission → Bool
  | [] => true
  | q :: qs => if p.hasPermission q then hasAll p qs else false

/-- The other loop (`middleware/authz.go:56-60`). -/
def hasAny (p : Principal) : List Auth.Permission → Bool
  | [] => false
  | q :: qs => if p.hasPermission q then true else hasAny p qs

/-- `Authorize` (`middleware/authz.go:37-65`); the supplier may have effects. -/
def authorize (supplier : Ctx → Req → σ → Except Err (List Auth.Permission) × σ)
    (matchAll : Bool) : Middleware σ ρ := fun handler ctx req s =>
  match supplier ctx req s with
  | (.error e, s') => (.ret none (some e), s')
  | (.ok perms, s') =>
    match ctx.principal with
    | none => (.ret none (some .unauthorized), s')
    | some p =>
      if matchAll then
        if hasAll p perms then handler ctx req s' else (.ret none (some .unauthorized), s')
      else
        if hasAny p perms then handler ctx req s' else (.ret none (some .unauthorized), s')

/-- `AuthorizeAll` (`middleware/authz.go:18-22`). -/
def authorizeAll (perms : List Auth.Permission) : Middleware σ ρ :=
  authorize (fun _ _ s => (.ok perms, s)) true

/-- `AuthorizeAny` (`middleware/authz.go:27-31`). -/
def authorizeAny (perms : List Auth.Permission) : Middleware σ ρ :=
  authorize (fun _ _ s => (.ok perms, s)) false

/-- `SecurityPrincipalSupplier` (`middleware/auth.go:15-28`). -/
def principalSupplier (sps : Ctx → Req → σ → Except Err (Option Principal) × σ) :
    Middleware σ ρ := fun handler ctx req s =>
  match sps ctx req s with
  | (.error e, s') => (.ret none (some e), s')
  | (.ok none, s') => handler ctx req s'
  | (.ok (some p), s') => handler { ctx with principal := some p } req s'

/-- `PanicRecover` (`middleware/panic.go:14-26`).  `recover()` returns nil both when nothing
panicked and after `panic(nil)` (`go.mod` selects Go 1.19 semantics), in which case the named
results keep their zero values.  `stack` is what `debug.Stack()` returns. -/
def panicRecover (stack : Str) : Middleware σ ρ := fun handler ctx req s =>
  match handler ctx req s with
  | (.ret r e, s') => (.ret r e, s')
  | (.panic (some _), s') => (.ret none (some (.other (b!"recover from panic, stack: [" ++ stack ++ b!"]"))), s')
  | (.panic none, s') => (.ret none none, s')

/-- `Error2HttpStatusCode` (`middleware/errors.go:16-28`). -/
def statusOf : Err → Nat
  | .badRequest _ => 400
  | .notFound _ => 404
  | .unauthorized => 401
  | .wrongCredentials => 403
  | .accessDenied => 403
  | .other _ => 500

/-- `ErrResponse` (`middleware/errors.go:40-51`). -/
def errResponse (supplier : Nat → Err → ρ) : Middleware σ ρ := fun handler ctx req s =>
  match handler ctx req s with
  | (.ret _ (some e), s') => (.ret (some (supplier (statusOf e) e)) none, s')
  | r => r

end Gofre.MW
