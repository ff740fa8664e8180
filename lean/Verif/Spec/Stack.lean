import Verif.Model.Handler

/-! # What the framework's errors say -/

namespace Gofre.Spec

/-- The message of each kind of error. -/
inductive Says : Err → Str → Prop
  | bad (m) : Says (.badRequest m) m
  | notFound (m) : Says (.notFound m) m
  | unauthorized : Says .unauthorized b!"unauthorized request"
  | credentials : Says .wrongCredentials b!"wrong credentials"
  | denied : Says .accessDenied b!"access denied"
  | other (m) : Says (.other m) m

end Gofre.Spec
