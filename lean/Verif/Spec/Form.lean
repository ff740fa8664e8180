import Verif.Model.Handler

/-!
# What a client sends in a form
-/

namespace Gofre.Spec

/-- The first value given under a name in the query string or the form body; the empty text when there is none. -/
def given (r : Req) (k : Str) : Str := ((r.form.lookup k).getD []).headD []

end Gofre.Spec
