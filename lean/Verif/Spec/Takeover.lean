import Verif.Model.Response

/-! # Responses that take the connection over, and the headers CORS is about -/

namespace Gofre.Spec
open Gofre.Response

/-- The response takes the connection over, behind any number of compressing layers. -/
inductive TakesOver : Resp → Prop
  | bare : TakesOver .hijack
  | compressed {level : Int} {r : Resp} : TakesOver r → TakesOver (.compress level r)

/-- The header names of the CORS protocol in answers, and `Vary`. -/
def corsHeaders : List Str :=
  [b!"Vary", b!"Access-Control-Allow-Origin", b!"Access-Control-Allow-Credentials", b!"Access-Control-Expose-Headers", b!"Access-Control-Max-Age",
   b!"Access-Control-Allow-Methods", b!"Access-Control-Allow-Headers"]

end Gofre.Spec
