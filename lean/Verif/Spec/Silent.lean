import Verif.Spec.Response

/-! # Responses that leave the client without an answer -/

namespace Gofre.Spec
open Gofre.Http Gofre.Response

/-- A code `WriteHeader` panics on. -/
def BadCode (code : Int) : Prop := code < 100 ∨ 999 < code

/-- A code of an interim response. -/
def Interim (code : Int) : Prop := 100 ≤ code ∧ code ≤ 199 ∧ code ≠ 101

/-- What an adapted handler can do without the status line being sent. -/
def Unsent : Op → Prop
  | .set _ _ => True
  | .add _ _ => True
  | .writeHeader code => Interim code
  | .write _ => False
  | .flush => False

/-- Responses whose writing panics or waits for ever before the status line is sent. -/
def Silent (req : RReq) : Resp → Prop
  | .template h body => body = none ∧ Interim h.statusCode
  | .redirect h _ => BadCode h.status
  | .adaptor _ _ ops => ∃ pre code post, ops = pre ++ .writeHeader code :: post ∧ (∀ op ∈ pre, Unsent op) ∧ BadCode code
  | .sse h feed => req.protoMajor = 2 ∧ Interim h.statusCode ∧ feed.events = [] ∧ feed.closes = false
  | .compress _ r => Silent req r
  | _ => False

end Gofre.Spec
