import Verif.Model.Response
import Verif.Spec.FieldName

/-! # What clients and middlewares rely on in responses -/

namespace Gofre.Spec
open Gofre.Http Gofre.Response

/-- The two loops over maps visit every entry once, in some order. -/
structure Orders (env : Env) : Prop where
  headers : ∀ m, (env.headerOrder m).Perm m
  cookies : ∀ m, (env.cookieOrder m).Perm m

/-- A header field that is in the map under one spelling only. -/
def Field (m : Map Str) (k v : Str) : Prop := (k, v) ∈ m ∧ ∀ k' v', (k', v') ∈ m → SameField k' k → v' = v

/-- No spelling of the key is in the map. -/
def Absent (m : Map Str) (key : Str) : Prop := ∀ k v, (k, v) ∈ m → ¬ SameField k key

/-- The texts of the cookies, invalid ones left out. -/
def cookieTexts (env : Env) (m : Map Cookie) : List Str := (m.map fun kv => env.cookieText kv.2).filter (· ≠ [])

/-- What a header block must contain for a response `r` written to a response writer that already
had the headers `h0`. -/
structure Block (env : Env) (r : HeadResp) (h0 H : Header) : Prop where
  /-- Custom headers are sent (an empty content type or sniffing option counts as none). -/
  custom : ∀ k v, Field (r.headers.getD []) k v →
    (v ≠ [] ∨ (¬ SameField k b!"Content-Type" ∧ ¬ SameField k b!"X-Content-Type-Options")) → ∀ k', SameField k' k → H (canonicalKey k') = [v]
  /-- The default content type, when there is no other. -/
  contentType : Absent (r.headers.getD []) b!"Content-Type" → h0 b!"Content-Type" = [] → r.contentType ≠ [] → H b!"Content-Type" = [r.contentType]
  /-- Sniffing is switched off, when nothing is said about it. -/
  nosniff : Absent (r.headers.getD []) b!"X-Content-Type-Options" → h0 b!"X-Content-Type-Options" = [] → H b!"X-Content-Type-Options" = [b!"nosniff"]
  /-- The cookies are sent, unless a custom header replaces them. -/
  cookies : Absent (r.headers.getD []) b!"Set-Cookie" →
    ∃ l, H b!"Set-Cookie" = h0 b!"Set-Cookie" ++ l ∧ l.Perm (cookieTexts env (r.cookies.getD []))
  /-- Nothing else changes. -/
  others : ∀ k, Absent (r.headers.getD []) k → k ≠ b!"Set-Cookie" → k ≠ b!"Content-Type" → k ≠ b!"X-Content-Type-Options" → H k = h0 k

/-- A status with which a response can be answered. -/
def FinalStatus (code : Int) : Prop := code = 101 ∨ (200 ≤ code ∧ code ≤ 999)

/-- A status whose answers have a body (RFC 9110, 6.4.1). -/
def BodyStatus (code : Int) : Prop := 200 ≤ code ∧ code ≠ 204 ∧ code ≠ 304

instance (code : Int) : Decidable (BodyStatus code) := inferInstanceAs (Decidable (_ ∧ _ ∧ _))

/-- The common part of the responses that begin by writing it. -/
def headOf (req : RReq) : Resp → Option HeadResp
  | .plain h => some h
  | .text h _ => some h
  | .json h _ => some h
  | .raw h _ => some h
  | .stream h _ => some h
  | .template h _ => some h
  | .sse h _ => if req.protoMajor = 2 then some h else none
  | _ => none

/-- Part of the body. -/
def isBody : Ev → Bool
  | .data _ => true
  | .flush => true
  | _ => false

/-- An informational response. -/
def isInfo : Ev → Bool
  | .info _ _ => true
  | _ => false

/-- The client sees one response with header block `H` after what it saw before: informational
responses, one status line with the block, the body. -/
def Answered (before after : List Ev) (code : Nat) (H : Header) : Prop :=
  ∃ pre rest, after = before ++ pre ++ .head code H :: rest ∧ (∀ e ∈ pre, isInfo e = true) ∧ ∀ e ∈ rest, isBody e = true

/-- What was sent to the client once the server is done with the request: after a return the server sends the header block if that
is still to be done; after a panic it only closes the connection. -/
def seen {c : Codec} : WRes c → List Ev
  | .ret _ w => w.base.commit.out
  | .panic w => w.base.out
  | .blocked w => w.base.out

/-- A list of entries as a Go map has them: no key twice. -/
def IsMap {α} (m : Map α) : Prop := (m.map (·.1)).Nodup

instance {α} (m : Map α) : Decidable (IsMap m) := inferInstanceAs (Decidable (m.map (·.1)).Nodup)

/-- No two spellings of a header name with different values. -/
def OneSpelling (m : Map Str) : Prop := ∀ k v k' v', (k, v) ∈ m → (k', v') ∈ m → SameField k k' → v = v'

/-- The value sent for an entry of the header map, if nothing overwrites it: empty ones make way for the content type and for `nosniff`. -/
def sentFor (contentType k v : Str) : Str :=
  if v ≠ [] then v
  else if canonicalKey k = b!"Content-Type" then contentType
  else if canonicalKey k = b!"X-Content-Type-Options" then b!"nosniff"
  else []

/-- An operation of an adapted handler that does not touch a header, and does not panic. -/
def Leaves (key : Str) : Op → Prop
  | .set k _ => ¬ SameField k key
  | .add k _ => ¬ SameField k key
  | .writeHeader code => 100 ≤ code ∧ code ≤ 999
  | _ => True

/-- The responses that pass their headers on: not redirects and hijacked connections, and for event
streams only over HTTP/2; not those that panic before the header block is sent. -/
def Passes (req : RReq) (key : Str) : Resp → Prop
  | .plain h => 100 ≤ h.statusCode ∧ h.statusCode ≤ 999
  | .text h _ => 100 ≤ h.statusCode ∧ h.statusCode ≤ 999
  | .json h _ => 100 ≤ h.statusCode ∧ h.statusCode ≤ 999
  | .raw h _ => 100 ≤ h.statusCode ∧ h.statusCode ≤ 999
  | .stream h _ => 100 ≤ h.statusCode ∧ h.statusCode ≤ 999
  | .template h k => 100 ≤ h.statusCode ∧ h.statusCode ≤ 999 ∧ (k ≠ none ∨ FinalStatus h.statusCode)
  | .sse h _ => req.protoMajor = 2 ∧ FinalStatus h.statusCode
  | .adaptor _ _ ops => ∀ op ∈ ops, Leaves key op
  | .redirect _ _ => False
  | .hijack => False
  | .compress _ r => Passes req key r

/-- The responses that keep their headers and cookies to themselves: redirects, hijacked
connections, event streams asked for over another protocol than HTTP/2, and these compressed. -/
def Deaf (req : RReq) : Resp → Prop
  | .redirect _ _ => True
  | .hijack => True
  | .sse _ _ => req.protoMajor ≠ 2
  | .compress _ r => Deaf req r
  | _ => False

end Gofre.Spec
