import Verif.Model.Response

/-!
# The functions that construct responses (`response/*.go`)

Headers and cookies that are `none` are nil maps.
-/

namespace Gofre.Build
open Gofre.Response

/-- `plainTextContentType` (`response/template.go:13`). -/
def plainType : Str := b!"text/plain; charset=utf-8"
/-- `htmlContentType` (`response/template.go:12`). -/
def htmlType : Str := b!"text/html; charset=utf-8"
/-- `jsonContentType` (`response/json.go:12`). -/
def jsonType : Str := b!"application/json"
/-- `eventStreamContentType` (`response/sse.go:14`). -/
def eventType : Str := b!"text/event-stream"

abbrev Hs := Option (Map Str)
abbrev Ks := Option (Map Cookie)

/-- `PlainTextResponseWithHeadersAndCookies` (`response/text.go:42-52`). -/
def plainTextWithHeadersAndCookies (status : Int) (payload : Str) (hs : Hs) (ks : Ks) : Resp := .text ⟨status, plainType, hs, ks⟩ payload
/-- `PlainTextHttpResponseOK` (`response/text.go:25-27`). -/
def plainTextOK (payload : Str) : Resp := plainTextWithHeadersAndCookies 200 payload none none
/-- `PlainTextHttpResponse` (`response/text.go:30-32`). -/
def plainText (status : Int) (payload : Str) : Resp := plainTextWithHeadersAndCookies status payload none none
/-- `PlainTextHttpResponseWithHeaders` (`response/text.go:36-38`). -/
def plainTextWithHeaders (status : Int) (payload : Str) (hs : Hs) : Resp := plainTextWithHeadersAndCookies status payload hs none

/-- `HtmlResponseWithHeadersAndCookies` (`response/text.go:72-82`). -/
def htmlWithHeadersAndCookies (status : Int) (payload : Str) (hs : Hs) (ks : Ks) : Resp := .text ⟨status, htmlType, hs, ks⟩ payload
/-- `HtmlHttpResponseOK` (`response/text.go:55-57`). -/
def htmlOK (payload : Str) : Resp := htmlWithHeadersAndCookies 200 payload none none
/-- `HtmlHttpResponse` (`response/text.go:60-62`). -/
def html (status : Int) (payload : Str) : Resp := htmlWithHeadersAndCookies status payload none none
/-- `HtmlHttpResponseWithHeaders` (`response/text.go:66-68`). -/
def htmlWithHeaders (status : Int) (payload : Str) (hs : Hs) : Resp := htmlWithHeadersAndCookies status payload hs none

/-- A payload for JSON: nil (`none`), or a value and the text `json.Marshal` gives for it (`none`: it fails). -/
abbrev JsonPayload := Option (Option Str)

/-- `JsonHttpResponseWithHeadersAndCookies` (`response/json.go:67-77`). -/
def jsonWithHeadersAndCookies (status : Int) (payload : JsonPayload) (hs : Hs) (ks : Ks) : Resp := .json ⟨status, jsonType, hs, ks⟩ payload
/-- `JsonHttpResponseOK` (`response/json.go:47-49`). -/
def jsonOK (payload : JsonPayload) : Resp := jsonWithHeadersAndCookies 200 payload none none
/-- `JsonHttpResponse` (`response/json.go:52-54`). -/
def json (status : Int) (payload : JsonPayload) : Resp := jsonWithHeadersAndCookies status payload none none
/-- `JsonHttpResponseWithCookies` (`response/json.go:57-59`). -/
def jsonWithCookies (status : Int) (payload : JsonPayload) (ks : Ks) : Resp := jsonWithHeadersAndCookies status payload none ks
/-- `JsonHttpResponseWithHeaders` (`response/json.go:62-64`). -/
def jsonWithHeaders (status : Int) (payload : JsonPayload) (hs : Hs) : Resp := jsonWithHeadersAndCookies status payload hs none

/-- `errorToString` (`response/json.go:110-116`); `none` is a nil error. -/
def errorToString : Option Str → Str
  | none => []
  | some m => if m = [] then [] else errorText m

/-- `json.Marshal` of a map with the one key `error`; `quote` encodes a text. -/
def errorObject (quote : Str → Str) (s : Str) : Str := b!"{\"error\":" ++ quote s ++ b!"}"

/-- `JsonErrorHttpResponseWithHeadersAndCookies` (`response/json.go:98-108`). -/
def jsonErrorWithHeadersAndCookies (quote : Str → Str) (status : Int) (err : Option Str) (hs : Hs) (ks : Ks) : Resp :=
  .json ⟨status, jsonType, hs, ks⟩ (some (some (errorObject quote (errorToString err))))
/-- `JsonErrorHttpResponse` (`response/json.go:80-82`). -/
def jsonError (quote : Str → Str) (status : Int) (err : Option Str) : Resp := jsonErrorWithHeadersAndCookies quote status err none none
/-- `JsonErrorHttpResponseWithCookies` (`response/json.go:86-88`). -/
def jsonErrorWithCookies (quote : Str → Str) (status : Int) (err : Option Str) (ks : Ks) : Resp := jsonErrorWithHeadersAndCookies quote status err none ks
/-- `JsonErrorHttpResponseWithHeaders` (`response/json.go:92-94`). -/
def jsonErrorWithHeaders (quote : Str → Str) (status : Int) (err : Option Str) (hs : Hs) : Resp := jsonErrorWithHeadersAndCookies quote status err hs none

/-- `RawWriterHttpResponseWithHeadersAndCookies` (`response/raw.go:51-61`). -/
def rawWithHeadersAndCookies (status : Int) (contentType : Str) (hs : Hs) (ks : Ks) (write : Option Chunks) : Resp := .raw ⟨status, contentType, hs, ks⟩ write
/-- `RawWriterHttpResponse` (`response/raw.go:33-35`). -/
def raw (contentType : Str) (write : Option Chunks) : Resp := rawWithHeadersAndCookies 200 contentType none none write
/-- `RawWriterHttpResponseWithHeaders` (`response/raw.go:39-41`). -/
def rawWithHeaders (status : Int) (contentType : Str) (hs : Hs) (write : Option Chunks) : Resp := rawWithHeadersAndCookies status contentType hs none write
/-- `RawWriterHttpResponseWithCookies` (`response/raw.go:45-47`). -/
def rawWithCookies (status : Int) (contentType : Str) (ks : Ks) (write : Option Chunks) : Resp := rawWithHeadersAndCookies status contentType none ks write

/-- `StreamHttpResponseWithHeadersAndCookies` (`response/streaming.go:49-59`). -/
def streamWithHeadersAndCookies (status : Int) (contentType : Str) (hs : Hs) (ks : Ks) (reader : Option Chunks) : Resp := .stream ⟨status, contentType, hs, ks⟩ reader
/-- `StreamHttpResponse` (`response/streaming.go:31-33`). -/
def stream (contentType : Str) (reader : Option Chunks) : Resp := streamWithHeadersAndCookies 200 contentType none none reader
/-- `StreamHttpResponseWithHeaders` (`response/streaming.go:37-39`). -/
def streamWithHeaders (status : Int) (contentType : Str) (hs : Hs) (reader : Option Chunks) : Resp := streamWithHeadersAndCookies status contentType hs none reader
/-- `StreamHttpResponseWithCookies` (`response/streaming.go:43-45`). -/
def streamWithCookies (status : Int) (contentType : Str) (ks : Ks) (reader : Option Chunks) : Resp := streamWithHeadersAndCookies status contentType none ks reader

/-- A template: whether it is an `*html.Template`, and what executing it with the name and the data
writes (`none`: a nil interface, which cannot be executed).  `NilTemplate` (`response/template.go:21-29`)
is `⟨false, some ⟨[], false⟩⟩`. -/
structure Template where
  isHtml : Bool
  result : Option Chunks

/-- `TemplateHttpResponseWithHeadersAndCookies` (`response/template.go:75-97`). -/
def templateWithHeadersAndCookies (t : Template) (status : Int) (hs : Hs) (ks : Ks) : Resp :=
  let given := ((hs.getD []).get? b!"Content-Type").getD []
  .template ⟨status, if given ≠ [] then given else if t.isHtml then htmlType else plainType, hs, ks⟩ t.result
/-- `TemplateHttpResponseOK` (`response/template.go:52-54`). -/
def templateOK (t : Template) : Resp := templateWithHeadersAndCookies t 200 none none
/-- `TemplateHttpResponseNotFound` (`response/template.go:57-59`). -/
def templateNotFound (t : Template) : Resp := templateWithHeadersAndCookies t 404 none none
/-- `TemplateHttpResponseWithHeaders` (`response/template.go:63-65`). -/
def templateWithHeaders (t : Template) (status : Int) (hs : Hs) : Resp := templateWithHeadersAndCookies t status hs none
/-- `TemplateHttpResponseWithCookies` (`response/template.go:69-71`). -/
def templateWithCookies (t : Template) (status : Int) (ks : Ks) : Resp := templateWithHeadersAndCookies t status none ks

/-- `InternalServerErrorHttpResponse` (`response/headers.go:82-86`). -/
def internalServerError : Resp := .plain { status := 500 }

/-- `redirectHttpResponse` (`response/redirect.go:34-41`). -/
def redirectWith (status : Int) (url : Str) : Resp := .redirect { status } url
/-- `RedirectHttpResponseMovedPermanently` (`response/redirect.go:20-22`). -/
def redirectMovedPermanently (url : Str) : Resp := redirectWith 301 url
/-- `RedirectHttpResponse` (`response/redirect.go:25-27`). -/
def redirectFound (url : Str) : Resp := redirectWith 302 url
/-- `RedirectHttpResponseSeeOther` (`response/redirect.go:30-32`). -/
def redirectSeeOther (url : Str) : Resp := redirectWith 303 url

/-- `SSEHttpResponseWithHeadersAndCookies` (`response/sse.go:124-134`). -/
def sseWithHeadersAndCookies (feed : Feed) (hs : Hs) (ks : Ks) : Resp := .sse ⟨200, eventType, hs, ks⟩ feed
/-- `SSEHttpResponse` (`response/sse.go:113-115`). -/
def sse (feed : Feed) : Resp := sseWithHeadersAndCookies feed none none
/-- `SSEHttpResponseWithHeaders` (`response/sse.go:118-120`). -/
def sseWithHeaders (feed : Feed) (hs : Hs) : Resp := sseWithHeadersAndCookies feed hs none

/-- `HandlerAdaptor` and `HandlerFuncAdaptor` (`response/adaptor.go:54-65`), also
`Handler2Handler` and `HandlerFunc2Handler` (`handler/handler.go:14-25`). -/
def adapt (ops : List Op) : Resp := .adaptor none none ops

end Gofre.Build
