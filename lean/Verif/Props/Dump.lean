import Verif.Model.Dump
import Verif.Props.Response

/-! # C85: dumping requests -/

namespace Gofre.Props
open Gofre.Http Gofre.Response Gofre.Spec Gofre.Dump
variable {env : Env} {c : Codec} {σ : Type}

theorem custom_getD (he : Orders env) (hs : Option (Map Str)) (h : Header) : customHeaders env (some (hs.getD [])) h = customHeaders env hs h := by
  cases hs with
  | some m => rfl
  | none =>
    have : env.headerOrder [] = [] := (he.headers []).eq_nil
    simp [customHeaders, this]

theorem cookie_getD (he : Orders env) (ks : Option (Map Cookie)) (h : Header) : cookieHeaders env (some (ks.getD [])) h = cookieHeaders env ks h := by
  cases ks with
  | some m => rfl
  | none =>
    have : env.cookieOrder [] = [] := (he.cookies []).eq_nil
    simp [cookieHeaders, this]

theorem without_getD (drop : Bool) (hs : Option (Map Str)) : Response.without drop (some (hs.getD [])) = some ((Response.without drop hs).getD []) := by
  cases hs <;> cases drop <;> rfl

/-- The common part with its maps created. -/
theorem head_touch (he : Orders env) (drop : Bool) (h : HeadResp) (w : Wr c) :
    headWrite env (HeadResp.without drop { h with headers := some (h.headers.getD []), cookies := some (h.cookies.getD []) }) w = headWrite env (h.without drop) w := by
  unfold headWrite HeadResp.without
  simp only [without_getD, custom_getD he, cookie_getD he]
  rfl

theorem touch_writeWith (he : Orders env) (req : RReq) : ∀ (r : Resp) (drop : Bool) (w : Wr c), (touch r).writeWith env req drop w = r.writeWith env req drop w
  | .plain h, drop, w => head_touch he drop h w
  | .text h p, drop, w => by
    have := head_touch he drop h w
    simp only [touch, Resp.mapHeaders, Resp.mapCookies, Resp.writeWith, id] at *; rw [this]
  | .json h p, drop, w => by
    have := head_touch he drop h w
    simp only [touch, Resp.mapHeaders, Resp.mapCookies, Resp.writeWith, id] at *; rw [this]
  | .raw h p, drop, w => by
    have := head_touch he drop h w
    simp only [touch, Resp.mapHeaders, Resp.mapCookies, Resp.writeWith, id] at *; rw [this]
  | .stream h p, drop, w => by
    have := head_touch he drop h w
    simp only [touch, Resp.mapHeaders, Resp.mapCookies, Resp.writeWith, id] at *; rw [this]
  | .template h p, drop, w => by
    have := head_touch he drop h w
    simp only [touch, Resp.mapHeaders, Resp.mapCookies, Resp.writeWith, id] at *; rw [this]
  | .redirect h p, drop, w => rfl
  | .adaptor hs ks ops, drop, w => by
    simp only [touch, Resp.mapHeaders, Resp.mapCookies, Resp.writeWith, id, without_getD, custom_getD he, cookie_getD he]
  | .hijack, drop, w => rfl
  | .sse h feed, drop, w => by
    have := head_touch he drop h w
    simp only [touch, Resp.mapHeaders, Resp.mapCookies, Resp.writeWith, id] at *; rw [this]
  | .compress l r, drop, w => by
    have ih := touch_writeWith he req r
    simp only [touch, Resp.mapHeaders, Resp.mapCookies, Resp.writeWith] at *
    simp only [ih]

theorem touch_status : ∀ r : Resp, (touch r).statusCode = r.statusCode
  | .compress l r => touch_status r
  | .plain _ | .text _ _ | .json _ _ | .raw _ _ | .stream _ _ | .template _ _ | .redirect _ _ | .adaptor _ _ _ | .hijack | .sse _ _ => rfl

theorem touch_headers : ∀ r : Resp, (touch r).headers = r.headers
  | .compress l r => touch_headers r
  | .plain _ | .text _ _ | .json _ _ | .raw _ _ | .stream _ _ | .template _ _ | .redirect _ _ | .adaptor _ _ _ | .hijack | .sse _ _ => rfl

theorem touch_cookies : ∀ r : Resp, (touch r).cookies = r.cookies
  | .compress l r => touch_cookies r
  | .plain _ | .text _ _ | .json _ _ | .raw _ _ | .stream _ _ | .template _ _ | .redirect _ _ | .adaptor _ _ _ | .hijack | .sse _ _ => rfl

/-- C85: the dumper changes neither what the client gets nor what outer middlewares see of the response,
and hands errors on; the only effect is the one call of the logger. -/
theorem c85_transparent (he : Orders env) (sent : Map (List Str) → List Str) (log : Document → σ → σ) (h : DHandler σ) (s : σ) (req : DReq) :
    (∀ r, (h s req).out = .ok (some r) → ∃ r' doc, (requestDumper env sent log h s req).out = .ok (some r') ∧
      (requestDumper env sent log h s req).state = log doc (h s req).state ∧
      r'.statusCode = r.statusCode ∧ r'.headers = r.headers ∧ r'.cookies = r.cookies ∧
      ∀ (c : Codec) rreq (w : Wr c), r'.write env rreq w = r.write env rreq w) ∧
    (∀ e, (h s req).out = .err e → (requestDumper env sent log h s req).out = .err e ∧ (requestDumper env sent log h s req).state = (h s req).state) := by
  constructor
  · intro r hr
    unfold requestDumper
    simp only [hr]
    exact ⟨_, _, rfl, rfl, touch_status r, touch_headers r, touch_cookies r, fun c rreq w => touch_writeWith he rreq r false w⟩
  · intro e hr
    unfold requestDumper
    simp [hr]

/-- C85 (not covered: handlers that change the header or form map, see `c85_violated`, and forms that are not parsed yet, see `c85_violated_form`):
the document shows the request as it was received and the response as it was returned. -/
theorem c85_document_partial (sent : Map (List Str) → List Str) (log : Document → σ → σ) (h : DHandler σ) (s : σ) (req : DReq) {r : Resp}
    (hr : (h s req).out = .ok (some r)) (hh : (h s req).header = req.header) (hf : (h s req).form = req.form) :
    ∃ doc, (requestDumper env sent log h s req).state = log doc (h s req).state ∧ doc.request = req ∧ doc.requestCookies = sent req.header ∧
      doc.status = r.statusCode ∧ doc.responseHeader = r.headers ∧ (Orders env → doc.responseCookies.Perm ((r.cookies.getD []).map fun kv => env.cookieText kv.2)) := by
  unfold requestDumper
  simp only [hr, hh, hf]
  exact ⟨_, rfl, rfl, rfl, rfl, rfl, fun he => (he.cookies _).map _⟩

/-- C85, exactly, for answered requests: one document is logged, and it shows the request as it was received if and only if the handler
has left the header and the form map as they were. -/
theorem c85_exact (sent : Map (List Str) → List Str) (h : DHandler (List Document)) (s : List Document) (req : DReq) {r : Resp} (hr : (h s req).out = .ok (some r)) :
    ∃ doc, (requestDumper env sent (fun d s => s ++ [d]) h s req).state = (h s req).state ++ [doc] ∧
      (doc.request = req ↔ (h s req).header = req.header ∧ (h s req).form = req.form) := by
  unfold requestDumper
  simp only [hr]
  refine ⟨_, rfl, fun h => ?_, fun ⟨h1, h2⟩ => by simp only [h1, h2]⟩
  dsimp only at h
  exact ⟨congrArg DReq.header h, congrArg DReq.form h⟩

/-- A handler that counts calls and answers with its header `X-A`. -/
def countCalls : DHandler (List Document) := fun s req =>
  { out := .ok (some (.text { headers := some [(b!"x-a", b!"1")], cookies := some [(b!"k::", { name := b!"k", value := b!"v" })] } b!"hi")), state := s, header := req.header, form := req.form }

example : (requestDumper simpleEnv (fun _ => [b!"q=1"]) (fun d s => s ++ [d]) countCalls [] { uri := b!"/x", header := [(b!"Cookie", [b!"q=1"])] }).state =
    [{ request := { uri := b!"/x", header := [(b!"Cookie", [b!"q=1"])] }, requestCookies := [b!"q=1"], status := 200,
       responseHeader := some [(b!"x-a", b!"1")], responseCookies := [b!"k=v"] }] := by decide

/-- C85 fails for "before processing": a header the handler adds to the request is dumped as one the client sent. -/
theorem c85_violated : ∃ (h : DHandler (List Document)) (req : DReq) (doc : Document), req.header = [] ∧
    (requestDumper simpleEnv (fun _ => []) (fun d s => s ++ [d]) h [] req).state = [doc] ∧ doc.request.header = [(b!"X-User", [b!"admin"])] :=
  ⟨fun s req => { out := .ok (some (.text {} b!"hi")), state := s, header := req.header.set b!"X-User" [b!"admin"], form := req.form },
    {}, _, rfl, rfl, by decide⟩

/-- C85 fails for forms: whatever the handler reads, the document has no form fields unless the form was parsed before. -/
theorem c85_violated_form (sent : Map (List Str) → List Str) (h : DHandler (List Document)) (req : DReq) (r : Resp)
    (hr : (h [] req).out = .ok (some r)) (hn : req.form = none) (hk : (h [] req).form = req.form) :
    ∃ doc, (requestDumper env sent (fun d s => s ++ [d]) h [] req).state = (h [] req).state ++ [doc] ∧ doc.request.form = none := by
  unfold requestDumper
  simp only [hr]
  exact ⟨_, rfl, by simp [hk, hn]⟩

example : ∃ doc, (requestDumper simpleEnv (fun _ => []) (fun d s => s ++ [d]) countCalls [] { uri := b!"/x?a=1" }).state = [] ++ [doc] ∧ doc.request.form = none :=
  c85_violated_form _ _ _ _ rfl rfl rfl

/-- C85 fails for requests that end in an error: nothing is dumped. -/
theorem c85_violated_error (sent : Map (List Str) → List Str) (log : Document → σ → σ) (h : DHandler σ) (s : σ) (req : DReq) {e : Err} (hr : (h s req).out = .err e) :
    (requestDumper env sent log h s req).state = (h s req).state := by
  unfold requestDumper
  simp [hr]

example : (requestDumper simpleEnv (fun _ => []) (fun d s => s ++ [d]) (fun s req => { out := .err .accessDenied, state := s, header := req.header, form := req.form }) [] {}).state = [] :=
  c85_violated_error _ _ _ _ _ rfl

end Gofre.Props
