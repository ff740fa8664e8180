import Verif.Model.Stack
import Verif.Spec.Stack
import Verif.Props.Middleware
import Verif.Props.Build
import Verif.Props.Serve
import Verif.Props.Compress

/-! # C89–C91: errors, panics and compression, from the handler to the connection -/

namespace Gofre.Props
open Gofre.Http Gofre.Response Gofre.Spec Gofre.Serve Gofre.Path Gofre.MW Gofre.Stack
variable {σ : Type} {env : Env} {c : Codec} {quote : Str → Str} {x : Ext} {other : Str → Str}

/-- The response `ErrJsonResponse` makes of an error, on the connection. -/
theorem err_sent (he : Orders env) (rreq : RReq) (e : Err) :
    ∃ code msg w', DocumentedStatus e code ∧ Says e msg ∧ 400 ≤ code ∧ code ≤ 500 ∧
      (deliver env rreq (.ret (some (.resp (Build.json (statusOf e) (some (some (Build.errorObject quote (errorMessage e))))))) none) : WRes c) = .ret true w' ∧
      Sent env w'.base.out { status := code, type := b!"application/json", body := b!"{\"error\":" ++ quote msg ++ b!"}" } := by
  have h1 : 400 ≤ statusOf e ∧ statusOf e ≤ 500 := by cases e <;> simp [statusOf]
  obtain ⟨w', h2, h3⟩ := c86_sent (c := c) (quote := quote) he
    (r := Build.json (statusOf e) (some (some (Build.errorObject quote (errorMessage e)))))
    (wd := { status := statusOf e, type := b!"application/json", body := b!"{\"error\":" ++ quote (errorMessage e) ++ b!"}" })
    (.json _ (.value _)) (by simp only; omega) rreq (plan := fun _ => none) (fun _ => rfl)
  exact ⟨_, _, w', by cases e <;> constructor, by cases e <;> constructor, h1.1, h1.2, h2, h3⟩

/-- C89: behind `ErrJsonResponse` an error of the handler is answered with its documented status, as JSON, with its
message; responses and panics pass unchanged.  The handler's effects stay. -/
theorem c89_json_error (he : Orders env) (h : Handler σ MResp) (ctx : Ctx) (req : Req) (rreq : RReq) (s : σ) :
    (∀ r e s', h ctx req s = (.ret r (some e), s') →
      ∃ code msg w', DocumentedStatus e code ∧ Says e msg ∧ (errJsonResponse quote h ctx req s).2 = s' ∧
        (deliver env rreq (errJsonResponse quote h ctx req s).1 : WRes c) = .ret true w' ∧
        Sent env w'.base.out { status := code, type := b!"application/json", body := b!"{\"error\":" ++ quote msg ++ b!"}" }) ∧
    (∀ r s', h ctx req s = (.ret r none, s') → errJsonResponse quote h ctx req s = (.ret r none, s')) ∧
    (∀ v s', h ctx req s = (.panic v, s') → errJsonResponse quote h ctx req s = (.panic v, s')) := by
  refine ⟨fun r e s' hh => ?_, (c48_err_response _ h ctx req s).2⟩
  obtain ⟨code, msg, w', h1, h2, _, _, h3, h4⟩ := err_sent (c := c) (quote := quote) he rreq e
  have e1 : errJsonResponse quote h ctx req s = (.ret (some (.resp (Build.json (statusOf e) (some (some (Build.errorObject quote (errorMessage e))))))) none, s') := by
    simp [errJsonResponse, errResponse, hh]
  exact ⟨code, msg, w', h1, h2, by rw [e1], by rw [e1]; exact h3, h4⟩

/-- When the router runs a handler for the request, the connection is what its results make of it. -/
theorem c89_routed (r : Router) (res : Nat → HRes MResp) (rreq : RReq) (path : Str) (buf : List USeg) (fuel : Nat) (k : Nat) (rest : List Path.Event)
    (h : serveHTTP x other r (fun h => behaviour (act (res h))) rreq.method path buf fuel = some (.ran k :: rest)) :
    (serve x other env r (fun h => act (res h)) rreq path buf fuel : Option (WRes c)) = some (deliver env rreq (res k)) := by
  rw [serve_eq, h]
  simp only [Option.map_some, Option.some.injEq]
  unfold deliver onConnection
  cases rest <;> (simp only; cases act (res k) <;> rfl)

/-- A handler that refuses, through the router. -/
example : ∃ (r : Router) (w' : Wr dotCodec), Built plainExt id sortSiblings false [⟨b!"GET", b!"/a", 7⟩] r ∧
    serve plainExt id simpleEnv r (fun _ => act (errJsonResponse (fun s => 34 :: s ++ [34]) (fun _ _ (n : Nat) => (.ret none (some .accessDenied), n)) {} { method := b!"GET" } 0).1)
      {} b!"/a" freshBuf 9 = some (.ret true w') ∧
    Sent simpleEnv w'.base.out { status := 403, type := b!"application/json", body := b!"{\"error\":\"access denied\"}" } := by
  obtain ⟨r, h1, h2⟩ := serve0_spec (l := [(b!"/a", 7)]) (behave := fun _ => .responds false)
    (path := b!"/a") (fuel := 9) (evs := [.ran 7, .wrote 7]) (by decide +kernel)
  obtain ⟨code, msg, w', d1, d2, _, d4, d5⟩ := (c89_json_error (c := dotCodec) (quote := fun s => 34 :: s ++ [34]) simple_orders (fun _ _ (n : Nat) => (.ret none (some .accessDenied), n)) {}
    { method := b!"GET" } {} 0).1 none .accessDenied 0 rfl
  cases d1
  cases d2
  exact ⟨r, w', h1, (c89_routed r (fun _ => _) {} b!"/a" freshBuf 9 7 [.wrote 7] h2).trans (congrArg some d4), d5⟩

/-- C90 when `PanicRecover` is the outermost middleware: a panic with a value is answered with a bare 500, and in
no case does the answer depend on the stack. -/
theorem c90_outermost_partial (h : Handler σ MResp) (ctx : Ctx) (req : Req) (rreq : RReq) (s : σ) (stack : Str) :
    (∀ v s', h ctx req s = (.panic (some v), s') →
      seen (deliver env rreq (panicRecover stack h ctx req s).1 : WRes c) = [.head 500 fun _ => []]) ∧
    ∀ stack', (deliver env rreq (panicRecover stack h ctx req s).1 : WRes c) = deliver env rreq (panicRecover stack' h ctx req s).1 := by
  constructor
  · intro v s' hh
    simp only [panicRecover, hh]
    rfl
  · intro stack'
    unfold panicRecover
    rcases h ctx req s with ⟨(⟨r, e⟩ | ⟨_ | v⟩), s'⟩ <;> rfl

/-- C90 fails whenever `ErrJsonResponse` stands outside `PanicRecover`: every panic sends the stack to the client. -/
theorem c90_violated_never (he : Orders env) (h : Handler σ MResp) (ctx : Ctx) (req : Req) (rreq : RReq) (s s' : σ) (stack v : Str) (hh : h ctx req s = (.panic (some v), s')) :
    ∃ w', (deliver env rreq (errJsonResponse quote (panicRecover stack h) ctx req s).1 : WRes c) = .ret true w' ∧
      Sent env w'.base.out { status := 500, type := b!"application/json", body := b!"{\"error\":" ++ quote (b!"recover from panic, stack: [" ++ stack ++ b!"]") ++ b!"}" } := by
  obtain ⟨code, msg, w', h1, h2, _, h4, h5⟩ := (c89_json_error (c := c) (quote := quote) he (panicRecover stack h) ctx req rreq s).1 none
    (.other (b!"recover from panic, stack: [" ++ stack ++ b!"]")) s' (by simp [panicRecover, hh])
  cases h1
  cases h2
  exact ⟨w', h4, h5⟩

/-- C90 fails: two stacks, two answers. -/
theorem c90_violated : ∃ (h : Handler Nat MResp) (stack stack' : Str),
    bodyOf (deliver simpleEnv {} (errJsonResponse id (panicRecover stack h) {} { method := b!"GET" } 0).1 : WRes dotCodec).w.base.out ≠
      bodyOf (deliver simpleEnv {} (errJsonResponse id (panicRecover stack' h) {} { method := b!"GET" } 0).1 : WRes dotCodec).w.base.out :=
  ⟨fun _ _ n => (.panic (some b!"boom"), n), b!"main.go:12", b!"secret.go:7", by decide⟩

example : seen (deliver simpleEnv {} (panicRecover b!"main.go:12" (fun _ _ (n : Nat) => ((.panic (some b!"boom") : HRes MResp), n)) {} { method := b!"GET" } 0).1 : WRes dotCodec) =
    [.head 500 fun _ => []] := rfl

/-- C55 for the middleware: whatever a handler returns without error, the middleware fails exactly for the levels outside -1 to 9. -/
theorem c55_middleware (level : Int) (h : Handler σ MResp) (ctx : Ctx) (req : Req) (s : σ) {a : Option MResp} {s' : σ} (hh : h ctx req s = (.ret a none, s')) :
    (-1 ≤ level ∧ level ≤ 9 → ∃ b, compressResponse level h ctx req s = (.ret (some b) none, s')) ∧
    (¬ (-1 ≤ level ∧ level ≤ 9) → ∃ e, compressResponse level h ctx req s = (.ret none (some e), s')) := by
  have hn : ¬ (-1 ≤ level ∧ level ≤ 9) ↔ level < -1 ∨ level > 9 := by omega
  rw [hn]
  rcases a with _ | _ | r
  · simp only [compressResponse, hh]
    exact ⟨fun hl => ⟨_, if_neg (by omega)⟩, fun hl => ⟨_, if_pos hl⟩⟩
  · simp only [compressResponse, hh, newCompress]
    refine ⟨fun hl => ?_, fun hl => ?_⟩
    · rw [if_neg (by omega)]; exact ⟨_, rfl⟩
    · rw [if_pos hl]; exact ⟨_, rfl⟩
  · simp only [compressResponse, hh]
    exact ⟨fun hl => ⟨_, if_neg (by omega)⟩, fun hl => ⟨_, if_pos hl⟩⟩

example : compressResponse (-2) (fun _ _ (n : Nat) => (.ret none none, n + 1)) {} { method := b!"GET" } 0 =
    (.ret none (some (.other b!"compression level not supported")), 1) := rfl

/-- C91: errors and panics pass unchanged, and the handler's effects stay; with a usable level every response
is wrapped, with the same status, headers and cookies. -/
theorem c91_passes (level : Int) (h : Handler σ MResp) (ctx : Ctx) (req : Req) (s : σ) :
    (∀ r e s', h ctx req s = (.ret r (some e), s') → compressResponse level h ctx req s = (.ret none (some e), s')) ∧
    (∀ v s', h ctx req s = (.panic v, s') → compressResponse level h ctx req s = (.panic v, s')) ∧
    (∀ r s', -1 ≤ level → level ≤ 9 → h ctx req s = (.ret (some (.resp r)) none, s') →
      ∃ r', compressResponse level h ctx req s = (.ret (some (.resp r')) none, s') ∧ r'.statusCode = r.statusCode ∧ r'.headers = r.headers ∧ r'.cookies = r.cookies) := by
  refine ⟨fun r e s' hh => by simp [compressResponse, hh], fun v s' hh => by simp [compressResponse, hh], fun r s' h1 h2 hh => ?_⟩
  obtain ⟨r', hr⟩ := (c55_levels r level).2 ⟨h1, h2⟩
  have := c55_preserves hr id id
  exact ⟨r', by simp [compressResponse, hh, hr], this.1, this.2.1, this.2.2.1⟩

/-- A failing handler, and a successful one. -/
example : (compressResponse 9 (fun _ _ (n : Nat) => (.ret none (some .accessDenied), n + 1)) {} { method := b!"GET" } 0) = (.ret none (some .accessDenied), 1) ∧
    (compressResponse (-1) (fun _ _ (n : Nat) => (.ret (some (.resp (.text {} b!"hi"))) none, n + 1)) {} { method := b!"GET" } 0) =
      (.ret (some (.resp (.compress (-1) (.text {} b!"hi")))) none, 1) := ⟨rfl, rfl⟩

/-- C91 (usable level, a response of a kind with a common header part, a status that allows a body, no
`Content-Encoding` of its own, not compressed already): if the client lists no encoding the server understands, it gets what it would get without the
middleware; otherwise the same status and a body that decodes, in the announced encoding, which is the one to be chosen for the client, to the same body. -/
theorem c91_decodes_partial (he : Orders env) {decode : Alg → Str → Option Str} (hd : Lossless c decode) {level : Int} (hlev : -1 ≤ level ∧ level ≤ 9)
    (h : Handler σ MResp) (ctx : Ctx) (req : Req) (rreq : RReq) (s s' : σ) {r : Resp} (hh : h ctx req s = (.ret (some (.resp r)) none, s')) {hr : HeadResp} (hk : headOf rreq r = some hr)
    (hf : FinalStatus hr.statusCode) (hb : BodyStatus hr.statusCode) (ha : Absent (hr.headers.getD []) b!"Content-Encoding")
    {ok : Bool} {w' : Wr c} (hw : deliver env rreq (h ctx req s).1 = .ret ok w') :
    ((deliver env rreq (compressResponse level h ctx req s).1 : WRes c) = .ret ok w' ∧ ¬ Understood rreq.acceptEncoding) ∨
    ∃ a w1 H rest, Chosen rreq.acceptEncoding a ∧ (deliver env rreq (compressResponse level h ctx req s).1 : WRes c) = .ret ok w1 ∧ w1.base.out = .head hr.statusCode.toNat H :: rest ∧
      H b!"Content-Encoding" = [encodingName a] ∧ decode a (bodyOf w1.base.out) = some (bodyOf w'.base.out) := by
  have hc : newCompress r level = some (.compress level r) := by unfold newCompress; rw [if_neg (by omega)]
  have e1 : (deliver env rreq (compressResponse level h ctx req s).1 : WRes c) = (Resp.compress level r).write env rreq {} := by
    simp [compressResponse, hh, hc, deliver, act]
  rw [hh] at hw
  have hw : r.write env rreq ({} : Wr c) = .ret ok w' := hw
  rw [e1]
  exact c74_decodes_partial (c := c) he hd hlev hk rfl rfl hf hb rfl (fun _ => rfl) ha hw

/-- A compressed text. -/
example : ∃ (a : Alg) (w1 : Wr dotCodec) (H : Header) (rest : List Ev),
    (deliver simpleEnv { acceptEncoding := b!"gzip" } (compressResponse 9 (fun _ _ (n : Nat) => (.ret (some (.resp (.text {} b!"hi"))) none, n)) {} { method := b!"GET" } 0).1 : WRes dotCodec) = .ret true w1 ∧
      w1.base.out = .head 200 H :: rest ∧ H b!"Content-Encoding" = [encodingName a] ∧ undot a (bodyOf w1.base.out) = some b!"hi" := ⟨.gzip, _, _, _, rfl, rfl, by decide, by decide⟩

/-- C91 fails for a level out of range: the middleware is created without complaint, and every answered request
becomes a bare 500 after the handler has run. -/
theorem c91_violated {level : Int} (hlev : level < -1 ∨ level > 9) (h : Handler σ MResp) (ctx : Ctx) (req : Req) (rreq : RReq) (s s' : σ) (r : Option MResp)
    (hh : h ctx req s = (.ret r none, s')) :
    (compressResponse level h ctx req s).2 = s' ∧ seen (deliver env rreq (compressResponse level h ctx req s).1 : WRes c) = [.head 500 fun _ => []] := by
  cases r with
  | none => simp only [compressResponse, hh, if_pos hlev]; exact ⟨trivial, rfl⟩
  | some r =>
    cases r with
    | hollow => simp only [compressResponse, hh, if_pos hlev]; exact ⟨trivial, rfl⟩
    | resp r =>
      have hc : newCompress r level = none := by unfold newCompress; rw [if_pos hlev]
      simp only [compressResponse, hh, hc]
      exact ⟨trivial, rfl⟩

example : (compressResponse 10 (fun _ _ (n : Nat) => (.ret (some (.resp (.text {} b!"hi"))) none, n + 1)) {} { method := b!"GET" } 0).2 = 1 := rfl

end Gofre.Props
