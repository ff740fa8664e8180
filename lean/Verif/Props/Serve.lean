import Verif.Model.Serve
import Verif.Props.Response
import Verif.Props.Router

/-! # C84: one answer on the connection for every request -/

namespace Gofre.Response
open Gofre.Http Gofre.Spec
variable {env : Env} {c : Codec} {out0 : List Ev}

/-- `Good` without a condition on a header. -/
abbrev Fine (out0 : List Ev) (w : W) : Prop := Good (fun _ => True) [] out0 w

theorem fine_set {w : Wr c} (h : Fine out0 w.base) (H : Header) : Fine out0 (w.setHeader H).base := by
  cases h with
  | before pre hs ho hp hv => exact .before pre hs ho hp trivial
  | after code H' hs ho hv => exact .after code H' hs ho hv

theorem fine_head {h : HeadResp} {w : Wr c} (hw : Fine out0 w.base) : Fine out0 (headWrite env h w).w.base := by
  unfold headWrite
  split
  · exact hw
  · simp only
    split
    · exact fine_set hw _
    · rename_i w' h'
      exact (fine_set hw _).wrWriteHeader h'

theorem fine_andThen {r : WRes c} {f : Wr c → WRes c} (h : Fine out0 r.w.base) (hf : ∀ w, Fine out0 w.base → Fine out0 (f w).w.base) :
    Fine out0 (r.andThen f).w.base := by
  unfold WRes.andThen
  split
  · exact hf _ h
  · exact h

theorem fine_ops : ∀ (l : List Op) {w : Wr c}, Fine out0 w.base → Fine out0 (runOps l w).w.base
  | [], _, h => h
  | .set _ _ :: l, _, h => fine_ops l (fine_set h _)
  | .add _ _ :: l, _, h => fine_ops l (fine_set h _)
  | .writeHeader code :: l, w, h => by
    unfold runOps
    split
    · exact h
    · rename_i w1 hw
      exact fine_ops l (h.wrWriteHeader hw)
  | .write b :: l, _, h => fine_ops l (h.wrWrite b)
  | .flush :: l, _, h => fine_ops l h.wrFlush

/-- Writing a response keeps the order of the events, or hands the connection over. -/
theorem fine_writeWith {req : RReq} : ∀ (r : Resp) (drop : Bool) {w : Wr c}, Fine out0 w.base →
    Fine out0 (r.writeWith env req drop w).w.base ∨ (w.layers = [] ∧ w.base.canHijack = true ∧ r.writeWith env req drop w = .ret true { w with base := w.base.hijack })
  | .plain h, drop, w, hw => .inl (fine_head hw)
  | .text h p, drop, w, hw => .inl (fine_andThen (fine_head hw) fun _ h => h.text p)
  | .json h p, drop, w, hw => .inl (fine_andThen (fine_head hw) fun _ h => by
      split
      · exact h
      · exact h.wrWrite _)
  | .raw h k, drop, w, hw => .inl (fine_andThen (fine_head hw) fun _ h => by
      split
      · exact h
      · exact h.run _)
  | .stream h k, drop, w, hw => .inl (fine_andThen (fine_head hw) fun _ h => by
      split
      · exact h
      · exact h.run _)
  | .template h k, drop, w, hw => .inl (fine_andThen (fine_head hw) fun _ h => by
      split
      · exact h
      · exact h.run _)
  | .redirect h url, drop, w, hw => .inl <| by
      unfold Resp.writeWith redirectWrite
      simp only
      split
      · exact fine_set hw _
      · rename_i w' h'
        have := (fine_set hw _).wrWriteHeader h'
        split
        · exact this.wrWrite _
        · exact this
  | .adaptor hs ks ops, drop, w, hw => .inl (fine_ops ops (fine_set hw _))
  | .hijack, drop, w, hw => by
      unfold Resp.writeWith
      split
      · rename_i h
        exact .inr ⟨by simp_all, by simp_all, rfl⟩
      · exact .inl hw
  | .sse h feed, drop, w, hw => .inl <| by
      unfold Resp.writeWith
      split
      · split
        · exact hw
        · rename_i w' h'
          exact hw.wrWriteHeader h'
      · exact fine_andThen (fine_head hw) fun _ h => ((fine_set h _).events _ _).thenFlush
  | .compress level r, drop, w, hw => by
      unfold Resp.writeWith
      split
      · exact fine_writeWith r drop hw
      · rename_i a _
        simp only
        rcases fine_writeWith r true
          (w := { (w.setHeader (w.base.header.set b!"Content-Encoding" (algName a))) with layers := ⟨c.start a level, false⟩ :: w.layers })
          (fine_set hw _) with h | ⟨h, _⟩
        · exact .inl h.thenClose
        · exact absurd h (by simp)

end Gofre.Response

namespace Gofre.Props
open Gofre.Http Gofre.Response Gofre.Spec Gofre.Serve Gofre.Path
variable {env : Env} {c : Codec} {x : Ext} {other : Str → Str} {ci : Bool}

/-- C84 (not covered: responses whose writing panics or blocks before the status line, see `c84_violated_panic`): however a response is written, and whatever goes
wrong with it, the client gets interim responses, one final status line and then only parts of the body; or the connection was handed
over with nothing sent on it. -/
theorem c84_one_answer_partial (req : RReq) (r : Resp) (plan : Nat → Option Nat) (canHijack : Bool) :
    let res := r.write env req ({ base := { plan, canHijack } } : Wr c)
    (∃ code H, Answered [] (seen res) code H) ∨ (canHijack = true ∧ res.w.base.out = [.hijack]) ∨
      ((∃ w, res = .panic w ∨ res = .blocked w) ∧ ∀ e ∈ seen res, isInfo e = true) := by
  intro res
  rcases fine_writeWith (env := env) (req := req) (out0 := []) r false (w := ({ base := { plan, canHijack } } : Wr c)) (.before [] rfl rfl (by simp) trivial) with h | ⟨_, h1, h2⟩
  · by_cases hd : Done res
    · obtain ⟨code, H, h3, _⟩ := h.seen hd
      exact .inl ⟨code, H, h3⟩
    · have hout : seen res = res.w.base.out := by
        cases hres : res with
        | ret ok w => exact absurd (.inl ⟨ok, w, hres⟩) hd
        | panic w => rfl
        | blocked w => rfl
      refine .inr (.inr ⟨?_, ?_⟩)
      · cases hres : res with
        | ret ok w => exact absurd (.inl ⟨ok, w, hres⟩) hd
        | panic w => exact ⟨w, .inl rfl⟩
        | blocked w => exact ⟨w, .inr rfl⟩
      · cases h with
        | after code H hs => exact absurd (.inr hs) hd
        | before pre _ ho hp => rw [hout, show res.w.base.out = [] ++ pre from ho]; simpa using hp
  · exact .inr (.inl ⟨h1, by simp only [res, Resp.write, h2]; rfl⟩)

/-- C84 fails for a redirect without a status: the client gets nothing at all, whatever the request. -/
theorem c84_violated_panic {req : RReq} {url : Str} : ∃ w, (Resp.redirect {} url).write env req ({} : Wr c) = .panic w ∧
    seen ((Resp.redirect {} url).write env req ({} : Wr c)) = [] := ⟨_, rfl, rfl⟩

/-- The connection breaks in the second write of a compressed handler that sends an early hint, a
body, and then a second status. -/
example : ∃ H, Answered [] (seen ((Resp.compress 5 (.adaptor none none [.writeHeader 103, .set b!"X-A" b!"1", .write b!"a", .write b!"b", .writeHeader 500])).write simpleEnv
    { acceptEncoding := b!"gzip" } ({ base := { plan := fun i => if i = 1 then some 0 else none } } : Wr dotCodec))) 200 H :=
  ⟨_, [_], _, rfl, by simp [isInfo], by simp [isBody]⟩

example : ((Resp.compress 5 .hijack).write simpleEnv {} ({} : Wr dotCodec)).w.base.out = [.hijack] ∧
    ∃ H, Answered [] (seen ((Resp.compress 5 .hijack).write simpleEnv { acceptEncoding := b!"gzip" } ({} : Wr dotCodec))) 200 H :=
  ⟨rfl, _, [], _, rfl, by simp, by simp [isBody]⟩

/-- The connection after `ServeHTTP`, in terms of the events of the router. -/
def onConnection (env : Env) (act : Nat → Act) (req : RReq) : List Path.Event → WRes c
  | [.status n] => bare n
  | .ran h :: _ =>
    match act h with
    | .fails => bare 500
    | .responds resp => resp.write env req {}
    | _ => .panic {}
  | _ => .panic {}

/-- The behaviour the router sees. -/
def behaviour : Act → Behaviour
  | .fails => .fails
  | .panics => .panics
  | .noResponse => .noResponse
  | .responds _ => .responds false

theorem serve_eq (r : Router) (act : Nat → Act) (req : RReq) (path : Str) (buf : List USeg) (fuel : Nat) :
    (serve x other env r act req path buf fuel : Option (WRes c)) =
      (serveHTTP x other r (fun h => behaviour (act h)) req.method path buf fuel).map (onConnection env act req) := by
  unfold serve serveHTTP
  cases parseURLPath path buf with
  | none => rfl
  | some segs =>
    simp only
    cases r.matchers (toUpper other req.method) with
    | none => rfl
    | some m =>
      simp only [Option.map_map]
      congr 1
      funext a
      cases a with
      | panic => rfl
      | none => rfl
      | found p l =>
        simp only [Function.comp, finish, onConnection]
        cases act p.attachment <;> rfl

/-- C84 (not covered: requests whose handling panics, see `c84_violated` and C17): every request is dealt with in finitely many steps.  If no handler
runs the client gets a bare 404; if the handler fails, a bare 500; otherwise exactly one final answer (unless writing it panics or blocks before the status line),
with the status and the headers of the response when it is of a kind that has them. -/
theorem c84_served_partial (he : Orders env) {es : List Route} {r : Router} (hr : Built x other sortSiblings ci es r)
    (act : Nat → Act) (req : RReq) (path : Str) {buf : List USeg} (hb : buf.length = 19) :
    ∃ (f : Nat) (res : WRes c), (∀ g, f ≤ g → serve x other env r act req path buf g = some res) ∧
      (res = .panic {} ∨ seen res = [.head 404 fun _ => []] ∨
        ∃ e ∈ es, toUpper other e.method = toUpper other req.method ∧
          match act e.handler with
          | .fails => seen res = [.head 500 fun _ => []]
          | .panics => res = .panic {}
          | .noResponse => res = .panic {}
          | .responds resp => res.w.base.out = [.hijack] ∨ ((∃ w, res = .panic w ∨ res = .blocked w) ∧ ∀ e ∈ seen res, isInfo e = true) ∨ ∃ code H, Answered [] (seen res) code H ∧
              ∀ h, headOf req resp = some h → FinalStatus h.statusCode → code = h.statusCode.toNat ∧ Block env h (fun _ => []) H) := by
  obtain ⟨f, evs, h1, h2⟩ := c26_dispatch_partial hr (fun h => behaviour (act h)) req.method path hb
  refine ⟨f, onConnection env act req evs, fun g hg => by rw [serve_eq, h1 g hg]; rfl, ?_⟩
  rcases h2 with rfl | rfl | ⟨e, he1, he2, rest, rfl, _⟩
  · exact .inl rfl
  · exact .inr (.inl rfl)
  · refine .inr (.inr ⟨e, he1, he2, ?_⟩)
    simp only [onConnection]
    cases hact : act e.handler with
    | fails => rfl
    | panics => rfl
    | noResponse => rfl
    | responds resp =>
      simp only
      by_cases hk : ∃ h, headOf req resp = some h ∧ FinalStatus h.statusCode
      · obtain ⟨h, hk, hf⟩ := hk
        obtain ⟨H, rest, h3, h4, h5, h6⟩ := c56_written_partial (c := c) (env := env) (w := {}) he hk rfl hf
        refine .inr (.inr ⟨h.statusCode.toNat, H, ⟨[], rest, ?_, by simp, h4⟩, fun h' hk' _ => ?_⟩)
        · rw [Done.seen (.inr (by rw [h5]; rfl)), commit_some (by rw [h5]; rfl), h3]; rfl
        · rw [hk] at hk'
          obtain rfl := Option.some.inj hk'
          exact ⟨rfl, h6⟩
      · rcases c84_one_answer_partial (c := c) (env := env) req resp (fun _ => none) true with ⟨code, H, h⟩ | ⟨_, h⟩ | h
        · exact .inr (.inr ⟨code, H, h, fun h' hk' hf' => absurd ⟨h', hk', hf'⟩ hk⟩)
        · exact .inl h
        · exact .inr (.inl h)

/-- C84 fails: a handler that returns neither a response nor an error leaves the client without an answer. -/
theorem c84_violated : ∃ (es : List Route) (r : Router) (act : Nat → Act) (fuel : Nat), Built plainExt id sortSiblings false es r ∧ (∀ h, act h = .noResponse) ∧
    (serve plainExt id simpleEnv r act { method := b!"GET" } b!"/a" freshBuf fuel : Option (WRes dotCodec)) = some (.panic {}) := by
  obtain ⟨r, h1, h2⟩ := serve0_spec (l := [(b!"/a", 7)]) (behave := fun _ => .noResponse)
    (path := b!"/a") (fuel := 5) (evs := [.ran 7, .panic]) (by decide +kernel)
  exact ⟨_, r, fun _ => .noResponse, 5, h1, fun _ => rfl, by rw [serve_eq]; simp only [behaviour, h2]; rfl⟩

/-- A route answering with a text, a failing one, and none. -/
example : ∃ (r : Router), Built plainExt id sortSiblings false [⟨b!"GET", b!"/b", 8⟩, ⟨b!"GET", b!"/a", 7⟩] r ∧
    ∃ (act : Nat → Act), act 8 = .fails ∧
    ((serve plainExt id simpleEnv r act {} b!"/a" freshBuf 9 : Option (WRes dotCodec)).map (fun r => (seen r).length)) = some 2 ∧
    ((serve plainExt id simpleEnv r act {} b!"/b" freshBuf 9 : Option (WRes dotCodec)).map seen) = some [.head 500 fun _ => []] ∧
    ((serve plainExt id simpleEnv r act {} b!"/c" freshBuf 9 : Option (WRes dotCodec)).map seen) = some [.head 404 fun _ => []] := by
  obtain ⟨r, h1⟩ : ∃ r, router0 [(b!"/b", 8), (b!"/a", 7)] = some r := Option.isSome_iff_exists.1 (by decide +kernel)
  have hs : ∀ act path, serve plainExt id simpleEnv r act {} path freshBuf 9 =
      (serve0 [(b!"/b", 8), (b!"/a", 7)] (fun h => behaviour (act h)) path 9).map (onConnection (c := dotCodec) simpleEnv act {}) := by
    intro act path
    rw [serve_eq]
    simp only [serve0, h1]
  refine ⟨r, router0_built h1, fun h => if h = 8 then .fails else .responds (.text {} b!"hi"), rfl, ?_, ?_, ?_⟩
  · rw [hs, show serve0 _ _ _ _ = some [.ran 7, .wrote 7] by decide +kernel]; rfl
  · rw [hs, show serve0 _ _ _ _ = some [.ran 8, .logged, .status 500] by decide +kernel]; rfl
  · rw [hs, show serve0 _ _ _ _ = some [.status 404] by decide +kernel]; rfl

end Gofre.Props
