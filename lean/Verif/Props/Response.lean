import Verif.Proofs.Passing

/-! # C56, C57, C59, C62: status lines, header blocks -/

namespace Gofre.Props
open Gofre.Http Gofre.Response Gofre.Spec

variable {env : Env} {c : Codec}

/-- Maps iterated in the order of insertion, cookies as `name=value`. -/
def simpleEnv : Env where
  cookieText k := if k.name = [] then [] else k.name ++ 61 :: k.value
  headerOrder m := m
  cookieOrder m := m
  location u := u
  redirectBody _ u := b!"<a href=\"" ++ u ++ b!"\">Found</a>.\n"

theorem simple_orders : Orders simpleEnv := ⟨fun _ => .refl _, fun _ => .refl _⟩

/-- A codec that passes everything on at once, and ends with a full stop. -/
def dotCodec : Codec where
  σ := Unit
  start _ _ := ()
  write s b := (s, b)
  flush s := (s, [])
  close s := (s, b!".")

/-- C56 (not covered: informational statuses, see `c56_violated`): a response that starts by writing
its head sends exactly one status line, with the right headers, and then only parts of the body. -/
theorem c56_written_partial (he : Orders env) {req : RReq} {r : Resp} {h : HeadResp} {w : Wr c} (hk : headOf req r = some h)
    (hs : w.base.status = none) (hf : FinalStatus h.statusCode) :
    ∃ H rest, (r.write env req w).w.base.out = w.base.out ++ .head h.statusCode.toNat H :: rest ∧ (∀ e ∈ rest, isBody e = true) ∧
      (r.write env req w).w.base.status = some h.statusCode.toNat ∧ Block env h w.base.header H := by
  obtain ⟨rest, h1, h2, h3⟩ := headed_more (kind_write (env := env) hk hs hf)
  exact ⟨_, rest, h1, h2, h3, block_ok he h _⟩

example : ∃ H rest, (Resp.write simpleEnv {} (.text { status := 404, contentType := b!"text/plain", headers := some [(b!"x-a", b!"1"), (b!"content-type", b!"a/b")], cookies := some [(b!"k::", { name := b!"k", value := b!"v" })] } b!"hi") ({} : Wr dotCodec)).w.base.out = [] ++ .head 404 H :: rest ∧
    H b!"X-A" = [b!"1"] ∧ H b!"Content-Type" = [b!"a/b"] ∧ H b!"X-Content-Type-Options" = [b!"nosniff"] ∧ H b!"Set-Cookie" = [b!"k=v"] :=
  ⟨_, _, rfl, by decide, by decide, by decide, by decide⟩

/-- C56: the one status line has the status the response was given, and 200 when it was given none. -/
theorem c56_status {req : RReq} {r : Resp} {h : HeadResp} {w : Wr c} (hk : headOf req r = some h) (hs : w.base.status = none) :
    (h.status = 0 → ∃ H rest, (r.write env req w).w.base.out = w.base.out ++ .head 200 H :: rest ∧ ∀ e ∈ rest, isBody e = true) ∧
    (∀ n : Nat, h.status = n → 200 ≤ n → n ≤ 999 → ∃ H rest, (r.write env req w).w.base.out = w.base.out ++ .head n H :: rest ∧ ∀ e ∈ rest, isBody e = true) := by
  constructor
  · intro h0
    have hc : h.statusCode = 200 := by simp [HeadResp.statusCode, h0]
    obtain ⟨rest, h1, h2, _⟩ := headed_more (kind_write (env := env) hk hs (by rw [hc]; exact .inr ⟨by decide, by decide⟩))
    rw [hc] at h1
    exact ⟨_, rest, h1, h2⟩
  · intro n hn h1 h2
    have hc : h.statusCode = n := by
      rw [HeadResp.statusCode, if_neg (by omega), hn]
    obtain ⟨rest, h3, h4, _⟩ := headed_more (kind_write (env := env) hk hs (by rw [hc]; exact .inr ⟨by omega, by omega⟩))
    rw [hc] at h3
    exact ⟨_, rest, h3, h4⟩

example : ∃ H rest, (Resp.write simpleEnv {} (.text { contentType := b!"text/plain" } b!"hi") ({} : Wr dotCodec)).w.base.out = [] ++ .head 200 H :: rest ∧ ∀ e ∈ rest, isBody e = true :=
  (c56_status (h := { contentType := b!"text/plain" }) rfl rfl).1 rfl

/-- C56: a response whose status is no HTTP status writes nothing and fails. -/
theorem c56_invalid {req : RReq} {r : Resp} {h : HeadResp} {w : Wr c} (hk : headOf req r = some h) (hf : h.statusCode < 100 ∨ h.statusCode > 999) :
    r.write env req w = .ret false w := by
  have hw := headWrite_err (env := env) (w := w) hf
  cases r <;> simp only [headOf, Option.some.injEq, reduceCtorEq] at hk
  case sse h' feed =>
    by_cases hp : req.protoMajor = 2
    · rw [if_pos hp] at hk
      obtain rfl := Option.some.inj hk
      simp [Resp.write, Resp.writeWith, without_false, hw, WRes.andThen, hp]
    · rw [if_neg hp] at hk
      exact absurd hk (by simp)
  all_goals subst hk; simp [Resp.write, Resp.writeWith, without_false, hw, WRes.andThen]

example : (Resp.write simpleEnv {} (.text { status := 1000 } b!"hi") ({} : Wr dotCodec)) = .ret false {} := c56_invalid (h := { status := 1000 }) rfl (.inr (by decide))
example : (Resp.write simpleEnv {} (.json { status := -1 } none) ({} : Wr dotCodec)) = .ret false {} := c56_invalid (h := { status := -1 }) rfl (.inl (by decide))

/-- C56 fails for informational statuses: the client gets two status lines, and 200 as the final one. -/
theorem c56_violated : ∃ (h : HeadResp) (r : Resp), headOf {} r = some h ∧ 100 ≤ h.statusCode ∧ h.statusCode ≤ 999 ∧
    ∃ H H', (r.write simpleEnv {} ({} : Wr dotCodec)).w.base.out = [.info 103 H, .head 200 H', .data b!"hi"] ∧
      (r.write simpleEnv {} ({} : Wr dotCodec)).w.base.status = some 200 :=
  ⟨{ status := 103 }, .text { status := 103 } b!"hi", rfl, by decide, by decide, _, _, rfl, rfl⟩

/-- C57 (for maps without two spellings of one name): whatever the iteration orders, the status is
the same, every header has the same values, and the cookies are the same up to their order. -/
theorem c57_same_block_partial {e1 e2 : Env} (h1 : Orders e1) (h2 : Orders e2) (ht : e1.cookieText = e2.cookieText) {req : RReq} {r : Resp} {h : HeadResp}
    {w : Wr c} (hk : headOf req r = some h) (hs : w.base.status = none) (hf : FinalStatus h.statusCode) (ho : OneSpelling (h.headers.getD [])) :
    ∃ code H1 H2 rest1 rest2, (r.write e1 req w).w.base.out = w.base.out ++ .head code H1 :: rest1 ∧
      (r.write e2 req w).w.base.out = w.base.out ++ .head code H2 :: rest2 ∧
      (∀ key, key ≠ b!"Set-Cookie" → H1 key = H2 key) ∧ (H1 b!"Set-Cookie").Perm (H2 b!"Set-Cookie") := by
  obtain ⟨rest1, a1, _, _⟩ := headed_more (kind_write (env := e1) hk hs hf)
  obtain ⟨rest2, a2, _, _⟩ := headed_more (kind_write (env := e2) hk hs hf)
  have hb := block_same h1 h2 ht ho w.base.header
  exact ⟨_, _, _, rest1, rest2, a1, a2, hb.1, hb.2⟩

/-- The same maps iterated backwards. -/
def reverseEnv : Env := { simpleEnv with headerOrder := List.reverse, cookieOrder := List.reverse }

theorem reverse_orders : Orders reverseEnv := ⟨fun m => m.reverse_perm, fun m => m.reverse_perm⟩

example : OneSpelling (({ headers := some [(b!"x-a", b!"1"), (b!"X-B", b!"2")] } : HeadResp).headers.getD []) := by
  intro k v k' v' h h' hc
  simp only [Option.getD_some, List.mem_cons, Prod.mk.injEq, List.not_mem_nil, or_false] at h h'
  rcases h with ⟨rfl, rfl⟩ | ⟨rfl, rfl⟩ <;> rcases h' with ⟨rfl, rfl⟩ | ⟨rfl, rfl⟩
  · rfl
  · exact absurd hc (by decide)
  · exact absurd hc (by decide)
  · rfl

/-- C57 fails when a map holds two spellings of one name: the value sent depends on the order. -/
theorem c57_violated : ∃ (r : Resp) (H1 H2 : Header) (rest1 rest2 : List Ev), Orders simpleEnv ∧ Orders reverseEnv ∧
    IsMap (r.headers.getD []) ∧
    (r.write simpleEnv {} ({} : Wr dotCodec)).w.base.out = .head 200 H1 :: rest1 ∧
    (r.write reverseEnv {} ({} : Wr dotCodec)).w.base.out = .head 200 H2 :: rest2 ∧
    H1 b!"X-A" = [b!"2"] ∧ H2 b!"X-A" = [b!"1"] :=
  ⟨.text { headers := some [(b!"x-a", b!"1"), (b!"X-A", b!"2")] } b!"hi", _, _, _, _, simple_orders, reverse_orders, by decide, rfl, rfl, by decide, by decide⟩

/-- C59 for headers (not covered: redirects, hijacked connections, and the response header
`Accept-Encoding`): a header set through `Headers()` is in the block the client gets, also through
any number of compressing responses, whatever the body does. -/
theorem c59_headers_partial (he : Orders env) {req : RReq} {r : Resp} {w : Wr c} {k v : Str} (hp : Passes req (canonicalKey k) r)
    (hm : IsMap (r.headers.getD [])) (ho : ∀ k' v', (k', v') ∈ r.headers.getD [] → k' ≠ k → ¬ SameField k' k)
    (hk : k ≠ b!"Accept-Encoding") (hv : v ≠ [] ∨ (¬ SameField k b!"Content-Type" ∧ ¬ SameField k b!"X-Content-Type-Options"))
    (hs : w.base.status = none) :
    ∃ code H, Answered w.base.out (seen ((r.mapHeaders (Map.set · k v)).write env req w)) code H ∧ ∀ k', SameField k' k → H (canonicalKey k') = [v] := by
  obtain ⟨code, H, h1, h2⟩ := (good_write (h0 := fun _ => True) (fun _ _ _ _ => trivial) _ false (passes_mapHeaders r hp) (has_header he hk hv r false hp hm ho) hs trivial).seen (passes_done _ false (passes_mapHeaders r hp) hs)
  exact ⟨code, H, h1, fun k' hk' => by rw [(canonicalKey_iff _ _).2 hk']; exact h2⟩

/-- C59 for cookies (under the same restrictions, and unless a custom header replaces `Set-Cookie`). -/
theorem c59_cookies_partial (he : Orders env) {req : RReq} {r : Resp} {w : Wr c} {k : Cookie} (hp : Passes req b!"Set-Cookie" r)
    (hm : IsMap (r.cookies.getD [])) (ha : Absent (r.headers.getD []) b!"Set-Cookie") (ht : env.cookieText k ≠ []) (hs : w.base.status = none) :
    ∃ code H, Answered w.base.out (seen ((r.mapCookies (addCookies · [some k])).write env req w)) code H ∧ env.cookieText k ∈ H b!"Set-Cookie" :=
  (good_write (h0 := fun _ => True) (fun _ _ _ _ => trivial) _ false (passes_mapCookies r hp) (has_cookie he ht r false hp hm ha) hs trivial).seen (passes_done _ false (passes_mapCookies r hp) hs)

example : ∃ code H, Answered [] (seen (((Resp.compress 5 (.sse {} ⟨[({ data := [b!"x"] }, false)], true⟩)).mapHeaders (Map.set · b!"x-a" b!"1")).write simpleEnv { acceptEncoding := b!"gzip" } ({} : Wr dotCodec))) code H ∧
    ∀ k', SameField k' b!"x-a" → H (canonicalKey k') = [b!"1"] :=
  c59_headers_partial (w := {}) (k := b!"x-a") simple_orders (r := .compress 5 (.sse {} ⟨[({ data := [b!"x"] }, false)], true⟩)) ⟨rfl, .inr (by decide)⟩
    (v := b!"1") (by decide) (fun _ _ h => by simp [Resp.headers] at h) (by decide) (.inl (by decide)) rfl

example : ∃ code H, Answered [] (seen (((Resp.adaptor none none [.set b!"A" b!"b", .write b!"x"]).mapCookies (addCookies · [some { name := b!"k", value := b!"v" }])).write simpleEnv {} ({} : Wr dotCodec))) code H ∧
    b!"k=v" ∈ H b!"Set-Cookie" :=
  c59_cookies_partial (w := {}) (k := { name := b!"k", value := b!"v" }) simple_orders (r := .adaptor none none [.set b!"A" b!"b", .write b!"x"])
    (fun op ho => by rcases List.mem_cons.1 ho with rfl | ho
                     · exact (by decide : ¬ SameField b!"A" b!"Set-Cookie")
                     · rw [List.mem_singleton.1 ho]; trivial) (by decide) (fun _ _ h => by simp [Resp.headers] at h) (by decide) rfl

/-- C59 fails for every redirect: what is sent does not depend on the headers and cookies of the
response. -/
theorem c59_violated_redirect (req : RReq) (h : HeadResp) (url : Str) (w : Wr c) (f : Map Str → Map Str) (g : Map Cookie → Map Cookie) :
    (((Resp.redirect h url).mapHeaders f).mapCookies g).write env req w = (Resp.redirect h url).write env req w := rfl

theorem deaf_write (req : RReq) (f : Map Str → Map Str) (g : Map Cookie → Map Cookie) : ∀ (r : Resp) (drop : Bool) (w : Wr c),
    Deaf req r → ((r.mapHeaders f).mapCookies g).writeWith env req drop w = r.writeWith env req drop w
  | .redirect _ _, _, _, _ => rfl
  | .hijack, _, _, _ => rfl
  | .sse _ _, _, _, h => by
    simp only [Deaf] at h
    simp only [Resp.mapHeaders, Resp.mapCookies, Resp.writeWith]
    rw [if_pos h, if_pos h]
  | .compress _ r, drop, w, h => by
    simp only [Resp.mapHeaders, Resp.mapCookies, Resp.writeWith]
    cases algFor req.acceptEncoding with
    | none => exact deaf_write req f g r drop w h
    | some a => dsimp only; rw [deaf_write req f g r true _ h]

/-- C59 fails for every redirect, hijacked connection and event stream over another protocol than
HTTP/2, however compressed: whatever a middleware puts into the headers and cookies, the client is
sent the same. -/
theorem c59_violated_never (req : RReq) (r : Resp) (h : Deaf req r) (w : Wr c) (f : Map Str → Map Str) (g : Map Cookie → Map Cookie) :
    ((r.mapHeaders f).mapCookies g).write env req w = r.write env req w :=
  deaf_write req f g r false w h

/-- A compressed event stream over HTTP/1: the client gets the status 500 and not the header. -/
example : Deaf { protoMajor := 1 } (.compress 5 (.sse {} ⟨[], true⟩)) ∧
    ∃ H, (((Resp.compress 5 (.sse {} ⟨[], true⟩)).mapHeaders (Map.set · b!"X-A" b!"1")).write simpleEnv { protoMajor := 1 } ({} : Wr dotCodec)).w.base.out = [.head 500 H] ∧
      H b!"X-A" = [] := ⟨by simp [Deaf], _, rfl, by decide⟩

/-- C59 fails for a redirect with a header: the block lacks it. -/
theorem c59_violated : ∃ H rest, (((Resp.redirect { status := 302 } b!"/").mapHeaders (Map.set · b!"X-A" b!"1")).write simpleEnv {} ({} : Wr dotCodec)).w.base.out = .head 302 H :: rest ∧
    H b!"X-A" = [] := ⟨_, _, rfl, by decide⟩

/-- C59 fails for a cookie when the response has a custom `Set-Cookie` header. -/
theorem c59_violated_cookie : ∃ H rest, (((Resp.text { headers := some [(b!"Set-Cookie", b!"a=b")] } b!"hi").mapCookies (addCookies · [some { name := b!"k", value := b!"v" }])).write simpleEnv {} ({} : Wr dotCodec)).w.base.out = .head 200 H :: rest ∧
    H b!"Set-Cookie" = [b!"a=b"] := ⟨_, _, rfl, by decide⟩

/-- C62 fails: the block of an event stream never carries `Cache-Control`, unless the application or
an earlier writer sets it. -/
theorem c62_violated_never (he : Orders env) {req : RReq} {h : HeadResp} {feed : Feed} {w : Wr c} (hp : req.protoMajor = 2)
    (hs : w.base.status = none) (hf : FinalStatus h.statusCode) (ha : Absent (h.headers.getD []) b!"Cache-Control") (h0 : w.base.header b!"Cache-Control" = []) :
    ∃ code H rest, ((Resp.sse h feed).write env req w).w.base.out = w.base.out ++ .head code H :: rest ∧ (∀ e ∈ rest, isBody e = true) ∧ H b!"Cache-Control" = [] := by
  obtain ⟨H, rest, h1, h2, _, h3⟩ := c56_written_partial (c := c) he (req := req) (r := .sse h feed) (by simp [headOf, hp]) hs hf
  refine ⟨_, H, rest, h1, h2, ?_⟩
  rw [h3.others _ ha (by decide) (by decide) (by decide), h0]

/-- C62 fails for the plainest event stream. -/
theorem c62_violated : ∃ H rest, ((Resp.sse { status := 200, contentType := b!"text/event-stream" } ⟨[({ data := [b!"x"] }, false)], true⟩).write simpleEnv {} ({} : Wr dotCodec)).w.base.out =
    .head 200 H :: rest ∧ H b!"Cache-Control" = [] := ⟨_, _, rfl, by decide⟩

/-- C62 when the application sets the header itself. -/
theorem c62_custom_partial (he : Orders env) {req : RReq} {h : HeadResp} {feed : Feed} {w : Wr c} {k : Str} (hp : req.protoMajor = 2)
    (hs : w.base.status = none) (hf : FinalStatus h.statusCode) (hk : SameField b!"Cache-Control" k) (ha : Field (h.headers.getD []) k b!"no-cache") :
    ∃ code H rest, ((Resp.sse h feed).write env req w).w.base.out = w.base.out ++ .head code H :: rest ∧ H b!"Cache-Control" = [b!"no-cache"] := by
  obtain ⟨H, rest, h1, h2, _, h3⟩ := c56_written_partial (c := c) he (req := req) (r := .sse h feed) (by simp [headOf, hp]) hs hf
  exact ⟨_, H, rest, h1, h3.custom k _ ha (.inl (by decide)) b!"Cache-Control" hk⟩

example : Field (({ headers := some [(b!"cache-control", b!"no-cache")] } : HeadResp).headers.getD []) b!"cache-control" b!"no-cache" :=
  ⟨by decide, fun k' v' h _ => by
    simp only [Option.getD_some, List.mem_singleton, Prod.mk.injEq] at h
    exact h.2⟩

end Gofre.Props
