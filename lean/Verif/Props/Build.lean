import Verif.Spec.Build
import Verif.Proofs.Twin
import Verif.Props.Sse
import Verif.Props.Cookies

/-! # C86: what the constructed responses send -/

namespace Gofre.Response
open Gofre.Http Gofre.Spec
variable {env : Env} {c : Codec}

theorem wr_body {code : Nat} (hb : W.bodyAllowed code = true) {w : Wr c} (hl : w.layers = []) (hs : w.base.status = some code) (hr : Reliable w.base) (b : Str) :
    ∃ w', w.write b = (true, w') ∧ w'.layers = [] ∧ w'.base.status = some code ∧ Reliable w'.base ∧ bodyOf w'.base.out = bodyOf w.base.out ++ b := by
  have e1 : w.write b = ((w.base.write b).1, ⟨(w.base.write b).2, []⟩) := by simp [Wr.write, hl, pushBytes]
  obtain ⟨h1, h2, h3, h4⟩ := base_write hb hs hr b
  exact ⟨_, by rw [e1, h1], rfl, h2, h4, h3⟩

theorem chunks_body {code : Nat} (hb : W.bodyAllowed code = true) : ∀ (l : List Str) {w : Wr c}, w.layers = [] → w.base.status = some code → Reliable w.base →
    ∃ w', writeChunks l w = (true, w') ∧ w'.base.status = some code ∧ bodyOf w'.base.out = bodyOf w.base.out ++ l.flatten
  | [], w, _, hs, _ => ⟨w, rfl, hs, by simp⟩
  | b :: l, w, hl, hs, hr => by
    obtain ⟨w1, h1, h2, h3, h4, h5⟩ := wr_body hb hl hs hr b
    obtain ⟨w', h6, h8, h7⟩ := chunks_body hb l h2 h3 h4
    exact ⟨w', by simp [writeChunks, h1, h6], h8, by rw [h7, h5]; simp⟩

theorem run_body {code : Nat} (hb : W.bodyAllowed code = true) (l : List Str) {w : Wr c} (hl : w.layers = []) (hs : w.base.status = some code) (hr : Reliable w.base) :
    ∃ w', runChunks ⟨l, false⟩ w = .ret true w' ∧ w'.base.status = some code ∧ bodyOf w'.base.out = bodyOf w.base.out ++ l.flatten := by
  obtain ⟨w', h1, h2, h3⟩ := chunks_body hb l hl hs hr
  exact ⟨w', by simp [runChunks, h1], h2, h3⟩

/-- Such a response is written completely. -/
theorem kind_body {req : RReq} {r : Resp} {h : HeadResp} {b : Str} {w : Wr c} (hk : headOf req r = some h) (ht : BodyText r b)
    (hs : w.base.status = none) (hl : w.layers = []) (hf : FinalStatus h.statusCode) (hb : W.bodyAllowed h.statusCode.toNat = true) (hr : Reliable w.base) :
    ∃ w', r.write env req w = .ret true w' ∧ w'.base.status = some h.statusCode.toNat ∧ bodyOf w'.base.out = bodyOf w.base.out ++ b := by
  have hw : headWrite env h w = _ := headWrite_ok hs hf
  generalize hw1 : headed w h.statusCode.toNat (blockOf env h w.base.header) = w1
  have hw : headWrite env h w = .ret true w1 := by rw [hw, ← hw1]
  have h1 : w1.layers = [] := by rw [← hw1]; exact hl
  have h2 : w1.base.status = some h.statusCode.toNat := by rw [← hw1]; rfl
  have h3 : Reliable w1.base := by rw [← hw1]; exact hr
  have h4 : bodyOf w1.base.out = bodyOf w.base.out := by rw [← hw1]; simp [headed, bodyOf]
  have hrun : ∀ l : List Str, ∃ w', runChunks ⟨l, false⟩ w1 = .ret true w' ∧ w'.base.status = some h.statusCode.toNat ∧ bodyOf w'.base.out = bodyOf w.base.out ++ l.flatten := fun l => by
    obtain ⟨w', e1, e2, e3⟩ := run_body hb l h1 h2 h3
    exact ⟨w', e1, e2, by rw [e3, h4]⟩
  have hwr : ∀ p, ∃ w', w1.write p = (true, w') ∧ w'.base.status = some h.statusCode.toNat ∧ bodyOf w'.base.out = bodyOf w.base.out ++ p := fun p => by
    obtain ⟨w', e1, _, e2, _, e3⟩ := wr_body hb h1 h2 h3 p
    exact ⟨w', e1, e2, by rw [e3, h4]⟩
  cases ht <;> simp only [headOf, Option.some.injEq] at hk <;> subst hk <;>
    simp only [Resp.write, Resp.writeWith, without_false, hw, WRes.andThen, Option.getD_none, Option.getD_some]
  case plain => exact ⟨w1, rfl, h2, by rw [h4, List.append_nil]⟩
  case rawNil => exact ⟨w1, rfl, h2, by rw [h4, List.append_nil]⟩
  case streamNil => exact ⟨w1, rfl, h2, by rw [h4, List.append_nil]⟩
  case raw l _ => exact hrun _
  case stream l _ => exact hrun _
  case template l _ => exact hrun _
  case json =>
    obtain ⟨w', e1, e2, e3⟩ := hwr b
    exact ⟨w', by rw [e1], e2, e3⟩
  case jsonNil =>
    obtain ⟨w', e1, e2, e3⟩ := hwr b!"{}"
    exact ⟨w', by rw [e1], e2, e3⟩
  case text =>
    unfold writeText
    split
    · rename_i hp; exact ⟨w1, rfl, h2, by rw [h4, hp, List.append_nil]⟩
    · obtain ⟨w', e1, e2, e3⟩ := hwr b
      exact ⟨w', by rw [e1], e2, e3⟩

theorem wr_nobody {code : Nat} (hb : W.bodyAllowed code = false) {w : Wr c} (hl : w.layers = []) (hs : w.base.status = some code) (b : Str) :
    w.write b = (decide (b = []), w) := by
  have e1 : w.write b = ((w.base.write b).1, ⟨(w.base.write b).2, w.layers⟩) := by simp [Wr.write, hl, pushBytes]
  have hc : w.base.commit = w.base := by simp [W.commit, hs]
  rw [e1]
  by_cases h : b = []
  · simp [W.write, hc, h]
  · simp [W.write, hc, h, hs, hb]

theorem chunks_nobody {code : Nat} (hb : W.bodyAllowed code = false) {w : Wr c} (hl : w.layers = []) (hs : w.base.status = some code) :
    ∀ l : List Str, writeChunks l w = (decide (l.flatten = []), w)
  | [] => rfl
  | b :: l => by
    rw [writeChunks, wr_nobody hb hl hs b]
    by_cases h : b = []
    · simp [h, chunks_nobody hb hl hs l]
    · simp [h]

/-- With a status that has no body, writing fails unless there is nothing to write. -/
theorem kind_nobody {req : RReq} {r : Resp} {h : HeadResp} {b : Str} {w : Wr c} (hk : headOf req r = some h) (ht : BodyText r b)
    (hs : w.base.status = none) (hl : w.layers = []) (hf : FinalStatus h.statusCode) (hb : W.bodyAllowed h.statusCode.toNat = false) :
    ∃ w', r.write env req w = .ret (decide (b = [])) w' ∧ bodyOf w'.base.out = bodyOf w.base.out := by
  have hw : headWrite env h w = _ := headWrite_ok hs hf
  generalize hw1 : headed w h.statusCode.toNat (blockOf env h w.base.header) = w1
  have hw : headWrite env h w = .ret true w1 := by rw [hw, ← hw1]
  have h1 : w1.layers = [] := by rw [← hw1]; exact hl
  have h2 : w1.base.status = some h.statusCode.toNat := by rw [← hw1]; rfl
  have h4 : bodyOf w1.base.out = bodyOf w.base.out := by rw [← hw1]; simp [headed, bodyOf]
  refine ⟨w1, ?_, h4⟩
  have hrun : ∀ l : List Str, runChunks ⟨l, false⟩ w1 = .ret (decide (l.flatten = [])) w1 := fun l => by
    rw [runChunks, chunks_nobody hb h1 h2 l]
    cases decide (l.flatten = []) <;> rfl
  cases ht <;> simp only [headOf, Option.some.injEq] at hk <;> subst hk <;>
    simp only [Resp.write, Resp.writeWith, without_false, hw, WRes.andThen, Option.getD_none, Option.getD_some]
  case plain => rfl
  case rawNil => rfl
  case streamNil => rfl
  case raw l => exact hrun _
  case stream l => exact hrun _
  case template l => exact hrun _
  case json => rw [wr_nobody hb h1 h2]
  case jsonNil => rw [wr_nobody hb h1 h2]
  case text =>
    unfold writeText
    split
    · rename_i hp; rw [hp]; rfl
    · rw [wr_nobody hb h1 h2]

end Gofre.Response

namespace Gofre.Props
open Gofre.Http Gofre.Response Gofre.Spec Gofre.Build
variable {env : Env} {c : Codec} {quote : Str → Str}

/-- A content type that repeats the one in the headers makes no difference. -/
theorem block_type {s : Int} {t t' : Str} {m : Map Str} {ks : Option (Map Cookie)} {h0 H : Header} (h : Block env ⟨s, t', some m, ks⟩ h0 H)
    (ht : t' = t ∨ ¬ Absent m b!"Content-Type") : Block env ⟨s, t, some m, ks⟩ h0 H := by
  refine ⟨h.custom, fun ha h0 hne => ?_, h.nosniff, h.cookies, h.others⟩
  rcases ht with rfl | ht
  · exact h.contentType ha h0 hne
  · exact absurd ha ht

theorem block_status {s s' : Int} {t : Str} {hs : Option (Map Str)} {ks : Option (Map Cookie)} {h0 H : Header} (h : Block env ⟨s, t, hs, ks⟩ h0 H) :
    Block env ⟨s', t, some (hs.getD []), some (ks.getD [])⟩ h0 H := ⟨h.custom, h.contentType, h.nosniff, h.cookies, h.others⟩

theorem errorToString_text {e : Option Str} {t : Str} (h : ErrorText e t) : errorToString e = t := by
  cases h with
  | nil => rfl
  | empty => rfl
  | message l hb hu =>
    rename_i b u
    obtain ⟨u', h1, h2⟩ := c65_ascii_partial (l := l) hb
    have : u' = u := by
      unfold Upper at h2 hu
      rcases h2 with ⟨a, rfl⟩ | ⟨a, h2⟩ <;> rcases hu with ⟨b, rfl⟩ | ⟨b, hu⟩
      · rfl
      · omega
      · omega
      · exact UInt8.toNat_inj.1 (by omega)
    simp [errorToString, h1, this]

theorem lookup_mem {α} {k : Str} {v : α} : ∀ {m : Map α}, m.get? k = some v → (k, v) ∈ m
  | [], h => by simp [Map.get?] at h
  | (k', v') :: m, h => by
    simp only [Map.get?, List.lookup] at h
    split at h
    · rename_i hk
      obtain rfl : k = k' := by simpa using hk
      obtain rfl : v' = v := by simpa using h
      exact List.mem_cons_self
    · exact List.mem_cons_of_mem _ (lookup_mem h)

/-- The kind, common part and body of what a constructor makes. -/
theorem builds_kind {req : RReq} {r : Resp} {wd : Wanted} (h : Builds quote r wd) :
    ∃ t' hs ks, headOf req r = some ⟨wd.status, t', hs, ks⟩ ∧ hs.getD [] = wd.headers ∧ ks.getD [] = wd.cookies ∧
      (t' = wd.type ∨ ¬ Absent wd.headers b!"Content-Type") ∧ BodyText r wd.body := by
  have hjson : ∀ {p t} (h : HeadResp), JsonText p t → BodyText (.json h p) t := by
    intro p t h hj
    cases hj
    · exact .jsonNil h
    · exact .json h t
  have hraw : ∀ {w t} (h : HeadResp), Writes w t → BodyText (.raw h w) t := by
    intro w t h hj
    cases hj
    · exact .rawNil h
    · exact .raw h _
  have hstream : ∀ {w t} (h : HeadResp), Writes w t → BodyText (.stream h w) t := by
    intro w t h hj
    cases hj
    · exact .streamNil h
    · exact .stream h _
  have htype : ∀ (m : Map Str) (t : Str), (if ((m.get? b!"Content-Type").getD []) ≠ [] then (m.get? b!"Content-Type").getD [] else t) = t ∨
      ¬ Absent m b!"Content-Type" := by
    intro m t
    by_cases hg : (m.get? b!"Content-Type").getD [] = []
    · left; rw [if_neg (by simpa using hg)]
    · right
      intro ha
      cases hm : m.get? b!"Content-Type" with
      | none => rw [hm] at hg; exact hg rfl
      | some v => exact ha _ v (lookup_mem hm) (by decide)
  cases h with
  | plainTextOK | plainText | plainTextWithHeaders | plainTextWithHeadersAndCookies | htmlOK | html | htmlWithHeaders | htmlWithHeadersAndCookies =>
    exact ⟨_, _, _, rfl, rfl, rfl, .inl rfl, .text _ _⟩
  | jsonOK h => exact ⟨_, _, _, rfl, rfl, rfl, .inl rfl, hjson _ h⟩
  | json _ h => exact ⟨_, _, _, rfl, rfl, rfl, .inl rfl, hjson _ h⟩
  | jsonWithCookies _ _ h | jsonWithHeaders _ _ h => exact ⟨_, _, _, rfl, rfl, rfl, .inl rfl, hjson _ h⟩
  | jsonWithHeadersAndCookies _ _ _ h => exact ⟨_, _, _, rfl, rfl, rfl, .inl rfl, hjson _ h⟩
  | jsonError _ h => obtain rfl := errorToString_text h; exact ⟨_, _, _, rfl, rfl, rfl, .inl rfl, .json _ _⟩
  | jsonErrorWithCookies _ _ h | jsonErrorWithHeaders _ _ h => obtain rfl := errorToString_text h; exact ⟨_, _, _, rfl, rfl, rfl, .inl rfl, .json _ _⟩
  | jsonErrorWithHeadersAndCookies _ _ _ h => obtain rfl := errorToString_text h; exact ⟨_, _, _, rfl, rfl, rfl, .inl rfl, .json _ _⟩
  | raw _ h => exact ⟨_, _, _, rfl, rfl, rfl, .inl rfl, hraw _ h⟩
  | rawWithCookies _ _ _ h | rawWithHeaders _ _ _ h => exact ⟨_, _, _, rfl, rfl, rfl, .inl rfl, hraw _ h⟩
  | rawWithHeadersAndCookies _ _ _ _ h => exact ⟨_, _, _, rfl, rfl, rfl, .inl rfl, hraw _ h⟩
  | stream _ h => exact ⟨_, _, _, rfl, rfl, rfl, .inl rfl, hstream _ h⟩
  | streamWithCookies _ _ _ h | streamWithHeaders _ _ _ h => exact ⟨_, _, _, rfl, rfl, rfl, .inl rfl, hstream _ h⟩
  | streamWithHeadersAndCookies _ _ _ _ h => exact ⟨_, _, _, rfl, rfl, rfl, .inl rfl, hstream _ h⟩
  | templateOK | templateNotFound | templateWithCookies | templateTextOK | templateTextNotFound | templateTextWithCookies =>
    exact ⟨_, _, _, rfl, rfl, rfl, .inl rfl, .template _ _⟩
  | templateWithHeaders _ m | templateTextWithHeaders _ m => exact ⟨_, _, _, rfl, rfl, rfl, htype m _, .template _ _⟩
  | templateWithHeadersAndCookies _ m | templateTextWithHeadersAndCookies _ m => exact ⟨_, _, _, rfl, rfl, rfl, htype m _, .template _ _⟩
  | internalServerError => exact ⟨_, _, _, rfl, rfl, rfl, .inl rfl, .plain _⟩

/-- C86: what a constructor makes is sent as the constructor says: its status, its content type unless
the headers have one, the headers, the cookies, and exactly the payload.  (Statuses that allow a body; connections that do not fail.) -/
theorem c86_sent (he : Orders env) {r : Resp} {wd : Wanted} (h : Builds quote r wd) (hs : 200 ≤ wd.status ∧ wd.status ≤ 999 ∧ wd.status ≠ 204 ∧ wd.status ≠ 304)
    (req : RReq) {plan : Nat → Option Nat} (hr : ∀ i, plan i = none) :
    ∃ w', r.write env req ({ base := { plan } } : Wr c) = .ret true w' ∧ Sent env w'.base.out wd := by
  obtain ⟨t', hs', ks', hk, h1, h2, h3, h4⟩ := builds_kind (req := req) h
  have hcode : HeadResp.statusCode ⟨wd.status, t', hs', ks'⟩ = wd.status := by
    unfold HeadResp.statusCode
    simp only
    rw [if_neg (by omega)]
  have hf : FinalStatus (HeadResp.statusCode ⟨wd.status, t', hs', ks'⟩) := by rw [hcode]; exact .inr (by omega)
  have hb : W.bodyAllowed (HeadResp.statusCode ⟨wd.status, t', hs', ks'⟩).toNat = true := by
    rw [hcode]
    simp [W.bodyAllowed]
    omega
  obtain ⟨w', e1, _, e2⟩ := kind_body (c := c) (env := env) (w := { base := { plan } }) hk h4 rfl rfl hf hb hr
  obtain ⟨H, rest, g1, g2, g3, g4⟩ := c56_written_partial (c := c) (w := { base := { plan } }) he hk rfl hf
  rw [e1] at g1 g3
  refine ⟨w', e1, H, rest, ?_, g2, ?_, ?_⟩
  · rw [show w'.base.out = _ from g1, hcode]; rfl
  · rw [show w'.base.out = _ from g1] at e2; exact e2
  · have := block_status (s' := wd.status) g4
    rw [h1, h2] at this
    exact block_type this h3

/-- A text with its own content type, a JSON error, a template. -/
example : ∃ w', (htmlWithHeaders 404 b!"<p>" (some [(b!"x-a", b!"1")])).write simpleEnv {} ({ base := {} } : Wr dotCodec) = .ret true w' ∧
    Sent simpleEnv w'.base.out { status := 404, type := b!"text/html; charset=utf-8", body := b!"<p>", headers := [(b!"x-a", b!"1")] } :=
  c86_sent simple_orders (quote := id) (.htmlWithHeaders 404 _ _) (by decide) _ (fun _ => rfl)
example : ∃ w', (jsonError (fun s => 34 :: s ++ [34]) 403 (some b!"access denied")).write simpleEnv {} ({ base := {} } : Wr dotCodec) = .ret true w' ∧
    Sent simpleEnv w'.base.out { status := 403, type := b!"application/json", body := b!"{\"error\":\"Access denied\"}" } :=
  c86_sent simple_orders (.jsonError 403 (.message b!"ccess denied" (by decide) (.inr ⟨by decide, by decide⟩))) (by decide) _ (fun _ => rfl)
example : ∃ w', (templateWithHeadersAndCookies ⟨true, some ⟨[b!"a", [], b!"b"], false⟩⟩ 200 (some [(b!"Content-Type", b!"text/xml")]) (some [])).write simpleEnv {} ({ base := {} } : Wr dotCodec) = .ret true w' ∧
    Sent simpleEnv w'.base.out { status := 200, type := b!"text/html; charset=utf-8", body := b!"ab", headers := [(b!"Content-Type", b!"text/xml")] } :=
  c86_sent simple_orders (quote := id) (.templateWithHeadersAndCookies 200 _ _ _) (by decide) _ (fun _ => rfl)

/-- C86 for redirects: the status in the name, the location, and no other header but the content type. -/
theorem c86_redirect (url : Str) (req : RReq) (r : Resp) (s : Nat)
    (h : (r = redirectMovedPermanently url ∧ s = 301) ∨ (r = redirectFound url ∧ s = 302) ∨ (r = redirectSeeOther url ∧ s = 303)) :
    ∃ w' H rest, r.write env req ({} : Wr c) = .ret true w' ∧ w'.base.out = .head s H :: rest ∧ (∀ e ∈ rest, isBody e = true) ∧
      H b!"Location" = [env.location url] ∧ (∀ k, k ≠ b!"Location" → k ≠ b!"Content-Type" → H k = []) ∧
      (req.method ≠ b!"GET" → rest = []) := by
  have key : ∀ s : Nat, 200 ≤ s → s ≤ 999 → ∃ w' H rest, (redirectWith s url).write env req ({} : Wr c) = .ret true w' ∧ w'.base.out = .head s H :: rest ∧ (∀ e ∈ rest, isBody e = true) ∧
      H b!"Location" = [env.location url] ∧ (∀ k, k ≠ b!"Location" → k ≠ b!"Content-Type" → H k = []) ∧ (req.method ≠ b!"GET" → rest = []) := by
    intro s h1 h2
    generalize hH : (if (req.method == b!"GET" || req.method == b!"HEAD") = true then
      (Header.set (fun _ => []) b!"Location" (env.location url)).set b!"Content-Type" b!"text/html; charset=utf-8" else Header.set (fun _ => []) b!"Location" (env.location url)) = H
    have l1 : H b!"Location" = [env.location url] := by
      rw [← hH]; split
      · simp only [Header.set]; rw [if_neg (by decide), if_pos (by decide)]
      · simp only [Header.set]; rw [if_pos (by decide)]
    have l2 : ∀ k, k ≠ b!"Location" → k ≠ b!"Content-Type" → H k = [] := by
      intro k k1 k2
      rw [← hH]; split
      · simp only [Header.set]
        rw [if_neg (by rw [show canonicalKey b!"Content-Type" = b!"Content-Type" by decide]; exact k2), if_neg (by rw [show canonicalKey b!"Location" = b!"Location" by decide]; exact k1)]
      · simp only [Header.set]
        rw [if_neg (by rw [show canonicalKey b!"Location" = b!"Location" by decide]; exact k1)]
    let w1 : Wr c := { base := { header := H, status := some s, out := [.head s H] } }
    have e : (redirectWith s url).write env req ({} : Wr c) =
        if req.method == b!"GET" then .ret true (w1.write (env.redirectBody s url)).2 else .ret true w1 := by
      have hw : ({ header := H } : W).writeHeader s = some w1.base := by
        unfold W.writeHeader
        rw [if_neg (by simp), if_neg (by omega), if_neg (by omega)]
        simp [w1]
      simp only [redirectWith, Resp.write, Resp.writeWith, redirectWrite, ne_eq, not_true_eq_false, decide_false, Bool.not_false, Bool.true_and, hH, Wr.setHeader, Wr.writeHeader]
      rw [show ({ header := H, status := none, out := [], writes := 0, plan := fun _ => none, canHijack := true } : W).writeHeader s = some w1.base from hw]
      rfl
    rw [e]
    split
    · rename_i hg
      obtain ⟨rest, h3, h4⟩ := (more_wr_write (w := w1) rfl (env.redirectBody s url)).out
      exact ⟨_, H, rest, rfl, h3, h4, l1, l2, fun hn => absurd (by simpa using hg) hn⟩
    · exact ⟨w1, H, [], rfl, rfl, by simp, l1, l2, fun _ => rfl⟩
  rcases h with ⟨rfl, rfl⟩ | ⟨rfl, rfl⟩ | ⟨rfl, rfl⟩
  · exact key 301 (by decide) (by decide)
  · exact key 302 (by decide) (by decide)
  · exact key 303 (by decide) (by decide)

example : ∃ w' H rest, (redirectFound b!"/x").write simpleEnv {} ({} : Wr dotCodec) = .ret true w' ∧ w'.base.out = .head 302 H :: rest ∧ H b!"Location" = [b!"/x"] ∧ rest ≠ [] :=
  ⟨_, _, _, rfl, rfl, by decide, by simp⟩

/-- C86 for event streams over HTTP/2: status 200 and the headers, cookies and content type. -/
theorem c86_events (he : Orders env) {req : RReq} (hp : req.protoMajor = 2) (feed : Feed) (hs : Hs) (ks : Ks) {r : Resp}
    (h : r = sseWithHeadersAndCookies feed hs ks ∨ (r = sseWithHeaders feed hs ∧ ks = none) ∨ (r = sse feed ∧ hs = none ∧ ks = none)) :
    ∃ H rest, (r.write env req ({} : Wr c)).w.base.out = .head 200 H :: rest ∧ (∀ e ∈ rest, isBody e = true) ∧
      Block env ⟨200, b!"text/event-stream", hs, ks⟩ (fun _ => []) H := by
  have : r = .sse ⟨200, b!"text/event-stream", hs, ks⟩ feed := by
    rcases h with rfl | ⟨rfl, rfl⟩ | ⟨rfl, rfl, rfl⟩ <;> rfl
  subst this
  obtain ⟨H, rest, h1, h2, _, h4⟩ := c56_written_partial (c := c) (w := {}) (h := ⟨200, b!"text/event-stream", hs, ks⟩) he (r := .sse ⟨200, b!"text/event-stream", hs, ks⟩ feed) (req := req) (by simp [headOf, hp]) rfl
    (.inr ⟨by unfold HeadResp.statusCode; simp, by unfold HeadResp.statusCode; simp⟩)
  exact ⟨H, rest, h1, h2, h4⟩

example : ∃ H, ((sse ⟨[({ data := [b!"1"] }, false)], true⟩).write simpleEnv {} ({} : Wr dotCodec)).w.base.out = [.head 200 H, .data b!"data: 1\n\n", .flush, .flush] ∧
    H b!"Content-Type" = [b!"text/event-stream"] := ⟨_, rfl, by decide⟩

/-- C86 for adapted handlers: the handler alone decides what is sent. -/
theorem c86_adapted (ops : List Op) (req : RReq) (w : Wr c) : (adapt ops).write env req w = runOps ops w := by
  obtain ⟨base, layers⟩ := w
  rfl

/-- C76 for responses of every kind with a common header part, a final status, and a
payload that can be encoded and produced, over a connection that does not fail: an error is returned exactly if there is
a body and the status has none; otherwise the body is complete. -/
theorem c76_no_error_partial {req : RReq} {r : Resp} {h : HeadResp} {b : Str} {w : Wr c} (hk : headOf req r = some h) (ht : BodyText r b)
    (hs : w.base.status = none) (hl : w.layers = []) (hf : FinalStatus h.statusCode) (hr : Reliable w.base) :
    (b = [] ∨ BodyStatus h.statusCode → ∃ w', r.write env req w = .ret true w' ∧ w'.base.status = some h.statusCode.toNat ∧ bodyOf w'.base.out = bodyOf w.base.out ++ b) ∧
    (¬ (b = [] ∨ BodyStatus h.statusCode) → ∃ w', r.write env req w = .ret false w' ∧ w'.base.status = some h.statusCode.toNat ∧ bodyOf w'.base.out = bodyOf w.base.out) := by
  by_cases hb : BodyStatus h.statusCode
  · exact ⟨fun _ => kind_body hk ht hs hl hf hb.allowed hr, fun h => absurd (.inr hb) h⟩
  have hst : ∀ {ok w'}, r.write env req w = .ret ok w' → w'.base.status = some h.statusCode.toNat := fun {ok w'} he => by
    have := (kind_write (env := env) hk hs hf).status
    rw [he] at this
    exact this
  obtain ⟨w', h1, h2⟩ := kind_nobody (env := env) hk ht hs hl hf (not_allowed hf hb)
  refine ⟨fun h => ?_, fun h => ?_⟩
  · obtain rfl := h.resolve_right hb
    exact ⟨w', h1, hst h1, by rw [h2, List.append_nil]⟩
  · have : decide (b = []) = false := by simpa using fun hb => h (.inl hb)
    rw [this] at h1
    exact ⟨w', h1, hst h1, h2⟩

example : ∃ w', (Resp.stream { status := 201 } (some ⟨[b!"a", b!"b"], false⟩)).write simpleEnv {} ({} : Wr dotCodec) = .ret true w' ∧
    w'.base.status = some 201 ∧ bodyOf w'.base.out = b!"ab" :=
  (c76_no_error_partial (h := { status := 201 }) rfl (.stream _ [b!"a", b!"b"]) rfl rfl (.inr (by decide)) (fun _ => rfl)).1 (.inr (by decide))

example : ∃ w', (Resp.text { status := 304 } b!"a").write simpleEnv {} ({} : Wr dotCodec) = .ret false w' ∧
    w'.base.status = some 304 ∧ bodyOf w'.base.out = [] :=
  (c76_no_error_partial (h := { status := 304 }) rfl (.text _ b!"a") rfl rfl (.inr (by decide)) (fun _ => rfl)).2 (by decide)

end Gofre.Props
