import Verif.Props.Compress
import Verif.Props.Cors
import Verif.Spec.Reuse

/-! # C121, C122: caches between server and client -/

namespace Gofre.Props
open Gofre.Http Gofre.Response Gofre.Spec

variable {env : Env} {c : Codec}

theorem answered_unique {before after : List Ev} {code code' : Nat} {H H' : Header} (h : Answered before after code H) (h' : Answered before after code' H') :
    code = code' ∧ H = H' := by
  obtain ⟨pre, rest, e, hp, _⟩ := h
  obtain ⟨pre', rest', e', hp', _⟩ := h'
  rw [e, List.append_assoc, List.append_assoc, List.append_cancel_left_eq] at e'
  clear e
  induction pre generalizing pre' with
  | nil =>
    cases pre' with
    | nil => simp only [List.nil_append, List.cons.injEq, Ev.head.injEq] at e'; exact e'.1
    | cons a l =>
      simp only [List.nil_append, List.cons_append, List.cons.injEq] at e'
      have := hp' a (by simp)
      rw [← e'.1] at this
      exact absurd this (by simp [isInfo])
  | cons a l ih =>
    cases pre' with
    | nil =>
      simp only [List.nil_append, List.cons_append, List.cons.injEq] at e'
      have := hp a (by simp)
      rw [e'.1] at this
      exact absurd this (by simp [isInfo])
    | cons a' l' =>
      simp only [List.cons_append, List.cons.injEq] at e'
      exact ih (fun e he => hp e (by simp [he])) l' e'.2 (fun e he => hp' e (by simp [he]))

/-- What a loop over custom headers leaves under a key: an own value, or what was there. -/
theorem custom_either (hs : Option (Map Str)) (H : Header) (key : Str) :
    customHeaders env hs H key = H key ∨ ∃ k v, (k, v) ∈ (hs.map env.headerOrder).getD [] ∧ canonicalKey k = key ∧ customHeaders env hs H key = [v] := by
  cases hs with
  | none => exact .inl rfl
  | some m =>
    show List.foldl _ H (env.headerOrder m) key = H key ∨ ∃ k v, (k, v) ∈ env.headerOrder m ∧ canonicalKey k = key ∧ List.foldl _ H (env.headerOrder m) key = [v]
    generalize env.headerOrder m = l
    induction l generalizing H with
    | nil => exact .inl rfl
    | cons a l ih =>
      rcases ih (H.set a.1 a.2) with h | ⟨k, v, h1, h2, h3⟩
      · rw [List.foldl_cons, h]
        by_cases hk : key = canonicalKey a.1
        · exact .inr ⟨a.1, a.2, by simp, hk.symm, by simp [Header.set, hk]⟩
        · exact .inl (by simp [Header.set, hk])
      · exact .inr ⟨k, v, by simp [h1], h2, h3⟩

/-- The `Vary` lines of the header block come from the application. -/
theorem has_vary (he : Orders env) {req : RReq} {P : List Str → Prop} : ∀ (r : Resp) (drop : Bool), Passes req b!"Vary" r →
    (∀ k v, (k, v) ∈ r.headers.getD [] → canonicalKey k = b!"Vary" → P [v]) → BlockHas env P b!"Vary" (fun H => P (H b!"Vary")) drop r := by
  have own : ∀ (hs : Option (Map Str)) (drop : Bool) (H : Header), (∀ k v, (k, v) ∈ hs.getD [] → canonicalKey k = b!"Vary" → P [v]) → P (H b!"Vary") →
      P (customHeaders env (Response.without drop hs) H b!"Vary") := by
    intro hs drop H hv hH
    rcases custom_either (env := env) (Response.without drop hs) H b!"Vary" with h | ⟨k, v, h1, h2, h3⟩
    · rw [h]; exact hH
    · rw [h3]
      refine hv k v ?_ h2
      cases hs with
      | none => cases drop <;> simp [Response.without] at h1
      | some m =>
        cases drop with
        | false => exact (he.headers m).mem_iff.1 (by simpa [Response.without] using h1)
        | true =>
          have := (he.headers _).mem_iff.1 (by simpa [Response.without] using h1)
          exact (List.mem_filter.1 this).1
  have main : ∀ (h : HeadResp) (drop : Bool), (∀ k v, (k, v) ∈ h.headers.getD [] → canonicalKey k = b!"Vary" → P [v]) → ∀ H : Header, P (H b!"Vary") →
      P (blockOf env (HeadResp.without drop h) H b!"Vary") := by
    intro h drop hv H hH
    have e : blockOf env (HeadResp.without drop h) H b!"Vary" = customHeaders env (Response.without drop h.headers) (cookieHeaders env h.cookies H) b!"Vary" := by
      unfold blockOf
      rw [default_other (by decide) (by decide)]
      rfl
    rw [e]
    refine own _ _ _ hv ?_
    rw [cookie_other (by decide)]
    exact hH
  intro r
  induction r with
  | plain h => intro drop _ ha H hH; exact main h drop ha H hH
  | text h => intro drop _ ha H hH; exact main h drop ha H hH
  | json h => intro drop _ ha H hH; exact main h drop ha H hH
  | raw h => intro drop _ ha H hH; exact main h drop ha H hH
  | stream h => intro drop _ ha H hH; exact main h drop ha H hH
  | template h => intro drop _ ha H hH; exact main h drop ha H hH
  | sse h => intro drop _ ha H hH; exact main h drop ha H hH
  | redirect => intro _ hp; exact hp.elim
  | hijack => intro _ hp; exact hp.elim
  | adaptor hs ks ops =>
    intro drop _ ha H hH
    exact own hs drop _ ha (by rw [cookie_other (by decide)]; exact hH)
  | compress l r ih => intro drop hp ha; exact ⟨ih drop hp ha, ih true hp ha⟩

/-- C121 fails: whatever a client listing gzip is sent compressed, a cache may send to a client that lists something else,
unless the application itself names `Accept-Encoding` in `Vary`. -/
theorem c121_violated_never (he : Orders env) {req : RReq} {level : Int} {r : Resp} {w : Wr c}
    (hg : Takes req.acceptEncoding b!"gzip") (hp : ∀ key, Passes req key r) (ha : Absent (r.headers.getD []) b!"Content-Encoding")
    (hv : ∀ k v, (k, v) ∈ r.headers.getD [] → SameField k b!"Vary" → ¬ Lists v b!"accept-encoding" ∧ ¬ Lists v b!"*")
    (hs : w.base.status = none) (h0 : w.base.header b!"Vary" = []) :
    ∃ code H, Answered w.base.out (seen ((Resp.compress level r).write env req w)) code H ∧ H b!"Content-Encoding" = [b!"gzip"] ∧
      ∀ old new : Str → List Str, (∀ n, n ≠ b!"accept-encoding" → old n = new n) → Reusable (H b!"Vary") old new := by
  have hal := (alg_exact _).1.2 (.inl hg)
  obtain ⟨code, H, h1, h2⟩ := compressed_block he (level := level) hal (hp _) ha hs
  refine ⟨code, H, h1, h2, ?_⟩
  obtain ⟨code', H', h1', h2'⟩ := (good_write (c := c) (P := fun l => ∀ v ∈ l, ¬ Lists v b!"accept-encoding" ∧ ¬ Lists v b!"*") (h0 := fun H => ∀ v ∈ H b!"Vary", ¬ Lists v b!"accept-encoding" ∧ ¬ Lists v b!"*")
    (by intro H a _ hH; simpa [Header.set, show canonicalKey b!"Content-Encoding" = b!"Content-Encoding" from by decide] using hH)
    (.compress level r) false (w := w) (hp _) (has_vary he (.compress level r) false (hp _) (by
      intro k v hkv hc v' hv'
      rw [List.mem_singleton.1 hv']
      exact hv k v hkv (same_of_key hc))) hs (by rw [h0]; simp)).seen (passes_done (.compress level r) false (hp b!"Vary") hs)
  obtain ⟨_, rfl⟩ := answered_unique h1 h1'
  intro old new hag v hv'
  refine ⟨(h2' v hv').2, fun name hn => hag name ?_⟩
  rintro rfl
  exact (h2' v hv').1 hn

/-- A text response without headers. -/
example : ∃ code H, Answered [] (seen ((Resp.compress 5 (.text {} b!"hi")).write simpleEnv { acceptEncoding := b!"gzip" } ({} : Wr dotCodec))) code H ∧ H b!"Content-Encoding" = [b!"gzip"] ∧
    ∀ old new : Str → List Str, (∀ n, n ≠ b!"accept-encoding" → old n = new n) → Reusable (H b!"Vary") old new :=
  c121_violated_never (w := {}) (req := { acceptEncoding := b!"gzip" }) (r := .text {} b!"hi") simple_orders 
    ((takes_iff (by decide)).2 (by decide)) (fun _ => ⟨by decide, by decide⟩)
    (fun _ _ h => by simp [Resp.headers] at h) (fun _ _ h => by simp [Resp.headers] at h) rfl rfl

/-- C121 fails: the answer to a client with gzip may be given to one that lists no encoding. -/
theorem c121_violated : ∃ H rest, ((Resp.compress 5 (.text {} b!"hi")).write simpleEnv { acceptEncoding := b!"gzip" } ({} : Wr dotCodec)).w.base.out = .head 200 H :: rest ∧
    H b!"Content-Encoding" = [b!"gzip"] ∧ Reusable (H b!"Vary") (fun n => if n = b!"accept-encoding" then [b!"gzip"] else []) (fun _ => []) := by
  refine ⟨_, _, rfl, by decide, ?_⟩
  have h : ∀ l : List Str, l = [] → Reusable l (fun n => if n = b!"accept-encoding" then [b!"gzip"] else []) (fun _ => []) := by
    rintro _ rfl v hv
    exact absurd hv (by simp)
  exact h _ (by decide)

/-- C121 (when a handler or a middleware has set a `Vary` that names `Accept-Encoding`, as the only spelling of it): a cache gives the
answer only to clients with the same `Accept-Encoding`, to whom the server would send the same. -/
theorem c121_declared_partial (he : Orders env) {req : RReq} {level : Int} {r : Resp} {w : Wr c} {k v : Str} (hk : SameField k b!"Vary") (hp : Passes req b!"Vary" r)
    (hm : IsMap (r.headers.getD [])) (ho : ∀ k' v', (k', v') ∈ r.headers.getD [] → k' ≠ k → ¬ SameField k' b!"Vary") (hv : Lists v b!"accept-encoding") (hs : w.base.status = none) :
    ∃ code H, Answered w.base.out (seen (((Resp.compress level r).mapHeaders (Map.set · k v)).write env req w)) code H ∧
      ∀ (accept : Str) (old new : Str → List Str), old b!"accept-encoding" = [req.acceptEncoding] → new b!"accept-encoding" = [accept] → Reusable (H b!"Vary") old new →
        ((Resp.compress level r).mapHeaders (Map.set · k v)).write env { req with acceptEncoding := accept } w =
          ((Resp.compress level r).mapHeaders (Map.set · k v)).write env req w := by
  have hc := key_of_same (by decide) hk
  obtain ⟨code, H, h1, h2⟩ := c59_headers_partial he (req := req) (r := .compress level r) (w := w) (k := k) (v := v) (by rw [hc]; exact hp) hm
    (fun k' v' h1 h2 e => ho k' v' h1 h2 ((canonicalKey_iff _ _).1 (((canonicalKey_iff _ _).2 e).trans ((canonicalKey_iff _ _).2 hk))))
    (by rintro rfl; exact absurd hk (by decide)) (.inr (by rw [← canonicalKey_iff, ← canonicalKey_iff, hc]; decide)) hs
  refine ⟨code, H, h1, fun accept old new e1 e2 hr => ?_⟩
  have h2 := h2 k (.inl rfl)
  rw [hc] at h2
  have := (hr v (by rw [h2]; simp)).2 _ hv
  rw [e1, e2] at this
  have : req.acceptEncoding = accept := by simpa using this
  subst this
  rfl

example : Lists b!"Origin, Accept-Encoding" b!"accept-encoding" :=
  ⟨b!" Accept-Encoding", by decide, b!" ", b!"Accept-Encoding", [], rfl, by unfold Blank; decide, by simp [Blank], by decide⟩

/-! ### C122 -/

open Gofre.Cors in
/-- With a `Vary` in ASCII, or none, the value after adding `Origin` lists it, or `*`. -/
theorem added_vary {h : Map Str} (ha : ∀ v, Map.get? h b!"Vary" = some v → AsciiText v) :
    ∃ v, Map.get? (addVary h b!"Origin") b!"Vary" = some v ∧ (Lists v b!"origin" ∨ Lists v b!"*") := by
  have own : Lists b!"Origin" b!"origin" := ⟨b!"Origin", by decide, [], b!"Origin", [], rfl, by simp [Blank], by simp [Blank], by decide⟩
  have star : Lists b!"*" b!"*" := ⟨b!"*", by decide, [], b!"*", [], rfl, by simp [Blank], by simp [Blank], by decide⟩
  unfold addVary
  split
  · exact ⟨_, Map.get?_set_same _ _ _, .inl own⟩
  · rename_i h1
    split
    · rename_i h2
      cases ho : Map.get? h b!"Vary" with
      | none => simp [listed, ho] at h1
      | some vh =>
        have hlen : vh.length > 0 := by
          cases vh with
          | nil => simp [listed, ho] at h1
          | cons a l => simp
        refine ⟨vh, rfl, .inr ?_⟩
        have hl : listed h = (splitOn 44 vh).map trimSpace := by simp [listed, ho, hlen]
        rw [hl] at h2
        simp only [Bool.and_eq_true, decide_eq_true_eq, beq_iff_eq, List.length_map] at h2
        cases hsp : splitOn 44 vh with
        | nil => exact absurd hsp (splitOn_ne_nil 44 vh)
        | cons e l =>
          rw [hsp] at h2
          simp only [List.map_cons, List.headD_cons, trimSpace_idem] at h2
          have hm : e ∈ splitOn 44 vh := by rw [hsp]; simp
          obtain ⟨pre, post, e1, e2, e3⟩ := trim_parts (s := e) (ascii_split (ha vh ho) hm)
          rw [h2.2] at e1
          exact ⟨e, hm, pre, b!"*", post, e1, e2, e3, by decide⟩
    · split
      · exact ⟨_, Map.get?_set_same _ _ _, .inr star⟩
      · refine ⟨_, Map.get?_set_same _ _ _, .inl ⟨b!"Origin", ?_, [], b!"Origin", [], rfl, by simp [Blank], by simp [Blank], by decide⟩⟩
        rw [splitOn_joinWith (by simp)]
        · simp
        · intro p hp
          rcases List.mem_append.1 hp with hp | hp
          · unfold listed at hp
            split at hp
            · split at hp
              · obtain ⟨q, hq, rfl⟩ := List.mem_map.1 hp
                exact trimSpace_no_comma (splitOn_no_sep 44 _ q hq)
              · simp at hp
            · simp at hp
          · rw [List.mem_singleton.1 hp]; decide

open Gofre.Cors in
theorem standard_vary {cfg : Config} {r : Req} {h : Map Str} (hc : cfg.anyOriginAllowed = false) (hm : r.method ≠ b!"OPTIONS") :
    Map.get? (addStandard cfg r h) b!"Vary" = Map.get? (addVary (Map.set h b!"Access-Control-Allow-Origin" (getFirst r.headers b!"Origin")) b!"Origin") b!"Vary" := by
  unfold addStandard addCredentials setWhen addOrigin
  have : (r.method == b!"OPTIONS") = false := by simpa using hm
  rw [this, hc]
  simp only [Bool.false_eq_true, if_false]
  split <;> split <;> simp [Map.get?_set_other]

open Gofre.Cors in
theorem type_same {x : Ext} {r₁ r₂ : Req} (hs : r₂ = { r₁ with headers := r₂.headers }) (hm : r₁.method = b!"GET" ∨ r₁.method = b!"HEAD")
    (ho : Map.get? r₁.headers b!"Origin" = Map.get? r₂.headers b!"Origin") :
    requestType x r₂ = requestType x r₁ ∧ requestType x r₁ ≠ .preFlight := by
  have hg : getFirst r₁.headers b!"Origin" = getFirst r₂.headers b!"Origin" := by simp only [getFirst, ho]
  rw [hs]
  unfold requestType
  dsimp only
  rw [ho, hg]
  have he : isSameOrigin { r₁ with headers := r₂.headers } (getFirst r₂.headers b!"Origin") = isSameOrigin r₁ (getFirst r₂.headers b!"Origin") := rfl
  rw [he]
  have hb : (r₁.method == b!"GET" || r₁.method == b!"HEAD") = true := by simpa using hm
  rw [hb]
  refine ⟨by split <;> simp, ?_⟩
  split
  · simp
  · split
    · simp
    · split <;> simp

open Gofre.Cors in
/-- C122 (with listed origins, for GET and HEAD requests to a handler that answers both alike, with no `Vary` or one in ASCII): when a cache
may give the answer for one request to another, the server would give the second one the same answer. -/
theorem c122_listed_partial {σ α : Type} (x : Ext) (cfg : Config) (h : Handler σ (RespH α)) (ctx : Ctx) (r₁ r₂ : Req) (s : σ) (hany : cfg.anyOriginAllowed = false)
    (hs : r₂ = { r₁ with headers := r₂.headers }) (hm : r₁.method = b!"GET" ∨ r₁.method = b!"HEAD") (hh : h ctx r₂ s = h ctx r₁ s)
    (hv : ∀ resp m s', h ctx r₁ s = (.ret (some resp) none, s') → resp.headers = some m → ∀ v, Map.get? m b!"Vary" = some v → AsciiText v)
    (ho₁ : Map.get? r₁.headers b!"Origin" ≠ some []) (ho₂ : Map.get? r₂.headers b!"Origin" ≠ some []) {resp : RespH α} {m : Map Str} {s' : σ}
    (hres : cors x cfg h ctx r₁ s = (.ret (some resp) none, s')) (hd : resp.headers = some m) {old new : Str → List Str}
    (e₁ : old b!"origin" = (Map.get? r₁.headers b!"Origin").getD []) (e₂ : new b!"origin" = (Map.get? r₂.headers b!"Origin").getD [])
    (hr : Reusable (Map.get? m b!"Vary").toList old new) : cors x cfg h ctx r₂ s = (.ret (some resp) none, s') := by
  have hopt : r₁.method ≠ b!"OPTIONS" := by rcases hm with h | h <;> rw [h] <;> decide
  have key : ∀ resp₀ st, h ctx r₁ s = (.ret (some resp₀) none, st) → respond cfg r₁ resp₀ = .ret (some resp) none →
      Map.get? r₁.headers b!"Origin" = Map.get? r₂.headers b!"Origin" := by
    intro resp₀ st h0 h1
    unfold respond at h1
    split at h1
    · cases h1
    · rename_i m₀ hm₀
      simp only [HRes.ret.injEq, Option.some.injEq, and_true] at h1
      rw [← h1] at hd
      simp only [Option.some.injEq] at hd
      obtain ⟨v, hv1, hv2⟩ := added_vary (h := Map.set m₀ b!"Access-Control-Allow-Origin" (getFirst r₁.headers b!"Origin")) (by
        intro v hv'
        rw [Map.get?_set_other _ _ _ _ (by decide)] at hv'
        exact hv resp₀ m₀ st h0 hm₀ v hv')
      rw [← hd, standard_vary hany hopt, hv1] at hr
      obtain ⟨n1, n2⟩ := hr v (by simp)
      rcases hv2 with hv2 | hv2
      · have := n2 _ hv2
        rw [e₁, e₂] at this
        cases ha : Map.get? r₁.headers b!"Origin" with
        | none =>
          cases hb : Map.get? r₂.headers b!"Origin" with
          | none => rfl
          | some b =>
            rw [ha, hb] at this
            simp only [Option.getD_none, Option.getD_some] at this
            rw [hb, ← this] at ho₂
            exact absurd rfl ho₂
        | some a =>
          cases hb : Map.get? r₂.headers b!"Origin" with
          | none =>
            rw [ha, hb] at this
            simp only [Option.getD_none, Option.getD_some] at this
            rw [ha, this] at ho₁
            exact absurd rfl ho₁
          | some b => rw [ha, hb] at this; simpa using this
      · exact absurd hv2 n1
  have hor : Map.get? r₁.headers b!"Origin" = Map.get? r₂.headers b!"Origin" := by
    unfold cors at hres
    cases hr' : h ctx r₁ s with
    | mk res st =>
      rw [hr'] at hres
      cases res with
      | panic v => simp at hres
      | ret resp₀ e₀ =>
        cases e₀ with
        | some e₀ => simp at hres
        | none =>
          dsimp only at hres
          cases resp₀ with
          | none => cases hk : requestType x r₁ <;> simp [hk] at hres
          | some resp₀ =>
            cases hk : requestType x r₁ <;> rw [hk] at hres <;> dsimp only at hres
            all_goals first
              | (split at hres
                 · exact key resp₀ st hr' (by simpa using congrArg Prod.fst hres)
                 · simp at hres)
              | exact key resp₀ st hr' (by simpa using congrArg Prod.fst hres)
              | simp at hres
  rw [← hres]
  obtain ⟨t1, t2⟩ := type_same (x := x) hs hm hor
  have hg : getFirst r₂.headers b!"Origin" = getFirst r₁.headers b!"Origin" := by simp only [getFirst, hor]
  have hm2 : r₂.method = r₁.method := by rw [hs]
  have hsim : simpleOK x cfg r₂ = simpleOK x cfg r₁ := by simp only [simpleOK, hg, hm2]
  have hrsp : ∀ a : RespH α, respond cfg r₂ a = respond cfg r₁ a := by intro a; simp only [respond, addStandard, addOrigin, hg, hm2]
  unfold cors
  rw [hh, t1]
  cases h ctx r₁ s with
  | mk res st =>
    cases res with
    | panic v => rfl
    | ret resp₀ e₀ =>
      cases e₀ with
      | some e₀ => rfl
      | none =>
        cases resp₀ with
        | none => cases hk : requestType x r₁ <;> rfl
        | some resp₀ =>
          cases hk : requestType x r₁
          case preFlight => exact absurd hk t2
          all_goals dsimp only
          all_goals rw [hrsp]
          all_goals try rw [hsim]

/-- Two origins and a page for the first. -/
example : Gofre.Cors.cors demoExt { allowedOrigins := [b!"https://a", b!"https://b"], allowedHttpMethods := [b!"GET"] }
    (fun _ _ (n : Nat) => (.ret (some ⟨some [(b!"Vary", b!"Cookie")], 7⟩) none, n)) {} (demoCors b!"GET" b!"https://a") 0 =
    (.ret (some ⟨some [(b!"Vary", b!"Cookie,Origin"), (b!"Access-Control-Allow-Origin", b!"https://a")], 7⟩) none, 0) ∧
    Reusable [b!"Cookie,Origin"] (fun n => if n = b!"origin" then [b!"https://a"] else if n = b!"accept" then [b!"*/*"] else []) (fun n => if n = b!"origin" then [b!"https://a"] else []) ∧
    ¬ Reusable [b!"Cookie,Origin"] (fun n => if n = b!"origin" then [b!"https://a"] else []) (fun n => if n = b!"origin" then [b!"https://b"] else []) := by
  refine ⟨by decide, ?_, ?_⟩
  · intro v hv
    rw [List.mem_singleton.1 hv]
    refine ⟨not_listed (b := 42) (by decide) (by decide), fun name hn => ?_⟩
    have : name ≠ b!"accept" := by
      rintro rfl
      exact not_listed (b := 97) (by decide) (by decide) hn
    simp [this]
  · intro h
    have := (h _ (List.mem_singleton.2 rfl)).2 b!"origin" ⟨b!"Origin", by decide, [], b!"Origin", [], rfl, by simp [Blank], by simp [Blank], by decide⟩
    exact absurd this (by decide)

open Gofre.Cors in
/-- C122 (with any origin allowed, for a handler that answers both alike): all requests that get an answer get the same one. -/
theorem c122_any_partial {σ α : Type} (x : Ext) (cfg : Config) (h : Handler σ (RespH α)) (ctx : Ctx) (r₁ r₂ : Req) (s : σ) (hany : cfg.anyOriginAllowed = true)
    (hm : r₁.method = r₂.method) (hh : h ctx r₂ s = h ctx r₁ s) {a₁ a₂ : RespH α} {s₁ s₂ : σ}
    (h₁ : cors x cfg h ctx r₁ s = (.ret (some a₁) none, s₁)) (h₂ : cors x cfg h ctx r₂ s = (.ret (some a₂) none, s₂)) : a₁ = a₂ := by
  have hrsp : ∀ a : RespH α, respond cfg r₂ a = respond cfg r₁ a := by intro a; simp only [respond, addStandard, addOrigin, hany, hm, if_true]
  have get : ∀ (r : Req) (a : RespH α) (st : σ), cors x cfg h ctx r s = (.ret (some a) none, st) →
      ∃ resp₀ st', h ctx r s = (.ret (some resp₀) none, st') ∧ respond cfg r resp₀ = .ret (some a) none := by
    intro r a st hres
    unfold cors at hres
    cases hr' : h ctx r s with
    | mk res st' =>
      rw [hr'] at hres
      cases res with
      | panic v => simp at hres
      | ret resp₀ e₀ =>
        cases e₀ with
        | some e₀ => simp at hres
        | none =>
          dsimp only at hres
          cases resp₀ with
          | none => cases hk : requestType x r <;> simp [hk] at hres
          | some resp₀ =>
            refine ⟨resp₀, st', rfl, ?_⟩
            cases hk : requestType x r <;> rw [hk] at hres <;> dsimp only at hres
            all_goals first
              | (split at hres
                 · simpa using congrArg Prod.fst hres
                 · simp at hres)
              | simpa using congrArg Prod.fst hres
              | simp at hres
  obtain ⟨b₁, t₁, g1, g2⟩ := get r₁ a₁ s₁ h₁
  obtain ⟨b₂, t₂, g3, g4⟩ := get r₂ a₂ s₂ h₂
  rw [hh, g1] at g3
  simp only [Prod.mk.injEq, HRes.ret.injEq, Option.some.injEq, and_true] at g3
  rw [← g3.1, hrsp, g2] at g4
  simpa using g4

example : ∀ o ∈ ([b!"https://a", b!"https://b"] : List Str), Gofre.Cors.cors demoExt { anyOriginAllowed := true, allowedHttpMethods := [b!"GET"] }
    (fun _ _ (n : Nat) => (.ret (some ⟨some [], 7⟩) none, n)) {} (demoCors b!"GET" o) 0 =
    (.ret (some ⟨some [(b!"Access-Control-Allow-Origin", b!"*")], 7⟩) none, 0) := by decide

/-- A run in which maps are gone through from the end. -/
def backEnv : Env := { simpleEnv with headerOrder := fun m => m.reverse }

/-- C122 fails: a handler that writes the name as `vary` may, depending on the order in which Go goes through the map, take the middleware's own
`Vary` away; the answer made for one origin may then be given to another one. -/
theorem c122_violated : ∃ m H rest, Orders backEnv ∧
    Gofre.Cors.cors demoExt { allowedOrigins := [b!"https://a", b!"https://b"], allowedHttpMethods := [b!"GET"] }
      (fun _ _ (n : Nat) => (.ret (some ⟨some [(b!"vary", b!"Cookie")], ()⟩) none, n)) {} (demoCors b!"GET" b!"https://a") 0 = (.ret (some ⟨some m, ()⟩) none, 0) ∧
    ((Resp.text { headers := some m } b!"hi").write backEnv {} ({} : Wr dotCodec)).w.base.out = .head 200 H :: rest ∧
    H b!"Access-Control-Allow-Origin" = [b!"https://a"] ∧
    Reusable (H b!"Vary") (fun n => if n = b!"origin" then [b!"https://a"] else []) (fun n => if n = b!"origin" then [b!"https://b"] else []) := by
  refine ⟨[(b!"vary", b!"Cookie"), (b!"Access-Control-Allow-Origin", b!"https://a"), (b!"Vary", b!"Origin")], _, _, ⟨fun m => List.reverse_perm m, fun _ => .refl _⟩, by decide, rfl, by decide, ?_⟩
  have h : ∀ l : List Str, l = [b!"Cookie"] → Reusable l (fun n => if n = b!"origin" then [b!"https://a"] else []) (fun n => if n = b!"origin" then [b!"https://b"] else []) := by
    rintro _ rfl v hv
    rw [List.mem_singleton.1 hv]
    refine ⟨not_listed (b := 42) (by decide) (by decide), fun name hn => ?_⟩
    have : name ≠ b!"origin" := by
      rintro rfl
      exact not_listed (b := 114) (by decide) (by decide) hn
    simp [this]
  exact h _ (by decide)

end Gofre.Props
