import Verif.Proofs.Cors
import Verif.Proofs.Media
import Verif.Proofs.Trim

/-! # C49–C52, C70: CORS -/

namespace Gofre.Props
open Gofre.Cors
open Gofre.Spec (NamesType NoType Trims Member)
variable {σ α : Type}

/-- The origin of a URL with the given scheme, host and explicit port (empty if none): two
texts that denote it, with and without the port. -/
def SameOrigin (r : Req) (o : Str) : Prop :=
  r.scheme ≠ [] ∧ r.host ≠ [] ∧
    let scheme := toLower r.scheme
    let dflt := if scheme = b!"https" ∨ scheme = b!"wss" then b!"443" else b!"80"
    let port := if r.port = [] then dflt else r.port
    (o = scheme ++ b!"://" ++ r.host ∧
      (scheme = b!"http" ∨ scheme = b!"ws" ∨ scheme = b!"https" ∨ scheme = b!"wss" → port = dflt)) ∨
    o = scheme ++ b!"://" ++ r.host ++ b!":" ++ port

theorem isSameOrigin_iff (r : Req) (o : Str) : isSameOrigin r o = true ↔ SameOrigin r o := by
  unfold isSameOrigin SameOrigin
  by_cases h1 : r.scheme = []
  · simp [h1]
  by_cases h2 : r.host = []
  · simp [h2]
  simp only [h1, h2, decide_false, Bool.or_self, Bool.false_eq_true, if_false, ne_eq, not_false_eq_true,
    true_and, Bool.or_eq_true, beq_iff_eq, Bool.and_eq_true, bne_iff_ne]
  generalize hsch : toLower r.scheme = scheme
  generalize hb : scheme ++ b!"://" ++ r.host = base
  generalize hd : (if scheme = b!"https" ∨ scheme = b!"wss" then b!"443" else b!"80") = dflt
  generalize hp : (if r.port = [] then dflt else r.port) = port
  have hlen : o = base ++ b!":" ++ port → base.length ≠ o.length := by
    intro h; rw [h]; simp
  by_cases hl : base.length = o.length
  · rw [if_pos hl]
    have : ¬ o = base ++ b!":" ++ port := fun h => hlen h hl
    simp only [this, or_false]
    split
    · rename_i hbad
      constructor
      · intro h; cases h
      · rintro ⟨_, himp⟩
        exfalso
        rcases hbad with ⟨hs, hpp⟩ | ⟨hs, hpp⟩
        · have hdd : dflt = b!"80" := by
            rw [← hd]
            rcases hs with hs | hs <;> simp [hs]
          apply hpp
          rw [himp (by rcases hs with hs | hs <;> simp [hs]), hdd]
        · have hdd : dflt = b!"443" := by
            rw [← hd]; simp [hs]
          apply hpp
          rw [himp (by rcases hs with hs | hs <;> simp [hs]), hdd]
    · rename_i hok
      constructor
      · intro h
        refine ⟨(eq_of_beq h).symm, ?_⟩
        intro hs
        refine Decidable.byContradiction fun hne => hok ?_
        rcases hs with hs | hs | hs | hs
        · left; refine ⟨.inl hs, ?_⟩
          intro h80; apply hne; rw [h80, ← hd]; simp [hs]
        · left; refine ⟨.inr hs, ?_⟩
          intro h80; apply hne; rw [h80, ← hd]; simp [hs]
        · right; refine ⟨.inl hs, ?_⟩
          intro h443; apply hne; rw [h443, ← hd]; simp [hs]
        · right; refine ⟨.inr hs, ?_⟩
          intro h443; apply hne; rw [h443, ← hd]; simp [hs]
      · rintro ⟨h, _⟩; rw [h]; simp
  · rw [if_neg hl]
    have : ¬ o = base := fun h => hl (by rw [h])
    simp only [this, false_and, false_or, beq_iff_eq]
    exact eq_comm

/-- The request is a preflight request. -/
def Preflight (r : Req) : Prop :=
  r.method = b!"OPTIONS" ∧ Map.get? r.headers b!"Access-Control-Request-Method" ≠ none

/-- The configuration lets this origin in. -/
def OriginAllowed (c : Config) (o : Str) : Prop := c.anyOriginAllowed = true ∨ o ∈ c.allowedOrigins

/-- The configuration lets this method in. -/
def MethodAllowed (x : Ext) (c : Config) (m : Str) : Prop := ∃ a ∈ c.allowedHttpMethods, x.eqFold a m = true

/-- The names of the request-headers header of a preflight request, as the middleware makes them. -/
def requestedHeaders (r : Req) : List Str :=
  ((splitOn 44 (trimSpace (getFirst r.headers b!"Access-Control-Request-Headers"))).map trimSpace).filter (· ≠ [])

theorem requested_iff {r : Req} {n : Str} :
    n ∈ requestedHeaders r ↔ n ≠ [] ∧ Member (getFirst r.headers b!"Access-Control-Request-Headers") n := by
  rw [← member_trim, member_iff, requestedHeaders, List.mem_filter, decide_eq_true_eq, and_comm]

/-- All conditions on a cross-origin request.  White space around the requested method and around the requested names does not count. -/
structure Permitted (x : Ext) (c : Config) (r : Req) (o : Str) : Prop where
  origin : OriginAllowed c o
  method : ¬ Preflight r → MethodAllowed x c r.method
  preMethod : Preflight r → ∃ m, Trims (getFirst r.headers b!"Access-Control-Request-Method") m ∧ MethodAllowed x c m
  preHeaders : Preflight r → ∀ n, n ≠ [] → Member (getFirst r.headers b!"Access-Control-Request-Headers") n →
    ∃ a ∈ c.allowedHttpHeaders, x.eqFold a n = true

theorem originAllowed_iff (c : Config) (o : Str) : originAllowed c o = true ↔ OriginAllowed c o := by
  unfold originAllowed OriginAllowed
  cases c.anyOriginAllowed <;> simp

theorem allowedMethod_iff (x : Ext) (c : Config) (m : Str) : allowedMethod x c m = true ↔ MethodAllowed x c m := by
  simp [allowedMethod, MethodAllowed]

theorem getFirst_of_get? {m : Map (List Str)} {k v : Str} {vs} (h : Map.get? m k = some (v :: vs)) :
    getFirst m k = v := by simp [getFirst, h]

theorem simpleOK_iff (x : Ext) (c : Config) (r : Req) :
    simpleOK x c r = true ↔ OriginAllowed c (getFirst r.headers b!"Origin") ∧ MethodAllowed x c r.method := by
  rw [← originAllowed_iff, ← allowedMethod_iff]
  unfold simpleOK
  cases originAllowed c (getFirst r.headers b!"Origin") <;> cases allowedMethod x c r.method <;> simp

theorem preFlightOK_iff (x : Ext) (c : Config) (r : Req) :
    preFlightOK x c r = true ↔ OriginAllowed c (getFirst r.headers b!"Origin") ∧
      Map.get? r.headers b!"Access-Control-Request-Method" ≠ none ∧
      (∃ m, Trims (getFirst r.headers b!"Access-Control-Request-Method") m ∧ MethodAllowed x c m) ∧
      ∀ n, n ≠ [] → Member (getFirst r.headers b!"Access-Control-Request-Headers") n → ∃ a ∈ c.allowedHttpHeaders, x.eqFold a n = true := by
  have e1 : (∃ m, Trims (getFirst r.headers b!"Access-Control-Request-Method") m ∧ MethodAllowed x c m) ↔
      MethodAllowed x c (trimSpace (getFirst r.headers b!"Access-Control-Request-Method")) :=
    ⟨fun ⟨m, h1, h2⟩ => by rw [trims_iff.1 h1]; exact h2, fun h => ⟨_, trims_trimSpace _, h⟩⟩
  have e2 : (∀ n, n ≠ [] → Member (getFirst r.headers b!"Access-Control-Request-Headers") n → ∃ a ∈ c.allowedHttpHeaders, x.eqFold a n = true) ↔
      ∀ n ∈ requestedHeaders r, ∃ a ∈ c.allowedHttpHeaders, x.eqFold a n = true :=
    ⟨fun h n hn => h n (requested_iff.1 hn).1 (requested_iff.1 hn).2, fun h n h1 h2 => h n (requested_iff.2 ⟨h1, h2⟩)⟩
  rw [e1, e2, ← originAllowed_iff, ← allowedMethod_iff]
  unfold preFlightOK
  cases originAllowed c (getFirst r.headers b!"Origin")
  · simp
  · cases Map.get? r.headers b!"Access-Control-Request-Method" with
    | none => simp
    | some v =>
      cases allowedMethod x c (trimSpace (getFirst r.headers b!"Access-Control-Request-Method"))
      · simp
      · simp only [Bool.not_true, Bool.false_eq_true, if_false, List.all_eq_true, requestedHeaders,
          allowedHeader, trimSpace_idem, true_and, ne_eq, reduceCtorEq, not_false_eq_true]
        simp only [Bool.not_eq_true', Bool.and_eq_false_iff, bne_eq_false_iff_eq,
          Bool.not_eq_false', List.any_eq_true, List.mem_filter, List.mem_map, decide_eq_true_eq]
        constructor
        · intro h y ⟨⟨z, hz, hzy⟩, hne⟩
          subst hzy
          rcases h z hz with h | h
          · exact absurd h hne
          · exact h
        · intro h z hz
          by_cases hz0 : trimSpace z = []
          · exact .inl hz0
          · exact .inr (h _ ⟨⟨z, hz, rfl⟩, hz0⟩)

/-- The kinds of a cross-origin request. -/
theorem requestType_cross (x : Ext) (r : Req) (o : Str) (vs)
    (ho : Map.get? r.headers b!"Origin" = some (o :: vs)) (hx : ¬ SameOrigin r o) :
    requestType x r ≠ .notCors ∧
    (requestType x r = .preFlight → Preflight r) ∧
    (requestType x r = .simple ∨ requestType x r = .actual → ¬ Preflight r) := by
  have hs : isSameOrigin r o = false := by
    cases h : isSameOrigin r o with
    | false => rfl
    | true => exact absurd ((isSameOrigin_iff r o).1 h) hx
  unfold requestType
  simp only [ho, getFirst_of_get? ho, hs, Bool.false_eq_true, if_false]
  unfold Preflight
  refine ⟨?_, ?_, ?_⟩
  · repeat' split
    all_goals simp
  · repeat' split
    all_goals simp_all
  · repeat' split
    all_goals simp_all
    rename_i hm
    rcases hm with hm | hm <;> simp [hm]

/-- C49.  If a cross-origin request gets a response through the CORS middleware then all the
conditions hold, the response is the handler's apart from the CORS headers, and the allowed
origin is `*` or exactly the request's origin. -/
theorem c49_only_permitted (x : Ext) (c : Config) (h : Handler σ (RespH α)) (ctx : Ctx) (r : Req) (s : σ)
    (o : Str) (vs) (ho : Map.get? r.headers b!"Origin" = some (o :: vs)) (hx : ¬ SameOrigin r o)
    (resp : RespH α) (err : Option Err) (s' : σ) (hres : cors x c h ctx r s = (.ret (some resp) err, s')) :
    err = none ∧ Permitted x c r o ∧
    ∃ resp₀ h₀ h₁, h ctx r s = (.ret (some resp₀) none, s') ∧ resp₀.headers = some h₀ ∧ resp.headers = some h₁ ∧
      resp.rest = resp₀.rest ∧
      Map.get? h₁ b!"Access-Control-Allow-Origin" = some (if c.anyOriginAllowed then b!"*" else o) ∧
      (∀ k, k ∉ corsNames → Map.get? h₁ k = Map.get? h₀ k) := by
  obtain ⟨hk1, hk2, hk3⟩ := requestType_cross x r o vs ho hx
  have horig : getFirst r.headers b!"Origin" = o := getFirst_of_get? ho
  have key : ∀ resp₀ : RespH α, (respond c r resp₀, s') = (HRes.ret (some resp) err, s') →
      err = none ∧ ∃ h₀ h₁, resp₀.headers = some h₀ ∧ resp.headers = some h₁ ∧ resp.rest = resp₀.rest ∧
      Map.get? h₁ b!"Access-Control-Allow-Origin" = some (if c.anyOriginAllowed then b!"*" else o) ∧
      (∀ k, k ∉ corsNames → Map.get? h₁ k = Map.get? h₀ k) := by
    intro resp₀ heq
    simp only [Prod.mk.injEq, and_true] at heq
    unfold respond at heq
    split at heq
    · cases heq
    · rename_i h₀ hh
      simp only [HRes.ret.injEq, Option.some.injEq] at heq
      obtain ⟨rfl, rfl⟩ := heq
      refine ⟨rfl, h₀, _, hh, rfl, rfl, ?_, fun k hk => addStandard_other c r h₀ k hk⟩
      rw [addStandard_origin, horig]
  unfold cors at hres
  cases hh : h ctx r s with
  | mk res st =>
    rw [hh] at hres
    cases res with
    | panic v => simp at hres
    | ret resp₀ e =>
      cases e with
      | some e => simp at hres
      | none =>
        dsimp only at hres
        cases hk : requestType x r with
        | notCors => exact absurd hk hk1
        | invalid => simp [hk] at hres
        | preFlight =>
          rw [hk] at hres
          cases resp₀ with
          | none => simp at hres
          | some resp₀ =>
            dsimp only at hres
            split at hres
            · rename_i hok
              have hst : st = s' := by simpa using congrArg Prod.snd hres
              subst hst
              obtain ⟨he, h₀, h₁, a1, a2, a3, a4, a5⟩ := key resp₀ hres
              have hp := hk2 hk
              obtain ⟨b1, _, b3, b4⟩ := (preFlightOK_iff x c r).1 hok
              rw [horig] at b1
              exact ⟨he, ⟨b1, fun hn => absurd hp hn, fun _ => b3, fun _ => b4⟩, resp₀, h₀, h₁, rfl, a1, a2, a3, a4, a5⟩
            · simp at hres
        | simple =>
          rw [hk] at hres
          cases resp₀ with
          | none => simp at hres
          | some resp₀ =>
            dsimp only at hres
            split at hres
            · rename_i hok
              have hst : st = s' := by simpa using congrArg Prod.snd hres
              subst hst
              obtain ⟨he, h₀, h₁, a1, a2, a3, a4, a5⟩ := key resp₀ hres
              have hp := hk3 (.inl hk)
              obtain ⟨b1, b2⟩ := (simpleOK_iff x c r).1 hok
              rw [horig] at b1
              exact ⟨he, ⟨b1, fun _ => b2, fun hn => absurd hn hp, fun hn => absurd hn hp⟩,
                resp₀, h₀, h₁, rfl, a1, a2, a3, a4, a5⟩
            · simp at hres
        | actual =>
          rw [hk] at hres
          cases resp₀ with
          | none => simp at hres
          | some resp₀ =>
            dsimp only at hres
            split at hres
            · rename_i hok
              have hst : st = s' := by simpa using congrArg Prod.snd hres
              subst hst
              obtain ⟨he, h₀, h₁, a1, a2, a3, a4, a5⟩ := key resp₀ hres
              have hp := hk3 (.inr hk)
              obtain ⟨b1, b2⟩ := (simpleOK_iff x c r).1 hok
              rw [horig] at b1
              exact ⟨he, ⟨b1, fun _ => b2, fun hn => absurd hn hp, fun hn => absurd hn hp⟩,
                resp₀, h₀, h₁, rfl, a1, a2, a3, a4, a5⟩
            · simp at hres

/-- C49, refusal: a cross-origin request that is not permitted gets no response; unless the
handler itself failed or panicked or returned nothing, the error is "access denied". -/
theorem c49_refused (x : Ext) (c : Config) (h : Handler σ (RespH α)) (ctx : Ctx) (r : Req) (s : σ)
    (o : Str) (vs) (ho : Map.get? r.headers b!"Origin" = some (o :: vs)) (hx : ¬ SameOrigin r o)
    (hp : ¬ Permitted x c r o) (resp₀ : RespH α) (s' : σ) (hh : h ctx r s = (.ret (some resp₀) none, s')) :
    cors x c h ctx r s = (.ret none (some .accessDenied), s') := by
  obtain ⟨hk1, hk2, hk3⟩ := requestType_cross x r o vs ho hx
  have horig : getFirst r.headers b!"Origin" = o := getFirst_of_get? ho
  unfold cors
  rw [hh]
  dsimp only
  have hsimple : requestType x r = .simple ∨ requestType x r = .actual → simpleOK x c r = false := by
    intro hk
    cases hok : simpleOK x c r with
    | false => rfl
    | true =>
      obtain ⟨b1, b2⟩ := (simpleOK_iff x c r).1 hok
      have hn := hk3 hk
      exact absurd ⟨by rwa [horig] at b1, fun _ => b2, fun h => absurd h hn, fun h => absurd h hn⟩ hp
  cases hk : requestType x r with
  | notCors => exact absurd hk hk1
  | invalid => rfl
  | preFlight =>
    have : preFlightOK x c r = false := by
      cases hok : preFlightOK x c r with
      | false => rfl
      | true =>
        obtain ⟨b1, _, b3, b4⟩ := (preFlightOK_iff x c r).1 hok
        exact absurd ⟨by rwa [horig] at b1, fun h => absurd (hk2 hk) h, fun _ => b3, fun _ => b4⟩ hp
    simp [this]
  | simple => simp [hsimple (.inl hk)]
  | actual => simp [hsimple (.inr hk)]

/-- Origins a browser can send: the opaque origin `null`, a file, or a text the library parses as an address with a scheme;
never with a percent sign. -/
def WellFormed (x : Ext) (o : Str) : Prop :=
  (37 : UInt8) ∉ o ∧ (o = b!"null" ∨ (∃ l, o = b!"file://" ++ l) ∨ (o ≠ [] ∧ ∃ sch, sch ≠ [] ∧ x.uriScheme o = some sch))

theorem wellFormed_valid {x : Ext} {o : Str} (h : WellFormed x o) : isValidOrigin x o = true := by
  obtain ⟨h1, h2⟩ := h
  have hp : o.contains 37 = false := by simpa using h1
  unfold isValidOrigin
  rcases h2 with rfl | ⟨l, rfl⟩ | ⟨h2, sch, h3, h4⟩
  · rw [if_neg (by decide), if_pos (by decide)]
  · have hl : (37 : UInt8) ∉ l := fun h => h1 (List.mem_append.2 (.inr h))
    simp [hl]
  · simp only [h2, hp, h4]
    simp [h3]

/-- C49, the converse: a permitted cross-origin request with a well-formed origin (and, for
POST, a content type; for preflight, a non-empty requested method) gets the handler's response
with the CORS headers. -/
theorem c49_permitted_served (x : Ext) (c : Config) (h : Handler σ (RespH α)) (ctx : Ctx) (r : Req) (s : σ)
    (o : Str) (vs) (ho : Map.get? r.headers b!"Origin" = some (o :: vs)) (hx : ¬ SameOrigin r o)
    (hwf : WellFormed x o) (hp : Permitted x c r o)
    (hpost : r.method = b!"POST" → NamesType (getFirst r.headers b!"Content-Type"))
    (hpre : Preflight r → getFirst r.headers b!"Access-Control-Request-Method" ≠ [])
    (resp₀ : RespH α) (h₀ : Map Str) (s' : σ) (hh : h ctx r s = (.ret (some resp₀) none, s'))
    (hhd : resp₀.headers = some h₀) :
    ∃ resp, cors x c h ctx r s = (.ret (some resp) none, s') := by
  have hv := wellFormed_valid hwf
  have horig : getFirst r.headers b!"Origin" = o := getFirst_of_get? ho
  have hs : isSameOrigin r o = false := by
    cases h : isSameOrigin r o with
    | false => rfl
    | true => exact absurd ((isSameOrigin_iff r o).1 h) hx
  have hresp : respond c r resp₀ = .ret (some { resp₀ with headers := some (addStandard c r h₀) }) none := by
    simp [respond, hhd]
  have hinv : requestType x r ≠ .invalid := by
    unfold requestType
    simp only [ho, horig, hv, hs]
    simp only [Bool.not_true, Bool.false_eq_true, if_false, Bool.or_eq_true, beq_iff_eq]
    split
    · simp
    · split
      · rename_i hm
        split
        · rename_i v hv2
          have : getFirst r.headers b!"Access-Control-Request-Method" ≠ [] := hpre ⟨hm, by simp [hv2]⟩
          simp [this]
        · simp
      · split
        · rename_i hm
          simp only [if_pos (mediaType_names (hpost hm))]
          split <;> simp
        · simp
  obtain ⟨hk1, hk2, hk3⟩ := requestType_cross x r o vs ho hx
  unfold cors
  rw [hh]
  dsimp only
  have hsimple : requestType x r = .simple ∨ requestType x r = .actual → simpleOK x c r = true := by
    intro hk
    refine (simpleOK_iff x c r).2 ⟨?_, hp.method (hk3 hk)⟩
    rw [horig]; exact hp.origin
  cases hk : requestType x r with
  | notCors => exact absurd hk hk1
  | invalid => exact absurd hk hinv
  | preFlight =>
    have : preFlightOK x c r = true := by
      refine (preFlightOK_iff x c r).2 ⟨?_, (hk2 hk).2, hp.preMethod (hk2 hk), hp.preHeaders (hk2 hk)⟩
      rw [horig]; exact hp.origin
    simp [this, hresp]
  | simple => simp [hsimple (.inl hk), hresp]
  | actual => simp [hsimple (.inr hk), hresp]

/-- C49, malformed requests: an origin that is not well-formed is refused, whatever the configuration allows; so are a cross-origin POST
that names no media type and a preflight that asks for no method. -/
theorem c49_malformed (x : Ext) (c : Config) (h : Handler σ (RespH α)) (ctx : Ctx) (r : Req) (s : σ)
    (o : Str) (vs) (ho : Map.get? r.headers b!"Origin" = some (o :: vs))
    (hbad : ¬ WellFormed x o ∨ (¬ SameOrigin r o ∧
      ((r.method = b!"POST" ∧ NoType (getFirst r.headers b!"Content-Type")) ∨ (Preflight r ∧ getFirst r.headers b!"Access-Control-Request-Method" = []))))
    (resp₀ : Option (RespH α)) (s' : σ) (hh : h ctx r s = (.ret resp₀ none, s')) :
    cors x c h ctx r s = (.ret none (some .accessDenied), s') := by
  have horig : getFirst r.headers b!"Origin" = o := getFirst_of_get? ho
  have hinv : requestType x r = .invalid := by
    unfold requestType
    simp only [ho, horig]
    by_cases hv : isValidOrigin x o = true
    · have hwf : WellFormed x o := by
        unfold isValidOrigin at hv
        split at hv
        · cases hv
        · rename_i h1
          simp only [Bool.or_eq_true, decide_eq_true_eq, not_or, Bool.not_eq_true] at h1
          refine ⟨by simpa using h1.2, ?_⟩
          split at hv
          · rename_i h2
            simp only [Bool.or_eq_true, beq_iff_eq] at h2
            rcases h2 with h2 | h2
            · exact .inl h2
            · obtain ⟨l, hl⟩ := List.isPrefixOf_iff_prefix.1 h2
              exact .inr (.inl ⟨l, hl.symm⟩)
          · split at hv
            · cases hv
            · rename_i sch hs
              exact .inr (.inr ⟨h1.1, sch, by simpa using hv, hs⟩)
      rcases hbad with hbad | ⟨hx, hbad⟩
      · exact absurd hwf hbad
      have hs : isSameOrigin r o = false := by
        cases h : isSameOrigin r o with
        | false => rfl
        | true => exact absurd ((isSameOrigin_iff r o).1 h) hx
      simp only [hv, hs]
      rcases hbad with ⟨hm, ht⟩ | ⟨⟨hm, hp⟩, hr⟩
      · simp [hm, mediaType_none ht]
      · cases hg : Map.get? r.headers b!"Access-Control-Request-Method" with
        | none => simp [hg] at hp
        | some v => simp [hm, hr]
    · simp [hv]
  unfold cors
  rw [hh]
  simp [hinv]

/-- Exact comparison and a toy URI parser, for examples. -/
def demoExt : Ext := ⟨fun a b => toLower a == toLower b, fun o => if b!"https://".isPrefixOf o then some b!"https" else none⟩

/-- A request from another origin. -/
def demoCors (method origin : Str) : Req :=
  { method := method, headers := [(b!"Origin", [origin])] }

example : (cors demoExt { allowedOrigins := [b!"https://a"], allowedHttpMethods := [b!"get"] }
    (fun _ _ (n : Nat) => (.ret (some ⟨some [], 7⟩) none, n + 1)) {} (demoCors b!"GET" b!"https://a") 0) =
    (.ret (some ⟨some [(b!"Access-Control-Allow-Origin", b!"https://a"), (b!"Vary", b!"Origin")], 7⟩) none, 1) ∧
    ¬ SameOrigin (demoCors b!"GET" b!"https://a") b!"https://a" := by
  refine ⟨by decide, ?_⟩
  rintro ⟨h, -⟩; exact h rfl

example : ¬ WellFormed demoExt b!"//x" ∧ (cors demoExt { anyOriginAllowed := true, allowedHttpMethods := [b!"GET"] }
    (fun _ _ (n : Nat) => (.ret (some ⟨some [], 7⟩) none, n + 1)) {} (demoCors b!"GET" b!"//x") 0) = (.ret none (some .accessDenied), 1) := by
  refine ⟨?_, by decide⟩
  rintro ⟨-, h | ⟨l, h⟩ | ⟨-, sch, -, h⟩⟩
  · revert h; decide
  · cases h
  · simp [demoExt, List.isPrefixOf] at h

/-! ### C50 -/

/-- C50 fails: the handler runs before the checks; a refused POST has had its effects. -/
theorem c50_violated :
    ∃ (c : Config) (r : Req), (cors demoExt c
      (fun _ _ (n : Nat) => (.ret (some ⟨some [], ()⟩) none, n + 1)) {} r 0) = (.ret none (some .accessDenied), 1) :=
  ⟨{ allowedOrigins := [b!"https://a"], allowedHttpMethods := [b!"GET"] }, demoCors b!"GET" b!"https://evil", by decide⟩

/-- C50, what holds: nothing of the handler's answer gets back to a refused request; the
outcome depends on the handler only through its effects.  Missing: that the handler does not
run. -/
theorem c50_no_data_returned_partial (x : Ext) (c : Config) (h h' : Handler σ (RespH α)) (ctx : Ctx) (r : Req)
    (s : σ) (o : Str) (vs) (ho : Map.get? r.headers b!"Origin" = some (o :: vs)) (hx : ¬ SameOrigin r o)
    (hp : ¬ Permitted x c r o) (resp₀ resp₀' : RespH α) (s' s'' : σ)
    (hh : h ctx r s = (.ret (some resp₀) none, s')) (hh' : h' ctx r s = (.ret (some resp₀') none, s'')) :
    (cors x c h ctx r s).1 = (cors x c h' ctx r s).1 := by
  rw [c49_refused x c h ctx r s o vs ho hx hp resp₀ s' hh, c49_refused x c h' ctx r s o vs ho hx hp resp₀' s'' hh']

/-! ### C51 -/

/-- C51 fails: nothing stops a configuration from enabling both. -/
theorem c51_violated :
    ∃ (c : Config) (r : Req) (h : Map Str),
      (cors demoExt c (fun _ _ (n : Nat) => (.ret (some ⟨some [], ()⟩) none, n)) {} r 0) =
        (.ret (some ⟨some h, ()⟩) none, 0) ∧
      Map.get? h b!"Access-Control-Allow-Origin" = some b!"*" ∧
      Map.get? h b!"Access-Control-Allow-Credentials" = some b!"true" :=
  ⟨{ anyOriginAllowed := true, supportsCredentials := true, allowedHttpMethods := [b!"GET"] },
    demoCors b!"GET" b!"https://a",
    [(b!"Access-Control-Allow-Origin", b!"*"), (b!"Access-Control-Allow-Credentials", b!"true")],
    by decide, by decide, by decide⟩

/-- C51 for configurations that do not enable both, provided the request's own origin is not
the text `*` and the handler does not set the credentials header itself. -/
theorem c51_partial (x : Ext) (c : Config) (h : Handler σ (RespH α)) (ctx : Ctx) (r : Req) (s : σ)
    (hc : ¬ (c.anyOriginAllowed = true ∧ c.supportsCredentials = true))
    (ho : getFirst r.headers b!"Origin" ≠ b!"*")
    (hh : ∀ resp hd s', h ctx r s = (.ret (some resp) none, s') → resp.headers = some hd →
      Map.get? hd b!"Access-Control-Allow-Credentials" = none)
    (resp : RespH α) (hd : Map Str) (e s') (hres : cors x c h ctx r s = (.ret (some resp) e, s'))
    (hhd : resp.headers = some hd) :
    ¬ (Map.get? hd b!"Access-Control-Allow-Origin" = some b!"*" ∧
       Map.get? hd b!"Access-Control-Allow-Credentials" = some b!"true") := by
  have key : ∀ resp₀ st, h ctx r s = (.ret (some resp₀) none, st) →
      respond c r resp₀ = .ret (some resp) e → ¬ (Map.get? hd b!"Access-Control-Allow-Origin" = some b!"*" ∧
       Map.get? hd b!"Access-Control-Allow-Credentials" = some b!"true") := by
    intro resp₀ st hr hresp
    unfold respond at hresp
    split at hresp
    · cases hresp
    · rename_i h₀ hh0
      simp only [HRes.ret.injEq, Option.some.injEq] at hresp
      rw [← hresp.1] at hhd
      simp only [Option.some.injEq] at hhd
      rw [← hhd, addStandard_origin, addStandard_credentials, hh resp₀ h₀ st hr hh0]
      rintro ⟨h1, h2⟩
      cases ha : c.anyOriginAllowed with
      | true =>
        cases hcr : c.supportsCredentials with
        | true => exact hc ⟨ha, hcr⟩
        | false => rw [hcr] at h2; simp at h2
      | false => rw [ha] at h1; simp at h1; exact ho h1
  unfold cors at hres
  cases hr : h ctx r s with
  | mk res st =>
    rw [hr] at hres
    cases res with
    | panic v => simp at hres
    | ret resp₀ e₀ =>
      cases e₀ with
      | some e₀ => simp at hres
      | none =>
        dsimp only at hres
        cases resp₀ with
        | none => cases hk : requestType x r <;> simp [hk] at hres
        | some resp₀ =>
          cases hk : requestType x r <;> rw [hk] at hres <;> dsimp only at hres
          all_goals first
            | (split at hres
               · exact key resp₀ st hr (by simpa using congrArg Prod.fst hres)
               · simp at hres)
            | exact key resp₀ st hr (by simpa using congrArg Prod.fst hres)
            | simp at hres

/-! ### C52 -/

/-- Members of a `Vary` value, as the middleware makes them. -/
def varyMembers (v : Str) : List Str := (splitOn 44 v).map trimSpace

theorem trimSpace_no_comma {s : Str} (h : (44 : UInt8) ∉ s) : (44 : UInt8) ∉ trimSpace s :=
  fun hm => h (mem_of_mem_trimSpace hm)

/-- C52.  After adding a name (without commas and surrounding space) to `Vary`, the value is
`*`, or it mentions the name and every member that was there. -/
theorem c52_vary (h : Map Str) (name : Str) (hn : (44 : UInt8) ∉ name) (ht : Trims name name) :
    ∃ v, Map.get? (addVary h name) b!"Vary" = some v ∧
      (Trims v b!"*" ∨ (Member v name ∧ ∀ old, Map.get? h b!"Vary" = some old → old ≠ [] → ∀ m, Member old m → Member v m)) := by
  have ht := trims_iff.1 ht
  simp only [member_iff, trims_iff]
  change ∃ v, _ ∧ (_ ∨ (name ∈ varyMembers v ∧ ∀ old, Map.get? h b!"Vary" = some old → old ≠ [] → ∀ m, m ∈ varyMembers old → m ∈ varyMembers v))
  have hname : varyMembers name = [name] := by simp [varyMembers, splitOn_of_not_mem hn, ht]
  unfold addVary
  cases ho : Map.get? h b!"Vary" with
  | none =>
    have hl : listed h = [] := by simp [listed, ho]
    refine ⟨name, ?_, .inr ⟨by simp [hname], by simp⟩⟩
    simp [hl, Map.get?_set_same]
  | some vh =>
    by_cases hv : vh = []
    · subst hv
      have hl : listed h = [] := by simp [listed, ho]
      refine ⟨name, ?_, .inr ⟨by simp [hname], by simp⟩⟩
      simp [hl, Map.get?_set_same]
    · have hlen : vh.length > 0 := by
        cases vh with
        | nil => exact absurd rfl hv
        | cons a l => simp
      have hl : listed h = (splitOn 44 vh).map trimSpace := by simp [listed, ho, hlen]
      rw [hl]
      have hne : ((splitOn 44 vh).map trimSpace).length ≠ 0 := by
        simp only [List.length_map, ne_eq, List.length_eq_zero_iff]; exact splitOn_ne_nil 44 vh
      split
      · rename_i hc
        simp only [Bool.or_eq_true, decide_eq_true_eq, hne, or_false] at hc
        exact ⟨name, Map.get?_set_same _ _ _, .inl (by rw [ht, hc])⟩
      · split
        · rename_i hc
          refine ⟨vh, ho, .inl ?_⟩
          simp only [Bool.and_eq_true, decide_eq_true_eq, beq_iff_eq, List.length_map] at hc
          obtain ⟨h1, h2⟩ := hc
          cases hsp : splitOn 44 vh with
          | nil => simp [hsp] at h1
          | cons a l =>
            have hl : l = [] := by rw [hsp] at h1; simpa using h1
            subst hl
            have : vh = a := by
              have := joinWith_splitOn 44 vh
              rw [hsp] at this; simpa [joinWith] using this.symm
            rw [hsp] at h2
            simp only [List.map_cons, List.headD_cons, trimSpace_idem] at h2
            rw [this, h2]
        · split
          · exact ⟨_, Map.get?_set_same _ _ _, .inl (by decide)⟩
          · refine ⟨_, Map.get?_set_same _ _ _, .inr ?_⟩
            have hms : varyMembers (joinWith 44 ((splitOn 44 vh).map trimSpace ++ [name])) =
                (splitOn 44 vh).map trimSpace ++ [name] := by
              unfold varyMembers
              rw [splitOn_joinWith (by simp)]
              · simp [List.map_append, ht, trimSpace_idem]
              · intro p hp
                rcases List.mem_append.1 hp with hp | hp
                · obtain ⟨q, hq, rfl⟩ := List.mem_map.1 hp
                  exact trimSpace_no_comma (splitOn_no_sep 44 vh q hq)
                · rw [List.mem_singleton.1 hp]; exact hn
            rw [hms]
            refine ⟨by simp, ?_⟩
            intro old hold _ m hm
            simp only [Option.some.injEq] at hold
            subst hold
            exact List.mem_append.2 (.inl hm)

example : addVary [(b!"Vary", b!"Accept , Cookie")] b!"Origin" = [(b!"Vary", b!"Accept,Cookie,Origin")] ∧
    addVary [(b!"Vary", b!" * ")] b!"Origin" = [(b!"Vary", b!" * ")] ∧
    Trims b!"Origin" b!"Origin" := by
  simp only [trims_iff]
  decide

/-- C52, nothing else: a member of the new value is the name or was there before; in particular it becomes `*` only when `*` is the name or was
a member. -/
theorem c52_only (h : Map Str) (name : Str) (hn : (44 : UInt8) ∉ name) (ht : Trims name name) (v m : Str)
    (hv : Map.get? (addVary h name) b!"Vary" = some v) (hm : Member v m) : m = name ∨ ∃ old, Map.get? h b!"Vary" = some old ∧ Member old m := by
  have ht := trims_iff.1 ht
  simp only [member_iff] at hm ⊢
  change m ∈ varyMembers v at hm
  change _ ∨ ∃ old, _ ∧ m ∈ varyMembers old
  have hname : varyMembers name = [name] := by simp [varyMembers, splitOn_of_not_mem hn, ht]
  unfold addVary at hv
  have hlist : ∀ x ∈ listed h, ∃ old, Map.get? h b!"Vary" = some old ∧ x ∈ varyMembers old := by
    intro x hx
    unfold listed at hx
    split at hx
    · rename_i vh ho
      split at hx
      · exact ⟨vh, ho, hx⟩
      · cases hx
    · cases hx
  have hcomma : ∀ x ∈ listed h, (44 : UInt8) ∉ x ∧ trimSpace x = x := by
    intro x hx
    obtain ⟨old, -, hx⟩ := hlist x hx
    obtain ⟨q, hq, rfl⟩ := List.mem_map.1 hx
    exact ⟨trimSpace_no_comma (splitOn_no_sep 44 old q hq), trimSpace_idem q⟩
  split at hv
  · rw [Map.get?_set_same, Option.some.injEq] at hv
    subst hv
    rw [hname] at hm
    exact .inl (List.mem_singleton.1 hm)
  · split at hv
    · exact .inr ⟨v, hv, hm⟩
    · split at hv
      · rename_i hany
        rw [Map.get?_set_same, Option.some.injEq] at hv
        subst hv
        obtain ⟨x, hx, he⟩ := List.any_eq_true.1 hany
        have he : trimSpace x = b!"*" := eq_of_beq he
        rw [(hcomma x hx).2] at he
        subst he
        have : m = b!"*" := by
          have h1 : varyMembers b!"*" = [b!"*"] := by decide
          rw [h1] at hm
          exact List.mem_singleton.1 hm
        rw [this]
        exact .inr (hlist _ hx)
      · rw [Map.get?_set_same, Option.some.injEq] at hv
        subst hv
        have hms : varyMembers (joinWith 44 (listed h ++ [name])) = listed h ++ [name] := by
          unfold varyMembers
          rw [splitOn_joinWith (by simp)]
          · rw [List.map_append, List.map_congr_left (g := id) fun x hx => (hcomma x hx).2]
            simp [ht]
          · intro p hp
            rcases List.mem_append.1 hp with hp | hp
            · exact (hcomma p hp).1
            · rw [List.mem_singleton.1 hp]; exact hn
        rw [hms] at hm
        rcases List.mem_append.1 hm with hm | hm
        · exact .inr (hlist m hm)
        · exact .inl (List.mem_singleton.1 hm)

/-- C52 with `*`: if `*` was a member, the new value has no other. -/
theorem c52_star (h : Map Str) (name old v m : Str) (ho : Map.get? h b!"Vary" = some old) (hs : Member old b!"*") (hname : name ≠ b!"*")
    (hv : Map.get? (addVary h name) b!"Vary" = some v) (hm : Member v m) : m = b!"*" := by
  simp only [member_iff] at hm hs
  change m ∈ varyMembers v at hm
  change b!"*" ∈ varyMembers old at hs
  have hne : old.length > 0 := by
    cases old with
    | nil => revert hs; decide
    | cons => simp
  have hl : listed h = varyMembers old := by simp [listed, ho, hne]; rfl
  unfold addVary at hv
  rw [hl] at hv
  have h0 : (varyMembers old).length ≠ 0 := by
    intro h
    rw [List.eq_nil_of_length_eq_zero h] at hs
    cases hs
  have hany : (varyMembers old).any (fun v => trimSpace v == b!"*") = true := List.any_eq_true.2 ⟨_, hs, by decide⟩
  rw [if_neg (by simp only [Bool.or_eq_true, decide_eq_true_eq]; exact fun h => h.elim hname h0)] at hv
  split at hv
  · rename_i h1
    simp only [Bool.and_eq_true, decide_eq_true_eq, beq_iff_eq] at h1
    rw [ho, Option.some.injEq] at hv
    subst hv
    match hx : varyMembers old, h1.1 with
    | [x], _ =>
      rw [hx] at hs hm
      rw [List.mem_singleton.1 hm, List.mem_singleton.1 hs]
  · rw [Map.get?_set_same, Option.some.injEq] at hv
    subst hv
    have h1 : varyMembers b!"*" = [b!"*"] := by decide
    rw [h1] at hm
    exact List.mem_singleton.1 hm

example : addVary [(b!"Vary", b!"Accept")] b!"Origin" = [(b!"Vary", b!"Accept,Origin")] ∧
    addVary [(b!"Vary", b!"Accept, *")] b!"Origin" = [(b!"Vary", b!"*")] := by decide

/-- `Vary` lists the name, or `*`. -/
def Varies (h : Map Str) (name : Str) : Prop := ∃ v, Map.get? h b!"Vary" = some v ∧ (Member v b!"*" ∨ Member v name)

theorem star_member {v : Str} (h : Trims v b!"*") : Member v b!"*" := by
  have h := trims_iff.1 h
  rw [member_iff]
  have : (44 : UInt8) ∉ v := fun hm => by
    have := visible_trim (by decide) hm
    rw [h] at this
    exact absurd this (by decide)
  simp [splitOn_of_not_mem this, h]

theorem varies_added (h : Map Str) {name : Str} (hn : (44 : UInt8) ∉ name) (ht : Trims name name) : Varies (addVary h name) name := by
  obtain ⟨v, h1, h2 | h2⟩ := c52_vary h name hn ht
  · exact ⟨v, h1, .inl (star_member h2)⟩
  · exact ⟨v, h1, .inr h2.1⟩

theorem varies_kept {h : Map Str} {name m : Str} (hn : (44 : UInt8) ∉ name) (ht : Trims name name) (hm : m ≠ []) (ho : Varies h m) :
    Varies (addVary h name) m := by
  obtain ⟨old, h3, h4⟩ := ho
  have hne : old ≠ [] := by
    rintro rfl
    rw [member_iff, member_iff, show (splitOn 44 []).map trimSpace = [[]] from rfl] at h4
    simp [hm] at h4
  obtain ⟨v, h1, h2 | h2⟩ := c52_vary h name hn ht
  · exact ⟨v, h1, .inl (star_member h2)⟩
  · exact ⟨v, h1, h4.imp (h2.2 old h3 hne _) (h2.2 old h3 hne _)⟩

theorem varies_same {h g : Map Str} {m : Str} (he : Map.get? h b!"Vary" = Map.get? g b!"Vary") (hg : Varies g m) : Varies h m := by
  obtain ⟨v, h1, h2⟩ := hg
  exact ⟨v, he.trans h1, h2⟩

/-- C52 for a whole answer: one that names the origin varies with it, and one to an OPTIONS request with what a preflight asks for;
what it varied with before, it still does. -/
theorem c52_answer (c : Config) (r : Req) (h : Map Str) :
    (c.anyOriginAllowed = false → Varies (addStandard c r h) b!"Origin") ∧
    (r.method = b!"OPTIONS" → Varies (addStandard c r h) b!"Access-Control-Request-Method" ∧ Varies (addStandard c r h) b!"Access-Control-Request-Headers") ∧
    ∀ m, m ≠ [] → Varies h m → Varies (addStandard c r h) m := by
  have hcred : ∀ g, Map.get? (addCredentials c g) b!"Vary" = Map.get? g b!"Vary" := fun g => by
    unfold addCredentials
    rw [setWhen_other _ _ _ _ _ (by decide), setWhen_other _ _ _ _ _ (by decide)]
  have hopt : ∀ g, Map.get? (addOptions c g) b!"Vary" =
      Map.get? (addVary (addVary g b!"Access-Control-Request-Method") b!"Access-Control-Request-Headers") b!"Vary" := fun g => by
    unfold addOptions
    rw [setWhen_other _ _ _ _ _ (by decide), setWhen_other _ _ _ _ _ (by decide), setWhen_other _ _ _ _ _ (by decide)]
  have hkeep : ∀ m g, m ≠ [] → Varies g m → Varies (addOptions c g) m := fun m g hm hg =>
    varies_same (hopt g) (varies_kept (by decide) (by decide) hm (varies_kept (by decide) (by decide) hm hg))
  have hstd : ∀ m, m ≠ [] → Varies (addOrigin c r h) m → Varies (addStandard c r h) m := fun m hm hg => by
    unfold addStandard
    split
    · exact hkeep m _ hm (varies_same (hcred _) hg)
    · exact varies_same (hcred _) hg
  refine ⟨fun hc => hstd _ (by decide) ?_, fun hm => ?_, fun m hm hg => hstd m hm ?_⟩
  · unfold addOrigin
    rw [if_neg (by simp [hc])]
    exact varies_added _ (by decide) (by decide)
  · unfold addStandard
    rw [if_pos (by rw [hm]; rfl)]
    exact ⟨varies_same (hopt _) (varies_kept (by decide) (by decide) (by decide) (varies_added _ (by decide) (by decide))),
      varies_same (hopt _) (varies_added _ (by decide) (by decide))⟩
  · unfold addOrigin
    split
    · exact varies_same (Map.get?_set_other _ _ _ _ (by decide)) hg
    · exact varies_kept (by decide) (by decide) hm (varies_same (Map.get?_set_other _ _ _ _ (by decide)) hg)

/-- C52 for a whole answer, nothing else: every member of its `Vary` was there before, or is `Origin` when one origin is named, or one of the
two others on an OPTIONS request. -/
theorem c52_answer_only (c : Config) (r : Req) (h : Map Str) (v m : Str) (hv : Map.get? (addStandard c r h) b!"Vary" = some v) (hm : Member v m) :
    (m = b!"Origin" ∧ c.anyOriginAllowed = false) ∨
    (r.method = b!"OPTIONS" ∧ (m = b!"Access-Control-Request-Method" ∨ m = b!"Access-Control-Request-Headers")) ∨
    ∃ old, Map.get? h b!"Vary" = some old ∧ Member old m := by
  have hcred : ∀ g, Map.get? (addCredentials c g) b!"Vary" = Map.get? g b!"Vary" := fun g => by
    unfold addCredentials
    rw [setWhen_other _ _ _ _ _ (by decide), setWhen_other _ _ _ _ _ (by decide)]
  have horig : ∀ v, Map.get? (addOrigin c r h) b!"Vary" = some v → Member v m →
      (m = b!"Origin" ∧ c.anyOriginAllowed = false) ∨ ∃ old, Map.get? h b!"Vary" = some old ∧ Member old m := by
    intro v hv hm
    unfold addOrigin at hv
    split at hv
    · rw [Map.get?_set_other _ _ _ _ (by decide)] at hv
      exact .inr ⟨v, hv, hm⟩
    · rename_i hc
      rcases c52_only _ _ (by decide) (by decide) v m hv hm with h1 | ⟨old, h1, h2⟩
      · exact .inl ⟨h1, by simpa using hc⟩
      · rw [Map.get?_set_other _ _ _ _ (by decide)] at h1
        exact .inr ⟨old, h1, h2⟩
  unfold addStandard at hv
  split at hv
  · rename_i hmeth
    have hmeth : r.method = b!"OPTIONS" := eq_of_beq hmeth
    unfold addOptions at hv
    rw [setWhen_other _ _ _ _ _ (by decide), setWhen_other _ _ _ _ _ (by decide), setWhen_other _ _ _ _ _ (by decide)] at hv
    rcases c52_only _ _ (by decide) (by decide) v m hv hm with h1 | ⟨v1, h1, h2⟩
    · exact .inr (.inl ⟨hmeth, .inr h1⟩)
    · rcases c52_only _ _ (by decide) (by decide) v1 m h1 h2 with h3 | ⟨v2, h3, h4⟩
      · exact .inr (.inl ⟨hmeth, .inl h3⟩)
      · rw [hcred] at h3
        exact (horig v2 h3 h4).imp id .inr
  · rw [hcred] at hv
    exact (horig v hv hm).imp id .inr

example : Map.get? (addStandard { allowedOrigins := [b!"https://a.org"] } { method := b!"OPTIONS", headers := [(b!"Origin", [b!"https://a.org"])] } [(b!"Vary", b!"Accept")]) b!"Vary" =
    some b!"Accept,Origin,Access-Control-Request-Method,Access-Control-Request-Headers" := by decide

/-! ### C70: same-origin requests -/

/-- C70 fails: with an explicit non-default port the host already contains the port, the
origin text has the same length, and the request is taken for a cross-origin one: it is
refused although its origin is the server's own. -/
theorem c70_violated :
    ∃ (c : Config) (r : Req),
      r.scheme = b!"http" ∧ r.host = b!"example.com:8080" ∧ r.port = b!"8080" ∧
      Map.get? r.headers b!"Origin" = some [b!"http://example.com:8080"] ∧
      (cors ⟨fun a b => a == b, fun _ => some b!"http"⟩ c
        (fun _ _ (n : Nat) => (.ret (some ⟨some [], ()⟩) none, n)) {} r 0).1 = .ret none (some .accessDenied) :=
  ⟨{ allowedHttpMethods := [b!"GET"] },
    { method := b!"GET", scheme := b!"http", host := b!"example.com:8080", port := b!"8080",
      headers := [(b!"Origin", [b!"http://example.com:8080"])] }, rfl, rfl, rfl, by decide, by decide⟩

/-- C70 fails for every request as browsers send it to a server, with only the path in the request line: net/http
then leaves scheme and host of `R.URL` empty, and every origin that is not listed, the site's own included,
is refused after the handler has run. -/
theorem c70_violated_never (x : Ext) (c : Config) (h : Handler σ (RespH α)) (ctx : Ctx) (r : Req) (s : σ)
    (hu : r.scheme = [] ∨ r.host = []) (o : Str) (vs) (ho : Map.get? r.headers b!"Origin" = some (o :: vs))
    (hany : c.anyOriginAllowed = false) (hno : o ∉ c.allowedOrigins)
    (resp₀ : RespH α) (s' : σ) (hr : h ctx r s = (.ret (some resp₀) none, s')) :
    cors x c h ctx r s = (.ret none (some .accessDenied), s') := by
  have hg := getFirst_of_get? ho
  have hso : isSameOrigin r o = false := by
    unfold isSameOrigin
    rcases hu with h | h <;> simp [h]
  have hoa : originAllowed c o = false := by
    unfold originAllowed
    rw [hany]
    simp only [Bool.false_eq_true, if_false]
    rw [List.any_eq_false]
    intro a ha
    simp only [beq_iff_eq]
    rintro rfl
    exact hno ha
  have hsim : simpleOK x c r = false := by simp [simpleOK, hg, hoa]
  have hpre : preFlightOK x c r = false := by simp [preFlightOK, hg, hoa]
  have hk : requestType x r ≠ .notCors := by
    unfold requestType
    rw [ho]
    simp only [hg, hso, Bool.false_eq_true, if_false]
    repeat' split
    all_goals simp
  unfold cors
  rw [hr]
  simp only
  cases hq : requestType x r with
  | notCors => exact absurd hq hk
  | invalid => rfl
  | simple => simp [hsim]
  | actual => simp [hsim]
  | preFlight => simp [hpre]

/-- A form posted to the page's own server. -/
example : (cors demoExt { allowedHttpMethods := [b!"POST"] } (fun _ _ (n : Nat) => (.ret (some ⟨some [], ()⟩) none, n + 1)) {}
    { method := b!"POST", tls := true, headers := [(b!"Host", [b!"shop.com"]), (b!"Origin", [b!"https://shop.com"])] } 0) =
      (.ret none (some .accessDenied), 1) := by decide

/-- C70 for requests without an explicit port: an origin spelling scheme and host, with or
without the default port, is recognised and such a request always gets the handler's
response. -/
theorem c70_default_port_partial (x : Ext) (c : Config) (h : Handler σ (RespH α)) (ctx : Ctx) (r : Req) (s : σ)
    (o : Str) (vs) (ho : Map.get? r.headers b!"Origin" = some (o :: vs)) (hwf : WellFormed x o)
    (hs : r.scheme ≠ []) (hh : r.host ≠ []) (hp : r.port = [])
    (heq : o = toLower r.scheme ++ b!"://" ++ r.host ∨
      o = toLower r.scheme ++ b!"://" ++ r.host ++ b!":" ++
        (if toLower r.scheme = b!"https" ∨ toLower r.scheme = b!"wss" then b!"443" else b!"80"))
    (resp₀ : RespH α) (h₀ : Map Str) (s' : σ) (hr : h ctx r s = (.ret (some resp₀) none, s'))
    (hhd : resp₀.headers = some h₀) :
    ∃ resp, cors x c h ctx r s = (.ret (some resp) none, s') ∧ resp.rest = resp₀.rest := by
  have hso : isSameOrigin r o = true := by
    rw [isSameOrigin_iff]
    refine ⟨hs, hh, ?_⟩
    dsimp only
    rw [if_pos hp]
    rcases heq with h | h
    · exact .inl ⟨h, fun _ => rfl⟩
    · exact .inr h
  have hk : requestType x r = .notCors := by
    simp [requestType, ho, getFirst_of_get? ho, wellFormed_valid hwf, hso]
  refine ⟨{ resp₀ with headers := some (addStandard c r h₀) }, ?_, rfl⟩
  unfold cors
  rw [hr, hk]
  simp [respond, hhd]

/-- Requests without an `Origin` header are never refused by CORS. -/
theorem c70_no_origin (x : Ext) (c : Config) (h : Handler σ (RespH α)) (ctx : Ctx) (r : Req) (s : σ)
    (ho : Map.get? r.headers b!"Origin" = none)
    (resp₀ : RespH α) (h₀ : Map Str) (s' : σ) (hr : h ctx r s = (.ret (some resp₀) none, s'))
    (hhd : resp₀.headers = some h₀) :
    ∃ resp, cors x c h ctx r s = (.ret (some resp) none, s') ∧ resp.rest = resp₀.rest := by
  have hk : requestType x r = .notCors := by simp [requestType, ho]
  refine ⟨{ resp₀ with headers := some (addStandard c r h₀) }, ?_, rfl⟩
  unfold cors
  rw [hr, hk]
  simp [respond, hhd]

end Gofre.Props
