import Verif.Spec.Expose
import Verif.Props.Browser

/-! # C135, C136: how long browsers remember a preflight, and which headers scripts can read -/

namespace Gofre.Props
open Gofre.Spec Gofre.Cors
variable {σ α : Type}

theorem addStandard_age (c : Config) (r : Req) (h : Map Str) (hm : r.method = b!"OPTIONS") :
    Map.get? (addStandard c r h) b!"Access-Control-Max-Age" =
      if c.preflightMaxAgeSeconds > 0 then some (itoaInt c.preflightMaxAgeSeconds) else Map.get? h b!"Access-Control-Max-Age" := by
  unfold addStandard
  rw [if_pos (by rw [hm]; rfl)]
  unfold addOptions
  rw [setWhen_other _ _ _ _ _ (by decide), setWhen_other _ _ _ _ _ (by decide), setWhen_same]
  by_cases hc : c.preflightMaxAgeSeconds > 0
  · rw [if_pos hc, if_pos (by simpa using hc)]
  · rw [if_neg hc, if_neg (by simpa using hc), addVary_other _ _ _ (by decide), addVary_other _ _ _ (by decide)]
    unfold addCredentials
    rw [setWhen_other _ _ _ _ _ (by decide), setWhen_other _ _ _ _ _ (by decide), addOrigin_other _ _ _ _ (by decide) (by decide)]

theorem addStandard_exposed (c : Config) (r : Req) (h : Map Str) :
    Map.get? (addStandard c r h) b!"Access-Control-Expose-Headers" =
      if c.exposedHeaders = [] then Map.get? h b!"Access-Control-Expose-Headers" else some (joinWith 44 c.exposedHeaders) := by
  have key : Map.get? (addCredentials c (addOrigin c r h)) b!"Access-Control-Expose-Headers" =
      if c.exposedHeaders = [] then Map.get? h b!"Access-Control-Expose-Headers" else some (joinWith 44 c.exposedHeaders) := by
    unfold addCredentials
    rw [setWhen_same]
    by_cases hc : c.exposedHeaders = []
    · rw [if_pos hc, if_neg (by simp [hc]), setWhen_other _ _ _ _ _ (by decide), addOrigin_other _ _ _ _ (by decide) (by decide)]
    · rw [if_neg hc, if_pos (by simpa using List.length_pos_iff.2 hc)]
  unfold addStandard
  split
  · unfold addOptions
    rw [setWhen_other _ _ _ _ _ (by decide), setWhen_other _ _ _ _ _ (by decide), setWhen_other _ _ _ _ _ (by decide),
      addVary_other _ _ _ (by decide), addVary_other _ _ _ (by decide), key]
  · exact key

/-! ### C135 -/

/-- C135 exactly: a browser remembers the answer for the configured number of seconds when this is positive, and otherwise for as long as the
handler says, which is five seconds when it does not say anything. -/
theorem c135_exact (x : Ext) (c : Config) (h : Handler σ (RespH α)) (ctx : Ctx) (r : Req) (s s' : σ) (resp₀ resp : RespH α) (h₀ hd : Map Str)
    (hm : r.method = b!"OPTIONS") (hmax : c.preflightMaxAgeSeconds < 2 ^ 63) (hh : h ctx r s = (.ret (some resp₀) none, s'))
    (hhd : resp₀.headers = some h₀) (hres : (cors x c h ctx r s).1 = .ret (some resp) none) (hr : resp.headers = some hd) :
    (0 < c.preflightMaxAgeSeconds → (rememberedFor hd : Int) = c.preflightMaxAgeSeconds) ∧
    (c.preflightMaxAgeSeconds ≤ 0 → rememberedFor hd = rememberedFor h₀) ∧
    (c.preflightMaxAgeSeconds ≤ 0 → Map.get? h₀ b!"Access-Control-Max-Age" = none → rememberedFor hd = 5) := by
  obtain ⟨-, rfl⟩ := cors_answer hh hhd hres
  simp only [Option.some.injEq] at hr
  subst hr
  have ha := addStandard_age c r h₀ hm
  refine ⟨fun hp => ?_, fun hp => ?_, fun hp hn => ?_⟩
  · rw [if_pos hp] at ha
    unfold rememberedFor
    rw [ha]
    cases hn : c.preflightMaxAgeSeconds with
    | ofNat n =>
      have hlt : n < 2 ^ 63 := by
        rw [hn] at hmax
        have : (n : Int) < 2 ^ 63 := hmax
        omega
      have hd : ∀ b ∈ itoa n, blank b = false := fun b hb => visible_blank (UInt8.le_trans (by decide) (itoa_range n b hb).1)
      simp only [itoaInt]
      rw [unblank_id hd, decimal_of_parse (parseDigits_itoa (by omega))]
      rfl
    | negSucc n => rw [hn] at hp; exact absurd hp (by omega)
  · rw [if_neg (by omega)] at ha
    unfold rememberedFor
    rw [ha]
  · rw [if_neg (by omega), hn] at ha
    unfold rememberedFor
    rw [ha]

/-- C135 for a number of seconds above zero. -/
theorem c135_positive_partial (x : Ext) (c : Config) (h : Handler σ (RespH α)) (ctx : Ctx) (r : Req) (s s' : σ) (resp₀ resp : RespH α)
    (h₀ hd : Map Str) (hm : r.method = b!"OPTIONS") (hp : 0 < c.preflightMaxAgeSeconds) (hmax : c.preflightMaxAgeSeconds < 2 ^ 63)
    (hh : h ctx r s = (.ret (some resp₀) none, s')) (hhd : resp₀.headers = some h₀) (hres : (cors x c h ctx r s).1 = .ret (some resp) none)
    (hr : resp.headers = some hd) : (rememberedFor hd : Int) = c.preflightMaxAgeSeconds :=
  (c135_exact x c h ctx r s s' resp₀ resp h₀ hd hm hmax hh hhd hres hr).1 hp

/-- An hour. -/
example : ∃ (resp : RespH Unit) (hd : Map Str),
    (cors asciiExt { patchConfig with preflightMaxAgeSeconds := 3600 } blankHandler {} (asking ⟨b!"https://a", b!"PATCH", [], false⟩) 0).1 =
      .ret (some resp) none ∧ resp.headers = some hd ∧ rememberedFor hd = 3600 := ⟨_, _, rfl, rfl, by decide⟩

/-- C135 fails for zero: the answer is remembered for five seconds. -/
theorem c135_violated : ∃ (c : Config) (w : Wish) (r : Req) (resp : RespH Unit) (hd : Map Str), c.preflightMaxAgeSeconds = 0 ∧ Asks w r ∧
    (cors asciiExt c blankHandler {} r 0).1 = .ret (some resp) none ∧ resp.headers = some hd ∧ Granted w hd ∧ rememberedFor hd = 5 := by
  refine ⟨{ patchConfig with preflightMaxAgeSeconds := 0 }, ⟨b!"https://a", b!"PATCH", [], false⟩, asking ⟨b!"https://a", b!"PATCH", [], false⟩, _, _,
    rfl, asking_asks _, rfl, rfl, ⟨⟨b!"https://a", by decide, .inr ⟨rfl, nofun⟩⟩, .inr (.inl (by decide)), nofun⟩, by decide⟩

/-- C135 fails for every configuration with zero seconds, whatever is asked for: no answer of a handler that leaves the matter to the middleware
says that it is not to be remembered. -/
theorem c135_violated_never (x : Ext) (c : Config) (h : Handler σ (RespH α)) (ctx : Ctx) (r : Req) (s s' : σ) (resp₀ resp : RespH α) (h₀ hd : Map Str)
    (hm : r.method = b!"OPTIONS") (hz : c.preflightMaxAgeSeconds = 0) (hh : h ctx r s = (.ret (some resp₀) none, s'))
    (hhd : resp₀.headers = some h₀) (hl : Map.get? h₀ b!"Access-Control-Max-Age" = none)
    (hres : (cors x c h ctx r s).1 = .ret (some resp) none) (hr : resp.headers = some hd) : rememberedFor hd ≠ 0 := by
  rw [(c135_exact x c h ctx r s s' resp₀ resp h₀ hd hm (by rw [hz]; decide) hh hhd hres hr).2.2 (by omega) hl]
  decide

/-! ### C136 -/

/-- C136: a script of another origin can read the open names and those the configuration lists, `*` standing for all when no cookies are sent,
and no others; the middleware replaces a list of the handler by its own. -/
theorem c136_exact (x : Ext) (c : Config) (h : Handler σ (RespH α)) (ctx : Ctx) (r : Req) (s s' : σ) (resp₀ resp : RespH α) (h₀ hd : Map Str)
    (hnames : ∀ n ∈ c.exposedHeaders, NameText n) (hne : c.exposedHeaders ≠ [] ∨ Map.get? h₀ b!"Access-Control-Expose-Headers" = none)
    (hh : h ctx r s = (.ret (some resp₀) none, s')) (hhd : resp₀.headers = some h₀) (hres : (cors x c h ctx r s).1 = .ret (some resp) none)
    (hr : resp.headers = some hd) (credentials : Bool) (n : Str) :
    Shown credentials hd n ↔ small n ∈ openNames ∨ (small n ∉ [b!"set-cookie", b!"set-cookie2"] ∧
      ((∃ a ∈ c.exposedHeaders, small a = small n) ∨ (credentials = false ∧ b!"*" ∈ c.exposedHeaders))) := by
  obtain ⟨-, rfl⟩ := cors_answer hh hhd hres
  simp only [Option.some.injEq] at hr
  subst hr
  have hmem : membersOf (addStandard c r h₀) b!"Access-Control-Expose-Headers" = c.exposedHeaders := by
    unfold membersOf
    rw [addStandard_exposed]
    by_cases hc : c.exposedHeaders = []
    · rw [if_pos hc, hne.resolve_left (· hc), hc]
    · rw [if_neg hc]
      exact members_join hnames
  unfold Shown
  rw [hmem]

/-- C136, a handler that lists names itself and a configuration that lists none: the handler's list counts. -/
theorem c136_own (x : Ext) (c : Config) (h : Handler σ (RespH α)) (ctx : Ctx) (r : Req) (s s' : σ) (resp₀ resp : RespH α) (h₀ hd : Map Str)
    (hno : c.exposedHeaders = []) (hh : h ctx r s = (.ret (some resp₀) none, s')) (hhd : resp₀.headers = some h₀)
    (hres : (cors x c h ctx r s).1 = .ret (some resp) none) (hr : resp.headers = some hd) (credentials : Bool) (n : Str) :
    Shown credentials hd n ↔ Shown credentials h₀ n := by
  obtain ⟨-, rfl⟩ := cors_answer hh hhd hres
  simp only [Option.some.injEq] at hr
  subst hr
  unfold Shown membersOf
  rw [addStandard_exposed, if_pos hno]

/-- A configuration that lists two names. -/
def exposing : Config := { allowedOrigins := [b!"https://a"], allowedHttpMethods := [b!"GET"], exposedHeaders := [b!"X-Total", b!"ETag"] }

/-- A request of a script. -/
def scriptReq : Req := { method := b!"GET", headers := [(b!"Origin", [b!"https://a"])] }

/-- The script reads the listed names, however it spells them, and no others. -/
example : ∃ (resp : RespH Unit) (hd : Map Str), (cors asciiExt exposing blankHandler {} scriptReq 0).1 = .ret (some resp) none ∧
    resp.headers = some hd ∧ Shown true hd b!"x-total" ∧ Shown true hd b!"Content-Type" ∧ ¬ Shown true hd b!"X-Secret" := by
  refine ⟨_, _, rfl, rfl, ?_, ?_, ?_⟩
  all_goals rw [c136_exact asciiExt exposing blankHandler {} scriptReq 0 1 ⟨some [], ()⟩ _ [] _ (by decide) (.inl (by decide)) rfl rfl rfl rfl]
  · exact .inr ⟨by decide, .inl ⟨b!"X-Total", by decide, by decide⟩⟩
  · exact .inl (by decide)
  · rintro (h | ⟨-, ⟨a, ha, he⟩ | ⟨h, -⟩⟩)
    · exact absurd h (by decide)
    · revert a; decide
    · cases h

end Gofre.Props
