import Verif.Spec.Browser
import Verif.Props.Cors
import Verif.Props.Security
import Verif.Props.Serve

/-! # C53, C109, C110: CORS and HSTS from the browser's side -/

namespace Gofre.Props
open Gofre.Spec Gofre.Cors
variable {σ α : Type}

/-! ### Texts -/

theorem visible_trimmed {s : Str} (h : ∀ b ∈ s, 33 ≤ b ∧ b ≤ 126) : trimSpace s = s := by
  have hsp : ∀ sp ∈ spaces, ∃ b ∈ sp, ¬ (33 ≤ b ∧ b ≤ 126) := by decide
  apply trimSpace_of_trimmed
  constructor
  · intro sp hm hp
    obtain ⟨b, hb, hn⟩ := hsp sp hm
    exact hn (h b (hp.subset hb))
  · intro sp hm hp
    obtain ⟨sp', hm', rfl⟩ := List.mem_map.1 hm
    obtain ⟨b, hb, hn⟩ := hsp sp' hm'
    exact hn (h b (List.mem_reverse.1 (hp.subset (List.mem_reverse.2 hb))))

theorem dropBlank_id {s : Str} (h : ∀ b ∈ s, blank b = false) : s.dropWhile blank = s := by
  cases s with
  | nil => rfl
  | cons b l => rw [List.dropWhile_cons, h b (by simp)]; rfl

theorem unblank_id {s : Str} (h : ∀ b ∈ s, blank b = false) : unblank s = s := by
  unfold unblank
  rw [dropBlank_id h, dropBlank_id (fun b hb => h b (by simpa using hb)), List.reverse_reverse]

theorem _root_.Gofre.Spec.NameText.visible {s : Str} (h : NameText s) : ∀ b ∈ s, 33 ≤ b ∧ b ≤ 126 := fun b hb => ⟨(h.2 b hb).1, (h.2 b hb).2.1⟩

theorem _root_.Gofre.Spec.NameText.noComma {s : Str} (h : NameText s) : (44 : UInt8) ∉ s := fun hb => (h.2 44 hb).2.2 rfl

theorem visible_blank {b : UInt8} (h : 33 ≤ b) : blank b = false := by
  simp only [blank, Bool.or_eq_false_iff, beq_eq_false_iff_ne]
  constructor <;> (rintro rfl; exact absurd h (by decide))

theorem joinWith_mem {sep b : UInt8} : ∀ {ls : List Str}, b ∈ joinWith sep ls → b = sep ∨ ∃ l ∈ ls, b ∈ l
  | [], h => by simp [joinWith] at h
  | [l], h => .inr ⟨l, by simp, by simpa [joinWith] using h⟩
  | l :: m :: ls, h => by
    simp only [joinWith, List.mem_append, List.mem_cons] at h
    rcases h with h | h | h
    · exact .inr ⟨l, by simp, h⟩
    · exact .inl h
    · rcases joinWith_mem h with h | ⟨k, hk, h⟩
      · exact .inl h
      · exact .inr ⟨k, List.mem_cons_of_mem _ hk, h⟩

theorem joined_visible {ls : List Str} (h : ∀ l ∈ ls, NameText l) : ∀ b ∈ joinWith 44 ls, 33 ≤ b ∧ b ≤ 126 := by
  intro b hb
  rcases joinWith_mem hb with rfl | ⟨l, hl, hb⟩
  · decide
  · exact (h l hl).visible b hb

theorem map_filter_id {f : Str → Str} {ls : List Str} (h : ∀ l ∈ ls, NameText l) (hf : ∀ l, NameText l → f l = l) :
    (ls.map f).filter (· ≠ []) = ls := by
  have : ls.map f = ls := by
    rw [List.map_congr_left (g := id) (fun l hl => hf l (h l hl)), List.map_id]
  rw [this, List.filter_eq_self]
  intro l hl
  simpa using (h l hl).1

theorem members_join {ls : List Str} (h : ∀ l ∈ ls, NameText l) : members (joinWith 44 ls) = ls := by
  by_cases hne : ls = []
  · subst hne; rfl
  · unfold members
    rw [splitOn_joinWith hne fun l hl => (h l hl).noComma]
    exact map_filter_id h fun l hl => unblank_id fun b hb => visible_blank (hl.visible b hb).1

/-- The names asked for in a preflight, as the middleware reads them. -/
theorem requested_names {w : Wish} {r : Req} (hr : Asks w r) (hn : ∀ n ∈ w.names, NameText n) : requestedHeaders r = w.names := by
  unfold requestedHeaders getFirst
  rw [hr.names]
  by_cases h : w.names = []
  · rw [if_pos h, h]; decide
  · rw [if_neg h]
    dsimp only
    rw [visible_trimmed (joined_visible hn), splitOn_joinWith h fun n hm => (hn n hm).noComma]
    exact map_filter_id hn fun l hl => visible_trimmed hl.visible

/-! ### The headers of an answer -/

theorem addStandard_methods (c : Config) (r : Req) (h : Map Str) (hm : r.method = b!"OPTIONS") :
    Map.get? (addStandard c r h) b!"Access-Control-Allow-Methods" =
      if c.allowedHttpMethods = [] then Map.get? h b!"Access-Control-Allow-Methods" else some (joinWith 44 c.allowedHttpMethods) := by
  unfold addStandard
  rw [if_pos (by rw [hm]; rfl)]
  unfold addOptions
  rw [setWhen_other _ _ _ _ _ (by decide), setWhen_same]
  by_cases hc : c.allowedHttpMethods = []
  · rw [if_pos hc, if_neg (by simp [hc]), setWhen_other _ _ _ _ _ (by decide), addVary_other _ _ _ (by decide), addVary_other _ _ _ (by decide)]
    unfold addCredentials
    rw [setWhen_other _ _ _ _ _ (by decide), setWhen_other _ _ _ _ _ (by decide), addOrigin_other _ _ _ _ (by decide) (by decide)]
  · rw [if_neg hc, if_pos (by simpa using List.length_pos_iff.2 hc)]

theorem addStandard_headers (c : Config) (r : Req) (h : Map Str) (hm : r.method = b!"OPTIONS") :
    Map.get? (addStandard c r h) b!"Access-Control-Allow-Headers" =
      if c.allowedHttpHeaders = [] then Map.get? h b!"Access-Control-Allow-Headers" else some (joinWith 44 c.allowedHttpHeaders) := by
  unfold addStandard
  rw [if_pos (by rw [hm]; rfl)]
  unfold addOptions
  rw [setWhen_same]
  by_cases hc : c.allowedHttpHeaders = []
  · rw [if_pos hc, if_neg (by simp [hc]), setWhen_other _ _ _ _ _ (by decide), setWhen_other _ _ _ _ _ (by decide),
      addVary_other _ _ _ (by decide), addVary_other _ _ _ (by decide)]
    unfold addCredentials
    rw [setWhen_other _ _ _ _ _ (by decide), setWhen_other _ _ _ _ _ (by decide), addOrigin_other _ _ _ _ (by decide) (by decide)]
  · rw [if_neg hc, if_pos (by simpa using List.length_pos_iff.2 hc)]

theorem respond_headers {c : Config} {r : Req} {resp₀ resp : RespH α} {h₀ : Map Str} (hhd : resp₀.headers = some h₀) {err : Option Err}
    (h : respond c r resp₀ = .ret (some resp) err) : err = none ∧ resp = { resp₀ with headers := some (addStandard c r h₀) } := by
  unfold respond at h
  rw [hhd] at h
  simp only [HRes.ret.injEq, Option.some.injEq] at h
  exact ⟨h.2.symm, h.1.symm⟩

/-- The answer of the middleware, when there is one. -/
theorem cors_answer {x : Ext} {c : Config} {h : Handler σ (RespH α)} {ctx : Ctx} {r : Req} {s s' : σ} {resp₀ resp : RespH α} {h₀ : Map Str}
    {err : Option Err} (hh : h ctx r s = (.ret (some resp₀) none, s')) (hhd : resp₀.headers = some h₀)
    (hres : (cors x c h ctx r s).1 = .ret (some resp) err) : err = none ∧ resp = { resp₀ with headers := some (addStandard c r h₀) } := by
  unfold cors at hres
  rw [hh] at hres
  dsimp only at hres
  cases hk : requestType x r <;> simp only [hk] at hres
  · split at hres
    · exact respond_headers hhd hres
    · simp at hres
  · split at hres
    · exact respond_headers hhd hres
    · simp at hres
  · split at hres
    · exact respond_headers hhd hres
    · simp at hres
  · exact respond_headers hhd hres
  · simp at hres

/-! ### C110 -/

/-- Comparing names without regard to letter case, as `strings.EqualFold` does on visible ASCII texts. -/
def NameFold (f : Str → Str → Bool) : Prop := ∀ a b, NameText a → NameText b → (f a b = true ↔ small a = small b)

/-- What the configuration must say for a wish. -/
structure Configured (c : Config) (w : Wish) : Prop where
  origin : OriginAllowed c w.origin
  credentials : w.credentials = true → c.supportsCredentials = true ∧ c.anyOriginAllowed = false
  listed : ∃ a ∈ c.allowedHttpMethods, small a = small w.method
  spelled : w.method ∈ [b!"GET", b!"HEAD", b!"POST"] ∨ w.method ∈ c.allowedHttpMethods ∨ (w.credentials = false ∧ b!"*" ∈ c.allowedHttpMethods)
  names : ∀ n ∈ w.names, ∃ a ∈ c.allowedHttpHeaders, small a = small n

/-- The texts of configurations and wishes are names. -/
structure WishNames (c : Config) (w : Wish) : Prop where
  methods : ∀ m ∈ c.allowedHttpMethods, NameText m
  headers : ∀ m ∈ c.allowedHttpHeaders, NameText m
  method : NameText w.method
  names : ∀ n ∈ w.names, NameText n
  origin : w.origin ≠ b!"*"

/-- The headers a handler leaves to the middleware. -/
def LeavesCors (h₀ : Map Str) : Prop :=
  Map.get? h₀ b!"Access-Control-Allow-Credentials" = none ∧ Map.get? h₀ b!"Access-Control-Allow-Methods" = none ∧
    Map.get? h₀ b!"Access-Control-Allow-Headers" = none

theorem readable_standard {c : Config} {w : Wish} {r : Req} {h₀ : Map Str} (ho : Map.get? r.headers b!"Origin" = some [w.origin])
    (hstar : w.origin ≠ b!"*") (hl : Map.get? h₀ b!"Access-Control-Allow-Credentials" = none) :
    Readable w (addStandard c r h₀) ↔ (w.credentials = true → c.supportsCredentials = true ∧ c.anyOriginAllowed = false) := by
  unfold Readable
  rw [addStandard_origin, addStandard_credentials, getFirst_of_get? ho, hl]
  constructor
  · rintro ⟨v, hv, h⟩ hc
    rcases h with ⟨_, h⟩ | ⟨h1, h2⟩
    · rw [hc] at h; cases h
    · have h2 := h2 hc
      subst h1
      cases hs : c.supportsCredentials with
      | false => rw [hs] at h2; simp at h2
      | true =>
        refine ⟨rfl, ?_⟩
        cases ha : c.anyOriginAllowed with
        | false => rfl
        | true =>
          rw [ha] at hv
          simp only [if_true, Option.some.injEq] at hv
          exact absurd hv.symm hstar
  · intro h
    refine ⟨_, rfl, ?_⟩
    cases hc : w.credentials with
    | false =>
      cases ha : c.anyOriginAllowed with
      | false => exact .inr ⟨by simp, by simp⟩
      | true => exact .inl ⟨by simp, rfl⟩
    | true =>
      obtain ⟨h1, h2⟩ := h hc
      exact .inr ⟨by simp [h2], by simp [h1]⟩

/-- C110, exactly when a browser is let through by the answer to its preflight. -/
theorem c110_granted (x : Ext) (hf : NameFold x.eqFold) (c : Config) (w : Wish) (hw : WishNames c w) (hwf : WellFormed x w.origin)
    (h : Handler σ (RespH α)) (ctx : Ctx) (r : Req) (hr : Asks w r) (hx : ¬ SameOrigin r w.origin) (s s' : σ) (resp₀ : RespH α) (h₀ : Map Str)
    (hh : h ctx r s = (.ret (some resp₀) none, s')) (hhd : resp₀.headers = some h₀) (hl : LeavesCors h₀) :
    (∃ resp hd, (cors x c h ctx r s).1 = .ret (some resp) none ∧ resp.headers = some hd ∧ Granted w hd) ↔ Configured c w := by
  have hpf : Preflight r := ⟨hr.method, by rw [hr.wanted]; simp⟩
  have hacrm : getFirst r.headers b!"Access-Control-Request-Method" = w.method := getFirst_of_get? hr.wanted
  have htrim : trimSpace w.method = w.method := visible_trimmed hw.method.visible
  have hperm : Permitted x c r w.origin ↔ OriginAllowed c w.origin ∧ (∃ a ∈ c.allowedHttpMethods, small a = small w.method) ∧
      ∀ n ∈ w.names, ∃ a ∈ c.allowedHttpHeaders, small a = small n := by
    constructor
    · intro hp
      refine ⟨hp.origin, ?_, ?_⟩
      · obtain ⟨m, hm, a, ha, he⟩ := hp.preMethod hpf
        rw [hacrm, trims_iff, htrim] at hm
        subst hm
        exact ⟨a, ha, (hf a _ (hw.methods a ha) hw.method).1 he⟩
      · intro n hn
        have hreq := requested_iff.1 (show n ∈ requestedHeaders r by rw [requested_names hr hw.names]; exact hn)
        obtain ⟨a, ha, he⟩ := hp.preHeaders hpf n hreq.1 hreq.2
        exact ⟨a, ha, (hf a n (hw.headers a ha) (hw.names n hn)).1 he⟩
    · rintro ⟨h1, ⟨a, ha, h2⟩, h3⟩
      refine ⟨h1, fun hn => absurd hpf hn, fun _ => ⟨w.method, by rw [hacrm, trims_iff, htrim], a, ha, ?_⟩, fun _ n hne hn => ?_⟩
      · exact (hf a _ (hw.methods a ha) hw.method).2 h2
      · have hn := requested_iff.2 ⟨hne, hn⟩
        rw [requested_names hr hw.names] at hn
        obtain ⟨b, hb, he⟩ := h3 n hn
        exact ⟨b, hb, (hf b n (hw.headers b hb) (hw.names n hn)).2 he⟩
  have hmeth : membersOf (addStandard c r h₀) b!"Access-Control-Allow-Methods" = c.allowedHttpMethods := by
    unfold membersOf
    rw [addStandard_methods c r h₀ hr.method, hl.2.1]
    by_cases hc : c.allowedHttpMethods = []
    · rw [if_pos hc, hc]
    · rw [if_neg hc]; exact members_join hw.methods
  have hhead : membersOf (addStandard c r h₀) b!"Access-Control-Allow-Headers" = c.allowedHttpHeaders := by
    unfold membersOf
    rw [addStandard_headers c r h₀ hr.method, hl.2.2]
    by_cases hc : c.allowedHttpHeaders = []
    · rw [if_pos hc, hc]
    · rw [if_neg hc]; exact members_join hw.headers
  constructor
  · rintro ⟨resp, hd, hc, hrd, hg1, hg2, hg3⟩
    obtain ⟨-, hp, -⟩ := c49_only_permitted x c h ctx r s w.origin [] hr.origin hx resp none _ (Prod.ext hc rfl)
    obtain ⟨-, rfl⟩ := cors_answer hh hhd hc
    simp only [Option.some.injEq] at hrd
    subst hrd
    rw [hmeth] at hg2
    obtain ⟨p1, p2, p3⟩ := hperm.1 hp
    exact ⟨p1, (readable_standard hr.origin hw.origin hl.1).1 hg1, p2, hg2, p3⟩
  · intro hcf
    obtain ⟨resp, hc⟩ := c49_permitted_served x c h ctx r s w.origin [] hr.origin hx hwf (hperm.2 ⟨hcf.origin, hcf.listed, hcf.names⟩)
      (fun hm => by rw [hr.method] at hm; exact absurd hm (by decide)) (fun _ => by rw [hacrm]; exact hw.method.1) resp₀ h₀ s' hh hhd
    obtain ⟨-, rfl⟩ := cors_answer hh hhd (congrArg Prod.fst hc)
    refine ⟨_, _, congrArg Prod.fst hc, rfl, (readable_standard hr.origin hw.origin hl.1).2 hcf.credentials, ?_, ?_⟩
    · rw [hmeth]; exact hcf.spelled
    · rw [hhead]; exact fun n hn => .inl (hcf.names n hn)

/-- C110, the request after the question: a script whose preflight was granted may read the answer to its request.  Missing: a `POST`
without a content type, see `c110_violated`. -/
theorem c110_completes_partial (x : Ext) (hf : NameFold x.eqFold) (c : Config) (w : Wish) (hw : WishNames c w) (hwf : WellFormed x w.origin)
    (h : Handler σ (RespH α)) (ctx ctx' : Ctx) (r r' : Req) (hr : Asks w r) (hx : ¬ SameOrigin r w.origin) (s s' t t' : σ) (resp₀ resp₁ : RespH α)
    (h₀ h₁ : Map Str) (hh : h ctx r s = (.ret (some resp₀) none, s')) (hhd : resp₀.headers = some h₀) (hl : LeavesCors h₀)
    (hg : ∃ resp hd, (cors x c h ctx r s).1 = .ret (some resp) none ∧ resp.headers = some hd ∧ Granted w hd)
    (hr' : Sends w r') (hx' : ¬ SameOrigin r' w.origin) (hh' : h ctx' r' t = (.ret (some resp₁) none, t')) (hhd' : resp₁.headers = some h₁)
    (hl' : Map.get? h₁ b!"Access-Control-Allow-Credentials" = none)
    (hpost : w.method = b!"POST" → NamesType (getFirst r'.headers b!"Content-Type")) :
    ∃ resp hd, cors x c h ctx' r' t = (.ret (some resp) none, t') ∧ resp.rest = resp₁.rest ∧ resp.headers = some hd ∧ Readable w hd := by
  have hcf := (c110_granted x hf c w hw hwf h ctx r hr hx s s' resp₀ h₀ hh hhd hl).1 hg
  have hnp : ¬ Preflight r' := fun hp => hp.2 hr'.plain
  have hp : Permitted x c r' w.origin := by
    refine ⟨hcf.origin, fun _ => ?_, fun h => absurd h hnp, fun h => absurd h hnp⟩
    obtain ⟨a, ha, he⟩ := hcf.listed
    rw [hr'.method]
    exact ⟨a, ha, (hf a _ (hw.methods a ha) hw.method).2 he⟩
  obtain ⟨resp, hc⟩ := c49_permitted_served x c h ctx' r' t w.origin [] hr'.origin hx' hwf hp
    (fun hm => hpost (by rw [← hr'.method]; exact hm)) (fun h => absurd h hnp) resp₁ h₁ t' hh' hhd'
  obtain ⟨-, rfl⟩ := cors_answer hh' hhd' (congrArg Prod.fst hc)
  exact ⟨_, _, hc, rfl, rfl, (readable_standard hr'.origin hw.origin hl').2 hcf.credentials⟩

/-- `strings.EqualFold` on ASCII texts, and a URI parser good enough for the examples. -/
def asciiExt : Ext := ⟨fun a b => small a == small b, demoExt.uriScheme⟩

theorem asciiExt_fold : NameFold asciiExt.eqFold := fun a b _ _ => by simp [asciiExt]

/-- A preflight for the wish. -/
def asking (w : Wish) : Req :=
  { method := b!"OPTIONS", headers := [(b!"Origin", [w.origin]), (b!"Access-Control-Request-Method", [w.method])] ++
      (if w.names = [] then [] else [(b!"Access-Control-Request-Headers", [joinWith 44 w.names])]) }

theorem asking_asks (w : Wish) : Asks w (asking w) := by
  refine ⟨rfl, rfl, rfl, ?_⟩
  unfold asking
  by_cases h : w.names = []
  · simp only [h]; rfl
  · simp only [if_neg h]; rfl

/-- A handler that answers everything with an empty block of headers. -/
def blankHandler : Handler Nat (RespH Unit) := fun _ _ n => (.ret (some ⟨some [], ()⟩) none, n + 1)

/-- The configuration of the examples. -/
def patchConfig : Config :=
  { allowedOrigins := [b!"https://a"], allowedHttpMethods := [b!"PATCH", b!"POST"], allowedHttpHeaders := [b!"X-Id"], supportsCredentials := true }

/-- The hypotheses of `c110_granted` can be met, with a configuration that grants. -/
example : ∃ resp hd, (cors asciiExt patchConfig blankHandler {} (asking ⟨b!"https://a", b!"PATCH", [b!"x-id"], true⟩) 0).1 = .ret (some resp) none ∧
    resp.headers = some hd ∧ Granted ⟨b!"https://a", b!"PATCH", [b!"x-id"], true⟩ hd := by
  refine (c110_granted asciiExt asciiExt_fold patchConfig ⟨b!"https://a", b!"PATCH", [b!"x-id"], true⟩ ?_ ?_ blankHandler {} _ (asking_asks _) ?_ 0 1
    ⟨some [], ()⟩ [] rfl rfl ?_).2 ?_
  · exact ⟨by decide, by decide, by decide, by decide, by decide⟩
  · exact ⟨by decide, .inr (.inr ⟨by decide, b!"https", by decide, by decide⟩)⟩
  · rintro ⟨h, -⟩; exact h rfl
  · exact ⟨rfl, rfl, rfl⟩
  · exact ⟨.inr (by decide), fun _ => ⟨rfl, rfl⟩, ⟨b!"PATCH", by decide, rfl⟩, .inr (.inl (by decide)), by decide⟩

/-- C110 fails: the preflight is granted, and the `POST` without a content type (a script posting an empty body) is refused all the same. -/
theorem c110_violated : ∃ (c : Config) (w : Wish) (r r' : Req) (resp : RespH Unit) (hd : Map Str),
    Configured c w ∧ Asks w r ∧ (cors asciiExt c blankHandler {} r 0).1 = .ret (some resp) none ∧ resp.headers = some hd ∧ Granted w hd ∧
    Sends w r' ∧ (cors asciiExt c blankHandler {} r' 1).1 = .ret none (some .accessDenied) := by
  refine ⟨patchConfig, ⟨b!"https://a", b!"POST", [b!"x-id"], true⟩, asking ⟨b!"https://a", b!"POST", [b!"x-id"], true⟩,
    { method := b!"POST", headers := [(b!"Origin", [b!"https://a"]), (b!"X-Id", [b!"1"])] }, _, _,
    ⟨.inr (by decide), fun _ => ⟨rfl, rfl⟩, ⟨b!"POST", by decide, rfl⟩, .inl (by decide), by decide⟩, asking_asks _, rfl, rfl, ?_,
    ⟨rfl, rfl, rfl⟩, by decide⟩
  refine ⟨⟨_, rfl, .inr ⟨rfl, fun _ => rfl⟩⟩, .inl (by decide), ?_⟩
  intro n hn
  exact .inl ⟨b!"X-Id", by decide, by rw [List.mem_singleton.1 hn]; decide⟩

/-- C110 fails in another way: the middleware compares methods without regard to letter case and answers the preflight, but the browser, which
spells `patch` as the script does, finds only `PATCH` in the answer. -/
theorem c110_violated_method : ∃ (c : Config) (w : Wish) (r : Req) (resp : RespH Unit) (hd : Map Str),
    (∃ a ∈ c.allowedHttpMethods, asciiExt.eqFold a w.method = true) ∧ Asks w r ∧ (cors asciiExt c blankHandler {} r 0).1 = .ret (some resp) none ∧
    resp.headers = some hd ∧ ¬ Granted w hd := by
  refine ⟨patchConfig, ⟨b!"https://a", b!"patch", [], false⟩, asking ⟨b!"https://a", b!"patch", [], false⟩, _, _,
    ⟨b!"PATCH", by decide, by decide⟩, asking_asks _, rfl, rfl, ?_⟩
  rintro ⟨-, h | h | ⟨-, h⟩, -⟩ <;> exact absurd h (by decide)

/-- C110 fails for every configuration: a cross-origin `POST` without a content type, or with one that is empty or blank before its
parameters, is refused, whatever is allowed. -/
theorem c110_violated_never (x : Ext) (c : Config) (h : Handler σ (RespH α)) (ctx : Ctx) (r : Req) (s s' : σ) (o : Str) (vs)
    (ho : Map.get? r.headers b!"Origin" = some (o :: vs)) (hx : ¬ SameOrigin r o) (hm : r.method = b!"POST")
    (hct : NoType (getFirst r.headers b!"Content-Type")) (resp : RespH α) (hh : h ctx r s = (.ret (some resp) none, s')) :
    cors x c h ctx r s = (.ret none (some .accessDenied), s') := by
  have hinv : requestType x r = .invalid := by
    have hs : isSameOrigin r o = false := by
      cases h : isSameOrigin r o with
      | false => rfl
      | true => exact absurd ((isSameOrigin_iff r o).1 h) hx
    have hmt : mediaType (getFirst r.headers b!"Content-Type") = [] := mediaType_none hct
    unfold requestType
    simp only [ho, getFirst_of_get? ho, hs, hm, hmt]
    cases isValidOrigin x o <;> rfl
  unfold cors
  rw [hh]
  simp only [hinv]

example : cors asciiExt { anyOriginAllowed := true, allowedHttpMethods := [b!"POST"] } blankHandler {}
    { method := b!"POST", headers := [(b!"Origin", [b!"https://a"]), (b!"Content-Length", [b!"0"])] } 0 = (.ret none (some .accessDenied), 1) := by decide

example : cors asciiExt { anyOriginAllowed := true, allowedHttpMethods := [b!"POST"] } blankHandler {}
    { method := b!"POST", headers := [(b!"Origin", [b!"https://a"]), (b!"Content-Type", [b!" ; charset=utf-8"])] } 0 =
    (.ret none (some .accessDenied), 1) :=
  c110_violated_never _ _ _ _ _ 0 1 b!"https://a" [] rfl (fun h => h.1 rfl) rfl (by decide) _ rfl

/-! ### C53 -/

theorem decimal_of_parse {s : Str} {n : Nat} (h : parseDigits s = some n) : decimal s = some n := by
  have key : ∀ (s : Str) (acc n : Nat), parseDigitsAux acc s = some n →
      s.all (fun b => decide (48 ≤ b) && decide (b ≤ 57)) = true ∧ s.foldl (fun n b => n * 10 + (b.toNat - 48)) acc = n := by
    intro s
    induction s with
    | nil => intro acc n h; simp only [parseDigitsAux, Option.some.injEq] at h; exact ⟨rfl, h⟩
    | cons b l ih =>
      intro acc n h
      unfold parseDigitsAux at h
      split at h
      · rename_i hb
        obtain ⟨h1, h2⟩ := ih _ _ h
        refine ⟨?_, h2⟩
        rw [List.all_cons, h1]
        simp [hb.1, hb.2]
      · cases h
  unfold parseDigits at h
  split at h
  · cases h
  · rename_i hne
    obtain ⟨h1, h2⟩ := key s 0 n h
    unfold decimal
    rw [if_pos ⟨hne, h1⟩, h2]

theorem decimal_minus (s : Str) : decimal (45 :: s) = none := by
  unfold decimal
  rw [if_neg]
  rintro ⟨-, h⟩
  rw [List.all_cons] at h
  simp at h

theorem small_id {s : Str} (h : ∀ b ∈ s, ¬ (65 ≤ b ∧ b ≤ 90)) : small s = s := by
  unfold small
  rw [List.map_congr_left (g := id) (fun b hb => by rw [if_neg (h b hb)]; rfl), List.map_id]

/-- C53, what a browser reads in the header: the configured number of seconds (a negative number makes it ignore the header), and the two
words exactly when configured. -/
theorem c53_read (c : Security.Config) (r : Req) (v : Str) (hv : promised c r b!"Strict-Transport-Security" = some v)
    (hmax : c.stsMaxAge < 2 ^ 63) :
    stsAge v = (if 0 ≤ c.stsMaxAge then some c.stsMaxAge.toNat else none) ∧
    (b!"includesubdomains" ∈ directives v ↔ c.stsIncludeSubDomains = true) ∧ (b!"preload" ∈ directives v ↔ c.stsPreload = true) := by
  have hr : ∀ b ∈ itoaInt c.stsMaxAge, b = 45 ∨ (48 ≤ b ∧ b ≤ 57) := by
    intro b hb
    cases hn : c.stsMaxAge with
    | ofNat n => rw [hn] at hb; exact .inr (itoa_range n b hb)
    | negSucc n =>
      rw [hn] at hb
      rcases List.mem_cons.1 hb with rfl | hb
      · exact .inl rfl
      · exact .inr (itoa_range _ b hb)
  generalize hp : b!"max-age=" ++ itoaInt c.stsMaxAge = p at *
  have hpb : ∀ b ∈ p, b ∈ b!"max-age=" ∨ b = 45 ∨ (48 ≤ b ∧ b ≤ 57) := by
    intro b hb
    rw [← hp] at hb
    rcases List.mem_append.1 hb with hb | hb
    · exact .inl hb
    · exact .inr (hr b hb)
  have h59 : (59 : UInt8) ∉ p := by
    intro hb
    rcases hpb _ hb with h | h | h
    · exact absurd h (by decide)
    · exact absurd h (by decide)
    · exact absurd h.2 (by decide)
  have hup : unblank p = p := unblank_id fun b hb => by
    rcases hpb _ hb with h | h | h
    · clear hb; revert b; decide
    · subst h; rfl
    · exact visible_blank (Nat.le_trans (by decide) h.1)
  have hsp : small p = p := small_id fun b hb => by
    rcases hpb _ hb with h | h | h
    · clear hb; revert b; decide
    · subst h; decide
    · exact fun h' => absurd (Nat.le_trans h'.1 h.2) (by decide)
  have hd : directives v = p :: ((if c.stsIncludeSubDomains then [b!"includesubdomains"] else []) ++ (if c.stsPreload then [b!"preload"] else [])) := by
    unfold promised at hv
    rw [if_pos rfl] at hv
    split at hv
    · simp only [Option.some.injEq] at hv
      rw [← hv, hp]
      unfold directives
      cases c.stsIncludeSubDomains <;> cases c.stsPreload
      · simp only [Bool.false_eq_true, if_false, List.append_nil]
        rw [splitOn_of_not_mem h59]
        simp [hup, hsp]
      · simp only [Bool.false_eq_true, if_false, if_true, List.append_nil]
        rw [splitOn_append h59]
        simp only [List.map_cons, hup, hsp]
        congr 1
      · simp only [Bool.false_eq_true, if_false, if_true, List.append_nil]
        rw [splitOn_append h59]
        simp only [List.map_cons, hup, hsp]
        congr 1
      · simp only [if_true, List.append_assoc]
        rw [List.cons_append, splitOn_append h59]
        simp only [List.map_cons, hup, hsp]
        congr 1
    · cases hv
  have hne1 : b!"includesubdomains" ≠ p := by rw [← hp]; intro h; cases h
  have hne2 : b!"preload" ≠ p := by rw [← hp]; intro h; cases h
  refine ⟨?_, ?_, ?_⟩
  · unfold stsAge
    rw [hd, List.findSome?_cons]
    have hpre : (b!"max-age=").isPrefixOf p = true := by rw [← hp]; simp
    have hdr : p.drop 8 = itoaInt c.stsMaxAge := by rw [← hp]; rfl
    rw [if_pos hpre, hdr]
    cases hn : c.stsMaxAge with
    | ofNat n =>
      have : decimal (itoaInt (Int.ofNat n)) = some n := decimal_of_parse (parseDigits_itoa (by
        rw [hn] at hmax
        have : (n : Int) < 2 ^ 63 := hmax
        omega))
      rw [this]
      simp
    | negSucc n =>
      have : decimal (itoaInt (Int.negSucc n)) = none := decimal_minus _
      rw [this]
      dsimp only
      cases c.stsIncludeSubDomains <;> cases c.stsPreload <;> rfl
  · rw [hd, List.mem_cons]
    simp only [hne1, false_or, List.mem_append]
    cases c.stsIncludeSubDomains <;> cases c.stsPreload <;> simp
  · rw [hd, List.mem_cons]
    simp only [hne2, false_or, List.mem_append]
    cases c.stsIncludeSubDomains <;> cases c.stsPreload <;> simp

example : promised { stsEnabled := true, stsMaxAge := 31, stsPreload := true } { method := b!"GET", tls := true } b!"Strict-Transport-Security" =
    some b!"max-age=31;preload" ∧ stsAge b!"max-age=31;preload" = some 31 := by decide

/-! ### C109 -/

section
open Gofre.Path Gofre.Http Gofre.Response Gofre.Serve

/-- C109 fails for every router without a route for `OPTIONS`: whatever the handlers and middlewares of its routes, the answer to a
preflight is a bare 404, which no browser takes for a permission. -/
theorem c109_violated_never {c : Codec} {env : Env} {x : Path.Ext} {other : Str → Str} {ci : Bool}
    {es : List Route} {rt : Router} (hr : Built x other sortSiblings ci es rt) (hno : ∀ e ∈ es, toUpper other e.method ≠ toUpper other b!"OPTIONS")
    (act : Nat → Act) (req : RReq) (hm : req.method = b!"OPTIONS") (path : Str) {buf : List USeg} (hb : buf.length = 19) :
    ∃ (f : Nat) (out : WRes c), (∀ g, f ≤ g → serve x other env rt act req path buf g = some out) ∧
      seen out = [.head 404 fun _ => []] ∧ ∀ w : Wish, ¬ Granted w [] := by
  obtain ⟨f, hf⟩ := c26_no_method hr (fun h => behaviour (act h)) req.method path hb (by rw [hm]; exact hno)
  refine ⟨f, bare 404, fun g hg => ?_, ?_, ?_⟩
  · rw [serve_eq, hf g hg]; rfl
  · rfl
  · rintro w ⟨⟨v, hv, -⟩, -⟩
    cases hv

example : ∃ (es : List Route) (rt : Router), Built plainExt id sortSiblings false es rt ∧ es = [⟨b!"GET", b!"/b", 8⟩, ⟨b!"GET", b!"/a", 7⟩] ∧
    ∀ e ∈ es, toUpper id e.method ≠ toUpper id b!"OPTIONS" := by
  obtain ⟨r, h1⟩ : ∃ r, router0 [(b!"/b", 8), (b!"/a", 7)] = some r := Option.isSome_iff_exists.1 (by decide +kernel)
  exact ⟨_, r, router0_built h1, rfl, by decide⟩

end

end Gofre.Props
