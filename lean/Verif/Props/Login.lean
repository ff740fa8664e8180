import Verif.Spec.Login
import Verif.Props.App
import Verif.Props.Nonce
import Verif.Props.OAuth

/-! # C131: an application behind a login -/

namespace Gofre.Props
open Gofre.Http Gofre.Response Gofre.Spec Gofre.Serve Gofre.Path Gofre.MW Gofre.Stack Gofre.App
open Gofre.Mux (World run)
variable {σ : Type} {env : Env} {c : Codec} {quote : Str → Str} {x : Ext} {other : Str → Str} {ci : Bool}

theorem live_iff (k : Cache.Cache) (t : Int) (st : Str) : Live k t st ↔ Cache.contains k t st = true := by
  unfold Live Cache.contains Map.get?
  cases k.lookup st <;> simp

/-! ### Programs that differ in handlers that are related -/

section
variable {H : Type} {R : H → H → Prop}

/-- The routes are for the same method and path, their handlers related. -/
def SameRoute (R : H → H → Prop) (a b : Mux.Route H) : Prop := a.method = b.method ∧ a.path = b.path ∧ R a.handler b.handler

/-- The same call, but for a related handler. -/
inductive OpRel (R : H → H → Prop) : Mux.Op H → Mux.Op H → Prop
  | same {op} (h : OpKeepsR R op) : OpRel R op op
  | handle {v method path h h' ms} (hh : R h h') (hm : ∀ m ∈ ms, KeepsR R m) : OpRel R (.handle v method path h ms) (.handle v method path h' ms)

structure WorldRel (R : H → H → Prop) (w w' : World H) : Prop where
  muxes : w.muxes = w'.muxes
  vals : w.vals = w'.vals
  keep : ∀ m ∈ w.muxes, ∀ f ∈ m.common, KeepsR R f
  routes : All2 (SameRoute R) w.routes w'.routes

theorem wrapAll_rel {ms : List (Option (H → H))} (hm : ∀ m ∈ ms, KeepsR R m) {h h' : H} (hh : R h h') : R (wrapAll h ms) (wrapAll h' ms) := by
  induction ms with
  | nil => exact hh
  | cons m ms ih =>
    have := ih fun m h => hm m (by simp [h])
    cases m with
    | none => exact this
    | some f => exact hm (some f) (by simp) _ _ this

theorem all2_refl {α : Type} {S : α → α → Prop} (hS : ∀ a, S a a) : ∀ l : List α, All2 S l l
  | [] => .nil
  | _ :: l => .cons (hS _) (all2_refl hS l)

theorem rel_step (hR : ∀ h, R h h) {w w' : World H} (hw : WorldRel R w w') {op op' : Mux.Op H} (hop : OpRel R op op') : WorldRel R (Mux.step w op) (Mux.step w' op') := by
  have hd : ∀ v, w'.deref v = w.deref v := fun v => by simp [World.deref, hw.muxes, hw.vals]
  cases hop with
  | handle hh hm =>
    simp only [Mux.step, hd]
    split
    · exact hw
    · rename_i i m hi
      refine ⟨hw.muxes, hw.vals, hw.keep, hw.routes.append (.cons ⟨rfl, rfl, ?_⟩ .nil)⟩
      simp only [wrapMiddleware_eq]
      exact wrapAll_rel (hw.keep m (deref_mem hi)) (wrapAll_rel hm hh)
  | same h =>
    cases op with
    | clone v =>
      simp only [Mux.step, hd]
      split
      · exact hw
      · rename_i i m hi
        refine ⟨by simp [hw.muxes], by simp [hw.muxes, hw.vals], ?_, hw.routes⟩
        intro n hn
        rcases List.mem_append.1 hn with hn | hn
        · exact hw.keep n hn
        · simp only [List.mem_singleton] at hn; subst hn; exact hw.keep m (deref_mem hi)
    | sub v p =>
      simp only [Mux.step, hd]
      split
      · exact hw
      · rename_i i m hi
        split
        · exact ⟨hw.muxes, by simp [hw.vals], hw.keep, hw.routes⟩
        · refine ⟨by simp [hw.muxes], by simp [hw.muxes, hw.vals], ?_, hw.routes⟩
          intro n hn
          rcases List.mem_append.1 hn with hn | hn
          · exact hw.keep n hn
          · simp only [List.mem_singleton] at hn; subst hn; exact hw.keep m (deref_mem hi)
    | common v ns =>
      simp only [Mux.step, hd]
      split
      · exact hw
      · rename_i i m hi
        refine ⟨by simp [hw.muxes], hw.vals, ?_, hw.routes⟩
        intro n hn
        rcases List.mem_or_eq_of_mem_set hn with hn | hn
        · exact hw.keep n hn
        · subst hn
          intro f hf
          rcases List.mem_append.1 hf with hf | hf
          · exact hw.keep m (deref_mem hi) f hf
          · exact h f hf
    | handle v method path k own =>
      simp only [Mux.step, hd]
      split
      · exact hw
      · rename_i i m hi
        refine ⟨hw.muxes, hw.vals, hw.keep, hw.routes.append (.cons ⟨rfl, rfl, ?_⟩ .nil)⟩
        simp only [wrapMiddleware_eq]
        exact wrapAll_rel (hw.keep m (deref_mem hi)) (wrapAll_rel h (hR k))
    | debug v d =>
      simp only [Mux.step, hd]
      split
      · exact hw
      · exact ⟨hw.muxes, hw.vals, hw.keep, hw.routes.append (all2_refl (fun _ => ⟨rfl, rfl, hR _⟩) _)⟩

theorem rel_run (hR : ∀ h, R h h) {ops ops' : List (Mux.Op H)} (hops : All2 (OpRel R) ops ops') : ∀ {w w' : World H}, WorldRel R w w' → WorldRel R (run w ops) (run w' ops') := by
  induction hops with
  | nil => intro w w' hw; exact hw
  | cons h _ ih => intro w w' hw; exact ih (rel_step hR hw h)

/-- Routes are loaded by method and path only. -/
theorem load_rel {rts rts' : List (Mux.Route H)} (h : All2 (SameRoute R) rts rts') : ∀ (r : Router) (i : Nat), load x other r i rts = load x other r i rts' := by
  induction h with
  | nil => intro r i; rfl
  | cons h _ ih =>
    intro r i
    rw [load, load, h.1, h.2.1]
    split
    · exact ih _ _
    · rfl
    · rfl

theorem all2_get {α β : Type} {S : α → β → Prop} {l : List α} {m : List β} (h : All2 S l m) (i : Nat) :
    (l[i]? = none ∧ m[i]? = none) ∨ ∃ a b, l[i]? = some a ∧ m[i]? = some b ∧ S a b := by
  induction h generalizing i with
  | nil => simp
  | cons h _ ih =>
    cases i with
    | zero => simp [h]
    | succ i => simpa only [List.getElem?_cons_succ] using ih i

end

/-- Two applications with related handlers answer a request alike if related handlers do. -/
theorem serve_rel {R : AHandler σ → AHandler σ → Prop} {rts rts' : List (Mux.Route (AHandler σ))} (h : All2 (SameRoute R) rts rts') (r : Router) (q : AReq) (buf : List USeg)
    (fuel : Nat) (s : σ) (hs : ∀ k k', R k k' → ∀ vars ctx, k vars ctx q.req s = k' vars ctx q.req s) :
    serveApp (c := c) x other env r (rts.map (·.handler)) q buf fuel s = serveApp (c := c) x other env r (rts'.map (·.handler)) q buf fuel s := by
  unfold serveApp
  split
  · rfl
  · split
    · rfl
    · congr 1
      funext m
      cases m with
      | panic => rfl
      | none => rfl
      | found p labels =>
        simp only [List.getElem?_map]
        rcases all2_get h p.attachment with ⟨h1, h2⟩ | ⟨a, b, h1, h2, h3⟩
        · simp [h1, h2]
        · simp only [h1, h2, Option.map_some]
          rw [hs _ _ h3.2.2]

/-! ### The two handlers -/

/-- C131, the callback: it runs the user's handler exactly when the provider is configured, there is no error parameter, the state is live and the
provider calls succeed, with that token and user in the context; otherwise its results do not depend on the handler.  The cache is left alone. -/
theorem c131_callback (cfg : OAuth.Config σ) (base : Str) (vars : Str → Option Str) (ctx : Ctx) (req : Req) (w : LoginState σ) :
    (∃ name p tok s₁, vars b!"providerName" = some name ∧ p ∈ cfg.providers ∧ p.name = name ∧ given req b!"error" = [] ∧ Live w.cache w.now (given req b!"state") ∧
      p.fetchToken (cfg.websiteUrl ++ base ++ b!"/" ++ name) (given req b!"code") w.rest = (.ok tok, s₁) ∧
      ((cfg.fetchUserDetails = false ∧ ∀ h, callbackIn cfg base h vars ctx req w = h vars { ctx with token := some tok.accessToken } req { w with rest := s₁ }) ∨
        ∃ u s₂, cfg.fetchUserDetails = true ∧ p.fetchUser tok s₁ = (.ok u, s₂) ∧
          ∀ h, callbackIn cfg base h vars ctx req w =
            h vars { ctx with token := some tok.accessToken, principal := some (Context.userPrincipal u) } req { w with rest := s₂ })) ∨
    ∃ out w', ((∃ e, out = HRes.ret none (some e)) ∨ ∃ v, out = HRes.panic v) ∧ w'.cache = w.cache ∧ ∀ h, callbackIn cfg base h vars ctx req w = (out, w') := by
  unfold callbackIn
  cases hv : vars b!"providerName" with
  | none => exact .inr ⟨_, _, .inr ⟨_, rfl⟩, rfl, fun h => rfl⟩
  | some name =>
    unfold OAuth.callback
    simp only [formValue_given]
    cases hp : OAuth.byName cfg.providers name with
    | none => exact .inr ⟨_, _, .inl ⟨_, rfl⟩, rfl, fun h => rfl⟩
    | some p =>
      obtain ⟨hmem, hname⟩ := byName_some hp
      dsimp only
      by_cases herr : given req b!"error" ≠ []
      · simp only [if_pos herr]; exact .inr ⟨_, _, .inl ⟨_, rfl⟩, rfl, fun h => rfl⟩
      simp only [if_neg herr]
      by_cases hst : (!Cache.contains w.cache w.now (given req b!"state")) = true
      · simp only [if_pos hst]; exact .inr ⟨_, _, .inl ⟨_, rfl⟩, rfl, fun h => rfl⟩
      simp only [if_neg hst]
      have hred : OAuth.redirectUrl cfg base p = cfg.websiteUrl ++ base ++ b!"/" ++ name := by simp [OAuth.redirectUrl, hname]
      rw [hred]
      rcases ht : p.fetchToken (cfg.websiteUrl ++ base ++ b!"/" ++ name) (given req b!"code") w.rest with ⟨out, s₁⟩
      cases out with
      | err e => exact .inr ⟨_, { w with rest := s₁ }, .inl ⟨_, rfl⟩, rfl, fun h => rfl⟩
      | panic => exact .inr ⟨_, { w with rest := s₁ }, .inr ⟨_, rfl⟩, rfl, fun h => rfl⟩
      | ok tok =>
        have hlive : Live w.cache w.now (given req b!"state") := (live_iff _ _ _).2 (by simpa using hst)
        by_cases hf : cfg.fetchUserDetails = true
        · simp only [if_pos hf]
          rcases hu : p.fetchUser tok s₁ with ⟨out, s₂⟩
          cases out with
          | err e => exact .inr ⟨_, { w with rest := s₂ }, .inl ⟨_, rfl⟩, rfl, fun h => rfl⟩
          | panic => exact .inr ⟨_, { w with rest := s₂ }, .inr ⟨_, rfl⟩, rfl, fun h => rfl⟩
          | ok u => exact .inl ⟨name, p, tok, s₁, rfl, hmem, hname, by simpa using herr, hlive, ht, .inr ⟨u, s₂, hf, hu, fun h => rfl⟩⟩
        · simp only [if_neg hf]
          exact .inl ⟨name, p, tok, s₁, rfl, hmem, hname, by simpa using herr, hlive, ht, .inl ⟨by simpa using hf, fun h => rfl⟩⟩

theorem callbackIn_alike (cfg : OAuth.Config σ) (base : Str) (h h' : AHandler (LoginState σ)) : Alike (callbackIn cfg base h) (callbackIn cfg base h') := by
  intro vars ctx req w hn
  rcases c131_callback cfg base vars ctx req w with ⟨_, _, _, _, _, _, _, _, hl, _⟩ | ⟨out, w', _, _, he⟩
  · exact absurd hl hn
  · rw [he, he]

theorem callbackIn_quiet {cfg : OAuth.Config σ} {base : Str} {lifetime : Int} {st : Str} {t : Int} {h : AHandler (LoginState σ)} (hh : Quiet lifetime st t h) :
    Quiet lifetime st t (callbackIn cfg base h) := by
  intro vars ctx req w hn hr
  rcases c131_callback cfg base vars ctx req w with ⟨_, _, _, s₁, _, _, _, _, _, _, ⟨_, he⟩ | ⟨u, s₂, _, _, he⟩⟩ | ⟨out, w', _, hc, he⟩
  · rw [he]; exact hh _ _ _ _ hn hr
  · rw [he]; exact hh _ _ _ _ hn hr
  · rw [he, hc]; exact hn

theorem callbackIn_mute {cfg : OAuth.Config σ} {base : Str} {st : Str} {t : Int} {h : AHandler (LoginState σ)} (hh : Mute st t h) :
    Mute st t (callbackIn cfg base h) := by
  intro vars ctx req w hn
  rcases c131_callback cfg base vars ctx req w with ⟨_, _, _, s₁, _, _, _, _, _, _, ⟨_, he⟩ | ⟨u, s₂, _, _, he⟩⟩ | ⟨out, w', _, hc, he⟩
  · rw [he]; exact hh _ _ _ _ hn
  · rw [he]; exact hh _ _ _ _ hn
  · rw [he, hc]; exact hn

theorem initiateIn_quiet (cfg : OAuth.Config σ) (base : Str) (st : Str) (t : Int) : Quiet cfg.keyExpiration st t (initiateIn cfg base) := by
  intro vars ctx req w hn hr
  unfold initiateIn OAuth.initiate
  cases hsel : OAuth.selectProvider cfg req with
  | error e => exact hn
  | ok p =>
    simp only [Option.map_some, Option.getD_some]
    rw [live_iff] at hn ⊢
    unfold Cache.contains Cache.add at *
    by_cases hk : w.rnd = st
    · subst hk
      rw [Map.get?_set_same]
      simpa using hr
    · rw [Map.get?_set_other _ _ _ _ (by first | exact hk | exact Ne.symm hk)]
      exact hn

theorem byName_first : ∀ {ps : List (OAuth.Provider σ)} {p : OAuth.Provider σ}, OAuth.byName ps p.name = some p → ∃ l k, ps = l ++ p :: k ∧ ∀ o ∈ l, o.name ≠ p.name
  | [], _, h => by cases h
  | q :: ps, p, h => by
    unfold OAuth.byName at h
    split at h
    · cases h; exact ⟨[], ps, rfl, by simp⟩
    · rename_i hq
      obtain ⟨l, k, e, hl⟩ := byName_first h
      refine ⟨q :: l, k, by rw [e]; rfl, ?_⟩
      intro o ho
      rcases List.mem_cons.1 ho with rfl | ho
      · exact Ne.symm hq
      · exact hl o ho

/-- C80, the initiate handler: it refuses a request for no or an unknown provider, with 400, and changes nothing; any other request is sent to the address of a
configured provider (the first of its name) with the random text as state and the redirect URI of that provider, and that text is then a live state for exactly
the configured time. -/
theorem c80_initiate (cfg : OAuth.Config σ) (base : Str) (vars : Str → Option Str) (ctx : Ctx) (req : Req) (w : LoginState σ) :
    (∃ msg, initiateIn cfg base vars ctx req w = (.ret none (some (.badRequest msg)), w) ∧
      (∀ p, cfg.providers ≠ [p]) ∧ (given req b!"provider" = [] ∨ ∀ p ∈ cfg.providers, p.name ≠ given req b!"provider")) ∨
    ∃ p ∈ cfg.providers, ∃ cache', initiateIn cfg base vars ctx req w =
        (.ret (some (.resp (.redirect { status := 302 } (p.initiateUrl (cfg.websiteUrl ++ base ++ b!"/" ++ p.name) w.rnd cfg.fetchUserDetails)))) none, { w with cache := cache' }) ∧
      (cfg.providers = [p] ∨ p.name = given req b!"provider") ∧ (∃ l k, cfg.providers = l ++ p :: k ∧ ∀ o ∈ l, o.name ≠ p.name) ∧
      (∀ t, Live cache' t w.rnd ↔ t < w.now + cfg.keyExpiration) ∧ ∀ st t, st ≠ w.rnd → (Live cache' t st ↔ Live w.cache t st) := by
  have hcache : (∀ t, Live (Cache.add w.cache w.now w.rnd cfg.keyExpiration) t w.rnd ↔ t < w.now + cfg.keyExpiration) ∧
      ∀ st t, st ≠ w.rnd → (Live (Cache.add w.cache w.now w.rnd cfg.keyExpiration) t st ↔ Live w.cache t st) := by
    constructor
    · intro t
      rw [live_iff, Cache.contains, Cache.add, Map.get?_set_same]
      simp
    · intro st t hne
      rw [live_iff, live_iff, Cache.contains, Cache.contains, Cache.add, Map.get?_set_other _ _ _ _ (by first | exact hne | exact Ne.symm hne)]
  have hred : ∀ p, OAuth.redirectUrl cfg base p = cfg.websiteUrl ++ base ++ b!"/" ++ p.name := fun p => by simp [OAuth.redirectUrl]
  have hok : ∀ p, OAuth.selectProvider cfg req = .ok p → initiateIn cfg base vars ctx req w =
      (.ret (some (.resp (.redirect { status := 302 } (p.initiateUrl (cfg.websiteUrl ++ base ++ b!"/" ++ p.name) w.rnd cfg.fetchUserDetails)))) none,
        { w with cache := Cache.add w.cache w.now w.rnd cfg.keyExpiration }) := by
    intro p hp
    simp only [initiateIn, OAuth.initiate, hp, hred]
    rfl
  have hbad : ∀ e, OAuth.selectProvider cfg req = .error e → initiateIn cfg base vars ctx req w = (.ret none (some e), w) := by
    intro e hp
    simp only [initiateIn, OAuth.initiate, hp]
    rfl
  unfold OAuth.selectProvider at hok hbad
  by_cases h1 : ∃ p, cfg.providers = [p]
  · obtain ⟨p, hp⟩ := h1
    simp only [hp] at hok
    exact .inr ⟨p, by simp [hp], _, hok p rfl, .inl hp, ⟨[], [], hp, by simp⟩, hcache⟩
  · have hne : ∀ p, cfg.providers ≠ [p] := fun p hp => h1 ⟨p, hp⟩
    simp only [formValue_given] at hok hbad
    by_cases h2 : given req b!"provider" = []
    · refine .inl ⟨_, hbad _ (by rw [if_pos h2]), hne, .inl h2⟩
    · cases h3 : OAuth.byName cfg.providers (given req b!"provider") with
      | some p =>
        obtain ⟨hm, hn⟩ := byName_some h3
        exact .inr ⟨p, hm, _, hok p (by rw [if_neg h2, h3]), .inr hn, byName_first (hn ▸ h3), hcache⟩
      | none =>
        refine .inl ⟨_, hbad _ (by rw [if_neg h2, h3]), hne, .inr ?_⟩
        intro p hp hn
        exact absurd h3 (by
          have key : ∀ l : List (OAuth.Provider σ), p ∈ l → OAuth.byName l (given req b!"provider") ≠ none := by
            intro l
            induction l with
            | nil => intro h; cases h
            | cons q l ih =>
              intro h
              unfold OAuth.byName
              split
              · simp
              · rename_i hq
                rcases List.mem_cons.1 h with rfl | h
                · exact absurd hn.symm hq
                · exact ih h
          exact key _ hp)

theorem initiateIn_keeping (cfg : OAuth.Config σ) (base : Str) (st : Str) (t : Int) : Keeping st t (initiateIn cfg base) := by
  intro vars ctx req w hl hr
  rcases c80_initiate cfg base vars ctx req w with ⟨_, h, _⟩ | ⟨p, _, cache', h, _, _, _, h3⟩
  · rw [h]; exact hl
  · rw [h]; exact (h3 st t (Ne.symm hr)).2 hl

theorem callbackIn_keeping {cfg : OAuth.Config σ} {base : Str} {st : Str} {t : Int} {h : AHandler (LoginState σ)} (hh : Keeping st t h) :
    Keeping st t (callbackIn cfg base h) := by
  intro vars ctx req w hn hr
  rcases c131_callback cfg base vars ctx req w with ⟨_, _, _, s₁, _, _, _, _, _, _, ⟨_, he⟩ | ⟨u, s₂, _, _, he⟩⟩ | ⟨out, w', _, hc, he⟩
  · rw [he]; exact hh _ _ _ _ hn hr
  · rw [he]; exact hh _ _ _ _ hn hr
  · rw [he, hc]; exact hn

/-! ### Properties that all handlers of an application have, but for some routes -/

section
variable {H : Type} {P : H → Prop} {Q : Mux.Route H → Prop}

structure EachWith (P : H → Prop) (Q : Mux.Route H → Prop) (w : World H) : Prop where
  muxes : ∀ m ∈ w.muxes, ∀ f ∈ m.common, KeepsP P f
  routes : ∀ r ∈ w.routes, P r.handler ∨ Q r

theorem each_step {w : World H} (hw : EachWith P Q w) {op : Mux.Op H} (hop : OpKeeps P op) : EachWith P Q (Mux.step w op) := by
  cases op with
  | clone v =>
    simp only [Mux.step]
    split
    · exact hw
    · rename_i i m hm
      refine ⟨?_, hw.routes⟩
      intro n hn
      rcases List.mem_append.1 hn with hn | hn
      · exact hw.muxes n hn
      · simp only [List.mem_singleton] at hn; subst hn; exact hw.muxes m (deref_mem hm)
  | sub v p =>
    simp only [Mux.step]
    split
    · exact hw
    · rename_i i m hm
      split
      · exact ⟨hw.muxes, hw.routes⟩
      · refine ⟨?_, hw.routes⟩
        intro n hn
        rcases List.mem_append.1 hn with hn | hn
        · exact hw.muxes n hn
        · simp only [List.mem_singleton] at hn; subst hn; exact hw.muxes m (deref_mem hm)
  | common v ns =>
    simp only [Mux.step]
    split
    · exact hw
    · rename_i i m hm
      refine ⟨?_, hw.routes⟩
      intro n hn
      rcases List.mem_or_eq_of_mem_set hn with hn | hn
      · exact hw.muxes n hn
      · subst hn
        intro f hf
        rcases List.mem_append.1 hf with hf | hf
        · exact hw.muxes m (deref_mem hm) f hf
        · exact hop f hf
  | handle v method path h own =>
    simp only [Mux.step]
    split
    · exact hw
    · rename_i i m hm
      refine ⟨hw.muxes, ?_⟩
      intro r hr
      rcases List.mem_append.1 hr with hr | hr
      · exact hw.routes r hr
      · simp only [List.mem_singleton] at hr
        subst hr
        simp only [wrapMiddleware_eq]
        exact .inl (wrapAll_keeps (hw.muxes m (deref_mem hm)) (wrapAll_keeps hop.2 hop.1))
  | debug v d =>
    simp only [Mux.step]
    split
    · exact hw
    · refine ⟨hw.muxes, ?_⟩
      intro r hr
      rcases List.mem_append.1 hr with hr | hr
      · exact hw.routes r hr
      · obtain ⟨e, he, rfl⟩ := List.mem_map.1 hr
        obtain ⟨h1, h2, h3, h4, h5, h6⟩ := hop
        simp only [Mux.debugTable, List.mem_cons, List.not_mem_nil, or_false] at he
        rcases he with rfl | rfl | rfl | rfl | rfl | rfl | rfl | rfl | rfl | rfl | rfl | rfl <;> exact .inl (by assumption)

theorem each_run {ops : List (Mux.Op H)} (hops : ∀ op ∈ ops, OpKeeps P op) : ∀ {w : World H}, EachWith P Q w → EachWith P Q (run w ops) := by
  induction ops with
  | nil => intro w hw; exact hw
  | cons op ops ih => intro w hw; exact ih (fun o ho => hops o (by simp [ho])) (each_step hw (hops op (by simp)))

theorem run_app (w : World H) (a b : List (Mux.Op H)) : run w (a ++ b) = run (run w a) b := by simp [run, List.foldl_append]

end

/-- What a request leaves behind is what one handler leaves behind, or nothing has changed. -/
theorem serveApp_state {r : Router} {hs : List (AHandler σ)} {q : AReq} {buf : List USeg} {s s' : σ} {fuel : Nat} {res : WRes c}
    (h : serveApp (c := c) x other env r hs q buf fuel s = some (res, s')) : s' = s ∨ ∃ k ∈ hs, ∃ vars, s' = (k vars {} q.req s).2 := by
  unfold serveApp at h
  split at h
  · simp only [Option.some.injEq, Prod.mk.injEq] at h; exact .inl h.2.symm
  · split at h
    · simp only [Option.some.injEq, Prod.mk.injEq] at h; exact .inl h.2.symm
    · rw [Option.map_eq_some_iff] at h
      obtain ⟨m, _, h⟩ := h
      split at h
      · simp only [Prod.mk.injEq] at h; exact .inl h.2.symm
      · simp only [Prod.mk.injEq] at h; exact .inl h.2.symm
      · split at h
        · simp only [Prod.mk.injEq] at h; exact .inl h.2.symm
        · rename_i k hk
          simp only [Prod.mk.injEq] at h
          exact .inr ⟨k, List.mem_of_getElem? hk, _, h.2.symm⟩

/-! ### C131 -/

/-- A program with a login flow, before and after which it may do anything. -/
abbrev withLogin (cfg : OAuth.Config σ) (v : Nat) (pathPrefix initiatePath basePath : Str) (ims cms : List (Option (AHandler (LoginState σ) → AHandler (LoginState σ))))
    (pre post : List (Mux.Op (AHandler (LoginState σ)))) (h : AHandler (LoginState σ)) : List (Mux.Op (AHandler (LoginState σ))) :=
  pre ++ loginOps cfg v pathPrefix initiatePath basePath h ims cms ++ post

theorem login_rel (cfg : OAuth.Config σ) (v : Nat) (pathPrefix initiatePath basePath : Str) {ims cms : List (Option (AHandler (LoginState σ) → AHandler (LoginState σ)))}
    {pre post : List (Mux.Op (AHandler (LoginState σ)))} (hops : ∀ op ∈ pre ++ post, OpKeepsR Alike op) (hms : ∀ m ∈ ims ++ cms, KeepsR Alike m)
    (h h' : AHandler (LoginState σ)) (site : Str) (assets : Option Str) (files : Str → AHandler (LoginState σ)) :
    All2 (SameRoute Alike) (run (World.new site assets files) (withLogin cfg v pathPrefix initiatePath basePath ims cms pre post h)).routes
      (run (World.new site assets files) (withLogin cfg v pathPrefix initiatePath basePath ims cms pre post h')).routes := by
  have hR : ∀ k : AHandler (LoginState σ), Alike k k := fun k _ _ _ _ _ => rfl
  have hsame : ∀ l : List (Mux.Op (AHandler (LoginState σ))), (∀ op ∈ l, OpKeepsR Alike op) → All2 (OpRel Alike) l l := by
    intro l hl
    induction l with
    | nil => exact .nil
    | cons op l ih => exact .cons (.same (hl op (by simp))) (ih fun o ho => hl o (by simp [ho]))
  refine (rel_run hR (((hsame pre fun op h => hops op (by simp [h])).append ?_).append (hsame post fun op h => hops op (by simp [h]))) ⟨rfl, rfl, ?_, all2_refl (fun _ => ⟨rfl, rfl, hR _⟩) _⟩).routes
  · exact .cons (.same fun m hm => hms m (by simp [hm])) (.cons (.handle (callbackIn_alike _ _ _ _) fun m hm => hms m (by simp [hm])) .nil)
  · intro m hm
    simp [World.new, World.init] at hm
    subst hm
    simp

/-- C131, without a live state: for a request whose `state` is not live in the cache, the answer and all it leaves behind do not depend on the user's
handler behind the login, whatever else the program registers — the handler does not run. -/
theorem c131_no_state (cfg : OAuth.Config σ) (v : Nat) (pathPrefix initiatePath basePath : Str) {ims cms : List (Option (AHandler (LoginState σ) → AHandler (LoginState σ)))}
    {pre post : List (Mux.Op (AHandler (LoginState σ)))} (hops : ∀ op ∈ pre ++ post, OpKeepsR Alike op) (hms : ∀ m ∈ ims ++ cms, KeepsR Alike m)
    (h h' : AHandler (LoginState σ)) (site : Str) (assets : Option Str) (files : Str → AHandler (LoginState σ)) {rts rts' : List (Mux.Route (AHandler (LoginState σ)))}
    (hrts : rts = (run (World.new site assets files) (withLogin cfg v pathPrefix initiatePath basePath ims cms pre post h)).routes)
    (hrts' : rts' = (run (World.new site assets files) (withLogin cfg v pathPrefix initiatePath basePath ims cms pre post h')).routes)
    (q : AReq) (w : LoginState σ) (hn : ¬ Live w.cache w.now (given q.req b!"state")) :
    load x other (newRouter ci) 0 rts = load x other (newRouter ci) 0 rts' ∧
    ∀ r buf fuel, serveApp (c := c) x other env r (rts.map (·.handler)) q buf fuel w = serveApp (c := c) x other env r (rts'.map (·.handler)) q buf fuel w := by
  have hrel := login_rel cfg v pathPrefix initiatePath basePath hops hms h h' site assets files
  rw [← hrts, ← hrts'] at hrel
  exact ⟨load_rel hrel _ _, fun r buf fuel => serve_rel hrel r q buf fuel w fun k k' hk vars ctx => hk vars ctx q.req w hn⟩

theorem logins_keep {r : Router} {hs : List (AHandler (LoginState σ))} {buf : List USeg} {fuel : Nat} {st : Str} {t : Int} :
    ∀ (hist : List (AReq × Int × Str)),
      (∀ e ∈ hist, ∀ (w w' : LoginState σ) (res : WRes c), serveApp (c := c) x other env r hs e.1 buf fuel { w with now := e.2.1, rnd := e.2.2 } = some (res, w') →
        ¬ Live w.cache t st → ¬ Live w'.cache t st) →
      ∀ {w w' : LoginState σ} {l : List (WRes c)}, ¬ Live w.cache t st → serveLogins (c := c) x other env r hs buf fuel hist w = some (l, w') → ¬ Live w'.cache t st := by
  intro hist
  induction hist with
  | nil => intro _ w w' l hw hs; simp only [serveLogins, Option.some.injEq, Prod.mk.injEq] at hs; rw [← hs.2]; exact hw
  | cons e hist ih =>
    intro hall w w' l hw hs
    rcases e with ⟨q, t', rnd⟩
    rw [serveLogins] at hs
    split at hs
    · cases hs
    · rename_i res0 w0 h0
      rw [Option.map_eq_some_iff] at hs
      obtain ⟨⟨l0, w4⟩, h4, h5⟩ := hs
      simp only [Prod.mk.injEq] at h5
      rw [← h5.2]
      exact ih (fun e he => hall e (by simp [he])) (hall (q, t', rnd) (by simp) w w0 res0 h0 hw) h4

/-- C131, over histories: after any requests, a request whose `state` is not a text that one of them was given as its random state, not longer than the
configured time ago, is answered independently of the user's handler behind the login. -/
theorem c131_unissued (cfg : OAuth.Config σ) (v : Nat) (pathPrefix initiatePath basePath : Str) {ims cms : List (Option (AHandler (LoginState σ) → AHandler (LoginState σ)))}
    {pre post : List (Mux.Op (AHandler (LoginState σ)))} (hops : ∀ op ∈ pre ++ post, OpKeepsR Alike op) (hms : ∀ m ∈ ims ++ cms, KeepsR Alike m)
    (h h' : AHandler (LoginState σ)) (site : Str) (assets : Option Str) (files : Str → AHandler (LoginState σ)) {rts rts' : List (Mux.Route (AHandler (LoginState σ)))}
    (hrts : rts = (run (World.new site assets files) (withLogin cfg v pathPrefix initiatePath basePath ims cms pre post h)).routes)
    (hrts' : rts' = (run (World.new site assets files) (withLogin cfg v pathPrefix initiatePath basePath ims cms pre post h')).routes)
    (q : AReq) (t : Int) (rnd : Str) {st : Str} (hst : st = given q.req b!"state")
    (hquiet : ∀ op ∈ pre ++ post, OpKeeps (Quiet cfg.keyExpiration st t) op) (hqms : ∀ m ∈ ims ++ cms, KeepsP (Quiet cfg.keyExpiration st t) m)
    (hqh : Quiet cfg.keyExpiration st t h) (hqf : ∀ p, Quiet cfg.keyExpiration st t (files p))
    (hist : List (AReq × Int × Str)) (hno : ∀ e ∈ hist, ¬ (e.2.2 = st ∧ t < e.2.1 + cfg.keyExpiration))
    {r : Router} {buf : List USeg} {fuel : Nat} {w w' : LoginState σ} {l : List (WRes c)} (hw : ¬ Live w.cache t st)
    (hserved : serveLogins (c := c) x other env r (rts.map (·.handler)) buf fuel hist w = some (l, w')) :
    ∀ buf fuel, serveApp (c := c) x other env r (rts.map (·.handler)) q buf fuel { w' with now := t, rnd := rnd } =
      serveApp (c := c) x other env r (rts'.map (·.handler)) q buf fuel { w' with now := t, rnd := rnd } := by
  have hall : EachWith (Quiet cfg.keyExpiration st t) (fun _ => False) (run (World.new site assets files) (withLogin cfg v pathPrefix initiatePath basePath ims cms pre post h)) := by
    refine each_run ?_ ⟨?_, ?_⟩
    · intro op hop
      simp only [withLogin, loginOps, Mux.oauthOps, List.mem_append, List.mem_cons, List.not_mem_nil, or_false] at hop
      rcases hop with (hop | rfl | rfl) | hop
      · exact hquiet op (by simp [hop])
      · exact ⟨initiateIn_quiet _ _ _ _, fun m hm => hqms m (by simp [hm])⟩
      · exact ⟨callbackIn_quiet hqh, fun m hm => hqms m (by simp [hm])⟩
      · exact hquiet op (by simp [hop])
    · intro m hm
      simp [World.new, World.init] at hm
      subst hm
      simp
    · intro rt hrt
      cases assets with
      | none => simp [World.new] at hrt
      | some mapping => simp [World.new] at hrt; rw [hrt]; exact .inl (hqf _)
  have hall := hall.routes
  rw [← hrts] at hall
  have hgone : ¬ Live w'.cache t st := by
    refine logins_keep hist ?_ hw hserved
    intro e he w w' res hs hn
    rcases serveApp_state hs with h1 | ⟨k, hk, vars, h1⟩
    · rw [h1]; exact hn
    · obtain ⟨rt, hrt, rfl⟩ := List.mem_map.1 hk
      rcases hall rt hrt with h2 | h2
      · rw [h1]; exact h2 _ _ _ _ hn (hno e he)
      · exact h2.elim
  subst hst
  exact fun buf fuel => (c131_no_state (x := x) (other := other) (ci := true) cfg v pathPrefix initiatePath basePath hops hms h h' site assets files hrts hrts' q
    { w' with now := t, rnd := rnd } hgone).2 r buf fuel

/-- C131, over histories, exactly which requests can issue a state: only requests served by the initiate route count, if its pattern is one for which no
others stand.  A
request whose `state` was not given to a request for the initiate path of the login, not longer than the configured time ago, is answered
independently of the user's handler. -/
theorem c131_initiated_partial (hl : FoldLaws x.eqFold) (cfg : OAuth.Config σ) (v : Nat) (initiatePath basePath : Str)
    {ims cms : List (Option (AHandler (LoginState σ) → AHandler (LoginState σ)))}
    {pre post : List (Mux.Op (AHandler (LoginState σ)))} (hops : ∀ op ∈ pre ++ post, OpKeepsR Alike op) (hms : ∀ m ∈ ims ++ cms, KeepsR Alike m)
    (h h' : AHandler (LoginState σ)) {ops ops' : List (Mux.Op (AHandler (LoginState σ)))}
    (hp : ops = withLogin cfg v (prefixAt pre.reverse v) initiatePath basePath ims cms pre post h)
    (hp' : ops' = withLogin cfg v (prefixAt pre.reverse v) initiatePath basePath ims cms pre post h')
    (q : AReq) (t : Int) (rnd : Str) {st : Str} (hst : st = given q.req b!"state")
    (hquiet : ∀ op ∈ pre ++ post, OpKeeps (Quiet cfg.keyExpiration st t) op ∧ OpKeeps (Mute st t) op)
    (hqms : ∀ m ∈ ims ++ cms, KeepsP (Quiet cfg.keyExpiration st t) m ∧ KeepsP (Mute st t) m)
    (hqh : Mute st t h)
    {r : Router} (hload : load x other (newRouter ci) 0 (run World.init ops).routes = some r)
    (hown : ∀ p, parsePattern x ci (joinPath (prefixAt pre.reverse v) initiatePath) = .ok p → OwnSegments ci p.segments ∧ (pieces p.raw).length < 256)
    (hasc : ∀ rt ∈ routesMade ops.reverse, Ascii rt.method) {buf : List USeg} (hb : buf.length = 19)
    (hist : List (AReq × Int × Str)) (hfits : ∀ e ∈ hist, Ascii e.1.req.method ∧ e.1.path.length ≤ 65535 ∧ Fits e.1.path)
    (hno : ∀ e ∈ hist, e.2.2 = st → t < e.2.1 + cfg.keyExpiration →
      ∀ (k : AHandler (LoginState σ)) vars, ¬ Serves x ci ⟨b!"GET", joinPath (prefixAt pre.reverse v) initiatePath, k⟩ e.1.req.method e.1.path vars)
    {fuel : Nat} {w w' : LoginState σ} {l : List (WRes c)} (hw : ¬ Live w.cache t st)
    (hserved : serveLogins (c := c) x other env r ((run World.init ops).routes.map (·.handler)) buf fuel hist w = some (l, w')) :
    ∀ buf fuel, serveApp (c := c) x other env r ((run World.init ops).routes.map (·.handler)) q buf fuel { w' with now := t, rnd := rnd } =
      serveApp (c := c) x other env r ((run World.init ops').routes.map (·.handler)) q buf fuel { w' with now := t, rnd := rnd } := by
  have hmq : ∀ k : AHandler (LoginState σ), Mute st t k → Quiet cfg.keyExpiration st t k := fun k hk vars ctx req w hn _ => hk vars ctx req w hn
  have h0 : ∀ P Q, EachWith (H := AHandler (LoginState σ)) P Q World.init := by
    intro P Q
    refine ⟨?_, by simp [World.init]⟩
    intro m hm
    simp [World.init] at hm
    subst hm
    simp
  have hall : EachWith (Quiet cfg.keyExpiration st t) (fun _ => False) (run World.init ops) := by
    refine each_run ?_ (h0 _ _)
    intro op hop
    rw [hp] at hop
    simp only [withLogin, loginOps, Mux.oauthOps, List.mem_append, List.mem_cons, List.not_mem_nil, or_false] at hop
    rcases hop with (hop | rfl | rfl) | hop
    · exact (hquiet op (by simp [hop])).1
    · exact ⟨initiateIn_quiet _ _ _ _, fun m hm => (hqms m (by simp [hm])).1⟩
    · exact ⟨callbackIn_quiet (hmq h hqh), fun m hm => (hqms m (by simp [hm])).1⟩
    · exact (hquiet op (by simp [hop])).1
  have hmute : EachWith (Mute st t) (fun rt => rt.method = b!"GET" ∧ rt.path = joinPath (prefixAt pre.reverse v) initiatePath) (run World.init ops) := by
    have hrun : run World.init ops = run (Mux.step (run World.init pre) (.handle v b!"GET" initiatePath
        (initiateIn cfg (Mux.resolvePath (prefixAt pre.reverse v) basePath)) ims))
        (.handle v b!"GET" (basePath ++ b!"/{providerName}") (callbackIn cfg (Mux.resolvePath (prefixAt pre.reverse v) basePath) h) cms :: post) := by
      rw [hp]
      simp [withLogin, loginOps, Mux.oauthOps, run, List.foldl_append]
    rw [hrun]
    refine each_run ?_ ?_
    · intro op hop
      rcases List.mem_cons.1 hop with rfl | hop
      · exact ⟨callbackIn_mute hqh, fun m hm => (hqms m (by simp [hm])).2⟩
      · exact (hquiet op (by simp [hop])).2
    · have hpre : EachWith (Mute st t) (fun rt => rt.method = b!"GET" ∧ rt.path = joinPath (prefixAt pre.reverse v) initiatePath) (run World.init pre) :=
        each_run (fun op hop => (hquiet op (by simp [hop])).2) (h0 _ _)
      have hinv := same_run pre
      by_cases hv : v < count pre.reverse
      · obtain ⟨i, _, _, hd⟩ := derefs_lt hinv hv
        refine ⟨by simpa only [Mux.step, hd] using hpre.muxes, ?_⟩
        simp only [Mux.step, hd]
        intro rt hrt
        rcases List.mem_append.1 hrt with hrt | hrt
        · exact hpre.routes rt hrt
        · simp only [List.mem_singleton] at hrt
          rw [hrt]
          exact .inr ⟨rfl, resolvePath_eq _ _⟩
      · have hd := derefs_ge hinv hv
        simpa only [Mux.step, hd] using hpre
  have hgone : ¬ Live w'.cache t st := by
    refine logins_keep hist ?_ hw hserved
    intro e he w w' res hs hn
    by_cases hi : e.2.2 = st ∧ t < e.2.1 + cfg.keyExpiration
    · obtain ⟨ha, hlen, hf⟩ := hfits e he
      obtain ⟨f, res0, h1, h2⟩ := c126_own_partial (c := c) (env := env) hl ops hload e.1 ha hasc hb hlen hf { w with now := e.2.1, rnd := e.2.2 }
      have heq := serveApp_fuel hs (h1 f (Nat.le_refl _))
      rw [← heq] at h2
      rcases h2 with h2 | h2 | ⟨rt, hrt, vars, hsame, h2, p, hpp, hserves⟩
      · simp only [Prod.mk.injEq] at h2; rw [h2.2]; exact hn
      · simp only [Prod.mk.injEq] at h2; rw [h2.2]; exact hn
      · simp only [Prod.mk.injEq] at h2
        rw [h2.2]
        rw [← (same_run ops).routes] at hrt
        rcases hmute.routes rt hrt with h3 | ⟨h3, h4⟩
        · exact h3 _ _ _ _ hn
        · obtain ⟨o1, o2⟩ := hown p (by rw [← h4]; exact hpp)
          obtain ⟨values, _, hs'⟩ := hserves o1 o2
          refine absurd ?_ (hno e he hi.1 hi.2 rt.handler values)
          rw [← h3, ← h4]
          exact hs'
    · rcases serveApp_state hs with h1 | ⟨k, hk, vars, h1⟩
      · rw [h1]; exact hn
      · obtain ⟨rt, hrt, rfl⟩ := List.mem_map.1 hk
        rcases hall.routes rt hrt with h2 | h2
        · rw [h1]; exact h2 _ _ _ _ hn hi
        · exact h2.elim
  subst hst
  have hnew : (World.init : World (AHandler (LoginState σ))) = World.new [] none fun _ => h := rfl
  rw [hnew]
  exact fun buf fuel => (c131_no_state (x := x) (other := other) (ci := true) cfg v _ initiatePath basePath hops hms h h' [] none (fun _ => h) (by rw [hp]) (by rw [hp']) q
    { w' with now := t, rnd := rnd } hgone).2 r buf fuel

/-- C80, at the level of applications: an issued state stays live until the configured time is over, whatever requests are served in the meantime that are
not given the same random text — a callback that carries it then reaches the provider (c131_callback). -/
theorem c80_lasts (cfg : OAuth.Config σ) (v : Nat) (pathPrefix initiatePath basePath : Str) {ims cms : List (Option (AHandler (LoginState σ) → AHandler (LoginState σ)))}
    {pre post : List (Mux.Op (AHandler (LoginState σ)))} (h : AHandler (LoginState σ)) (site : Str) (assets : Option Str) (files : Str → AHandler (LoginState σ))
    {rts : List (Mux.Route (AHandler (LoginState σ)))}
    (hrts : rts = (run (World.new site assets files) (withLogin cfg v pathPrefix initiatePath basePath ims cms pre post h)).routes) {st : Str} {t : Int}
    (hops : ∀ op ∈ pre ++ post, OpKeeps (Keeping st t) op) (hms : ∀ m ∈ ims ++ cms, KeepsP (Keeping st t) m)
    (hh : Keeping st t h) (hf : ∀ p, Keeping st t (files p))
    (hist : List (AReq × Int × Str)) (hno : ∀ e ∈ hist, e.2.2 ≠ st)
    {r : Router} {buf : List USeg} {fuel : Nat} {w w' : LoginState σ} {l : List (WRes c)} (hw : Live w.cache t st)
    (hserved : serveLogins (c := c) x other env r (rts.map (·.handler)) buf fuel hist w = some (l, w')) : Live w'.cache t st := by
  have hall : EachWith (Keeping st t) (fun _ => False) (run (World.new site assets files) (withLogin cfg v pathPrefix initiatePath basePath ims cms pre post h)) := by
    refine each_run ?_ ⟨?_, ?_⟩
    · intro op hop
      simp only [withLogin, loginOps, Mux.oauthOps, List.mem_append, List.mem_cons, List.not_mem_nil, or_false] at hop
      rcases hop with (hop | rfl | rfl) | hop
      · exact hops op (by simp [hop])
      · exact ⟨initiateIn_keeping _ _ _ _, fun m hm => hms m (by simp [hm])⟩
      · exact ⟨callbackIn_keeping hh, fun m hm => hms m (by simp [hm])⟩
      · exact hops op (by simp [hop])
    · intro m hm
      simp [World.new, World.init] at hm
      subst hm
      simp
    · intro rt hrt
      cases assets with
      | none => simp [World.new] at hrt
      | some mapping => simp [World.new] at hrt; rw [hrt]; exact .inl (hf _)
  have hall := hall.routes
  rw [← hrts] at hall
  have key : ∀ (hist : List (AReq × Int × Str)), (∀ e ∈ hist, e.2.2 ≠ st) → ∀ {w w' : LoginState σ} {l : List (WRes c)}, Live w.cache t st →
      serveLogins (c := c) x other env r (rts.map (·.handler)) buf fuel hist w = some (l, w') → Live w'.cache t st := by
    intro hist
    induction hist with
    | nil => intro _ w w' l hw hs; simp only [serveLogins, Option.some.injEq, Prod.mk.injEq] at hs; rw [← hs.2]; exact hw
    | cons e hist ih =>
      intro hno w w' l hw hs
      rcases e with ⟨q, t', rnd⟩
      rw [serveLogins] at hs
      split at hs
      · cases hs
      · rename_i res0 w0 h0
        rw [Option.map_eq_some_iff] at hs
        obtain ⟨⟨l0, w4⟩, h4, h5⟩ := hs
        simp only [Prod.mk.injEq] at h5
        rw [← h5.2]
        refine ih (fun e he => hno e (by simp [he])) ?_ h4
        rcases serveApp_state h0 with h1 | ⟨k, hk, vars, h1⟩
        · rw [h1]; exact hw
        · obtain ⟨rt, hrt, rfl⟩ := List.mem_map.1 hk
          rcases hall rt hrt with h2 | h2
          · rw [h1]; exact h2 _ _ _ _ hw (hno (q, t', rnd) (by simp))
          · exact h2.elim
  exact key hist hno hw hserved

/-! ### C132 -/

/-- C132 never holds: what a client sends besides its form values — cookies, other headers, host, scheme — plays no part.  Two requests with the same
form values are treated alike: both run the user's handler, with the same token and user, or both get the same error. -/
theorem c132_violated_never (cfg : OAuth.Config σ) (base : Str) (vars : Str → Option Str) (ctx : Ctx) (req req' : Req) (w : LoginState σ)
    (hsame : ∀ k, given req' k = given req k) :
    (∃ ctx' w', ∀ h : AHandler (LoginState σ), callbackIn cfg base h vars ctx req w = h vars ctx' req w' ∧ callbackIn cfg base h vars ctx req' w = h vars ctx' req' w') ∨
    ∃ out w', ∀ h : AHandler (LoginState σ), callbackIn cfg base h vars ctx req w = (out, w') ∧ callbackIn cfg base h vars ctx req' w = (out, w') := by
  have hcb : ∀ name, OAuth.callback cfg base w.now name (fun o _ s => (HRes.ret (some o) none, s)) {} req' (some w.cache) w.rest =
      OAuth.callback cfg base w.now name (fun o _ s => (HRes.ret (some o) none, s)) {} req (some w.cache) w.rest := by
    intro name
    unfold OAuth.callback
    simp only [formValue_given, hsame]
  unfold callbackIn
  cases vars b!"providerName" with
  | none => exact .inr ⟨_, _, fun h => ⟨rfl, rfl⟩⟩
  | some name =>
    simp only [hcb]
    rcases OAuth.callback cfg base w.now name (fun o _ s => (HRes.ret (some o) none, s)) {} req (some w.cache) w.rest with ⟨out, s⟩
    cases out with
    | panic v => exact .inr ⟨_, { w with rest := s }, fun h => ⟨rfl, rfl⟩⟩
    | ret o e =>
      cases e with
      | some e => cases o <;> exact .inr ⟨_, { w with rest := s }, fun h => ⟨rfl, rfl⟩⟩
      | none =>
        cases o with
        | none => exact .inr ⟨_, { w with rest := s }, fun h => ⟨rfl, rfl⟩⟩
        | some o => exact .inl ⟨_, { w with rest := s }, fun h => ⟨rfl, rfl⟩⟩

/-! ### Examples -/

/-- `ErrJsonResponse` is a middleware as C131 asks for. -/
theorem errJson_passes (lifetime : Int) (st : Str) (t : Int) : KeepsR (Alike (σ := σ)) (some (lift (errJsonResponse quote))) ∧
    KeepsP (Quiet (σ := σ) lifetime st t) (some (lift (errJsonResponse quote))) ∧ KeepsP (Mute (σ := σ) st t) (some (lift (errJsonResponse quote))) := by
  refine ⟨?_, ?_, ?_⟩
  · intro h h' hh vars ctx req w hn
    simp only [lift, errJsonResponse, errResponse]
    rw [hh vars ctx req w hn]
  · intro h hh vars ctx req w hn hr
    simp only [lift]
    rw [errJson_state]
    exact hh vars ctx req w hn hr
  · intro h hh vars ctx req w hn
    simp only [lift]
    rw [errJson_state]
    exact hh vars ctx req w hn

/-- A provider that redeems one code. -/
def hubConfig : OAuth.Config (List Str) :=
  { websiteUrl := b!"https://site", fetchUserDetails := true, keyExpiration := 10
    providers := [{
      name := b!"hub"
      initiateUrl := fun redirect st _ => b!"https://hub/?r=" ++ redirect ++ b!"&s=" ++ st
      fetchToken := fun _ code s => if code = b!"good" then (.ok { accessToken := b!"T", tokenType := b!"Bearer" }, s) else (.err .unauthorized, s)
      fetchUser := fun _ s => (.ok ⟨b!"ann", b!"Ann", b!"hub"⟩, s) }] }

/-- A handler that notes the token shown to it. -/
def tokenShower : AHandler (LoginState (List Str)) := fun _ ctx _ w =>
  (.ret (some (.resp (Build.plainTextOK b!"ok"))) none, { w with rest := w.rest ++ [ctx.token.getD b!"none"] })

/-- An application with a login and a page of its own. -/
def club (h : AHandler (LoginState (List Str))) : List (Mux.Op (AHandler (LoginState (List Str)))) :=
  withLogin hubConfig 0 [] b!"/oauth/initiate" b!"/oauth/authorize" [] [] [.common 0 [some (lift (errJsonResponse id))]] [Mux.handleGet 0 b!"/news" tokenShower []] h

/-- The hypotheses of C131 hold for it, with any state and time. -/
example (st : Str) (t : Int) : (∀ op ∈ [.common 0 [some (lift (errJsonResponse id))]] ++ [Mux.handleGet 0 b!"/news" tokenShower []],
      OpKeepsR Alike op ∧ OpKeeps (Quiet 10 st t) op ∧ OpKeeps (Mute st t) op) ∧ Mute st t tokenShower := by
  have hm : Mute st t tokenShower := fun _ _ _ _ hn => hn
  refine ⟨?_, hm⟩
  intro op hop
  simp only [List.cons_append, List.nil_append, List.mem_cons, List.not_mem_nil, or_false] at hop
  have hj := errJson_passes (σ := List Str) (quote := id) 10 st t
  rcases hop with rfl | rfl
  · refine ⟨?_, ?_, ?_⟩ <;> (intro m hm; simp only [List.mem_singleton] at hm; subst hm)
    · exact hj.1
    · exact hj.2.1
    · exact hj.2.2
  · exact ⟨by simp [Mux.handleGet, OpKeepsR], ⟨fun _ _ _ _ hn _ => hn, by simp⟩, hm, by simp⟩

/-- So do those of the other direction; and the state issued to the first client is still good after another login. -/
example (st : Str) (t : Int) : (∀ op ∈ [.common 0 [some (lift (errJsonResponse id))]] ++ [Mux.handleGet 0 b!"/news" tokenShower []], OpKeeps (Keeping st t) op) ∧
    Keeping st t tokenShower := by
  have hm : Keeping st t tokenShower := fun _ _ _ _ hn _ => hn
  refine ⟨?_, hm⟩
  intro op hop
  simp only [List.cons_append, List.nil_append, List.mem_cons, List.not_mem_nil, or_false] at hop
  rcases hop with rfl | rfl
  · intro m hm'
    simp only [List.mem_singleton] at hm'
    subst hm'
    intro h hh vars ctx req w hn hr
    simp only [lift]
    rw [errJson_state]
    exact hh vars ctx req w hn hr
  · exact ⟨hm, by simp⟩

/-- With two providers, one of them has to be named. -/
def twoHubs : OAuth.Config (List Str) := { hubConfig with providers := hubConfig.providers ++ hubConfig.providers.map fun p => { p with name := b!"hub2" } }

example : (initiateIn twoHubs b!"/cb" (fun _ => none) {} { method := b!"GET", form := [(b!"provider", [b!"hub2"])] } ⟨5, b!"S", [], []⟩).2.cache = [(b!"S", 15)] ∧
    (initiateIn twoHubs b!"/cb" (fun _ => none) {} { method := b!"GET", form := [(b!"provider", [b!"hub3"])] } ⟨5, b!"S", [], []⟩).2.cache = [] ∧
    (initiateIn twoHubs b!"/cb" (fun _ => none) {} { method := b!"GET" } ⟨5, b!"S", [], []⟩).2.cache = [] := by
  decide

/-- The initiate path of the documentation meets the condition, with and without regard to case. -/
example : ∀ p, parsePattern x ci (joinPath [] b!"/oauth/initiate") = .ok p → OwnSegments ci p.segments ∧ (pieces p.raw).length < 256 := by
  have e : parsePattern x ci (joinPath [] b!"/oauth/initiate") = .ok (patOf x ci b!"/oauth/initiate" 0) := by cases ci <;> rfl
  intro p hp
  rw [e, PRes.ok.injEq] at hp
  subst hp
  have hs : (patOf x ci b!"/oauth/initiate" 0).segments = [{ val := b!"oauth", kind := .literal }, { val := b!"initiate", kind := .literal }] := by cases ci <;> rfl
  have hr : (patOf x ci b!"/oauth/initiate" 0).raw = b!"/oauth/initiate" := by cases ci <;> rfl
  refine ⟨?_, by rw [hr]; decide⟩
  rw [hs]
  intro s hs
  simp at hs
  rcases hs with rfl | rfl <;> exact ⟨fun h => by simp at h, fun h => by simp at h⟩

/-- The statuses clients see and what the application has noted, if it starts. -/
def triedLogins (rts : List (Mux.Route (AHandler (LoginState (List Str))))) (qs : List (AReq × Int × Str)) (fuel : Nat) : Option (List (List Nat) × List Str) :=
  (load plainExt id (newRouter false) 0 rts).bind fun r =>
    (serveLogins (c := dotCodec) plainExt id simpleEnv r (rts.map (·.handler)) freshBuf fuel qs ⟨0, [], [], []⟩).map fun p => (p.1.map fun a => statusesOf a.w.base.out, p.2.rest)

/-- A login, the page, a callback with a made-up state, one with a bad code, one too late. -/
example : triedLogins (run World.init (club tokenShower)).routes
    [({ req := { method := b!"GET" }, path := b!"/oauth/initiate" }, 1, b!"S1"),
      ({ req := { method := b!"GET", form := [(b!"state", [b!"S1"]), (b!"code", [b!"good"])] }, path := b!"/oauth/authorize/hub" }, 2, b!"S2"),
      ({ req := { method := b!"GET" }, path := b!"/news" }, 3, b!"S3"),
      ({ req := { method := b!"GET", form := [(b!"state", [b!"S3"]), (b!"code", [b!"good"])] }, path := b!"/oauth/authorize/hub" }, 4, b!"S4"),
      ({ req := { method := b!"GET", form := [(b!"state", [b!"S1"]), (b!"code", [b!"bad"])] }, path := b!"/oauth/authorize/hub" }, 5, b!"S5"),
      ({ req := { method := b!"GET", form := [(b!"state", [b!"S1"]), (b!"code", [b!"good"])] }, path := b!"/oauth/authorize/hub" }, 11, b!"S6")] 40 =
    some ([[302], [200], [200], [401], [401], [401]], [b!"T", b!"none"]) := by
  decide +kernel

/-- C132 fails: a state issued to one client lets another one in, with the first one's code. -/
theorem c132_violated : ∃ (st : Str) (q q' : AReq), q.path = b!"/oauth/initiate" ∧ q'.path = b!"/oauth/authorize/hub" ∧ given q'.req b!"state" = st ∧
    q.req.headers = [(b!"Cookie", [b!"client=mallory"])] ∧ q'.req.headers = [(b!"Cookie", [b!"client=ann"])] ∧
    triedLogins (run World.init (club tokenShower)).routes [(q, 1, st), (q', 2, b!"S2")] 40 = some ([[302], [200]], [b!"T"]) :=
  ⟨b!"S1", { req := { method := b!"GET", headers := [(b!"Cookie", [b!"client=mallory"])] }, path := b!"/oauth/initiate" },
    { req := { method := b!"GET", headers := [(b!"Cookie", [b!"client=ann"])], form := [(b!"state", [b!"S1"]), (b!"code", [b!"good"])] }, path := b!"/oauth/authorize/hub" },
    rfl, rfl, by decide, rfl, rfl, by decide +kernel⟩

end Gofre.Props
