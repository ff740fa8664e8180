import Verif.Proofs.Redirect
import Verif.Props.OAuth
import Verif.Props.Mux

/-!
# The OAuth2 flow from end to end

Property C80: where the redirect URI leads, and what happens there.
-/

namespace Gofre.Props
open Gofre.Path Gofre.Spec Gofre.OAuth Gofre.Cache
variable {σ ρ : Type}

theorem selected_by_name {cfg : Config σ} {req : Req} {p : Provider σ} (h : selectProvider cfg req = .ok p) :
    byName cfg.providers p.name = some p := by
  unfold selectProvider at h
  split at h
  · rename_i q hq
    simp only [Except.ok.injEq] at h
    subst h
    simp [hq, byName]
  · dsimp only at h
    split at h
    · cases h
    · split at h
      · rename_i q hq
        simp only [Except.ok.injEq] at h
        subst h
        rw [(byName_some hq).2]
        exact hq
      · cases h

theorem run_append (cfg : Config σ) (base : Str) (h : OHandler σ ρ) : ∀ (a b : List Ev) (w : Option Cache × σ),
    OAuth.run cfg base h (a ++ b) w = OAuth.run cfg base h b (OAuth.run cfg base h a w) := by
  intro a
  induction a with
  | nil => intro b w; rfl
  | cons e a ih =>
    intro b w
    obtain ⟨c, s⟩ := w
    cases e <;> simp only [List.cons_append, OAuth.run] <;> exact ih _ _

theorem run_keeps (cfg : Config σ) (base : Str) (h : OHandler σ ρ) (st : Str) : ∀ (evs : List Ev) (c : Cache) (s : σ),
    (∀ t r, Ev.initiate t st r ∉ evs) → ∃ c', (OAuth.run cfg base h evs (some c, s)).1 = some c' ∧ Map.get? c' st = Map.get? c st := by
  intro evs
  induction evs with
  | nil => intro c s _; exact ⟨c, rfl, rfl⟩
  | cons e evs ih =>
    intro c s hno
    have hno' : ∀ t r, Ev.initiate t st r ∉ evs := fun t r hm => hno t r (by simp [hm])
    cases e with
    | callback now n req => exact ih c _ hno'
    | initiate now k req =>
      simp only [OAuth.run, initiate]
      cases selectProvider cfg req with
      | error e => exact ih c s hno'
      | ok p =>
        obtain ⟨c', h1, h2⟩ := ih (add c now k cfg.keyExpiration) s hno'
        refine ⟨c', h1, ?_⟩
        rw [h2, add, Map.get?_set_other]
        rintro rfl
        exact hno now req (by simp)

/-- C80, the handlers: an initiate request that is answered sends the browser to one of the
configured providers with a redirect URI naming that provider.  Whatever other requests come in
between, a callback for that name with the issued state, before it expires, redeems its code with
the same provider and the same redirect URI, and on success runs the user's handler. -/
theorem c80_completes (cfg : Config σ) (base : Str) (h₀ : OHandler σ ρ) (c₀ : Option Cache) (s₀ : σ) (before : List Ev)
    (t : Int) (st : Str) (req : Req) (url : Str)
    (hok : (initiate cfg base t st req (OAuth.run cfg base h₀ before (c₀, s₀)).1).1 = .ok url) :
    ∃ p ∈ cfg.providers, url = p.initiateUrl (cfg.websiteUrl ++ base ++ b!"/" ++ p.name) st cfg.fetchUserDetails ∧
      ∀ (after : List Ev) (now : Int) (creq : Req) (h : OHandler σ ρ) (s : σ),
        (∀ t' r', Ev.initiate t' st r' ∉ after) → now < t + cfg.keyExpiration →
        given creq b!"error" = [] → given creq b!"state" = st →
        ∀ tok s₁, p.fetchToken (cfg.websiteUrl ++ base ++ b!"/" ++ p.name) (given creq b!"code") s = (.ok tok, s₁) →
          (cfg.fetchUserDetails = false →
            callback cfg base now p.name h {} creq (OAuth.run cfg base h₀ (before ++ .initiate t st req :: after) (c₀, s₀)).1 s =
              h ⟨some tok, none⟩ creq s₁) ∧
          ∀ u s₂, cfg.fetchUserDetails = true → p.fetchUser tok s₁ = (.ok u, s₂) →
            callback cfg base now p.name h {} creq (OAuth.run cfg base h₀ (before ++ .initiate t st req :: after) (c₀, s₀)).1 s =
              h ⟨some tok, some u⟩ creq s₂ := by
  unfold initiate at hok
  cases hsel : selectProvider cfg req with
  | error e => rw [hsel] at hok; simp at hok
  | ok p =>
    rw [hsel] at hok
    simp only [Except.ok.injEq] at hok
    have hred : redirectUrl cfg base p = cfg.websiteUrl ++ base ++ b!"/" ++ p.name := by simp [redirectUrl]
    refine ⟨p, (selectProvider_ok hsel).1, by rw [← hred]; exact hok.symm, ?_⟩
    intro after now creq h s hno hnow herr hst tok s₁ htok
    have hlive : ∃ c', (OAuth.run cfg base h₀ (before ++ .initiate t st req :: after) (c₀, s₀)).1 = c' ∧
        (match c' with | some c => !contains c now (given creq b!"state") | none => false) = false := by
      refine ⟨_, rfl, ?_⟩
      rw [run_append]
      generalize OAuth.run cfg base h₀ before (c₀, s₀) = w
      obtain ⟨c, s'⟩ := w
      simp only [OAuth.run, initiate, hsel]
      cases c with
      | none =>
        have : ∀ (evs : List Ev) (s : σ), (OAuth.run cfg base h₀ evs (none, s)).1 = none := by
          intro evs
          induction evs with
          | nil => intro s; rfl
          | cons e evs ih =>
            intro s
            cases e with
            | callback now n req => exact ih _
            | initiate now k req =>
              simp only [OAuth.run, initiate]
              cases selectProvider cfg req <;> exact ih _
        simp [this]
      | some c =>
        obtain ⟨c', h1, h2⟩ := run_keeps cfg base h₀ st after (add c t st cfg.keyExpiration) s' hno
        simp only [Option.map_some, h1]
        rw [add, Map.get?_set_same] at h2
        simp [contains, hst, h2, hnow]
    obtain ⟨c', hc, hcont⟩ := hlive
    rw [hc]
    rw [← hred] at htok
    unfold callback
    simp only [formValue_given]
    rw [selected_by_name hsel]
    simp only [herr, htok]
    rw [if_neg (by simp), if_neg (by cases c' <;> simp_all)]
    constructor
    · intro hf
      simp [hf]
    · intro u s₂ hf hu
      simp [hf, hu]

/-- C80 is met with a history and a request. -/
example : (initiate demoCfg b!"/oauth/authorize" 1 b!"st" { method := b!"GET" }
      (OAuth.run demoCfg b!"/oauth/authorize" counter [.callback 0 b!"github" demoReq] (some empty, 0)).1).1 = .ok b!"st" ∧
    (∀ t' r', Ev.initiate t' b!"st" r' ∉ [Ev.initiate 2 b!"other" { method := b!"GET" }]) ∧
    given demoReq b!"error" = [] ∧ given demoReq b!"state" = b!"st" := by
  refine ⟨rfl, by simp, by decide, by decide⟩

theorem redirect_served {x : Ext} {ci : Bool} (hl : FoldLaws x.eqFold)
    {ps : List Pattern} {m : Matcher} (hr : Registered x ci sortSiblings ps m) (hplain : ∀ p ∈ ps, ∀ s ∈ p.segments, Plain ci s)
    (hfew : ps.length < 65536) (hlong : ∀ p ∈ ps, (pieces p.raw).length < 256) (hstars : ∀ p ∈ ps, StarsLast p.segments)
    {pathPrefix base name : Str} {p : Pattern} {a : Nat} (hcb : { p with attachment := a } ∈ ps)
    (hparse : parsePattern x ci (callbackPattern pathPrefix base) = .ok p)
    (h19 : (pieces (callbackPattern pathPrefix base)).length ≤ 19)
    (hlit : ∀ s ∈ p.segments.dropLast, s.kind = .literal ∧ s.val ≠ b!"..")
    (h1 : name ≠ []) (h2 : slash ∉ name) (h3 : name ≠ b!"..")
    {path : Str} (hpath : path = Mux.resolvePath pathPrefix base ++ b!"/" ++ name)
    {buf : List USeg} (hb : buf.length = 19) (hlen : path.length ≤ 65535)
    (hfaith : Faithful ci ps (segmentsOf path))
    (hpre : ∀ p ∈ ps, ∀ k, 0 < k → k < p.segments.length → ¬ Describes x ci (p.segments.take k) (segmentsOf path))
    (honly : ∀ q ∈ ps, Describes x ci q.segments (segmentsOf path) → q = { p with attachment := a }) :
    ∃ f labels segs, parseURLPath path buf = some segs ∧
      (∀ g, f ≤ g → lookup x ci m path buf g = some (.found { p with attachment := a } labels)) ∧
      pathVarText path { p with attachment := a } labels segs b!"providerName" = some name := by
  obtain ⟨ls, e1, e2, e3, e4⟩ := callback_segments hparse h19 hlit h1 h2 h3
  have hpath' : path = Mux.resolvePath pathPrefix base ++ slash :: name := by rw [hpath]; simp
  rw [← hpath'] at e3 e4
  have hd : Describes x ci ({ p with attachment := a } : Pattern).segments (segmentsOf path) := by
    show Describes x ci p.segments _
    rw [e1, e3]
    exact callback_describes e2
  obtain ⟨f, q, labels, hq, hfound⟩ := c18_served_partial hl hr hplain hfew hlong hstars hb hlen e4 hfaith hpre hcb hd
  have hdq := (c14_described_partial hl hr hplain hb hlen e4 (hfound f (Nat.le_refl _))).2
  have := honly q hq hdq
  subst this
  obtain ⟨segs, bs, h4, h5, h6⟩ := c15_variables_partial hl hr hplain hb hlen e4 (hfound f (Nat.le_refl _)) (hlong _ hcb)
  refine ⟨f, labels, segs, h4, hfound, ?_⟩
  rw [h6]
  have h7 : valueIn b!"providerName" p.segments bs = some name := by
    have h5 : Layout x ci p.segments (segmentsOf path) bs := h5
    rw [e1, e3] at h5
    rw [e1]
    exact callback_value e2 h5
  simp [h7]

theorem prefix_split (P : Str) : ∃ P', (∀ c ∈ P', c ∈ P) ∧ ∀ t, Mux.resolvePath P (slash :: t) = P' ++ slash :: t := by
  unfold Mux.resolvePath
  by_cases h0 : P.length = 0
  · exact ⟨[], by simp, fun t => by simp [h0]⟩
  · rcases List.eq_nil_or_concat P with rfl | ⟨q, z, rfl⟩
    · simp at h0
    · by_cases hz : z = slash
      · subst hz
        exact ⟨q, fun c hc => by simp [hc], by simp⟩
      · exact ⟨q ++ [z], by simp, by simp [hz]⟩

theorem mem_splitOn {sep : UInt8} : ∀ {s v : Str} {c : UInt8}, v ∈ splitOn sep s → c ∈ v → c ∈ s := by
  intro s
  induction s with
  | nil => intro v c h hc; simp [splitOn] at h; simp [h] at hc
  | cons d s ih =>
    intro v c h hc
    simp only [splitOn] at h
    split at h
    · rcases List.mem_cons.1 h with rfl | h
      · cases hc
      · exact List.mem_cons_of_mem _ (ih h hc)
    · split at h
      · rename_i hs; exact absurd hs (splitOn_ne_nil _ _)
      · rename_i u us hs
        rcases List.mem_cons.1 h with rfl | h
        · rcases List.mem_cons.1 hc with rfl | hc
          · simp
          · exact List.mem_cons_of_mem _ (ih (by rw [hs]; simp) hc)
        · exact List.mem_cons_of_mem _ (ih (by rw [hs]; simp [h]) hc)

theorem mem_pieces {raw v : Str} {c : UInt8} (h : v ∈ pieces raw) (hc : c ∈ v) : c ∈ raw := by
  have : v ∈ splitOn slash raw.tail := by
    unfold pieces at h
    simp only at h
    split at h
    · exact (List.dropLast_sublist _).subset h
    · exact h
  exact List.mem_of_mem_tail (mem_splitOn this hc)

theorem default_served {x : Ext} {ci : Bool} (hl : FoldLaws x.eqFold)
    {pathPrefix name : Str} {pi pc : Pattern} {a b : Nat} {m : Matcher}
    (hr : Registered x ci sortSiblings [{ pc with attachment := b }, { pi with attachment := a }] m)
    (hpi : parsePattern x ci (Mux.resolvePath pathPrefix b!"/oauth/initiate") = .ok pi)
    (hpc : parsePattern x ci (callbackPattern pathPrefix b!"/oauth/authorize") = .ok pc)
    (h19 : (pieces (callbackPattern pathPrefix b!"/oauth/authorize")).length ≤ 19)
    (hlit : ∀ s ∈ pc.segments.dropLast, s.kind = .literal ∧ s.val ≠ b!"..")
    (h1 : name ≠ []) (h2 : slash ∉ name) (h3 : name ≠ b!"..") (hascii : ci = true → Ascii pathPrefix ∧ Ascii name)
    {path : Str} (hpath : path = Mux.resolvePath pathPrefix b!"/oauth/authorize" ++ b!"/" ++ name)
    {buf : List USeg} (hb : buf.length = 19) (hlen : path.length ≤ 65535) :
    ∃ f labels segs, parseURLPath path buf = some segs ∧
      (∀ g, f ≤ g → lookup x ci m path buf g = some (.found { pc with attachment := b } labels)) ∧
      pathVarText path { pc with attachment := b } labels segs b!"providerName" = some name := by
  obtain ⟨ls, e1, e2, e3, e4⟩ := callback_segments hpc h19 hlit h1 h2 h3
  have hpath' : path = Mux.resolvePath pathPrefix b!"/oauth/authorize" ++ slash :: name := by rw [hpath]; simp
  rw [← hpath'] at e3 e4
  obtain ⟨P', hsub, hP⟩ := prefix_split pathPrefix
  have ri : Mux.resolvePath pathPrefix b!"/oauth/initiate" = P' ++ slash :: b!"oauth" ++ slash :: b!"initiate" := by rw [hP]; simp
  have rc : callbackPattern pathPrefix b!"/oauth/authorize" = P' ++ slash :: b!"oauth" ++ slash :: b!"authorize" ++ slash :: b!"{providerName}" := by
    unfold callbackPattern
    rw [List.cons_append, hP]; simp
  have ri' : Mux.resolvePath pathPrefix b!"/oauth/initiate" = P' ++ b!"/oauth/initiate" := by rw [ri, List.append_assoc]; rfl
  have rc' : callbackPattern pathPrefix b!"/oauth/authorize" = P' ++ b!"/oauth/authorize/{providerName}" := by
    rw [rc, List.append_assoc, List.append_assoc]; rfl
  have hstart : P' = [] ∨ P'.head? = some slash := by
    have hp := (c05_segments x ci _ pc hpc (by rw [rc]; intro h; have := congrArg List.length h; simp at this) (by omega)).1.slashed
    obtain ⟨body, hb, _⟩ := hp
    rw [rc] at hb
    cases P' with
    | nil => exact .inl rfl
    | cons c R => simp only [List.cons_append, List.cons.injEq] at hb; exact .inr (by simp [hb.1])
  have hst2 : ∀ t : Str, P' ++ slash :: t = [] ∨ (P' ++ slash :: t).head? = some slash := by
    intro t
    rcases hstart with rfl | h
    · simp
    · cases P' with
      | nil => simp
      | cons c R => simp at h; simp [h]
  have one : 1 ≤ (splitOn slash P').length := splitOn_length _ _
  have pieces_i : pieces (Mux.resolvePath pathPrefix b!"/oauth/initiate") = (splitOn slash P').drop 1 ++ [b!"oauth", b!"initiate"] := by
    rw [ri, pieces_snoc (by decide) (by decide) (hst2 _), splitOn_append_sep, List.drop_append_of_le_length one, splitOn_of_not_mem (s := b!"oauth") (by decide)]
    simp
  have pieces_c : pieces (callbackPattern pathPrefix b!"/oauth/authorize") = ((splitOn slash P').drop 1 ++ [b!"oauth", b!"authorize"]) ++ [b!"{providerName}"] := by
    rw [rc, pieces_snoc (by decide) (by decide) (by simpa using hst2 (b!"oauth" ++ slash :: b!"authorize")), splitOn_append_sep, splitOn_append_sep,
      List.append_assoc, List.drop_append_of_le_length one, splitOn_of_not_mem (s := b!"oauth") (by decide),
      splitOn_of_not_mem (s := b!"authorize") (by decide)]
    simp
  generalize (splitOn slash P').drop 1 = Lp at *
  have spc := (c05_segments x ci _ pc hpc (by rw [rc]; intro h; have := congrArg List.length h; simp at this) (by omega)).1
  have hlen_i : (pieces (Mux.resolvePath pathPrefix b!"/oauth/initiate")).length ≤ 19 := by
    rw [pieces_c] at h19
    rw [pieces_i]
    simp at h19 ⊢
    omega
  have spi := (c05_segments x ci _ pi hpi (by rw [ri]; intro h; have := congrArg List.length h; simp at this) (by omega)).1
  have ac := spc.spelled
  have ai := spi.spelled
  rw [pieces_c, e1] at ac
  obtain ⟨ls', ms, f1, f2, f3⟩ := ac.append_inv_left
  have hls : ls = ls' := List.append_inj_left' f1 (by rw [← f3.length]; rfl)
  subst hls
  have hlenls := f2.length
  simp only [List.length_append, List.length_cons, List.length_nil] at hlenls
  have hleni := ai.length
  rw [pieces_i] at hleni
  simp only [List.length_append, List.length_cons, List.length_nil] at hleni
  have hus : (segmentsOf path).length = Lp.length + 3 := by rw [e3]; simp; omega
  have litP : ∀ v : Str, (v = b!"oauth" ∨ v = b!"initiate") → Piece ci v { val := v, kind := .literal } := by
    rintro v (rfl | rfl) <;> exact .literal _ (by decide) (by decide) (by decide) (by decide) (by decide)
  have lit_i : ∀ s ∈ pi.segments, s.kind = .literal := by
    intro s hs
    obtain ⟨g1, g2, g3⟩ := c06_classified x ci _ pi hpi s hs
    rw [pieces_i] at g1
    rcases List.mem_append.1 g1 with g1 | g1
    · obtain ⟨t, ht, hpt⟩ := f2.mem_left (a := s.val) (by simp [g1])
      have := c06_unambiguous x ci _ s t g2 hpt g3 (spc.compile t (by rw [e1]; simp [ht]))
      rw [this]
      exact e2 t ht
    · have := c06_unambiguous x ci _ s _ g2 (litP s.val (by simpa using g1)) g3 (by simp)
      rw [this]
  have mem2 : ∀ q ∈ ([{ pc with attachment := b }, { pi with attachment := a }] : List Pattern), q = { pc with attachment := b } ∨ q = { pi with attachment := a } := by
    intro q hq; simpa using hq
  have kinds : ∀ q ∈ ([{ pc with attachment := b }, { pi with attachment := a }] : List Pattern), ∀ s ∈ q.segments, s.kind = .literal ∨ s.kind = .capture := by
    intro q hq s hs
    rcases mem2 q hq with rfl | rfl
    · have hs : s ∈ pc.segments := hs
      rw [e1] at hs
      rcases List.mem_append.1 hs with hs | hs
      · exact .inl (e2 s hs)
      · simp only [List.mem_singleton] at hs; rw [hs]; exact .inr rfl
    · exact .inl (lit_i s hs)
  have notmult : ∀ q ∈ ([{ pc with attachment := b }, { pi with attachment := a }] : List Pattern), ∀ s ∈ q.segments, s.kind ≠ .multiple := by
    intro q hq s hs h
    rcases kinds q hq s hs with h' | h' <;> rw [h] at h' <;> cases h'
  have lens : ∀ q ∈ ([{ pc with attachment := b }, { pi with attachment := a }] : List Pattern), q.segments.length ≤ Lp.length + 3 := by
    intro q hq
    rcases mem2 q hq with rfl | rfl
    · show pc.segments.length ≤ _
      rw [e1]; simp; omega
    · show pi.segments.length ≤ _
      omega
  refine redirect_served hl hr ?_ (by simp) ?_ ?_ (p := pc) (by simp) hpc h19 hlit h1 h2 h3 hpath hb hlen ⟨?_, ?_, ?_⟩ ?_ ?_
  · intro q hq s hs
    constructor
    · intro hk; rcases kinds q hq s hs with h' | h' <;> rw [hk] at h' <;> cases h'
    · intro hk; rcases kinds q hq s hs with h' | h' <;> rw [hk] at h' <;> cases h'
  · intro q hq
    rcases mem2 q hq with rfl | rfl
    · show (pieces pc.raw).length < 256
      rw [parse_raw hpc]; omega
    · show (pieces pi.raw).length < 256
      rw [parse_raw hpi]; omega
  · intro q hq a' s b' hs hk
    exact absurd hk (notmult q hq s (by rw [hs]; simp))
  · intro q hq s hs hk
    rcases kinds q hq s hs with h' | h' <;> rw [hk] at h' <;> cases h'
  · intro hci q hq s hs hk c hc
    obtain ⟨hP1, _⟩ := hascii hci
    rcases mem2 q hq with rfl | rfl
    · have hm := mem_pieces (c06_classified x ci _ pc hpc s hs).1 hc
      rw [rc'] at hm
      rcases List.mem_append.1 hm with hm | hm
      · exact hP1 c (hsub c hm)
      · exact (by decide : ∀ c ∈ b!"/oauth/authorize/{providerName}", c < 128) c hm
    · have hm := mem_pieces (c06_classified x ci _ pi hpi s hs).1 hc
      rw [ri'] at hm
      rcases List.mem_append.1 hm with hm | hm
      · exact hP1 c (hsub c hm)
      · exact (by decide : ∀ c ∈ b!"/oauth/initiate", c < 128) c hm
  · intro hci u hu c hc
    obtain ⟨hP1, hn1⟩ := hascii hci
    rw [e3] at hu
    rcases List.mem_append.1 hu with hu | hu
    · obtain ⟨s, hs, rfl⟩ := List.mem_map.1 hu
      have hm := mem_pieces (c06_classified x ci _ pc hpc s (by rw [e1]; simp [hs])).1 hc
      rw [rc'] at hm
      rcases List.mem_append.1 hm with hm | hm
      · exact hP1 c (hsub c hm)
      · exact (by decide : ∀ c ∈ b!"/oauth/authorize/{providerName}", c < 128) c hm
    · simp only [List.mem_singleton] at hu
      subst hu
      exact hn1 c hc
  · intro q hq k hk hk' hd
    have := describes_length (fun s hs => notmult q hq s (List.mem_of_mem_take hs)) hd
    have := lens q hq
    rw [List.length_take] at *
    omega
  · intro q hq hd
    rcases mem2 q hq with rfl | rfl
    · rfl
    · have h' : (segmentsOf path).length = pi.segments.length := describes_length (fun s hs => notmult _ hq s hs) hd
      omega

/-- C80, the routes: a GET for the redirect URI's path is served by the callback with the
provider's name, when the path before the name consists of literal text, no other registered
pattern describes the request, and the conditions of C18 hold. -/
theorem c80_redirect_served_partial {x : Ext} {ci : Bool} (hl : FoldLaws x.eqFold)
    {ps : List Pattern} {m : Matcher} (hr : Registered x ci sortSiblings ps m) (hplain : ∀ p ∈ ps, ∀ s ∈ p.segments, Plain ci s)
    (hfew : ps.length < 65536) (hlong : ∀ p ∈ ps, (pieces p.raw).length < 256) (hstars : ∀ p ∈ ps, StarsLast p.segments)
    {pathPrefix base name : Str} {p : Pattern} {a : Nat} (hcb : { p with attachment := a } ∈ ps)
    (hparse : parsePattern x ci (joinPath pathPrefix (base ++ b!"/{providerName}")) = .ok p)
    (h19 : (pieces (joinPath pathPrefix (base ++ b!"/{providerName}"))).length ≤ 19)
    (hlit : ∀ s ∈ p.segments.dropLast, s.kind = .literal ∧ s.val ≠ b!"..")
    (h1 : name ≠ []) (h2 : slash ∉ name) (h3 : name ≠ b!"..")
    {path : Str} (hpath : path = joinPath pathPrefix base ++ b!"/" ++ name)
    {buf : List USeg} (hb : buf.length = 19) (hlen : path.length ≤ 65535)
    (hfaith : Faithful ci ps (segmentsOf path))
    (hpre : ∀ p ∈ ps, ∀ k, 0 < k → k < p.segments.length → ¬ Describes x ci (p.segments.take k) (segmentsOf path))
    (honly : ∀ q ∈ ps, Describes x ci q.segments (segmentsOf path) → q = { p with attachment := a }) :
    ∃ f labels segs, parseURLPath path buf = some segs ∧
      (∀ g, f ≤ g → lookup x ci m path buf g = some (.found { p with attachment := a } labels)) ∧
      pathVarText path { p with attachment := a } labels segs b!"providerName" = some name := by
  simp only [← resolvePath_eq] at hparse h19 hpath
  exact redirect_served hl hr hplain hfew hlong hstars hcb hparse h19 hlit h1 h2 h3 hpath hb hlen hfaith hpre honly

/-- C80 for an application whose GET routes are those of `HandleOAUTH2`, below any path prefix
made of literal text: a GET for the redirect URI's path is served by the callback with the
provider's name. -/
theorem c80_default_partial {x : Ext} {ci : Bool} (hl : FoldLaws x.eqFold)
    {pathPrefix name : Str} {pi pc : Pattern} {a b : Nat} {m : Matcher}
    (hr : Registered x ci sortSiblings [{ pc with attachment := b }, { pi with attachment := a }] m)
    (hpi : parsePattern x ci (joinPath pathPrefix b!"/oauth/initiate") = .ok pi)
    (hpc : parsePattern x ci (joinPath pathPrefix (b!"/oauth/authorize" ++ b!"/{providerName}")) = .ok pc)
    (h19 : (pieces (joinPath pathPrefix (b!"/oauth/authorize" ++ b!"/{providerName}"))).length ≤ 19)
    (hlit : ∀ s ∈ pc.segments.dropLast, s.kind = .literal ∧ s.val ≠ b!"..")
    (h1 : name ≠ []) (h2 : slash ∉ name) (h3 : name ≠ b!"..") (hascii : ci = true → Ascii pathPrefix ∧ Ascii name)
    {path : Str} (hpath : path = joinPath pathPrefix b!"/oauth/authorize" ++ b!"/" ++ name)
    {buf : List USeg} (hb : buf.length = 19) (hlen : path.length ≤ 65535) :
    ∃ f labels segs, parseURLPath path buf = some segs ∧
      (∀ g, f ≤ g → lookup x ci m path buf g = some (.found { pc with attachment := b } labels)) ∧
      pathVarText path { pc with attachment := b } labels segs b!"providerName" = some name := by
  simp only [← resolvePath_eq] at hpi hpc h19 hpath
  exact default_served hl hr hpi hpc h19 hlit h1 h2 h3 hascii hpath hb hlen

/-- Library functions for the violation: `^t$` with plain text `t` matches `t` only. -/
def anchoredExt : Ext where
  compiles _ := true
  reMatch src u := src == b!"^" ++ u ++ b!"$"
  eqFold a b := a == b

/-- C80 fails below a prefix with a constrained variable: the redirect URI carries the text of the
prefix, which the variable does not accept. -/
theorem c80_violated : ∃ pi pc m, Registered anchoredExt false sortSiblings [pc, pi] m ∧
    pc.raw = joinPath b!"/{lang:^en$}" (b!"/oauth/authorize" ++ b!"/{providerName}") ∧ pi.raw = joinPath b!"/{lang:^en$}" b!"/oauth/initiate" ∧
    lookup anchoredExt false m (joinPath b!"/{lang:^en$}" b!"/oauth/authorize" ++ b!"/github") freshBuf 20 = some .none := by
  obtain ⟨ps, m, h1, h2, h3⟩ := checked_spec (x := anchoredExt) (ci := false)
    (l := [(callbackPattern b!"/{lang:^en$}" b!"/oauth/authorize", 2), (Mux.resolvePath b!"/{lang:^en$}" b!"/oauth/initiate", 1)])
    (f := fun ps => ps == [patOf anchoredExt false (callbackPattern b!"/{lang:^en$}" b!"/oauth/authorize") 2,
      patOf anchoredExt false (Mux.resolvePath b!"/{lang:^en$}" b!"/oauth/initiate") 1]) (by decide +kernel)
  rw [beq_iff_eq] at h2
  subst h2
  exact ⟨_, _, m, h1, by decide +kernel, by decide +kernel, (h3 _ _ _).symm.trans (by decide +kernel)⟩

/-- The routes below the prefix `/app/`, and the request for the redirect URI. -/
example : ∃ pi pc m, Registered plainExt false sortSiblings [{ pc with attachment := 2 }, { pi with attachment := 1 }] m ∧
    parsePattern plainExt false (Mux.resolvePath b!"/app/" b!"/oauth/initiate") = .ok pi ∧
    parsePattern plainExt false (callbackPattern b!"/app/" b!"/oauth/authorize") = .ok pc ∧
    (pieces (callbackPattern b!"/app/" b!"/oauth/authorize")).length ≤ 19 ∧
    (∀ s ∈ pc.segments.dropLast, s.kind = .literal ∧ s.val ≠ b!"..") ∧
    lookup plainExt false m b!"/app/oauth/authorize/github" freshBuf 20 = some (.found { pc with attachment := 2 } [.literal, .literal, .literal, .capture]) := by
  obtain ⟨pi, hpi⟩ : ∃ pi, pi = patOf plainExt false (Mux.resolvePath b!"/app/" b!"/oauth/initiate") 0 := ⟨_, rfl⟩
  obtain ⟨pc, hpc⟩ : ∃ pc, pc = patOf plainExt false (callbackPattern b!"/app/" b!"/oauth/authorize") 0 := ⟨_, rfl⟩
  have key : checked plainExt false [(callbackPattern b!"/app/" b!"/oauth/authorize", 2), (Mux.resolvePath b!"/app/" b!"/oauth/initiate", 1)]
      (fun ps => ps == [{ pc with attachment := 2 }, { pi with attachment := 1 }]) = true := by
    rw [hpi, hpc]; decide +kernel
  obtain ⟨ps, m, h1, h2, h3⟩ := checked_spec key
  rw [beq_iff_eq] at h2
  subst h2
  refine ⟨pi, pc, m, h1, ?_, ?_, ?_, ?_, (h3 _ _ _).symm.trans ?_⟩
  · rw [hpi]; rfl
  · rw [hpc]; rfl
  · decide +kernel
  · rw [hpc]; decide +kernel
  · rw [hpc]; decide +kernel

end Gofre.Props
