import Verif.Props.Csrf

/-! # C104: whose token it is -/

namespace Gofre.Props
open Gofre.Cache Gofre.Csrf
variable {σ ρ : Type}

/-- What one request leaves in the cache under `n`: an entry comes from before or from the issue to this request; an entry
that is neither spent nor issued anew by the request stays. -/
theorem csrf_entry (param header : Str) (e : Env) (h : Handler σ ρ) (ctx : Ctx) (r : Req) (c : Cache) (s : σ) (n : Str) :
    (∀ x, Map.get? (csrf param header e h ctx r c s).2.1 n = some x → Map.get? c n = some x ∨ ∃ bytes, e.rnd = some bytes ∧ n = hex bytes ∧ x = e.tAdd + anHour) ∧
    ((∀ bytes, e.rnd = some bytes → n ≠ hex bytes) → (SafeMethod r.method ∨ ¬ Carries param header r n) → n ≠ [] →
      Map.get? (csrf param header e h ctx r c s).2.1 n = Map.get? c n) := by
  have hiss : ∀ c0 : Cache, (∀ x, Map.get? (issue e h ctx r c0 s).2.1 n = some x → Map.get? c0 n = some x ∨ ∃ bytes, e.rnd = some bytes ∧ n = hex bytes ∧ x = e.tAdd + anHour) ∧
      ((∀ bytes, e.rnd = some bytes → n ≠ hex bytes) → Map.get? (issue e h ctx r c0 s).2.1 n = Map.get? c0 n) := by
    intro c0
    unfold issue
    cases hr : e.rnd with
    | none => exact ⟨fun x hx => .inl hx, fun _ => rfl⟩
    | some bytes =>
      dsimp only
      by_cases hn : n = hex bytes
      · refine ⟨fun x hx => .inr ⟨bytes, rfl, hn, ?_⟩, fun hb => absurd hn (hb bytes rfl)⟩
        subst hn
        simp only [add, Map.get?_set_same, Option.some.injEq] at hx
        exact hx.symm
      · simp only [add, Map.get?_set_other _ _ _ _ hn]
        exact ⟨fun x hx => .inl hx, fun _ => trivial⟩
  unfold csrf
  split
  · exact ⟨(hiss c).1, fun h1 _ _ => (hiss c).2 h1⟩
  · rename_i hk
    dsimp only
    split
    · exact ⟨fun x hx => .inl hx, fun _ _ _ => rfl⟩
    · by_cases hp : n = previousNonce param header r
      · refine ⟨fun x hx => ?_, fun _ h2 h3 => ?_⟩
        · rcases (hiss _).1 x hx with h | h
          · rw [hp, remove, Map.get?_erase_same] at h; cases h
          · exact .inr h
        · rcases h2 with h2 | h2
          · exact absurd ((skipCheck_iff _).2 h2) hk
          · exact absurd ((previousNonce_iff param header r n h3).1 hp.symm) h2
      · refine ⟨fun x hx => ?_, fun h1 _ _ => ?_⟩
        · rcases (hiss _).1 x hx with h | h
          · rw [remove, Map.get?_erase_other _ _ _ hp] at h; exact .inl h
          · exact .inr h
        · rw [(hiss _).2 h1, remove, Map.get?_erase_other _ _ _ hp]

theorem hex_ne_nil {bytes : List UInt8} (h : bytes ≠ []) : hex bytes ≠ [] := by
  cases bytes with
  | nil => exact absurd rfl h
  | cons b bs => simp [hex]

theorem nonce_kept (param header : Str) (h : Handler σ ρ) (ctx : Ctx) (n : Str) (hn : n ≠ []) : ∀ (rs : List (Req × Env)) (c : Cache) (s : σ),
    (∀ re ∈ rs, (∀ bytes, re.2.rnd = some bytes → n ≠ hex bytes) ∧ (SafeMethod re.1.method ∨ ¬ Carries param header re.1 n)) →
    Map.get? (runSeq param header h ctx rs (c, s)).1 n = Map.get? c n := by
  intro rs
  induction rs with
  | nil => intro c s _; rfl
  | cons re rs ih =>
    intro c s hall
    rcases re with ⟨r, e⟩
    obtain ⟨h1, h2⟩ := hall (r, e) (by simp)
    simp only [runSeq]
    generalize hg : (csrf param header e h ctx r c s).2 = w
    rcases w with ⟨c', s'⟩
    rw [ih c' s' fun re hre => hall re (by simp [hre]), ← (csrf_entry param header e h ctx r c s n).2 h1 h2 hn, hg]

/-- C104 fails always: the token anybody gets for a safe request of their own (`hex bytes`) lets the next state-changing request
through that carries it, whoever sends it and whatever its other headers (cookies among them) are, until it expires; other
requests in between, as long as they do not spend it, make no difference. -/
theorem c104_violated_never (param header : Str) (h : Handler σ ρ) (ctx : Ctx) (c : Cache) (s : σ)
    (areq : Req) (aenv : Env) (bytes : List UInt8) (ha : SafeMethod areq.method) (hab : aenv.rnd = some bytes) (hne : bytes ≠ [])
    (others : List (Req × Env)) (hothers : ∀ re ∈ others, (∀ bs, re.2.rnd = some bs → hex bytes ≠ hex bs) ∧ (SafeMethod re.1.method ∨ ¬ Carries param header re.1 (hex bytes)))
    (vreq : Req) (venv : Env) (fresh : List UInt8) (hv : ¬ SafeMethod vreq.method) (hvc : Carries param header vreq (hex bytes))
    (hvf : venv.rnd = some fresh) (hlive : venv.tCheck < aenv.tAdd + anHour) :
    let w := runSeq param header h ctx ((areq, aenv) :: others) (c, s)
    (csrf param header venv h ctx vreq w.1 w.2).1 = (h { ctx with nonce := some (hex fresh) } vreq w.2).1 := by
  intro w
  have hget : Map.get? w.1 (hex bytes) = some (aenv.tAdd + anHour) := by
    show Map.get? (runSeq param header h ctx others (csrf param header aenv h ctx areq c s).2).1 _ = _
    rw [c39_safe_methods param header aenv h ctx areq c s ha bytes hab]
    rw [nonce_kept param header h ctx (hex bytes) (hex_ne_nil hne) others _ _ hothers]
    exact Map.get?_set_same _ _ _
  rw [c39_guarded_accepted param header venv h ctx vreq w.1 w.2 hv (hex bytes) hvc (by simp [contains, hget, hlive]) fresh hvf]

/-- C104, a forged request: the token was issued to one session and is spent in another. -/
theorem c104_violated : ∃ (areq vreq : Req) (h : Handler Nat Unit), areq.headers = [(b!"Cookie", [b!"session=attacker"])] ∧
    Map.get? vreq.headers b!"Cookie" = some [b!"session=victim"] ∧
    (runSeq b!"_csrf" b!"X-Csrf-Token" h {} [(areq, ⟨0, 0, some [171]⟩), (vreq, ⟨1, 1, some [2]⟩)] (empty, 0)).2 = 1 :=
  ⟨{ method := b!"GET", headers := [(b!"Cookie", [b!"session=attacker"])] },
    { method := b!"POST", headers := [(b!"Cookie", [b!"session=victim"]), (b!"X-Csrf-Token", [b!"AB"])] },
    fun _ req n => (.ret (some ()) none, if req.method = b!"POST" then n + 1 else n), rfl, by decide, by decide⟩

/-- C104, what is left: a state-changing request that is not refused carries a token that was issued to some earlier request of
this application less than an hour ago. -/
theorem c104_issued_partial (param header : Str) (h : Handler σ ρ) (ctx : Ctx) (rs : List (Req × Env)) (s : σ) (req : Req) (env : Env)
    (hm : ¬ SafeMethod req.method)
    (hno : ¬ ∃ r e bytes, (r, e) ∈ rs ∧ e.rnd = some bytes ∧ Carries param header req (hex bytes) ∧ env.tCheck < e.tAdd + anHour) :
    let w := runSeq param header h ctx rs (empty, s)
    csrf param header env h ctx req w.1 w.2 = (.ret none (some .accessDenied), w.1, w.2) := by
  intro w
  apply c39_unguarded_refused _ _ _ _ _ _ _ _ hm
  rintro ⟨n, hc, hin⟩
  apply hno
  have key : ∀ (rs : List (Req × Env)) (c : Cache) (s : σ) (x : Int), Map.get? (runSeq param header h ctx rs (c, s)).1 n = some x →
      Map.get? c n = some x ∨ ∃ r e bytes, (r, e) ∈ rs ∧ e.rnd = some bytes ∧ n = hex bytes ∧ x = e.tAdd + anHour := by
    intro rs
    induction rs with
    | nil => intro c s x hx; exact .inl hx
    | cons re rs ih =>
      intro c s x hx
      rcases re with ⟨r, e⟩
      simp only [runSeq] at hx
      have h0 := (csrf_entry param header e h ctx r c s n).1
      generalize hg : (csrf param header e h ctx r c s).2 = w at hx h0
      rcases w with ⟨c', s'⟩
      rcases ih c' s' x hx with h1 | ⟨r', e', b', h1, h2⟩
      · rcases h0 x h1 with h2 | ⟨b, h2, h3, h4⟩
        · exact .inl h2
        · exact .inr ⟨r, e, b, by simp, h2, h3, h4⟩
      · exact .inr ⟨r', e', b', by simp [h1], h2⟩
  unfold contains at hin
  split at hin
  · rename_i x hx
    rcases key rs empty s x hx with h0 | ⟨r, e, b, h1, h2, h3, h4⟩
    · simp [empty, Map.get?] at h0
    · refine ⟨r, e, b, h1, h2, h3 ▸ hc, ?_⟩
      rw [← h4]; simpa using hin
  · cases hin

example : ¬ SafeMethod b!"POST" ∧ ¬ ∃ r e bytes, (r, e) ∈ ([] : List (Req × Env)) ∧ e.rnd = some bytes ∧
    Carries b!"_csrf" b!"X-Csrf-Token" { method := b!"POST", headers := [(b!"X-Csrf-Token", [b!"AB"])] } (hex bytes) ∧ (0 : Int) < e.tAdd + anHour :=
  ⟨by decide, by simp⟩

example : SafeMethod b!"GET" ∧ ¬ SafeMethod b!"DELETE" ∧ hex [171, 7] = b!"AB07" ∧
    Carries b!"_csrf" b!"X-Csrf-Token" { method := b!"DELETE", headers := [(b!"Cookie", [b!"session=victim"]), (b!"X-Csrf-Token", [b!"AB07"])] } (hex [171, 7]) :=
  ⟨by decide, by decide, by decide, .hdr _ [] (by decide) (by decide)⟩

end Gofre.Props
