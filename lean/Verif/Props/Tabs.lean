import Verif.Spec.Retentive
import Verif.Props.AnyCache

/-! # C145: forms and logins begun at the same time do not spoil each other -/

namespace Gofre.Props
open Gofre.AnyCache
open Gofre.Spec (Honest Woven Retentive given)
variable {σ ρ : Type}

/-- A request removes only the nonce for which it just got a yes. -/
theorem removes_after_yes (param header : Str) (env : AnyCache.Env) (h : Handler σ ρ) (ctx : Ctx) (req : Req) (s : σ) (n : Str)
    (hm : Call.remove n ∈ (AnyCache.csrf param header env h ctx req s).2.1) :
    ∃ t l, (AnyCache.csrf param header env h ctx req s).2.1 = .contains t n true :: l ∧ Call.contains t n true ∈ (AnyCache.csrf param header env h ctx req s).2.1 := by
  rcases c142_guard param header env h ctx req s with ⟨-, l, hl, he⟩ | ⟨-, l, e, hl, he⟩ | ⟨bytes, e, l, -, -, hl, he⟩ | ⟨bytes, l, -, -, hl, he⟩
  all_goals rw [he] at hm ⊢
  · rcases hl with rfl | ⟨k, -, -, rfl⟩ <;> simp at hm
  all_goals
    rcases hl with ⟨-, rfl⟩ | ⟨k, -, -, -, rfl⟩
    · simp at hm
    · simp at hm
      subst hm
      exact ⟨_, _, rfl, by simp⟩

/-- In a woven record a removal comes after the yes of the same request. -/
theorem yes_before_removal (param header : Str) (h : Handler σ ρ) (jobs : List (PageJob σ)) (record : List (Nat × Call))
    (hw : Woven (jobs.map fun j => (j.run param header h).2.1) record) (pre post : List (Nat × Call)) (i : Nat) (n : Str)
    (heq : record = pre ++ (i, .remove n) :: post) : ∃ t, (i, Call.contains t n true) ∈ pre := by
  obtain ⟨l, h1, h2⟩ := hw i (.remove n) (by simp [heq])
  rw [List.getElem?_map] at h1
  obtain ⟨j, -, rfl⟩ := Option.map_eq_some_iff.1 h1
  rw [heq, List.filterMap_append, List.filterMap_cons] at h2
  simp only [if_true] at h2
  obtain ⟨t, l, h3, -⟩ := removes_after_yes param header j.env h {} j.req j.own n (by
    show _ ∈ (j.run param header h).2.1
    exact h2.subset (by simp))
  change (j.run param header h).2.1 = _ at h3
  rw [h3] at h2
  refine ⟨t, ?_⟩
  cases hp : pre.filterMap (fun x : Nat × Call => if x.1 = i then some x.2 else none) with
  | nil =>
    rw [hp] at h2
    obtain ⟨r, hr⟩ := h2
    simp at hr
  | cons c cs =>
    rw [hp] at h2
    obtain ⟨r, hr⟩ := h2
    simp only [List.cons_append, List.cons.injEq] at hr
    have : c ∈ pre.filterMap (fun x : Nat × Call => if x.1 = i then some x.2 else none) := by rw [hp]; simp
    obtain ⟨⟨i', c'⟩, hx, hx2⟩ := List.mem_filterMap.1 this
    dsimp only at hx2
    split at hx2
    · rename_i hi
      simp only [Option.some.injEq] at hx2
      subst hi; subst hx2
      rw [← hr.1]; exact hx
    · cases hx2

/-- C145.  However requests interleave and whatever the others do, with a cache that forgets nothing before its time: a nonce that was stored for a
request stays good for an hour until some request was let in with it (provided it is not given out twice), and a state-changing request that
carries it reaches the handler, unless making or storing the new nonce fails. -/
theorem c145_good (param header : Str) (h : Handler σ ρ) (jobs : List (PageJob σ)) (record : List (Nat × Call))
    (hw : Woven (jobs.map fun j => (j.run param header h).2.1) record) (hf : Retentive (record.map (·.2)))
    (pre mid post : List (Nat × Call)) (i i' : Nat) (t now : Int) (n : Str) (ans : Bool)
    (heq : record = pre ++ (i, .add t n anHour none) :: (mid ++ (i', .contains now n ans) :: post)) (hnow : now < t + anHour)
    (hunused : ∀ k t', (k, Call.contains t' n true) ∉ pre ++ mid) (honce : ∀ k t' d e, (k, Call.add t' n d e) ∉ mid) :
    ans = true ∧ ∀ j, jobs[i']? = some j → ∀ bytes, j.env.rnd = some bytes → j.env.addErr = none →
      ((j.run param header h).1, (j.run param header h).2.2) = h { nonce := some (Csrf.hex bytes) } j.req j.own := by
  have hans : ans = true := by
    refine hf (pre.map (·.2)) (mid.map (·.2)) (post.map (·.2)) t n anHour now ans (by simp [heq]) hnow ?_ ?_
    · intro hm
      obtain ⟨⟨k, c⟩, hx, hc⟩ := List.mem_map.1 hm
      dsimp only at hc
      subst hc
      obtain ⟨m₁, m₂, rfl⟩ := List.append_of_mem hx
      obtain ⟨t', ht⟩ := yes_before_removal param header h jobs record hw (pre ++ (i, .add t n anHour none) :: m₁)
        (m₂ ++ (i', .contains now n ans) :: post) k n (by simp [heq])
      refine hunused k t' ?_
      simp only [List.mem_append, List.mem_cons, Prod.mk.injEq, reduceCtorEq, and_false, false_or] at ht ⊢
      rcases ht with ht | ht
      · exact .inl ht
      · exact .inr (.inl ht)
    · intro t' d' e hm
      obtain ⟨⟨k, c⟩, hx, hc⟩ := List.mem_map.1 hm
      dsimp only at hc
      subst hc
      exact honce k t' d' e hx
  refine ⟨hans, fun j hj bytes hr he => ?_⟩
  subst hans
  obtain ⟨l, h1, h2⟩ := woven_mem hw (i := i') (c := .contains now n true) (by simp [heq])
  rw [List.getElem?_map, hj] at h1
  simp only [Option.map_some, Option.some.injEq] at h1
  subst h1
  unfold PageJob.run at h2 ⊢
  rcases c142_guard param header j.env h {} j.req j.own with ⟨-, l, hl, hc⟩ | ⟨hr', -⟩ | ⟨_, _, _, -, he', -⟩ | ⟨bytes', l, hr', -, hl, hc⟩
  · rw [hc] at h2
    rcases hl with rfl | ⟨k, -, -, rfl⟩ <;> simp at h2
  · rw [hr] at hr'; cases hr'
  · rw [he] at he'; cases he'
  · rw [hr] at hr'
    cases hr'
    rw [hc]

/-- C145, what a request asks: a state-changing request that carries a nonce asks for it and nothing else, a request with a safe method asks
nothing and is served. -/
theorem c145_asked (param header : Str) (h : Handler σ ρ) (j : PageJob σ) :
    (SafeMethod j.req.method → (∀ now n ans, Call.contains now n ans ∉ (j.run param header h).2.1) ∧ (∀ n, Call.remove n ∉ (j.run param header h).2.1) ∧
      ∀ bytes, j.env.rnd = some bytes → j.env.addErr = none → ((j.run param header h).1, (j.run param header h).2.2) = h { nonce := some (Csrf.hex bytes) } j.req j.own) ∧
    (¬ SafeMethod j.req.method → ∀ n, Carries param header j.req n → Call.contains j.env.tCheck n j.env.says ∈ (j.run param header h).2.1 ∧
      ∀ now k ans, Call.contains now k ans ∈ (j.run param header h).2.1 → now = j.env.tCheck ∧ k = n) := by
  constructor
  · intro hm
    have hs := (skipCheck_iff _).2 hm
    have : j.run param header h = AnyCache.issue j.env h {} j.req [] j.own := by simp [PageJob.run, AnyCache.csrf, hs]
    rw [this]
    unfold AnyCache.issue
    cases hr : j.env.rnd with
    | none => simp
    | some b => cases he : j.env.addErr <;> simp
  · intro hm n hc
    have hne : n ≠ [] := by cases hc <;> assumption
    have hs : Csrf.skipCheck j.req.method = false := by
      cases hk : Csrf.skipCheck j.req.method with
      | false => rfl
      | true => exact absurd ((skipCheck_iff _).1 hk) hm
    have hp := (previousNonce_iff param header j.req n hne).2 hc
    cases hsay : j.env.says with
    | false => simp [PageJob.run, AnyCache.csrf, hs, hp, hne, hsay]
    | true =>
      have : j.run param header h = AnyCache.issue j.env h {} j.req [.contains j.env.tCheck n true, .remove n] j.own := by
        simp [PageJob.run, AnyCache.csrf, hs, hp, hne, hsay]
      rw [this]
      unfold AnyCache.issue
      cases hr : j.env.rnd with
      | none => simp
      | some b => cases he : j.env.addErr <;> simp

/-- C145 for logins: a state with which a client was sent to a provider stays good for the configured time, whatever other logins are begun and
finished meanwhile (provided it is not given out twice). -/
theorem c145_login (cfg : OAuth.Config σ) (base : Str) (h : OAuth.OHandler σ ρ) (jobs : List (LoginJob σ)) (record : List (Nat × Call))
    (hw : Woven (jobs.map (·.calls cfg base h)) record) (hf : Retentive (record.map (·.2)))
    (pre mid post : List (Nat × Call)) (i i' : Nat) (t now : Int) (st : Str) (ans : Bool)
    (heq : record = pre ++ (i, .add t st cfg.keyExpiration none) :: (mid ++ (i', .contains now st ans) :: post)) (hnow : now < t + cfg.keyExpiration)
    (honce : ∀ k t' d e, (k, Call.add t' st d e) ∉ mid) : ans = true := by
  refine hf (pre.map (·.2)) (mid.map (·.2)) (post.map (·.2)) t st cfg.keyExpiration now ans (by simp [heq]) hnow ?_ ?_
  · intro hm
    obtain ⟨⟨k, c⟩, hx, hc⟩ := List.mem_map.1 hm
    dsimp only at hc
    subst hc
    obtain ⟨l, h1, h2⟩ := woven_mem hw (i := k) (c := .remove st) (by simp [heq, hx])
    rw [List.getElem?_map] at h1
    obtain ⟨j, -, rfl⟩ := Option.map_eq_some_iff.1 h1
    cases j with
    | start t e s r =>
      simp only [LoginJob.calls, AnyCache.initiate] at h2
      split at h2
      · simp at h2
      · split at h2 <;> simp at h2
    | back t says name r s =>
      simp only [LoginJob.calls, AnyCache.callback] at h2
      split at h2
      · simp at h2
      · split at h2
        · simp at h2
        · split at h2 <;> simp at h2
  · intro t' d' e hm
    obtain ⟨⟨k, c⟩, hx, hc⟩ := List.mem_map.1 hm
    dsimp only at hc
    subst hc
    exact honce k t' d' e hx

/-- What the in-memory cache makes of a record. -/
theorem serve_append (c : Cache.Cache) (p q : List Call) : serve c (p ++ q) = (serve c p).bind (serve · q) := by
  induction p generalizing c with
  | nil => rfl
  | cons x p ih =>
    cases x with
    | contains now k ans =>
      simp only [List.cons_append, serve]
      split
      · exact ih c
      · rfl
    | remove k => simp only [List.cons_append, serve]; exact ih _
    | add now k d err =>
      simp only [List.cons_append, serve]
      split
      · exact ih _
      · rfl

/-- C145: the in-memory cache forgets nothing before its time. -/
theorem c145_in_memory (calls : List Call) (c₀ c : Cache.Cache) (hs : serve c₀ calls = some c) : Retentive calls := by
  intro p q post t k d now ans heq hnow hrem hadd
  subst heq
  have keep : ∀ (q : List Call) (c₁ c₂ : Cache.Cache), Call.remove k ∉ q → (∀ t' d' e, Call.add t' k d' e ∉ q) → serve c₁ q = some c₂ →
      Map.get? c₂ k = Map.get? c₁ k := by
    intro q
    induction q with
    | nil => intro c₁ c₂ _ _ h; simp only [serve, Option.some.injEq] at h; rw [h]
    | cons x q ih =>
      intro c₁ c₂ h1 h2 h
      have h1' : Call.remove k ∉ q := fun hm => h1 (by simp [hm])
      have h2' : ∀ t' d' e, Call.add t' k d' e ∉ q := fun t' d' e hm => h2 t' d' e (by simp [hm])
      cases x with
      | contains now' k' ans' =>
        simp only [serve] at h
        split at h
        · exact ih _ _ h1' h2' h
        · cases h
      | remove k' =>
        simp only [serve] at h
        rw [ih _ _ h1' h2' h, Cache.remove, Map.get?_erase_other]
        rintro rfl
        exact h1 (by simp)
      | add t' k' d' e' =>
        simp only [serve] at h
        split at h
        · rw [ih _ _ h1' h2' h, Cache.add, Map.get?_set_other]
          rintro rfl
          exact h2 t' d' e' (by simp)
        · cases h
  rw [serve_append] at hs
  cases hp : serve c₀ p with
  | none => rw [hp] at hs; cases hs
  | some c₁ =>
    rw [hp] at hs
    simp only [Option.bind_some, serve, if_true] at hs
    rw [serve_append] at hs
    cases hq : serve (Cache.add c₁ t k d) q with
    | none => rw [hq] at hs; cases hs
    | some c₂ =>
      rw [hq] at hs
      simp only [Option.bind_some, serve] at hs
      split at hs
      · rename_i hc
        have := keep q _ c₂ hrem hadd hq
        rw [Cache.add, Map.get?_set_same] at this
        rw [← hc, Cache.contains, this]
        simpa using hnow
      · cases hs

/-- Two pages are opened; the form of the second is sent first, then that of the first. -/
def secondPage : PageJob Nat := ⟨{ method := b!"GET" }, ⟨1, 1, some [0xcd], false, none⟩, 0⟩

def secondForm : PageJob Nat := ⟨{ method := b!"POST", headers := [(b!"X-Csrf-Token", [b!"CD"])] }, ⟨2, 2, some [0xef], true, none⟩, 0⟩

def firstForm : PageJob Nat := ⟨{ method := b!"POST", headers := [(b!"X-Csrf-Token", [b!"AB"])] }, ⟨3, 3, some [0x01], true, none⟩, 0⟩

/-- Their calls, the two forms being served at the same time. -/
def tabs : List (Nat × Call) :=
  [(0, .add 0 b!"AB" anHour none), (1, .add 1 b!"CD" anHour none), (2, .contains 2 b!"CD" true), (3, .contains 3 b!"AB" true), (2, .remove b!"CD"),
    (3, .remove b!"AB"), (3, .add 3 b!"01" anHour none), (2, .add 2 b!"EF" anHour none)]

example : Woven ([viewAB, secondPage, secondForm, firstForm].map fun j => (j.run b!"_csrf" b!"X-Csrf-Token" answers7).2.1) tabs ∧ Retentive (tabs.map (·.2)) ∧
    Honest (tabs.map (·.2)) := by
  have hserve : ∃ c, serve Cache.empty (tabs.map (·.2)) = some c := Option.isSome_iff_exists.1 (by decide +kernel)
  obtain ⟨c, hc⟩ := hserve
  refine ⟨?_, c145_in_memory _ _ _ hc, c142_in_memory _ _ hc⟩
  intro i c hm
  have hi : i = 0 ∨ i = 1 ∨ i = 2 ∨ i = 3 := by
    simp only [tabs, List.mem_cons, Prod.mk.injEq, List.not_mem_nil, or_false] at hm
    omega
  rcases hi with rfl | rfl | rfl | rfl
  · exact ⟨[.add 0 b!"AB" anHour none], by decide +kernel, by decide +kernel⟩
  · exact ⟨[.add 1 b!"CD" anHour none], by decide +kernel, by decide +kernel⟩
  · exact ⟨[.contains 2 b!"CD" true, .remove b!"CD", .add 2 b!"EF" anHour none], by decide +kernel, by decide +kernel⟩
  · exact ⟨[.contains 3 b!"AB" true, .remove b!"AB", .add 3 b!"01" anHour none], by decide +kernel, by decide +kernel⟩

end Gofre.Props
