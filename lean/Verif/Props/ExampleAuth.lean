import Verif.Props.Example
import Verif.Props.Auth
import Verif.Props.Middleware
import Verif.Proofs.Redirect

/-!
# The authorization example

Property C113.
-/

namespace Gofre.Props
open Gofre.Path Gofre.Spec Gofre.Mux Gofre.Auth

/-- The permission of the path implies the permission asked for exactly when the text of the path
grants the deletion. -/
theorem example_grants (v : Str) :
    (∃ p, parsePermission (b!"domain/subdomain/resource:" ++ v) = some p ∧
      (exampleUser p).hasPermission ⟨b!"domain/subdomain/resource", 8⟩ = true) ↔ GrantsDelete v := by
  have hu : ∀ p q, (exampleUser p).hasPermission q = true ↔ implies p q = true := by
    intro p q
    rw [c34_user_has_permission_iff, implies_grants]
    simp [exampleUser]
  have hscope : b!"domain/subdomain/resource:" ++ v = b!"domain/subdomain/resource" ++ 58 :: v := by
    rw [show b!"domain/subdomain/resource:" = b!"domain/subdomain/resource" ++ [58] from by decide, List.append_assoc]; rfl
  have hL : Levels [b!"domain", b!"subdomain", b!"resource"] := ⟨by simp, by decide⟩
  have hS : b!"domain/subdomain/resource" = scopeText [b!"domain", b!"subdomain", b!"resource"] := by decide
  constructor
  · rintro ⟨p, hp, hi⟩
    rw [hu] at hi
    obtain ⟨⟨ls, hls, hsc, h3⟩, d, hd, hdig⟩ := c35_parse_sound _ p hp
    obtain ⟨h1, h2, h4⟩ := (parseDigits_iff _ _).1 hdig
    have hpe : p = ⟨scopeText ls, p.access⟩ := by rw [hsc]
    rw [hpe, hS, c31_implies_iff ls _ hls hL] at hi
    obtain ⟨hbits, hcov⟩ := hi
    have key : d = v := by
      rcases List.append_eq_append_iff.1 (hscope.symm.trans hd) with ⟨t, ht1, ht2⟩ | ⟨t, ht1, ht2⟩
      · cases t with
        | nil => rw [List.nil_append, List.cons.injEq] at ht2; exact ht2.2.symm
        | cons c t =>
          rw [List.cons_append, List.cons.injEq] at ht2
          obtain ⟨rfl, ht2⟩ := ht2
          exfalso
          -- the last level of the scope would be `resource:…`
          have hlev : ls = [b!"domain", b!"subdomain"] ++ splitOn slash (b!"resource" ++ 58 :: t) := by
            rw [← split_scopeText hls, hsc, ht1]
            have : b!"domain/subdomain/resource" ++ 58 :: t = b!"domain" ++ slash :: (b!"subdomain" ++ slash :: (b!"resource" ++ 58 :: t)) := rfl
            rw [this, splitOn_append_sep, splitOn_append_sep]
            rfl
          have hne := splitOn_ne_nil slash (b!"resource" ++ 58 :: t)
          cases hs : splitOn slash (b!"resource" ++ 58 :: t) with
          | nil => exact hne hs
          | cons w ws =>
            rw [hs] at hlev
            have hw : w = b!"*" ∨ w = b!"resource" := by
              have := hcov.2 2 b!"resource" rfl
              rw [hlev] at this
              simpa [governing] using this
            have hjoin := joinWith_splitOn slash (b!"resource" ++ 58 :: t)
            rw [hs] at hjoin
            have hpre : ∃ r, w ++ r = b!"resource" ++ 58 :: t ∧ (r = [] ∨ r.head? = some slash) := by
              cases ws with
              | nil => exact ⟨[], by simpa [joinWith] using hjoin, .inl rfl⟩
              | cons w2 ws => exact ⟨slash :: joinWith slash (w2 :: ws), by simpa [joinWith] using hjoin, .inr rfl⟩
            obtain ⟨r, hr, hr2⟩ := hpre
            rcases hw with rfl | rfl
            · simp at hr
            · rw [List.append_cancel_left_eq] at hr
              subst hr
              rcases hr2 with h | h <;> simp [slash] at h
      · cases t with
        | nil => rw [List.nil_append, List.cons.injEq] at ht2; exact ht2.2
        | cons c t =>
          rw [List.cons_append, List.cons.injEq] at ht2
          exfalso
          exact colon_not_digit h2 (ht2.2 ▸ by simp)
    subst key
    refine ⟨h1, h2, ?_, ?_⟩
    · rw [h4]; exact p.access.toNat_lt
    · rw [h4]; exact hbits 3 (by decide)
  · rintro ⟨h1, h2, h3, h4⟩
    have hpd := (parseDigits_iff v _).2 ⟨h1, h2, rfl⟩
    have hpu : parseUint32 v = some (UInt32.ofNat (number v)) := by
      unfold parseUint32; rw [hpd]; simp [h3]
    refine ⟨⟨b!"domain/subdomain/resource", UInt32.ofNat (number v)⟩, ?_, ?_⟩
    · rw [hscope]
      unfold parsePermission
      rw [lastColon_append _ _ (colon_not_digit h2)]
      have hlen : 0 < v.length := List.length_pos_iff.2 h1
      dsimp only
      rw [if_neg (by simp only [List.length_append, List.length_cons]; omega)]
      have : (b!"domain/subdomain/resource" ++ 58 :: v).drop (List.length b!"domain/subdomain/resource" + 1) = v := by
        rw [List.drop_append]; simp
      rw [this, hpu]
      have : (b!"domain/subdomain/resource" ++ 58 :: v).take (List.length b!"domain/subdomain/resource") = b!"domain/subdomain/resource" := List.take_left
      dsimp only
      rw [this]
      unfold newPermission
      rw [if_neg (by decide)]
    · rw [hu, hS, c31_implies_iff _ _ hL hL]
      refine ⟨fun i hi => ?_, covers_refl _⟩
      have h8 : (8 : UInt32).toNat = 2 ^ 3 := by decide
      rw [h8, Nat.testBit_two_pow] at hi
      have : 3 = i := by simpa using hi
      subst this
      rw [UInt32.toNat_ofNat_of_lt' (by simpa using h3)]
      exact h4

/-- C113: the handler of the authorization example runs exactly when the last segment of the path
is a decimal number of 32 bits with the bit of the deletion; other permissions are answered by 401,
anything that is no permission by 500. -/
theorem c113_exact {σ ρ : Type} (v : Str) (h : Handler σ ρ) (ctx : Ctx) (req : Req) (s : σ) :
    (GrantsDelete v → ∃ p, p.hasPermission ⟨b!"domain/subdomain/resource", 8⟩ = true ∧
      exampleGuarded v h ctx req s = h { ctx with principal := some p } req s) ∧
    (¬ GrantsDelete v → ∃ e, exampleGuarded v h ctx req s = (.ret none (some e), s) ∧
      (MW.statusOf e = 401 ∨ MW.statusOf e = 500) ∧ (MW.statusOf e = 500 ↔ ¬ ∃ scope a, PermissionText (b!"domain/subdomain/resource:" ++ v) scope a)) := by
  rw [show (¬ ∃ scope a, PermissionText (b!"domain/subdomain/resource:" ++ v) scope a) ↔ parsePermission (b!"domain/subdomain/resource:" ++ v) = none from
    not_permission_text _]
  have e1 : ∀ c r t, exampleGuarded v h c r t =
      match exampleSupplier v c r t with
      | (.error e, s') => (.ret none (some e), s')
      | (.ok none, s') => MW.authorizeAll [⟨b!"domain/subdomain/resource", 8⟩] h c r s'
      | (.ok (some p), s') => MW.authorizeAll [⟨b!"domain/subdomain/resource", 8⟩] h { c with principal := some p } r s' := fun _ _ _ => rfl
  have hg := example_grants v
  rw [e1]
  unfold exampleSupplier
  cases hp : parsePermission (b!"domain/subdomain/resource:" ++ v) with
  | none =>
    dsimp only
    refine ⟨fun c => ?_, fun _ => ⟨_, rfl, .inr rfl, by simp [MW.statusOf]⟩⟩
    obtain ⟨p, hp', _⟩ := hg.2 c
    rw [hp] at hp'; cases hp'
  | some p =>
    have hiff : (exampleUser p).hasPermission ⟨b!"domain/subdomain/resource", 8⟩ = true ↔ GrantsDelete v := by
      rw [← hg, hp]; simp
    have hall : (∀ q ∈ [(⟨b!"domain/subdomain/resource", 8⟩ : Permission)], (exampleUser p).hasPermission q = true) ↔ GrantsDelete v := by
      rw [← hiff]; simp
    have hsup := (c37_authorize_fixed (σ := σ) (ρ := ρ) [⟨b!"domain/subdomain/resource", 8⟩] h { ctx with principal := some ⟨(exampleUser p).hasPermission⟩ } req s).1
    dsimp only at hsup ⊢
    rw [hsup]
    refine ⟨fun c => ⟨⟨(exampleUser p).hasPermission⟩, hiff.2 c, if_pos (hall.2 c)⟩,
      fun c => ⟨.unauthorized, if_neg (fun h => c (hall.1 h)), .inl rfl, by simp [MW.statusOf]⟩⟩

example : GrantsDelete b!"8" ∧ GrantsDelete b!"0015" ∧ GrantsDelete b!"4294967295" ∧ ¬ GrantsDelete b!"7" ∧ ¬ GrantsDelete b!"4294967304" ∧
    ¬ GrantsDelete b!"x:8" ∧ parsePermission b!"domain/subdomain/resource:x:8" = some ⟨b!"domain/subdomain/resource:x", 8⟩ := by
  unfold GrantsDelete
  decide +kernel

/-- C113, from the request on: a GET for `/security/authorize/v` is answered by the route of the
example, whose variable is `v`, and runs its handler exactly when `v` grants the deletion.

Missing: longer paths, see C12. -/
theorem c113_request_partial {x : Ext} (hl : FoldLaws x.eqFold)
    {ps : List Pattern} {m : Matcher} (hps : ps.Perm (examplePats x)) (hr : Registered x false sortSiblings ps m)
    {path : Str} {buf : List USeg} (hb : buf.length = 19) (hlen : path.length ≤ 65535) (hf : Fits path)
    {v : Str} (hv : segmentsOf path = [b!"security", b!"authorize", v]) :
    ∃ f p labels segs, (∀ g, f ≤ g → lookup x false m path buf g = some (.found p labels)) ∧ p.attachment = ExRoute.security.num ∧
      parseURLPath path buf = some segs ∧ pathVarText path p labels segs b!"permission" = some v := by
  obtain ⟨f, h⟩ := c112_routes_partial hl hps hr hb hlen hf
  rw [hv] at h
  have hans : exampleAnswer [b!"security", b!"authorize", v] = some .security := by
    simp [exampleAnswer]
  rw [hans] at h
  obtain ⟨p, labels, h1, h2⟩ := h f (Nat.le_refl _)
  obtain ⟨segs, h3, h4⟩ := c112_variables_partial hl hps hr hb hlen hf h1 (k := .security) h2
  obtain ⟨u, hu, hu2⟩ := h4 (b!"permission", 2) (by simp [exampleVars])
  rw [hv] at hu
  have : u = v := by simpa using hu.symm
  subst this
  refine ⟨f, p, labels, segs, fun g hg => ?_, h2, h3, hu2⟩
  obtain ⟨q, l2, h5, _⟩ := h g hg
  rw [h5]
  exact h5.symm.trans (lookup_fuel h1 hg)

/-- C113 fails for long paths: this one leads to `/security/authorize/8`, which grants the deletion,
and is answered by the start page. -/
theorem c113_violated : ∃ path : Str, segmentsOf path = [b!"security", b!"authorize", b!"8"] ∧ GrantsDelete b!"8" ∧
    ∀ {x : Ext} {ps : List Pattern} {m : Matcher} {buf : List USeg}, ps.Perm (examplePats x) →
      Registered x false sortSiblings ps m → buf.length = 19 →
      ∃ f p, (∀ g, f ≤ g → lookup x false m path buf g = some (.found p [])) ∧ p.attachment = ExRoute.index.num :=
  ⟨b!"/security/authorize/8/4/5/6/7/8/9/10/11/12/13/14/15/16/17/18/19/20/../../../../../../../../../../../../../../../../..", by decide +kernel,
    by unfold GrantsDelete; decide +kernel, fun hps hr hb =>
    c112_overlong hps hr hb fun h => by
      have := h ((afterSlash b!"/security/authorize/8/4/5/6/7/8/9/10/11/12/13/14/15/16/17/18/19/20/../../../../../../../../../../../../../../../../..").take 20)
        (List.take_prefix _ _)
      exact absurd this (by decide +kernel)⟩

end Gofre.Props
