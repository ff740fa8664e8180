import Verif.Model.Construct
import Verif.Props.Config
import Verif.Props.Priority
import Verif.Proofs.Redirect

/-! # C120: how the constructors report what is wrong -/

namespace Gofre.Spec
open Gofre.Config Gofre.Path

/-- Templates have to be parsed and cannot be. -/
def TemplatesFail {T L : Type} (parse : Str → Option T) (s : Store T L) (p : Nat) : Prop :=
  ∃ q t, (s.cfgs p).resources = some q ∧ (s.ress q).template = none ∧
    Setting b!"resources/templates/*.html" (s.ress q).templates t ∧ parse t = none

/-- The text is the pattern below which the assets are served: context path, mapping path, and
everything below; the context path `/` counts as none. -/
inductive AssetsPattern {T L : Type} (s : Store T L) (p : Nat) : Str → Prop
  | root {q : Nat} {mapping : Str} : (s.cfgs p).resources = some q → Setting b!"/" (s.cfgs p).contextPath b!"/" →
      Setting b!"assets" (s.ress q).assetsMapping mapping → AssetsPattern s p (b!"/" ++ mapping ++ b!"/**")
  | below {q : Nat} {ctx mapping : Str} : (s.cfgs p).resources = some q → Setting b!"/" (s.cfgs p).contextPath ctx → ctx ≠ b!"/" →
      Setting b!"assets" (s.ress q).assetsMapping mapping → AssetsPattern s p (ctx ++ b!"/" ++ mapping ++ b!"/**")

end Gofre.Spec

namespace Gofre.Props
open Gofre.Config Gofre.Spec Gofre.Path
variable {T L : Type}

/-- The first registration at a fresh router. -/
theorem handle_fresh (x : Ext) (other : Str → Str) (srt : List Node → List Node) (ci : Bool) (pat : Str) (h : Nat) :
    (∃ p, parsePattern x ci pat = .ok p) ∧ (∃ r, handle x other srt (newRouter ci) b!"GET" pat h = .returned r) ∨
    (parsePattern x ci pat = .error ∨ parsePattern x ci pat = .panic) ∧ (∃ r, handle x other srt (newRouter ci) b!"GET" pat h = .panicked r) ∨
    parsePattern x ci pat = .hangs ∧ handle x other srt (newRouter ci) b!"GET" pat h = .hangs := by
  unfold handle
  show _ ∨ _ ∨ _
  simp only [newRouter]
  cases hp : parsePattern x ci pat with
  | error => exact .inr (.inl ⟨.inl rfl, _, rfl⟩)
  | panic => exact .inr (.inl ⟨.inr rfl, _, rfl⟩)
  | hangs => exact .inr (.inr ⟨rfl, rfl⟩)
  | ok p =>
    left
    refine ⟨⟨p, rfl⟩, ?_⟩
    have hadd : (addPattern x ci srt {} { p with attachment := h }).2 = false := by
      unfold addPattern
      cases hs : p.segments with
      | nil => rfl
      | cons s ss => simp [Path.insert, findShare]
    simp only [Option.getD_none]
    cases ha : addPattern x ci srt {} { p with attachment := h } with
    | mk m e =>
      rw [ha] at hadd
      simp only at hadd
      subst hadd
      exact ⟨_, rfl⟩

theorem setting_unique {d v a b : Str} (h1 : Setting d v a) (h2 : Setting d v b) : a = b := by
  cases h1 with
  | given _ hv => cases h2 with
    | given => rfl
    | default => exact absurd rfl hv
  | default => cases h2 with
    | given _ h => exact absurd rfl h
    | default => rfl

/-- The route of the assets is the specified one, and the only one. -/
theorem assets_pattern {parse : Str → Option T} {logDefault : L} {s s' : Store T L} {p : Nat} {m : Made L}
    (h : newMuxHandler parse logDefault s p = (s', some m)) :
    (m.assets = none ∧ ∀ t, ¬ AssetsPattern s p t) ∨
    ∃ ctx mapping dir, m.assets = some (ctx, mapping, dir) ∧ ∀ t, AssetsPattern s p t ↔ t = assetsRoute ctx mapping := by
  obtain ⟨h1, h2, _, _, _, _, _⟩ := c99_defaults h
  have ha : (m.assets = (s'.cfgs p).resources.map fun q => ((s'.cfgs p).contextPath, (s'.ress q).assetsMapping, (s'.ress q).assetsDir)) ∧ m.webConfig = p := by
    unfold newMuxHandler at h
    split at h
    · simp at h
    · simp only [Prod.mk.injEq, Option.some.injEq] at h
      rw [← h.2, h.1]
      exact ⟨rfl, rfl⟩
  obtain ⟨ha, hw⟩ := ha
  simp only [Made.config, hw] at h1
  rw [h1.resources] at ha
  cases hr : (s.cfgs p).resources with
  | none =>
    left
    rw [hr] at ha
    refine ⟨ha, ?_⟩
    intro t ht
    cases ht with
    | root h => rw [hr] at h; cases h
    | below h => rw [hr] at h; cases h
  | some q =>
    right
    rw [hr] at ha
    refine ⟨_, _, _, ha, ?_⟩
    have hres := h2 q hr
    intro t
    constructor
    · intro ht
      cases ht with
      | root h hc hm =>
        obtain rfl := Option.some.inj (hr.symm.trans h)
        rw [setting_unique hres.assetsMapping hm, setting_unique h1.contextPath hc]
        simp [assetsRoute]
      | below h hc hne hm =>
        obtain rfl := Option.some.inj (hr.symm.trans h)
        rw [setting_unique hres.assetsMapping hm, setting_unique h1.contextPath hc]
        simp [assetsRoute, hne]
    · rintro rfl
      unfold assetsRoute
      by_cases hc : (s'.cfgs p).contextPath = b!"/"
      · rw [if_pos hc]
        exact .root hr (hc ▸ h1.contextPath) hres.assetsMapping
      · rw [if_neg hc]
        exact .below hr h1.contextPath hc hres.assetsMapping

/-- A pattern that ends in `/**` is never an endless one. -/
theorem ends_stars_returns (x : Ext) (ci : Bool) (t : Str) (h : (pieces (t ++ b!"/**")).length ≤ 19) : parsePattern x ci (t ++ b!"/**") ≠ .hangs := by
  intro hh
  obtain ⟨⟨segs, hsp⟩, _, h1, _⟩ := (c07_exact x ci _ h).1 hh
  cases t with
  | nil => simp [pieces, splitOn, starShape, slash] at h1
  | cons c t =>
    have e : pieces (c :: t ++ b!"/**") = splitOn slash t ++ [b!"**"] := by
      have e2 : splitOn slash (t ++ b!"/**") = splitOn slash t ++ [b!"**"] :=
        (splitOn_append_sep slash t b!"**").trans (by rw [show splitOn slash b!"**" = [b!"**"] by decide])
      show (if (splitOn slash (t ++ b!"/**")).getLast? = some [] then (splitOn slash (t ++ b!"/**")).dropLast else splitOn slash (t ++ b!"/**")) = _
      rw [e2]
      simp
    rw [e] at h1
    simp [starShape] at h1

/-- C120, the answer for `NewMuxHandler`: an error exactly when the templates cannot be parsed; if
they can, a panic exactly when the pattern of the assets is not well formed; a mux otherwise. -/
theorem c120_exact (x : Ext) (other : Str → Str) (parse : Str → Option T) (logDefault : L) (s : Store T L) (p : Nat)
    (h19 : ∀ t, AssetsPattern s p t → (pieces t).length ≤ 19) :
    (construct x other parse logDefault s (some p) = .error ↔ TemplatesFail parse s p) ∧
    (construct x other parse logDefault s (some p) = .panics ↔
      ¬ TemplatesFail parse s p ∧ ∃ t, AssetsPattern s p t ∧ ¬ ∃ segs, Spells x.compiles (s.cfgs p).ci t segs) ∧
    (construct x other parse logDefault s (some p) = .made ↔
      ¬ TemplatesFail parse s p ∧ ∀ t, AssetsPattern s p t → ∃ segs, Spells x.compiles (s.cfgs p).ci t segs) := by
  have herr := c99_error (parse := parse) (logDefault := logDefault) (s := s) (p := p)
  unfold construct
  simp only
  cases hn : newMuxHandler parse logDefault s p with
  | mk s' o =>
    rw [hn] at herr
    cases o with
    | none =>
      have : TemplatesFail parse s p := herr.1 rfl
      simp [this]
    | some m =>
      have hnf : ¬ TemplatesFail parse s p := fun h => by have := herr.2 h; cases this
      have hci : m.ci = (s.cfgs p).ci := (c99_defaults hn).2.2.1
      simp only
      rcases assets_pattern hn with ⟨ha, hnone⟩ | ⟨ctx, mapping, dir, ha, hall⟩
      · rw [ha]
        simp only [hnf, not_false_iff, true_and]
        exact ⟨by simp, ⟨fun h => by simp at h, fun ⟨t, ht, _⟩ => absurd ht (hnone t)⟩, ⟨fun _ t ht => absurd ht (hnone t), fun _ => trivial⟩⟩
      · rw [ha]
        simp only [hnf, not_false_iff, true_and, hall, forall_eq, exists_eq_left]
        rw [hci]
        have hsp := c05_accepts_iff x (s.cfgs p).ci (assetsRoute ctx mapping)
        have hroot : ¬ assetsRoute ctx mapping = b!"/" := by
          intro h
          have := congrArg List.length h
          simp [assetsRoute] at this
          omega
        have hnh : parsePattern x (s.cfgs p).ci (assetsRoute ctx mapping) ≠ .hangs :=
          ends_stars_returns x _ _ (h19 _ ((hall _).2 rfl))
        simp only [hroot, false_or, hnh, or_false] at hsp
        rcases handle_fresh x other sortSiblings (s.cfgs p).ci (assetsRoute ctx mapping) 0 with ⟨h1, r, h2⟩ | ⟨h1, r, h2⟩ | ⟨h1, h2⟩
        · rw [h2]
          have := hsp.1 h1
          simp [this]
        · rw [h2]
          have hne : ¬ ∃ segs, Spells x.compiles (s.cfgs p).ci (assetsRoute ctx mapping) segs := by
            intro h
            obtain ⟨p', hp'⟩ := hsp.2 h
            rcases h1 with h1 | h1 <;> rw [h1] at hp' <;> cases hp'
          simp [hne]
        · exact absurd h1 hnh

/-- The three answers of `c120_exact`: a configuration without resources, one whose templates are
missing, and one with the context path `/app/`. -/
example :
    construct (T := Unit) (L := Unit) anyExt id (fun _ => none) () ⟨fun _ => {}, fun _ => {}⟩ (some 0) = .made ∧
    construct (T := Unit) (L := Unit) anyExt id (fun _ => none) () ⟨fun _ => { resources := some 1 }, fun _ => {}⟩ (some 0) = .error ∧
    construct (T := Unit) (L := Unit) anyExt id (fun _ => some ()) () ⟨fun _ => { contextPath := b!"/app", resources := some 1 }, fun _ => {}⟩ (some 0) = .made := by
  decide +kernel

/-- C120 fails for `NewMuxHandler`: the context path `/app/`, or a nil configuration. -/
theorem c120_violated (x : Ext) (other : Str → Str) (logDefault : L) :
    construct (T := Unit) x other (fun _ => some ()) logDefault ⟨fun _ => { contextPath := b!"/app/", resources := some 1 }, fun _ => {}⟩ (some 0) = .panics ∧
    ∀ (parse : Str → Option T) (s : Store T L), construct x other parse logDefault s none = .panics :=
  ⟨rfl, fun _ _ => rfl⟩

/-- C120 fails for `NewMuxHandlerWithDefaultConfigAndTemplateSupport` whenever there is something to
report: it never returns an error.  Missing or wrong templates end the process. -/
theorem c120_violated_never (x : Ext) (other : Str → Str) (parse : Str → Option T) (logDefault : L) (s : Store T L) (p q : Nat) :
    constructTemplates x other parse logDefault s p q =
      if parse b!"resources/templates/*.html" = none then .ends else .made := by
  unfold constructTemplates Res.setDefaults
  simp only [if_true]
  cases h : parse b!"resources/templates/*.html" with
  | none => simp
  | some t =>
    simp only [reduceCtorEq, if_false]
    have hf : ¬ TemplatesFail parse ((s.setRes q ⟨b!"resources/templates/*.html", b!"./resources/assets", b!"assets", some t⟩).setCfg p { resources := some q }) p := by
      rintro ⟨q', t', h1, h2, _⟩
      simp [Store.setCfg, Store.setRes] at h1 h2
      subst h1
      simp at h2
    have hpat : ∀ t', AssetsPattern ((s.setRes q ⟨b!"resources/templates/*.html", b!"./resources/assets", b!"assets", some t⟩).setCfg p { resources := some q }) p t' →
        t' = b!"/assets/**" := by
      intro t' ht
      cases ht with
      | root h1 h2 h3 =>
        simp [Store.setCfg, Store.setRes] at h1 h3
        subst h1
        simp at h3
        rw [← setting_unique (Setting.given _ (by decide)) h3]; rfl
      | below h1 h2 hne h3 =>
        simp [Store.setCfg, Store.setRes] at h2
        exact absurd (setting_unique h2 .default) hne
    refine ((c120_exact x other parse logDefault _ p ?_).2.2).2 ⟨hf, ?_⟩
    · intro t' ht
      rw [hpat t' ht]; decide
    · intro t' ht
      rw [hpat t' ht]
      have hok : ∃ pp, parsePattern x false b!"/assets/**" = .ok pp := ⟨_, rfl⟩
      have := (c05_accepts_iff x false b!"/assets/**").1 (.inl hok)
      rcases this with h | h
      · exact absurd h (by decide)
      · simpa [Store.setCfg] using h

/-- C120 for `NewMuxHandlerWithDefaultConfig`: there is nothing to go wrong. -/
theorem c120_default_partial (x : Ext) (other : Str → Str) (parse : Str → Option T) (logDefault : L) (s : Store T L) (p : Nat) :
    constructDefault x other parse logDefault s p = .made := by
  have hn : ∀ t, ¬ AssetsPattern (s.setCfg p {}) p t := by
    intro t ht
    cases ht with
    | root h => simp [Store.setCfg] at h
    | below h => simp [Store.setCfg] at h
  refine ((c120_exact x other parse logDefault _ p (fun t ht => absurd ht (hn t))).2.2).2 ⟨?_, fun t ht => absurd ht (hn t)⟩
  rintro ⟨q, t, h, _⟩
  simp [Store.setCfg] at h

end Gofre.Props
