import Verif.Model.Config

/-! # C99, C100: defaults of the configuration, and the copy of it -/

namespace Gofre.Spec
open Gofre.Config

/-- A text setting: what was given, or the default. -/
inductive Setting (default : Str) : Str → Str → Prop
  | given (v : Str) : v ≠ [] → Setting default v v
  | default : Setting default [] default

/-- A function or template: what was given, or the default. -/
inductive OptSetting {α : Type} (default : α) : Option α → Option α → Prop
  | given (v : α) : OptSetting default (some v) (some v)
  | default : OptSetting default none (some default)

/-- The second configuration is the first with the documented defaults (comments in `gofre.go:32-73`). -/
structure CfgDefaults {L : Type} (logDefault : L) (c c' : Cfg L) : Prop where
  ci : c'.ci = c.ci
  contextPath : Setting b!"/" c.contextPath c'.contextPath
  errLog : OptSetting logDefault c.errLog c'.errLog
  resources : c'.resources = c.resources

/-- The same for the resources; the default template is the one parsed from the files. -/
structure ResDefaults {T : Type} (parse : Str → Option T) (r r' : Res T) : Prop where
  templates : Setting b!"resources/templates/*.html" r.templates r'.templates
  assetsDir : Setting b!"./resources/assets" r.assetsDir r'.assetsDir
  assetsMapping : Setting b!"assets" r.assetsMapping r'.assetsMapping
  template : ∃ t, r'.template = some t ∧ (r.template = some t ∨ (r.template = none ∧ parse r'.templates = some t))

end Gofre.Spec

namespace Gofre.Props
open Gofre.Config Gofre.Spec
variable {T L : Type} {parse : Str → Option T} {logDefault : L} {s s' : Store T L} {p : Nat}

theorem setting_ite {d v : Str} : Setting d v (if v = [] then d else v) := by
  split
  · rename_i h; subst h; exact .default
  · rename_i h; exact .given v h

/-- The texts after `setDefaults`, and the template. -/
theorem res_defaults (r : Res T) : ∃ r' : Res T,
    (Setting b!"resources/templates/*.html" r.templates r'.templates ∧ Setting b!"./resources/assets" r.assetsDir r'.assetsDir ∧
      Setting b!"assets" r.assetsMapping r'.assetsMapping ∧ r'.template = r.template) ∧
    r.setDefaults parse = match r'.template with
      | some _ => (r', true)
      | none => match parse r'.templates with
        | none => (r', false)
        | some t => ({ r' with template := some t }, true) := by
  refine ⟨⟨if r.templates = [] then b!"resources/templates/*.html" else r.templates, if r.assetsDir = [] then b!"./resources/assets" else r.assetsDir,
    if r.assetsMapping = [] then b!"assets" else r.assetsMapping, r.template⟩, ⟨setting_ite, setting_ite, setting_ite, rfl⟩, ?_⟩
  obtain ⟨t, a, m, tm⟩ := r
  unfold Res.setDefaults
  by_cases h1 : t = [] <;> by_cases h2 : a = [] <;> by_cases h3 : m = [] <;> simp only [h1, h2, h3, if_true, if_false] <;> cases tm <;> rfl

/-- The `Config` after the first assignments. -/
theorem cfg_defaults (c : Cfg L) : ∃ c' : Cfg L, CfgDefaults logDefault c c' ∧ ∀ (s : Store T L) (p : Nat), s.cfgs p = c →
    setDefaults parse logDefault s p = match c.resources with
      | none => (s.setCfg p c', true)
      | some q => ((s.setCfg p c').setRes q ((s.ress q).setDefaults parse).1, ((s.ress q).setDefaults parse).2) := by
  refine ⟨⟨c.ci, if c.contextPath = [] then b!"/" else c.contextPath, c.resources, some (c.errLog.getD logDefault)⟩, ⟨rfl, setting_ite, ?_, rfl⟩, ?_⟩
  · cases h : c.errLog with
    | none => exact .default
    | some v => exact .given v
  · intro s p hc
    obtain ⟨ci, cp, rs, el⟩ := c
    unfold setDefaults
    rw [hc]
    by_cases h1 : cp = [] <;> cases el <;> cases rs <;> simp [h1, Store.setCfg]

/-- C99: what is configured is kept, what is left out gets its documented default, and nothing else in the program changes; the
router gets the same settings. -/
theorem c99_defaults {m : Made L} (h : newMuxHandler parse logDefault s p = (s', some m)) :
    CfgDefaults logDefault (s.cfgs p) (m.config s') ∧
    (∀ q, (s.cfgs p).resources = some q → ResDefaults parse (s.ress q) (s'.ress q)) ∧
    m.ci = (s.cfgs p).ci ∧ m.errLog = (m.config s').errLog ∧ m.executableTemplate s' = (s.cfgs p).resources.bind (fun q => (s'.ress q).template) ∧
    (∀ p', p' ≠ p → s'.cfgs p' = s.cfgs p') ∧ (∀ q', (s.cfgs p).resources ≠ some q' → s'.ress q' = s.ress q') := by
  obtain ⟨c', h1, h2⟩ := cfg_defaults (parse := parse) (T := T) (logDefault := logDefault) (s.cfgs p)
  have h3 := h2 s p rfl
  unfold newMuxHandler at h
  rw [h3] at h
  cases hr : (s.cfgs p).resources with
  | none =>
    rw [hr] at h
    simp only [Prod.mk.injEq, Option.some.injEq] at h
    obtain ⟨rfl, rfl⟩ := h
    refine ⟨by simpa [Made.config, Store.setCfg] using h1, by simp, ?_, rfl, ?_, ?_, ?_⟩
    · simp [Store.setCfg, h1.ci]
    · simp [Made.executableTemplate, Store.setCfg, h1.resources, hr]
    · intro p' hp; simp [Store.setCfg, hp]
    · intro q' _; rfl
  | some q =>
    rw [hr] at h
    obtain ⟨r', ⟨g1, g2, g3, g4⟩, hd⟩ := res_defaults (parse := parse) (s.ress q)
    cases hok : ((s.ress q).setDefaults parse).2 with
    | false => simp only [hok] at h; simp at h
    | true =>
      simp only [hok] at h
      simp only [Prod.mk.injEq, Option.some.injEq] at h
      obtain ⟨rfl, rfl⟩ := h
      have hres : ResDefaults parse (s.ress q) ((s.ress q).setDefaults parse).1 := by
        rw [hd] at hok ⊢
        cases ht : r'.template with
        | some t => exact ⟨g1, g2, g3, t, ht, .inl (g4 ▸ ht)⟩
        | none =>
          rw [ht] at hok
          cases hp : parse r'.templates with
          | none => rw [hp] at hok; simp at hok
          | some t => exact ⟨g1, g2, g3, t, rfl, .inr ⟨g4 ▸ ht, hp⟩⟩
      refine ⟨by simpa [Made.config, Store.setCfg, Store.setRes] using h1, ?_, ?_, rfl, ?_, ?_, ?_⟩
      · intro q' hq
        obtain rfl := Option.some.inj hq
        simpa [Store.setRes, Store.setCfg] using hres
      · simp [Store.setCfg, Store.setRes, h1.ci]
      · simp [Made.executableTemplate, Store.setCfg, Store.setRes, h1.resources, hr]
      · intro p' hp; simp [Store.setCfg, Store.setRes, hp]
      · intro q' hq
        have : q' ≠ q := fun e => hq (by rw [e])
        simp [Store.setCfg, Store.setRes, this]

/-- C99: an error is returned exactly when there are resources without template and the files cannot be parsed. -/
theorem c99_error : (newMuxHandler parse logDefault s p).2 = none ↔
    ∃ q t, (s.cfgs p).resources = some q ∧ (s.ress q).template = none ∧ Setting b!"resources/templates/*.html" (s.ress q).templates t ∧ parse t = none := by
  obtain ⟨c', h1, h2⟩ := cfg_defaults (parse := parse) (T := T) (logDefault := logDefault) (s.cfgs p)
  have h3 := h2 s p rfl
  unfold newMuxHandler
  rw [h3]
  cases hr : (s.cfgs p).resources with
  | none => simp
  | some q =>
    obtain ⟨r', ⟨g1, g2, g3, g4⟩, hd⟩ := res_defaults (parse := parse) (s.ress q)
    have uniq : ∀ t, Setting b!"resources/templates/*.html" (s.ress q).templates t → t = r'.templates := by
      intro t ht
      generalize r'.templates = b at g1
      generalize (s.ress q).templates = a at ht g1
      cases ht with
      | given _ hv => cases g1 with
        | given => rfl
        | default => exact absurd rfl hv
      | default => cases g1 with
        | given _ h => exact absurd rfl h
        | default => rfl
    constructor
    · intro h
      refine ⟨q, r'.templates, rfl, ?_⟩
      simp only [hd] at h
      cases ht : r'.template with
      | some t => rw [ht] at h; simp at h
      | none =>
        rw [ht] at h
        cases hp : parse r'.templates with
        | none => exact ⟨g4 ▸ ht, g1, rfl⟩
        | some t => rw [hp] at h; simp at h
    · rintro ⟨q', t, hq, ht, hs, hp⟩
      obtain rfl := Option.some.inj hq
      rw [uniq t hs] at hp
      simp only [hd, g4, ht, hp]

/-- C99: a configuration can be used for several muxes; from the second on nothing changes any more. -/
theorem c99_again {m : Made L} (h : newMuxHandler parse logDefault s p = (s', some m)) (parse' : Str → Option T) (logDefault' : L) :
    newMuxHandler parse' logDefault' s' p = (s', some m) := by
  obtain ⟨h1, h2, h3, h4, _, _, _⟩ := c99_defaults h
  have hw : m.webConfig = p := by
    unfold newMuxHandler at h
    split at h
    · simp at h
    · simp only [Prod.mk.injEq, Option.some.injEq] at h
      rw [← h.2]
  have ha : m.assets = (s'.cfgs p).resources.map fun q => ((s'.cfgs p).contextPath, (s'.ress q).assetsMapping, (s'.ress q).assetsDir) := by
    unfold newMuxHandler at h
    split at h
    · simp at h
    · simp only [Prod.mk.injEq, Option.some.injEq] at h
      obtain ⟨rfl, rfl⟩ := h
      rfl
  simp only [Made.config, hw] at h1 h4
  have hcp : (s'.cfgs p).contextPath ≠ [] := by
    have := h1.contextPath
    generalize (s.cfgs p).contextPath = a at this
    generalize (s'.cfgs p).contextPath = b at this
    cases this with
    | given _ hv => exact hv
    | default => decide
  have hel : (s'.cfgs p).errLog ≠ none := by
    have := h1.errLog
    generalize (s.cfgs p).errLog = a at this
    generalize (s'.cfgs p).errLog = b at this
    cases this <;> simp
  have hset : s'.setCfg p (s'.cfgs p) = s' := by
    cases s'
    simp only [Store.setCfg, Store.mk.injEq, and_true]
    funext q
    split
    · rename_i e; rw [e]
    · rfl
  have hmade : (⟨(s'.cfgs p).ci, (s'.cfgs p).errLog, (s'.cfgs p).resources.map fun q => ((s'.cfgs p).contextPath, (s'.ress q).assetsMapping, (s'.ress q).assetsDir), p⟩ : Made L) = m := by
    obtain ⟨a, b, d, e⟩ := m
    simp only [Made.mk.injEq] at *
    exact ⟨by rw [h3, h1.ci], h4.symm, ha.symm, hw.symm⟩
  have hdef : setDefaults parse' logDefault' s' p = (s', true) := by
    unfold setDefaults
    simp only [if_neg hcp]
    rw [if_neg (by simpa using hel), hset]
    cases hr : (s'.cfgs p).resources with
    | none => rfl
    | some q =>
      have hr' := h2 q (by rw [← h1.resources]; exact hr)
      have hne : ∀ {d a b : Str}, d ≠ [] → Setting d a b → b ≠ [] := by
        intro d a b hd hs
        cases hs with
        | given _ hv => exact hv
        | default => exact hd
      obtain ⟨t, ht, _⟩ := hr'.template
      have hres : (s'.ress q).setDefaults parse' = (s'.ress q, true) := by
        unfold Res.setDefaults
        simp only [if_neg (hne (by decide) hr'.templates), if_neg (hne (by decide) hr'.assetsDir), if_neg (hne (by decide) hr'.assetsMapping), ht]
      simp only [hres]
      congr 1
      cases s'
      simp only [Store.setRes, Store.mk.injEq, true_and]
      funext q'
      split
      · rename_i e; rw [e]
      · rfl
  unfold newMuxHandler
  rw [hdef]
  simp only [hmade]

/-- A store with one configuration with resources, of which the directory of the assets is given. -/
def oneStore : Store Nat Nat := ⟨fun _ => { resources := some 0 }, fun _ => { assetsDir := b!"/srv" }⟩

example : ∃ s' m, newMuxHandler (fun t => if t = b!"resources/templates/*.html" then some 7 else none) 1 oneStore 0 = (s', some m) ∧
    (m.config s').contextPath = b!"/" ∧ m.executableTemplate s' = some 7 ∧ m.assets = some (b!"/", b!"assets", b!"/srv") := ⟨_, _, rfl, rfl, rfl, rfl⟩

example : (newMuxHandler (fun _ => none) 1 oneStore 0).2 = none := c99_error.2 ⟨0, _, rfl, rfl, .default, rfl⟩

/-- C100 fails for the resources: `Config()` of every mux with resources and its `ExecutableTemplate()` change when the template
in the returned value is replaced. -/
theorem c100_violated_never (m : Made L) (s : Store T L) {q : Nat} (hq : (m.config s).resources = some q) (t : T) :
    ∃ f, m.executableTemplate (applyChange (m.config s, s) (.resources f)).2 = some t := by
  refine ⟨fun r => { r with template := some t }, ?_⟩
  simp only [Made.config] at hq
  simp [applyChange, Made.config, Made.executableTemplate, hq, Store.setRes]

/-- Concretely: the mux loses its template. -/
theorem c100_violated : ∃ (s : Store Nat Nat) (m : Made Nat) (f : Res Nat → Res Nat), newMuxHandler (fun _ => some 7) 1 oneStore 0 = (s, some m) ∧
    m.executableTemplate s = some 7 ∧ m.executableTemplate (applyChange (m.config s, s) (.resources f)).2 = none :=
  ⟨_, _, fun r => { r with template := none }, rfl, rfl, rfl⟩

/-- C100 (configurations without resources): whatever is assigned to the returned value, the mux does not see it. -/
theorem c100_copy_partial (m : Made L) (s : Store T L) (hn : (m.config s).resources = none) (l : List (Change T L)) :
    m.config (l.foldl applyChange (m.config s, s)).2 = m.config s ∧ m.executableTemplate (l.foldl applyChange (m.config s, s)).2 = none := by
  have key : ∀ (l : List (Change T L)) (c : Cfg L) (s : Store T L), (l.foldl applyChange (c, s)).2.cfgs = s.cfgs := by
    intro l
    induction l with
    | nil => intro c s; rfl
    | cons x l ih =>
      intro c s
      rw [List.foldl_cons]
      cases x with
      | copy f => exact ih (f c) s
      | resources f =>
        cases hc : c.resources with
        | none =>
          rw [show applyChange (c, s) (.resources f) = (c, s) by simp only [applyChange, hc]]
          exact ih c s
        | some q =>
          rw [show applyChange (c, s) (.resources f) = (c, s.setRes q (f (s.ress q))) by simp only [applyChange, hc]]
          exact ih c _
  refine ⟨by simp only [Made.config, key], ?_⟩
  simp only [Made.executableTemplate, key]
  simp only [Made.config] at hn
  rw [hn]

/-- A store without resources. -/
def bareStore : Store Nat Nat := ⟨fun _ => {}, fun _ => {}⟩

example : (⟨false, none, none, 3⟩ : Made Nat).config ([Change.copy fun c => { c with contextPath := b!"/x", resources := some 0 },
    .resources fun r => { r with template := some 1 }].foldl applyChange ((⟨false, none, none, 3⟩ : Made Nat).config bareStore, bareStore)).2 = {} :=
  (c100_copy_partial ⟨false, none, none, 3⟩ bareStore rfl _).1

end Gofre.Props
