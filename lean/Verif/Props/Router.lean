import Verif.Props.Route

/-!
# Theorems about the router

Properties C12, C25, C26.
-/

namespace Gofre.Props
open Gofre.Path Gofre.Spec

variable {x : Ext} {other : Str → Str} {ci : Bool}

/-- The routes registered under a method name. -/
def routesFor (other : Str → Str) (es : List Route) (M : Str) : List Route := es.filter fun e => toUpper other e.method = M

/-- What a router built from `es` holds. -/
theorem built_matchers {es : List Route} {r : Router} (h : Built x other sortSiblings ci es r) :
    r.ci = ci ∧ ∀ M,
      (r.matchers M = none → routesFor other es M = []) ∧
      ∀ m, r.matchers M = some m → ∃ ps, Registered x ci sortSiblings ps m ∧
        All2 (fun (e : Route) p => ∃ p0, parsePattern x ci e.pat = .ok p0 ∧ p = { p0 with attachment := e.handler }) (routesFor other es M) ps := by
  have reg : ∀ {es : List Route} {r : Router} {M : Str}, (∀ M,
      (r.matchers M = none → routesFor other es M = []) ∧
      ∀ m, r.matchers M = some m → ∃ ps, Registered x ci sortSiblings ps m ∧
        All2 (fun (e : Route) p => ∃ p0, parsePattern x ci e.pat = .ok p0 ∧ p = { p0 with attachment := e.handler }) (routesFor other es M) ps) →
      ∃ ps, Registered x ci sortSiblings ps ((r.matchers M).getD {}) ∧
        All2 (fun (e : Route) p => ∃ p0, parsePattern x ci e.pat = .ok p0 ∧ p = { p0 with attachment := e.handler }) (routesFor other es M) ps := by
    intro es r M h
    cases hm : r.matchers M with
    | none => rw [(h M).1 hm]; exact ⟨[], .new, .nil⟩
    | some m => exact (h M).2 m hm
  induction h with
  | new => exact ⟨rfl, fun M => ⟨fun _ => rfl, fun m hm => by cases hm⟩⟩
  | @returned es r r' e _ hh ih =>
    obtain ⟨h1, h2⟩ := ih
    unfold handle at hh
    rw [h1] at hh
    cases hp : parsePattern x ci e.pat with
    | ok p =>
      rw [hp] at hh
      simp only at hh
      obtain ⟨ps, h3, h4⟩ := reg (M := toUpper other e.method) h2
      cases ha : addPattern x ci sortSiblings ((r.matchers (toUpper other e.method)).getD {}) { p with attachment := e.handler } with
      | mk m' err =>
        rw [ha] at hh
        cases err with
        | true => simp at hh
        | false =>
          simp only [Bool.false_eq_true, if_false, HandleRes.returned.injEq] at hh
          subst hh
          refine ⟨rfl, fun M => ?_⟩
          by_cases hM : M = toUpper other e.method
          · subst hM
            refine ⟨fun h => by simp at h, fun m hm => ?_⟩
            simp only [if_true, Option.some.injEq] at hm
            subst hm
            refine ⟨_, .added e.pat e.handler h3 hp ha, ?_⟩
            rw [show routesFor other (e :: es) (toUpper other e.method) = e :: routesFor other es (toUpper other e.method) by simp [routesFor]]
            exact .cons ⟨p, hp, rfl⟩ h4
          · have : routesFor other (e :: es) M = routesFor other es M := by
              simp [routesFor, Ne.symm hM]
            rw [this]
            simpa [hM] using h2 M
    | error => rw [hp] at hh; cases hh
    | panic => rw [hp] at hh; cases hh
    | hangs => rw [hp] at hh; cases hh
  | @panicked es r r' e _ hh ih =>
    obtain ⟨h1, h2⟩ := ih
    unfold handle at hh
    rw [h1] at hh
    cases hp : parsePattern x ci e.pat with
    | ok p =>
      rw [hp] at hh
      simp only at hh
      obtain ⟨ps, h3, h4⟩ := reg (M := toUpper other e.method) h2
      cases ha : addPattern x ci sortSiblings ((r.matchers (toUpper other e.method)).getD {}) { p with attachment := e.handler } with
      | mk m' err =>
        rw [ha] at hh
        cases err with
        | false => simp at hh
        | true =>
          simp only [if_true, HandleRes.panicked.injEq] at hh
          subst hh
          refine ⟨rfl, fun M => ?_⟩
          by_cases hM : M = toUpper other e.method
          · subst hM
            refine ⟨fun h => by simp at h, fun m hm => ?_⟩
            simp only [if_true, Option.some.injEq] at hm
            subst hm
            exact ⟨_, .refused e.pat e.handler h3 hp ha, h4⟩
          · simpa [hM] using h2 M
    | error => rw [hp] at hh; simp at hh; subst hh; exact ⟨h1, h2⟩
    | panic => rw [hp] at hh; simp at hh; subst hh; exact ⟨h1, h2⟩
    | hangs => rw [hp] at hh; cases hh

/-! ### C12 -/

/-- A router for examples: `GET` routes of the list (last one first) with the example library. -/
def router0 (l : List (Str × Nat)) : Option Router :=
  match l with
  | [] => some (newRouter false)
  | (pat, h) :: l =>
    match router0 l with
    | none => none
    | some r =>
      match handle plainExt id sortSiblings r b!"GET" pat h with
      | .returned r' => some r'
      | _ => none

theorem router0_built : ∀ {l : List (Str × Nat)} {r : Router}, router0 l = some r →
    Built plainExt id sortSiblings false (l.map fun e => ⟨b!"GET", e.1, e.2⟩) r := by
  intro l
  induction l with
  | nil => intro r h; simp [router0] at h; subst h; exact .new
  | cons e l ih =>
    intro r h
    simp only [router0] at h
    split at h
    · cases h
    · rename_i r0 h0
      split at h
      · rename_i r' hr
        simp at h
        subst h
        exact .returned ⟨b!"GET", e.1, e.2⟩ (ih h0) hr
      · cases h

/-- The events of a `GET` request on such a router. -/
def serve0 (l : List (Str × Nat)) (behave : Nat → Behaviour) (path : Str) (fuel : Nat) : Option (List Event) :=
  match router0 l with
  | none => none
  | some r => serveHTTP plainExt id r behave b!"GET" path freshBuf fuel

theorem serve0_spec {l : List (Str × Nat)} {behave : Nat → Behaviour} {path : Str} {fuel : Nat} {evs : List Event}
    (h : serve0 l behave path fuel = some evs) :
    ∃ r, Built plainExt id sortSiblings false (l.map fun e => ⟨b!"GET", e.1, e.2⟩) r ∧
      serveHTTP plainExt id r behave b!"GET" path freshBuf fuel = some evs := by
  unfold serve0 at h
  split at h
  · cases h
  · rename_i r hr
    exact ⟨r, router0_built hr, h⟩

/-- C12 fails: with `/` registered, a path of 20 segments is answered by that handler. -/
theorem c12_violated : ∃ es r fuel, Built plainExt id sortSiblings false es r ∧
    serveHTTP plainExt id r (fun _ => .responds false) b!"GET" b!"/a/b/c/d/e/f/g/h/i/j/k/l/m/n/o/p/q/r/s/t" freshBuf fuel =
      some [.ran 7, .wrote 7] := by
  obtain ⟨r, h1, h2⟩ := serve0_spec (l := [(b!"/", 7)]) (behave := fun _ => .responds false)
    (path := b!"/a/b/c/d/e/f/g/h/i/j/k/l/m/n/o/p/q/r/s/t") (fuel := 5) (evs := [.ran 7, .wrote 7]) (by decide +kernel)
  exact ⟨_, r, 5, h1, h2⟩

/-- The answer to a request. -/
theorem serve_answer {r : Router} (behave : Nat → Behaviour) (method path : Str) {buf : List USeg} (hb : buf.length = 19) (fuel : Nat) :
    serveHTTP x other r behave method path buf fuel =
      match r.matchers (toUpper other method) with
      | none => some [.status 404]
      | some m => (lookup x r.ci m path buf fuel).map (finish behave) := by
  obtain ⟨segs, h1, _⟩ := c11_in_bounds path buf hb
  simp only [serveHTTP, lookup, h1]
  cases r.matchers (toUpper other method) <;> rfl

theorem parse_segments_ne_nil {pat : Str} {p : Pattern} (h : parsePattern x ci pat = .ok p) (hne : pat ≠ b!"/") (hlen : (pieces pat).length < 256) :
    p.segments ≠ [] := by
  intro hs
  obtain ⟨h1, _⟩ := c05_segments x ci pat p h hne hlen
  obtain ⟨body, rfl, hb⟩ := h1.slashed
  have h2 := h1.spelled
  rw [hs] at h2
  generalize hps : pieces (slash :: body) = l at h2
  cases h2
  have := splitOn_ne_nil slash body
  by_cases hl : (splitOn slash body).getLast? = some []
  · have hps : (splitOn slash body).dropLast = [] := by rw [← hps]; exact (if_pos hl).symm
    have hj := joinWith_splitOn slash body
    have he : splitOn slash body = [[]] := by
      have := List.dropLast_concat_getLast (splitOn_ne_nil slash body)
      rw [hps] at this
      rw [List.getLast?_eq_some_getLast (splitOn_ne_nil slash body)] at hl
      simp only [Option.some.injEq] at hl
      rw [hl] at this
      exact this.symm
    rw [he] at hj
    exact hb hj.symm
  · exact this (by rw [← hps]; exact (if_neg hl).symm)

/-- C12: a path that overflows the limit gets 404 and runs no handler, unless `/` is registered for
the method. -/
theorem c12_overlong_partial {es : List Route} {r : Router} (hr : Built x other sortSiblings ci es r)
    (behave : Nat → Behaviour) (method path : Str) {buf : List USeg} (hb : buf.length = 19) (hf : ¬ Fits path)
    (hroot : ∀ e ∈ es, toUpper other e.method = toUpper other method → e.pat ≠ b!"/") (hsmall : ∀ e ∈ es, (pieces e.pat).length < 256) :
    ∃ f, ∀ g, f ≤ g → serveHTTP x other r behave method path buf g = some [.status 404] := by
  obtain ⟨hci, hm⟩ := built_matchers hr
  simp only [serve_answer behave method path hb]
  cases h : r.matchers (toUpper other method) with
  | none => exact ⟨0, fun g _ => rfl⟩
  | some m =>
    obtain ⟨ps, h1, h2⟩ := (hm _).2 m h
    obtain ⟨f, h3⟩ := lookup_over x ci m hb hf
    refine ⟨f, fun g hg => ?_⟩
    rw [hci]
    simp only
    rw [h3 g hg]
    have : m.root = none := by
      cases hro : m.root with
      | none => rfl
      | some p =>
        obtain ⟨hp1, hp2⟩ := (holds sortSiblings_perm h1).root p hro
        obtain ⟨e, he, p0, he1, he2⟩ := h2.mem_right hp1
        have hee : e ∈ es ∧ toUpper other e.method = toUpper other method := by simpa [routesFor] using he
        refine absurd ?_ (hroot e hee.1 hee.2)
        apply Classical.byContradiction
        intro hne
        have hs : p0.segments = [] := by rw [he2] at hp2; exact hp2
        exact parse_segments_ne_nil he1 hne (hsmall e hee.1) hs
    simp [answer, this, tryC_nil, Res.toM, finish]

/-- 20 segments, and 20 segments of which one is taken back. -/
example : ¬ Fits b!"/a/b/c/d/e/f/g/h/i/j/k/l/m/n/o/p/q/r/s/t" ∧ ¬ Fits b!"/a/b/c/d/e/f/g/h/i/j/k/l/m/n/o/p/q/r/s/t/.." := by
  constructor
  · intro h; have := h _ (List.prefix_refl _); revert this; decide +kernel
  · intro h; have := h (afterSlash b!"/a/b/c/d/e/f/g/h/i/j/k/l/m/n/o/p/q/r/s/t") (by decide +kernel); revert this; decide +kernel

/-! ### C25 -/

theorem upper_eq_iff {a b : UInt8} (ha : a < 128) (hb : b < 128) : Path.upperByte a = Path.upperByte b ↔ sameLetter true a b := by
  have hall : ∀ a : Fin 128, ∀ b : Fin 128, Path.upperByte (UInt8.ofNat a.1) = Path.upperByte (UInt8.ofNat b.1) ↔
      (a.1 = b.1 ∨ ((97 ≤ a.1 ∧ a.1 ≤ 122) ∧ b.1 + 32 = a.1) ∨ ((97 ≤ b.1 ∧ b.1 ≤ 122) ∧ a.1 + 32 = b.1)) := by decide +kernel
  have h1 : a.toNat < 128 := by simpa [UInt8.lt_iff_toNat_lt] using ha
  have h2 : b.toNat < 128 := by simpa [UInt8.lt_iff_toNat_lt] using hb
  have := hall ⟨a.toNat, h1⟩ ⟨b.toNat, h2⟩
  simp only [UInt8.ofNat_toNat] at this
  rw [this]
  unfold sameLetter isLowerLetter
  rw [← UInt8.toNat_inj]
  constructor
  · rintro (h | h | h)
    · exact .inl h
    · exact .inr ⟨rfl, .inl ⟨.inl h.1, h.2⟩⟩
    · exact .inr ⟨rfl, .inr ⟨.inl h.1, h.2⟩⟩
  · rintro (h | ⟨_, h | h⟩)
    · exact .inl h
    · right; left; exact ⟨by omega, h.2⟩
    · right; right; exact ⟨by omega, h.2⟩

theorem toUpper_eq_iff {a b : Str} (ha : Ascii a) (hb : Ascii b) : toUpper other a = toUpper other b ↔ SameMethod a b := by
  have hu : ∀ s : Str, Ascii s → toUpper other s = s.map Path.upperByte := by
    intro s hs
    unfold toUpper
    rw [if_pos (by simpa [Ascii] using hs)]
  rw [hu a ha, hu b hb]
  unfold SameMethod
  clear hu
  induction a generalizing b with
  | nil =>
    cases b with
    | nil => simp; exact .nil
    | cons d b => simp; intro h; cases h
  | cons c a ih =>
    cases b with
    | nil => simp; intro h; cases h
    | cons d b =>
      simp only [List.map_cons, List.cons.injEq]
      have hi := ih (fun e he => ha e (by simp [he])) (b := b) (fun e he => hb e (by simp [he]))
      rw [upper_eq_iff (ha c (by simp)) (hb d (by simp))]
      constructor
      · rintro ⟨h1, h2⟩; exact .cons h1 (hi.1 h2)
      · intro h; cases h with
        | cons h1 h2 => exact ⟨h1, hi.2 h2⟩

/-- C25: a call to `Handle`, successful or not, does not change how requests with another method
are answered. -/
theorem c25_isolated (r : Router) (method pat : Str) (h : Nat) (r' : Router)
    (hh : handle x other sortSiblings r method pat h = .returned r' ∨ handle x other sortSiblings r method pat h = .panicked r')
    (method' : Str) (ha : Ascii method) (ha' : Ascii method') (hne : ¬ SameMethod method method') :
    ∀ (behave : Nat → Behaviour) (path : Str) (buf : List USeg) (fuel : Nat),
      serveHTTP x other r' behave method' path buf fuel = serveHTTP x other r behave method' path buf fuel := by
  have hne : toUpper other method' ≠ toUpper other method := fun e => hne ((toUpper_eq_iff ha ha').1 e.symm)
  intro behave path buf fuel
  have key : r'.ci = r.ci ∧ r'.matchers (toUpper other method') = r.matchers (toUpper other method') := by
    unfold handle at hh
    split at hh
    · rcases hh with hh | hh <;> simp at hh; subst hh; exact ⟨rfl, rfl⟩
    · rcases hh with hh | hh <;> simp at hh; subst hh; exact ⟨rfl, rfl⟩
    · rcases hh with hh | hh <;> cases hh
    · simp only at hh
      split at hh <;> rcases hh with hh | hh <;> simp at hh <;> subst hh <;> exact ⟨rfl, by simp [hne]⟩
  simp only [serveHTTP, key.1, key.2]

/-- C25: the case of the letters of a method does not matter, neither in requests nor when
registering. -/
theorem c25_case_insensitive (r : Router) (method method' : Str) (ha : Ascii method) (ha' : Ascii method') (hs : SameMethod method method') :
    (∀ (behave : Nat → Behaviour) (path : Str) (buf : List USeg) (fuel : Nat),
      serveHTTP x other r behave method path buf fuel = serveHTTP x other r behave method' path buf fuel) ∧
    ∀ pat h, handle x other sortSiblings r method pat h = handle x other sortSiblings r method' pat h := by
  have he := (toUpper_eq_iff (other := other) ha ha').2 hs
  exact ⟨fun _ _ _ _ => by simp only [serveHTTP, he], fun _ _ => by simp only [handle, he]⟩

example : SameMethod b!"geT" b!"GEt" ∧ ¬ SameMethod b!"GET" b!"PUT" ∧ Ascii b!"geT" := by
  refine ⟨(toUpper_eq_iff (other := id) ?_ ?_).1 (by decide), fun h => ?_, ?_⟩
  · simp only [Ascii]; decide
  · simp only [Ascii]; decide
  · have := (toUpper_eq_iff (other := id) (by simp only [Ascii]; decide) (by simp only [Ascii]; decide)).2 h
    revert this; decide
  · simp only [Ascii]; decide

/-! ### C26 -/

/-- C26: every request is answered; either matching crashed, or the answer is 404 and no handler ran,
or exactly one handler ran, once, registered with the same method, and what follows depends on
its result. -/
theorem c26_dispatch_partial {es : List Route} {r : Router} (hr : Built x other sortSiblings ci es r)
    (behave : Nat → Behaviour) (method path : Str) {buf : List USeg} (hb : buf.length = 19) :
    ∃ f evs, (∀ g, f ≤ g → serveHTTP x other r behave method path buf g = some evs) ∧
      (evs = [.panic] ∨ evs = [.status 404] ∨
        ∃ e ∈ es, toUpper other e.method = toUpper other method ∧ ∃ rest, evs = .ran e.handler :: rest ∧ AfterRun e.handler (behave e.handler) rest) := by
  obtain ⟨hci, hm⟩ := built_matchers hr
  simp only [serve_answer behave method path hb]
  cases h : r.matchers (toUpper other method) with
  | none => exact ⟨0, [.status 404], fun g _ => rfl, .inr (.inl rfl)⟩
  | some m =>
    obtain ⟨ps, h1, h2⟩ := (hm _).2 m h
    obtain ⟨segs, -, f, h3⟩ := lookup_any x ci m path buf hb
    refine ⟨f, finish behave (answer (matchUrl x ci path) m segs), fun g hg => by rw [hci]; simp only; rw [h3 g hg]; rfl, ?_⟩
    cases ha : answer (matchUrl x ci path) m segs with
    | panic => exact .inl rfl
    | none => exact .inr (.inl rfl)
    | found p labels =>
      right; right
      have hp : p ∈ ps := by
        have hh := holds sortSiblings_perm h1
        by_cases hroot : m.root = some p
        · exact (hh.root p hroot).1
        · have h' : (tryC (matchUrl x ci path) 0 m.kids (m.kids.length % 65536) segs).toM = .found p labels := (answer_cases ha).resolve_left hroot
          cases ht : tryC (matchUrl x ci path) 0 m.kids (m.kids.length % 65536) segs with
          | found q l' =>
            rw [ht] at h'
            simp only [Res.toM, MRes.found.injEq] at h'
            obtain ⟨rfl, rfl⟩ := h'
            obtain ⟨l, bs, h1, _, _⟩ := tryC_sound (fun _ _ _ => matchUrl_kind) matchUrl_star _ m.kids (Nat.le_refl _) _ _ _ _ _ ht
            exact (hh.leaf l q h1).1
          | next => rw [ht] at h'; cases h'
          | stop => rw [ht] at h'; cases h'
          | abort => rw [ht] at h'; cases h'
          | panic => rw [ht] at h'; cases h'
      obtain ⟨e, he, p0, _, hpe⟩ := h2.mem_right hp
      have hee : e ∈ es ∧ toUpper other e.method = toUpper other method := by simpa [routesFor] using he
      have hatt : p.attachment = e.handler := by rw [hpe]
      refine ⟨e, hee.1, hee.2, _, by rw [← hatt]; rfl, ?_⟩
      rw [hatt]
      cases behave e.handler with
      | fails => exact .failed
      | panics => exact .panicked
      | noResponse => exact .nothing
      | responds b => cases b <;> constructor

theorem registered_nil {m : Matcher} (h : Registered x ci sortSiblings [] m) : m = {} := by
  generalize hps : ([] : List Pattern) = ps at h
  induction h with
  | new => rfl
  | added => cases hps
  | refused raw a _ _ ha ih =>
    have := ih hps
    subst this
    unfold addPattern at ha
    split at ha
    · simp at ha
    · rw [Path.insert] at ha; simp [findShare] at ha

/-- C26: without a route for the method, 404 and no handler. -/
theorem c26_no_method {es : List Route} {r : Router} (hr : Built x other sortSiblings ci es r)
    (behave : Nat → Behaviour) (method path : Str) {buf : List USeg} (hb : buf.length = 19)
    (hno : ∀ e ∈ es, toUpper other e.method ≠ toUpper other method) :
    ∃ f, ∀ g, f ≤ g → serveHTTP x other r behave method path buf g = some [.status 404] := by
  obtain ⟨hci, hm⟩ := built_matchers hr
  simp only [serve_answer behave method path hb]
  cases h : r.matchers (toUpper other method) with
  | none => exact ⟨0, fun g _ => rfl⟩
  | some m =>
    obtain ⟨ps, h1, h2⟩ := (hm _).2 m h
    have h0 : routesFor other es (toUpper other method) = [] := by simpa [routesFor] using hno
    rw [h0] at h2
    cases h2
    have := registered_nil h1
    subst this
    obtain ⟨segs, -, f, h3⟩ := lookup_any x ci {} path buf hb
    refine ⟨f, fun g hg => ?_⟩
    rw [hci]
    simp only
    rw [h3 g hg]
    have : answer (matchUrl x ci path) {} segs = .none := by
      cases segs <;> simp [answer, tryC, Res.toM]
    rw [this]
    rfl

/-- C26: when none of the routes for the method describes the path, no handler runs. -/
theorem c26_not_found_partial (hl : FoldLaws x.eqFold) {es : List Route} {r : Router} (hr : Built x other sortSiblings ci es r)
    (behave : Nat → Behaviour) (method path : Str) {buf : List USeg} (hb : buf.length = 19) (hlen : path.length ≤ 65535) (hf : Fits path)
    (hplain : ∀ e ∈ es, ∀ p, parsePattern x ci e.pat = .ok p → ∀ s ∈ p.segments, Plain ci s)
    (hno : ∀ e ∈ es, toUpper other e.method = toUpper other method → ∀ p, parsePattern x ci e.pat = .ok p →
      ¬ Describes x ci p.segments (segmentsOf path)) :
    ∃ f evs, (∀ g, f ≤ g → serveHTTP x other r behave method path buf g = some evs) ∧ (evs = [.panic] ∨ evs = [.status 404]) := by
  obtain ⟨hci, hm⟩ := built_matchers hr
  simp only [serve_answer behave method path hb]
  cases h : r.matchers (toUpper other method) with
  | none => exact ⟨0, [.status 404], fun g _ => rfl, .inr rfl⟩
  | some m =>
    obtain ⟨ps, h1, h2⟩ := (hm _).2 m h
    obtain ⟨f, h3⟩ := lookup_eq x ci m path buf hb hlen
    refine ⟨f, finish behave (answer (matchText x ci) m (requestOf path)), fun g hg => by rw [hci]; simp only; rw [h3 g hg]; rfl, ?_⟩
    cases ha : answer (matchText x ci) m (requestOf path) with
    | panic => exact .inl rfl
    | none => exact .inr rfl
    | found p labels =>
      exfalso
      have hpl : ∀ p ∈ ps, ∀ s ∈ p.segments, Plain ci s := by
        intro q hq s hs
        obtain ⟨e, he, p0, he1, rfl⟩ := h2.mem_right hq
        exact hplain e (List.mem_filter.1 he).1 p0 he1 s hs
      obtain ⟨h4, bs, h5, _⟩ := found_layout hl (holds sortSiblings_perm h1) (registered_piece h1) hpl ha
      obtain ⟨e, he, p0, he1, rfl⟩ := h2.mem_right h4
      have hee : e ∈ es ∧ toUpper other e.method = toUpper other method := by simpa [routesFor] using he
      rw [requestOf_fits hf] at h5
      exact hno e hee.1 hee.2 p0 he1 ⟨bs, h5⟩

/-- A failing handler, a response that cannot be written, a path without route. -/
example : serve0 [(b!"/a/{x}", 2), (b!"/a", 1)] (fun h => if h = 1 then .fails else .responds true) b!"/a" 9 =
      some [.ran 1, .logged, .status 500] ∧
    serve0 [(b!"/a/{x}", 2), (b!"/a", 1)] (fun h => if h = 1 then .fails else .responds true) b!"/a/q" 9 =
      some [.ran 2, .wrote 2, .logged] ∧
    serve0 [(b!"/a/{x}", 2), (b!"/a", 1)] (fun h => if h = 1 then .fails else .responds true) b!"/b" 9 = some [.status 404] := by
  decide +kernel

end Gofre.Props
