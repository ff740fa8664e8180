import Verif.Spec.Names
import Verif.Props.Shared

/-! # C140: every variable of a pattern can be read -/

namespace Gofre.Props
open Gofre.Path Gofre.Spec

theorem valueIn_first : ∀ {ss : List Segment} {bs : List (List Str)} {i : Nat} {name : Str} {b : List Str}, FirstNamed ss i name → bs[i]? = some b →
    valueIn name ss bs = b.head? := by
  intro ss
  induction ss with
  | nil => rintro bs i name b ⟨⟨s, h, _⟩, _⟩ _; simp at h
  | cons s ss ih =>
    rintro bs i name b ⟨⟨t, h1, h2, h3⟩, h4⟩ hb
    cases bs with
    | nil => simp at hb
    | cons b' bs =>
      rw [valueIn]
      cases i with
      | zero =>
        simp only [List.getElem?_cons_zero, Option.some.injEq] at h1 hb
        subst h1 hb
        rw [if_pos ⟨h2, h3⟩]
      | succ i =>
        rw [if_neg fun hc => h4 0 (by omega) s (by simp) hc.1 hc.2]
        exact ih ⟨⟨t, by simpa using h1, h2, h3⟩, fun j hj u hu => h4 (j + 1) (by omega) u (by simpa using hu)⟩ (by simpa using hb)

theorem valueIn_nobody : ∀ {ss : List Segment} {bs : List (List Str)} {name : Str}, (∀ s ∈ ss, IsVariable s → s.varName ≠ name) → valueIn name ss bs = none := by
  intro ss
  induction ss with
  | nil => intro bs name _; cases bs <;> rfl
  | cons s ss ih =>
    intro bs name h
    cases bs with
    | nil => rfl
    | cons b bs =>
      rw [valueIn, if_neg fun hc => h s (by simp) hc.1 hc.2]
      exact ih fun t ht => h t (by simp [ht])

/-- Some variable of a name is the first. -/
theorem first_exists {ss : List Segment} {name : Str} : ∀ {i : Nat} {s : Segment}, ss[i]? = some s → IsVariable s → s.varName = name →
    ∃ j, j ≤ i ∧ FirstNamed ss j name := by
  intro i
  induction i using Nat.strongRecOn with
  | _ i ih =>
    intro s h1 h2 h3
    by_cases hj : ∃ j, j < i ∧ ∃ t, ss[j]? = some t ∧ IsVariable t ∧ t.varName = name
    · obtain ⟨j, hj, t, h4, h5, h6⟩ := hj
      obtain ⟨k, hk, h7⟩ := ih j hj h4 h5 h6
      exact ⟨k, by omega, h7⟩
    · exact ⟨i, Nat.le_refl _, ⟨s, h1, h2, h3⟩, fun j hji t ht hv hn => hj ⟨j, hji, t, ht, hv, hn⟩⟩

theorem first_unique {ss : List Segment} {name : Str} {i j : Nat} (hi : FirstNamed ss i name) (hj : FirstNamed ss j name) : i = j := by
  obtain ⟨⟨s, h1, h2, h3⟩, h4⟩ := hi
  obtain ⟨⟨t, h5, h6, h7⟩, h8⟩ := hj
  rcases Nat.lt_trichotomy i j with h | h | h
  · exact absurd h3 (h8 i h s h1 h2)
  · exact h
  · exact absurd h7 (h4 j h t h5 h6)

/-- The part under a variable is one segment. -/
theorem under_variable {x : Ext} {ci : Bool} {ps : List Pattern} {ss ts : List Segment} {bs : List (List Str)} {us : List Str} (h1 : All2 (StandsFor x ci ps) ss ts)
    (h2 : Layout x ci ts us bs) {i : Nat} {s : Segment} (hs : ss[i]? = some s) (hv : IsVariable s) : ∃ v, bs[i]? = some [v] := by
  have hp := h2.parts
  clear h2
  induction h1 generalizing bs i with
  | nil => simp at hs
  | cons hst _ ih =>
    cases hp with
    | cons hb hp =>
      cases i with
      | zero =>
        simp only [List.getElem?_cons_zero, Option.some.injEq] at hs ⊢
        subst hs
        have hk : ∀ {k : MT}, k = .capture ∨ k = .constraint → k ≠ .multiple := by rintro k (rfl | rfl) <;> decide
        have := hb.1 (by
          rcases hst with rfl | ⟨_, h, _⟩
          · exact hk hv
          · rw [h]; exact hk hv)
        exact List.length_eq_one_iff.1 this
      | succ i =>
        simp only [List.getElem?_cons_succ] at hs ⊢
        exact ih hs hp

/-- C140, exactly: `PathVar` with a name gives what lies under the first variable of that name, and nothing if there is none; so a variable is read
by its name exactly if it is the first of that name, or the first happens to have the same text. -/
theorem c140_exact {x : Ext} {ci : Bool} {ps : List Pattern} {m : Matcher} (hr : Registered x ci sortSiblings ps m)
    {path : Str} {buf : List USeg} (hb : buf.length = 19) (hlen : path.length ≤ 65535) (hf : Fits path)
    {fuel : Nat} {p : Pattern} {labels : List MT} (h : lookup x ci m path buf fuel = some (.found p labels))
    (hpieces : (pieces p.raw).length < 256) :
    ∃ segs ts bs, parseURLPath path buf = some segs ∧ All2 (StandsFor x ci ps) p.segments ts ∧ Layout x ci ts (segmentsOf path) bs ∧
      (∀ name, (∀ s ∈ p.segments, IsVariable s → s.varName ≠ name) → pathVarText path p labels segs name = some []) ∧
      (∀ i name, FirstNamed p.segments i name → ∃ v, bs[i]? = some [v] ∧ pathVarText path p labels segs name = some v) ∧
      ∀ (i : Nat) s, p.segments[i]? = some s → IsVariable s → ∃ v, bs[i]? = some [v] ∧
        (pathVarText path p labels segs s.varName = some v ↔ ∃ j, j ≤ i ∧ FirstNamed p.segments j s.varName ∧ bs[j]? = some [v]) := by
  obtain ⟨segs, ts, bs, h1, h2, h3, h4⟩ := c15_stands hr hb hlen hf h hpieces
  have first : ∀ i name, FirstNamed p.segments i name → ∃ v, bs[i]? = some [v] ∧ pathVarText path p labels segs name = some v := by
    intro i name hfn
    obtain ⟨⟨s, hs, hv, hn⟩, _⟩ := id hfn
    obtain ⟨v, hbv⟩ := under_variable h2 h3 hs hv
    exact ⟨v, hbv, by rw [h4, valueIn_first hfn hbv]; rfl⟩
  refine ⟨segs, ts, bs, h1, h2, h3, fun name hn => by rw [h4, valueIn_nobody hn]; rfl, first, fun i s hs hv => ?_⟩
  obtain ⟨v, hbv⟩ := under_variable h2 h3 hs hv
  refine ⟨v, hbv, fun hp => ?_, ?_⟩
  · obtain ⟨j, hj, hfn⟩ := first_exists hs hv rfl
    obtain ⟨w, hw, hpw⟩ := first j _ hfn
    rw [hp, Option.some.injEq] at hpw
    subst hpw
    exact ⟨j, hj, hfn, hw⟩
  · rintro ⟨j, _, hfn, hw⟩
    obtain ⟨w, hw', hpw⟩ := first j _ hfn
    rw [hw, Option.some.injEq, List.cons.injEq] at hw'
    rw [hpw, hw'.1]

/-- C140 when no two variables of the pattern have the same name: each is read by its name. -/
theorem c140_read_partial {x : Ext} {ci : Bool} {ps : List Pattern} {m : Matcher} (hr : Registered x ci sortSiblings ps m)
    {path : Str} {buf : List USeg} (hb : buf.length = 19) (hlen : path.length ≤ 65535) (hf : Fits path)
    {fuel : Nat} {p : Pattern} {labels : List MT} (h : lookup x ci m path buf fuel = some (.found p labels))
    (hpieces : (pieces p.raw).length < 256)
    (hnames : ∀ (i j : Nat) s t, p.segments[i]? = some s → p.segments[j]? = some t → IsVariable s → IsVariable t → s.varName = t.varName → i = j) :
    ∃ segs ts bs, parseURLPath path buf = some segs ∧ All2 (StandsFor x ci ps) p.segments ts ∧ Layout x ci ts (segmentsOf path) bs ∧
      ∀ (i : Nat) s, p.segments[i]? = some s → IsVariable s → ∃ v, bs[i]? = some [v] ∧ pathVarText path p labels segs s.varName = some v := by
  obtain ⟨segs, ts, bs, h1, h2, h3, _, h4, _⟩ := c140_exact hr hb hlen hf h hpieces
  refine ⟨segs, ts, bs, h1, h2, h3, fun i s hs hv => h4 i _ ⟨⟨s, hs, hv, rfl⟩, fun j hj t ht hvt hn => ?_⟩⟩
  exact absurd (hnames j i t s ht hs hvt hv hn) (by omega)

/-- C140 fails: `/{a}/{a}` is accepted, and for the request `/x/y` no name gives `y`. -/
theorem c140_violated : ∃ ps m p labels segs, Registered plainExt false sortSiblings ps m ∧ p ∈ ps ∧ p.raw = b!"/{a}/{a}" ∧
    lookup plainExt false m b!"/x/y" freshBuf 10 = some (.found p labels) ∧ parseURLPath b!"/x/y" freshBuf = some segs ∧
    ∀ name, pathVarText b!"/x/y" p labels segs name ≠ some b!"y" := by
  obtain ⟨ps, m, h1, h2, h3⟩ := checked_spec (x := plainExt) (ci := false) (l := [(b!"/{a}/{a}", 1)])
    (f := fun ps => ps.contains (patOf plainExt false b!"/{a}/{a}" 1)) (by decide +kernel)
  have hl : lookup plainExt false m b!"/x/y" freshBuf 10 = some (.found (patOf plainExt false b!"/{a}/{a}" 1) [.capture, .capture]) :=
    (h3 _ _ _).symm.trans (by decide +kernel)
  have hseg : (patOf plainExt false b!"/{a}/{a}" 1).segments =
      [{ val := b!"{a}", kind := .capture, varName := b!"a" }, { val := b!"{a}", kind := .capture, varName := b!"a" }] := by decide +kernel
  have hraw : (patOf plainExt false b!"/{a}/{a}" 1).raw = b!"/{a}/{a}" := by decide +kernel
  have hfits : Fits b!"/x/y" := fits_of_peak _ (by decide)
  obtain ⟨segs, ts, bs, e1, e2, e3, e4, e5, _⟩ := c140_exact h1 (buf := freshBuf) (by decide) (by decide) hfits hl (by rw [hraw]; decide)
  refine ⟨ps, m, _, _, segs, h1, by simpa using h2, hraw, hl, e1, fun name hc => ?_⟩
  rw [hseg] at e2 e4 e5
  by_cases hn : name = b!"a"
  · subst hn
    obtain ⟨v, hv, hp⟩ := e5 0 b!"a" ⟨⟨_, rfl, .inl rfl, rfl⟩, fun j hj => absurd hj (by omega)⟩
    rw [hc, Option.some.injEq] at hp
    subst hp
    have hj := e3.joined
    have hu : segmentsOf b!"/x/y" = [b!"x", b!"y"] := by decide
    rw [hu] at hj
    cases bs with
    | nil => simp at hv
    | cons b bs =>
      simp only [List.getElem?_cons_zero, Option.some.injEq] at hv
      subst hv
      simp at hj
  · rw [e4 name (by
      intro s hs _
      simp only [List.mem_cons, List.not_mem_nil, or_false, or_self] at hs
      subst hs
      exact fun e => hn e.symm)] at hc
    cases hc

/-- A pattern with two variables of different names. -/
example : (patOf plainExt false b!"/{a}/{b:y}" 1).segments =
      [{ val := b!"{a}", kind := .capture, varName := b!"a" }, { val := b!"{b:y}", kind := .constraint, varName := b!"b", re := some b!"y" }] ∧
    served plainExt false [(b!"/{a}/{b:y}", 1)] b!"/x/y" freshBuf 10 = some (.found (patOf plainExt false b!"/{a}/{b:y}" 1) [.capture, .constraint]) ∧
    (parseURLPath b!"/x/y" freshBuf).bind (fun segs => pathVarText b!"/x/y" (patOf plainExt false b!"/{a}/{b:y}" 1) [.capture, .constraint] segs b!"b") = some b!"y" := by
  decide +kernel

end Gofre.Props
