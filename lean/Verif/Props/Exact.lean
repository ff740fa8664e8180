import Verif.Spec.Placed
import Verif.Props.Router
import Verif.Props.Glob
import Verif.Props.Auth

/-! # C02, C12, C13, C26, C33: exactly what happens -/

namespace Gofre.Props
open Gofre.Path Gofre.Spec

/-! ### C02 -/

theorem glob_snoc_star {eqv : UInt8 → UInt8 → Prop} {q url : Str} : Glob eqv (q ++ [42]) url ↔ ∃ v w, url = v ++ w ∧ Glob eqv q v := by
  constructor
  · intro h
    generalize hp : q ++ [42] = p at h
    induction h generalizing q with
    | nil => simp at hp
    | @any p u c h ih =>
      cases q with
      | nil => simp at hp
      | cons d q =>
        rw [List.cons_append, List.cons.injEq] at hp
        obtain ⟨v, w, rfl, h1⟩ := ih hp.2
        exact ⟨c :: v, w, rfl, hp.1 ▸ .any h1⟩
    | @star p u t h ih =>
      cases q with
      | nil =>
        simp only [List.nil_append, List.cons.injEq] at hp
        obtain ⟨_, rfl⟩ := hp
        cases h
        exact ⟨[], t, by simp, .nil⟩
      | cons d q =>
        rw [List.cons_append, List.cons.injEq] at hp
        obtain ⟨v, w, rfl, h1⟩ := ih hp.2
        exact ⟨t ++ v, w, by simp, hp.1 ▸ .star t h1⟩
    | @lit p u pc uc h1 h2 h3 h ih =>
      cases q with
      | nil => simp at hp; exact absurd hp.1.symm h2
      | cons d q =>
        rw [List.cons_append, List.cons.injEq] at hp
        obtain ⟨v, w, rfl, h4⟩ := ih hp.2
        exact ⟨uc :: v, w, rfl, hp.1 ▸ .lit h1 h2 h3 h4⟩
  · rintro ⟨v, w, rfl, h⟩
    induction h with
    | nil => simpa using Gofre.Spec.Glob.star w .nil
    | any _ ih => exact .any ih
    | star t _ ih => rw [List.append_assoc]; exact .star t ih
    | lit h1 h2 h3 _ ih => exact .lit h1 h2 h3 ih

/-- C02, exactly: a described text is refused if and only if the wildcard ends in `*` and only the whole text, no proper beginning of it,
is described by what stands before. -/
theorem c02_exact (ci : Bool) (pat url : Str) (hp : NoDoubleStar pat) :
    (Glob (sameLetter ci) pat url ∧ Gofre.Glob.regexSegmentMatch ci url pat ≠ some (.ret true)) ↔
      ∃ q, pat = q ++ [42] ∧ Glob (sameLetter ci) q url ∧ ¬ Reaches (sameLetter ci) q url := by
  constructor
  · rintro ⟨h1, h2⟩
    by_cases hl : ∃ q, pat = q ++ [42]
    · obtain ⟨q, rfl⟩ := hl
      rw [ne_eq, c02_trailing_star_partial ci q url hp] at h2
      refine ⟨q, rfl, ?_, h2⟩
      obtain ⟨v, w, rfl, h3⟩ := glob_snoc_star.1 h1
      by_cases hw : w = []
      · subst hw; simpa using h3
      · exact absurd ⟨v, w, rfl, hw, h3⟩ h2
    · rw [ne_eq, c02_accepts_all_described_partial ci pat url hp fun q h => hl ⟨q, h⟩] at h2
      exact absurd h1 h2
  · rintro ⟨q, rfl, h1, h2⟩
    exact ⟨glob_snoc_star.2 ⟨url, [], by simp, h1⟩, by rwa [ne_eq, c02_trailing_star_partial ci q url hp]⟩

/-- `a*b*` and the text `ab`; `a*b*` accepts `abb`, of which `ab` is a proper beginning. -/
example : Glob (sameLetter false) b!"a*b" b!"ab" ∧ Reaches (sameLetter false) b!"a*b" b!"abb" ∧
    Gofre.Glob.regexSegmentMatch false b!"ab" b!"a*b*" ≠ some (.ret true) ∧
    Gofre.Glob.regexSegmentMatch false b!"abb" b!"a*b*" = some (.ret true) := by
  have h : Glob (sameLetter false) b!"a*b" b!"ab" := .lit (by decide) (by decide) (.inl rfl) (.star [] (.lit (by decide) (by decide) (.inl rfl) .nil))
  exact ⟨h, ⟨b!"ab", b!"b", rfl, by decide, h⟩, by decide, by decide⟩

/-! ### C13 -/

/-- The places are places of the segments. -/
theorem placed_text {path : Str} : ∀ (vs : List Str) (pre : Str), path = pre ++ joinWith slash vs →
    ∀ p ∈ placed pre.length vs, ∃ a b, path = a ++ p.2 ++ b ∧ a.length = p.1 := by
  intro vs
  induction vs with
  | nil => intro pre _ p hp; cases hp
  | cons v vs ih =>
    intro pre h p hp
    rw [placed, List.mem_cons] at hp
    rcases hp with rfl | hp
    · cases vs with
      | nil => exact ⟨pre, [], by simpa [joinWith] using h, rfl⟩
      | cons w ws => exact ⟨pre, slash :: joinWith slash (w :: ws), by simpa [joinWith] using h, rfl⟩
    · cases vs with
      | nil => cases hp
      | cons w ws =>
        refine ih (pre ++ v ++ [slash]) (by simpa [joinWith] using h) p ?_
        simpa [Nat.add_assoc] using hp

theorem foldl_pushAt_mem (l : List (Nat × Str)) : ∀ (st : List (Nat × Str)), ∀ p ∈ l.foldl pushAt st, p ∈ st ∨ p ∈ l := by
  induction l with
  | nil => intro st p hp; exact .inl hp
  | cons q l ih =>
    intro st p hp
    rcases ih _ p hp with h | h
    · unfold pushAt at h
      split at h
      · exact .inl h
      · split at h
        · exact .inl (List.mem_of_mem_tail h)
        · rcases List.mem_cons.1 h with rfl | h
          · exact .inr (by simp)
          · exact .inl h
    · exact .inr (by simp [h])

theorem segmentsAt_text (path : Str) : (segmentsAt path).map (·.2) = segmentsOf path ∧
    ∀ p ∈ segmentsAt path, ∃ a b, path = a ++ p.2 ++ b ∧ a.length = p.1 := by
  constructor
  · rw [segmentsAt, List.map_reverse, placed_snd]; rfl
  · intro p hp
    rw [segmentsAt, List.mem_reverse] at hp
    rcases foldl_pushAt_mem _ _ p hp with h | h
    · cases h
    · by_cases hs : slash ∈ path
      · obtain ⟨pre, r, he, hn⟩ := List.eq_append_cons_of_mem hs
        have hsp : splitOn slash path = pre :: splitOn slash r := by rw [he, splitOn_append hn]
        have haf : afterSlash path = splitOn slash r := by simp [afterSlash, hsp]
        refine placed_text (afterSlash path) (pre ++ [slash]) (by rw [haf, joinWith_splitOn]; simp [he]) p ?_
        simpa [hsp] using h
      · have : afterSlash path = [] := by simp [afterSlash, splitOn_of_not_mem hs]
        rw [this] at h
        cases h

/-- C13, exactly, for paths of any length: what is recorded of a segment are its two offsets modulo 65536.  They are its offsets if and only
if it ends within the first 65535 bytes. -/
theorem c13_exact (path : Str) (buf : List USeg) (hb : buf.length = 19) (hf : Fits path) :
    ∃ segs, parseURLPath path buf = some segs ∧ segs.length = (segmentsOf path).length ∧
      (segmentsAt path).map (·.2) = segmentsOf path ∧
      ∀ (i a : Nat) (v : Str), (segmentsAt path)[i]? = some (a, v) →
        (path.take (a + v.length)).drop a = v ∧ a + v.length ≤ path.length ∧
        ∃ s, segs[i]? = some s ∧ s.start.toNat = a % 65536 ∧ s.stop.toNat = (a + v.length) % 65536 ∧
          ((s.start.toNat = a ∧ s.stop.toNat = a + v.length) ↔ a + v.length ≤ 65535) := by
  rcases parse_at path buf hb with ⟨_, h⟩ | ⟨h, _⟩
  · obtain ⟨h1, h2⟩ := segmentsAt_text path
    refine ⟨_, h, by rw [← h1]; simp, h1, ?_⟩
    intro i a v hi
    obtain ⟨x, y, hx, rfl⟩ := h2 _ (List.mem_of_getElem? hi)
    simp only at hx
    refine ⟨?_, ?_, recorded (x.length, v), by rw [List.getElem?_map, hi]; rfl, ?_⟩
    · rw [hx, ← List.length_append, List.take_left']
      · simp
      · rfl
    · rw [hx]; simp
    · have h3 : (recorded (x.length, v)).start.toNat = x.length % 65536 := by simp [recorded]
      have h4 : (recorded (x.length, v)).stop.toNat = (x.length + v.length) % 65536 := by simp [recorded]
      refine ⟨h3, h4, ?_⟩
      rw [h3, h4]
      omega
  · exact absurd hf h

example : segmentsAt b!"x/../../a//./b/c/../d/" = [(8, b!"a"), (11, b!"."), (13, b!"b"), (20, b!"d")] := by decide

/-! ### C12 -/

/-- C12, exactly, for paths of any length: a path that overflows the limit is answered as `/` is, whatever is registered. -/
theorem c12_exact (x : Ext) (other : Str → Str) (r : Router) (behave : Nat → Behaviour) (method path : Str) {buf : List USeg}
    (hb : buf.length = 19) (hf : ¬ Fits path) :
    ∃ f evs, ∀ g, f ≤ g → serveHTTP x other r behave method path buf g = some evs ∧ serveHTTP x other r behave method b!"/" buf g = some evs := by
  have h0 : parseURLPath path buf = some [] := by
    rcases parse_at path buf hb with ⟨h, _⟩ | ⟨_, h⟩
    · exact absurd h hf
    · exact h
  have h1 : parseURLPath b!"/" buf = some [] := by simp [parseURLPath]
  simp only [serveHTTP, h0, h1]
  cases r.matchers (toUpper other method) with
  | none => exact ⟨0, _, fun g _ => ⟨rfl, rfl⟩⟩
  | some m =>
    obtain ⟨f1, hf1⟩ := matchM_eq (acc := matchUrl x r.ci path) matchUrl_star m [] (by simp)
    obtain ⟨f2, hf2⟩ := matchM_eq (acc := matchUrl x r.ci b!"/") matchUrl_star m [] (by simp)
    refine ⟨max f1 f2, _, fun g hg => ⟨by simp only [hf1 g (by omega)]; rfl, ?_⟩⟩
    simp only [hf2 g (by omega)]
    rw [answer_congr (acc := matchUrl x r.ci b!"/") (acc' := matchUrl x r.ci path) m .nil]
    rfl

/-! ### C26 -/

/-- C26 fails: for the pattern `/*.html` the request `/index.` is neither answered 404 nor 500 and no handler runs: it crashes. -/
theorem c26_violated : ∃ es r fuel, Built plainExt id sortSiblings false es r ∧
    serveHTTP plainExt id r (fun _ => .responds false) b!"GET" b!"/index." freshBuf fuel = some [.panic] := by
  obtain ⟨r, h1, h2⟩ := serve0_spec (l := [(b!"/*.html", 7)]) (behave := fun _ => .responds false)
    (path := b!"/index.") (fuel := 20) (evs := [.panic]) (by decide +kernel)
  exact ⟨_, r, 20, h1, h2⟩

/-- C26 fails: a handler that returns neither a response nor an error is neither answered 500 nor logged. -/
theorem c26_violated_nothing : ∃ es r fuel, Built plainExt id sortSiblings false es r ∧
    serveHTTP plainExt id r (fun _ => .noResponse) b!"GET" b!"/a" freshBuf fuel = some [.ran 7, .panic] := by
  obtain ⟨r, h1, h2⟩ := serve0_spec (l := [(b!"/a", 7)]) (behave := fun _ => .noResponse)
    (path := b!"/a") (fuel := 20) (evs := [.ran 7, .panic]) (by decide +kernel)
  exact ⟨_, r, 20, h1, h2⟩

/-! ### C33 -/

open Gofre.Auth in
/-- C33, exactly: a request is granted if and only if one allowed permission has all its accesses on a scope that covers it, and every
denied permission whose scope covers it lacks at least one of the requested accesses. -/
theorem c33_exact (r : Role) (ms : List Str) (hm : Levels ms) (b : UInt32) :
    r.hasPermission ⟨scopeText ms, b⟩ = true ↔
      (∃ ls a, Levels ls ∧ ⟨scopeText ls, a⟩ ∈ r.allowed ∧ Covers ls ms ∧ ∀ i, b.toNat.testBit i = true → a.toNat.testBit i = true) ∧
      ∀ ls a, Levels ls → ⟨scopeText ls, a⟩ ∈ r.denied → Covers ls ms → ∃ i, b.toNat.testBit i = true ∧ a.toNat.testBit i = false := by
  rw [role_iff]
  constructor
  · rintro ⟨h1, ⟨s, a⟩, h2, h3⟩
    obtain ⟨ls, hl, rfl⟩ := exists_levels s
    obtain ⟨h4, h5⟩ := (implies_iff_levels ls ms hl hm a b).1 h3
    refine ⟨⟨ls, a, hl, h2, h5, h4⟩, ?_⟩
    intro ks c hk hd hc
    have h6 := h1 _ hd
    rw [← Bool.not_eq_true, implies_iff_levels ks ms hk hm] at h6
    apply Classical.byContradiction
    intro h7
    refine h6 ⟨fun i hi => ?_, hc⟩
    cases h8 : c.toNat.testBit i with
    | true => rfl
    | false => exact absurd ⟨i, hi, h8⟩ h7
  · rintro ⟨⟨ls, a, hl, h1, h2, h3⟩, h4⟩
    refine ⟨?_, _, h1, (implies_iff_levels ls ms hl hm a b).2 ⟨h3, h2⟩⟩
    rintro ⟨s, c⟩ hd
    obtain ⟨ks, hk, rfl⟩ := exists_levels s
    rw [← Bool.not_eq_true, implies_iff_levels ks ms hk hm]
    rintro ⟨h5, h6⟩
    obtain ⟨i, h7, h8⟩ := h4 ks c hk hd h6
    rw [h5 i h7] at h8
    cases h8

open Gofre.Auth in
/-- Reading and deleting together, where deleting is denied; deleting alone. -/
example : Role.hasPermission ⟨b!"ops", [allPermissions], [⟨b!"*", 8⟩]⟩ ⟨b!"db", 9⟩ = true ∧
    Role.hasPermission ⟨b!"ops", [allPermissions], [⟨b!"*", 8⟩]⟩ ⟨b!"db", 8⟩ = false ∧ Levels [b!"db"] := by
  refine ⟨by decide, by decide, ?_⟩
  simp [Levels]

end Gofre.Props
