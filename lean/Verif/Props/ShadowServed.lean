import Verif.Props.ShadowText
import Verif.Props.Stray

/-! # C101 at the router -/

namespace Gofre.Props
open Gofre.Path
open Gofre.Spec (Route Built FoldLaws Registered pieces)

variable {x : Ext} {other : Str → Str} {ci : Bool}

/-- Whatever is found was registered. -/
theorem lookup_registered {ps : List Pattern} {m : Matcher} (hr : Registered x ci sortSiblings ps m) {path : Str} {buf : List USeg} (hb : buf.length = 19)
    {fuel : Nat} {p : Pattern} {labels : List MT} (h : lookup x ci m path buf fuel = some (.found p labels)) : p ∈ ps := by
  obtain ⟨segs, -, f, hf⟩ := lookup_any x ci m path buf hb
  have ha := (lookup_fuel h (Nat.le_max_right f fuel)).symm.trans (hf _ (Nat.le_max_left f fuel))
  rw [Option.some.injEq] at ha
  have hh := holds sortSiblings_perm hr
  by_cases hroot : m.root = some p
  · exact (hh.root p hroot).1
  · have h' : (tryC (matchUrl x ci path) 0 m.kids (m.kids.length % 65536) segs).toM = .found p labels := (answer_cases ha.symm).resolve_left hroot
    cases ht : tryC (matchUrl x ci path) 0 m.kids (m.kids.length % 65536) segs with
    | found q l' =>
      rw [ht] at h'
      simp only [Res.toM, MRes.found.injEq] at h'
      obtain ⟨rfl, rfl⟩ := h'
      obtain ⟨l, bs, h1, _, _⟩ := tryC_sound (fun _ _ _ => matchUrl_kind) matchUrl_star _ m.kids (Nat.le_refl _) _ _ _ _ _ ht
      exact (hh.leaf l q h1).1
    | next => rw [ht] at h'; cases h'
    | stop => rw [ht] at h'; cases h'
    | abort => rw [ht] at h'; cases h'
    | panic => rw [ht] at h'; cases h'

/-- C101 at the router: when `base/{name}` and `base/*` are routes of the same method, no request of any method and path runs the handler of the
second (a handler of no other route), whatever the other routes and the order of registration, if `base` has no `**` and, among the routes of the method, none has
more than 19 pieces or two `**` and none has a constraint that starts with a brace. -/
theorem c101_served_partial (hl : FoldLaws x.eqFold) {es : List Route} {r : Router} (hr : Built x other sortSiblings ci es r) {d e : Route} (hd : d ∈ es) (he : e ∈ es)
    (hmeth : toUpper other d.method = toUpper other e.method)
    (hroutes : ∀ o ∈ es, toUpper other o.method = toUpper other e.method → (pieces o.pat).length ≤ 19 ∧ (pieces o.pat).count b!"**" ≤ 1 ∧
      ∀ v ∈ pieces o.pat, ∀ name re : Str, v ≠ 123 :: name ++ 58 :: 123 :: re)
    {base name : Str} (hdp : d.pat = base ++ b!"/{" ++ name ++ b!"}") (hep : e.pat = base ++ b!"/*")
    (hname : slash ∉ name ∧ (58 : UInt8) ∉ name) (hbase : b!"**" ∉ splitOn slash base) (hown : ∀ o ∈ es, o.handler = e.handler → o = e)
    (behave : Nat → Behaviour) (method path : Str) {buf : List USeg} (hb : buf.length = 19) {fuel : Nat} {rest : List Event} :
    serveHTTP x other r behave method path buf fuel ≠ some (.ran e.handler :: rest) := by
  intro hs
  obtain ⟨hci, hm⟩ := built_matchers hr
  rw [serve_answer behave method path hb] at hs
  cases hmat : r.matchers (toUpper other method) with
  | none => rw [hmat] at hs; simp at hs
  | some m =>
    rw [hmat, hci] at hs
    obtain ⟨ps, h1, h2⟩ := (hm _).2 m hmat
    simp only [Option.map_eq_some_iff] at hs
    obtain ⟨res, h3, h4⟩ := hs
    cases res with
    | panic => simp [finish] at h4
    | none => simp [finish] at h4
    | found q labels =>
      simp only [finish, List.cons.injEq, Event.ran.injEq] at h4
      have hq := lookup_registered h1 hb h3
      have hfrom : ∀ p ∈ ps, ∃ o ∈ es, toUpper other o.method = toUpper other method ∧ p.attachment = o.handler ∧ p.raw = o.pat := by
        intro p hp
        obtain ⟨o, ho, p0, h5, h6⟩ := h2.mem_right hp
        have hoo : o ∈ es ∧ toUpper other o.method = toUpper other method := by simpa [routesFor] using ho
        exact ⟨o, hoo.1, hoo.2, by rw [h6], by rw [h6]; show p0.raw = _; exact parse_raw h5⟩
      obtain ⟨o, ho, hom, hoh, hor⟩ := hfrom q hq
      obtain rfl := hown o ho (by rw [← hoh, h4.1])
      obtain ⟨p, hp, p0, h5, h6⟩ := h2.mem_left (a := d) (by simp [routesFor, hd, hmeth, hom])
      have hall : ∀ p ∈ ps, (pieces p.raw).length ≤ 19 ∧ (pieces p.raw).count b!"**" ≤ 1 ∧ ∀ v ∈ pieces p.raw, ∀ name re : Str, v ≠ 123 :: name ++ 58 :: 123 :: re := by
        intro p hp
        obtain ⟨o', ho', hom', -, hor'⟩ := hfrom p hp
        rw [hor']
        exact hroutes o' ho' (by rw [hom', hom])
      exact c101_text_partial hl h1 (fun p hp => (hall p hp).1) (fun p hp => (hall p hp).2.1) (fun p hp => (hall p hp).2.2) hp hq
        (by rw [h6]; show p0.raw = _; rw [parse_raw h5, hdp]) (by rw [hor, hep]) hname hbase hb h3

/-- Two routes with a common beginning, with two others. -/
example : ∃ r, Built plainExt id sortSiblings false ([(b!"/**", 4), (b!"/a/{n:x}/*", 2), (b!"/a/{n:x}/{b}", 1), (b!"/a/*", 3)].map fun e => ⟨b!"GET", e.1, e.2⟩) r ∧
    ∀ behave method path rest, serveHTTP plainExt id r behave method path freshBuf 100 ≠ some (.ran 2 :: rest) := by
  obtain ⟨r, h1, -⟩ := serve0_spec (l := [(b!"/**", 4), (b!"/a/{n:x}/*", 2), (b!"/a/{n:x}/{b}", 1), (b!"/a/*", 3)]) (behave := fun _ => .responds false)
    (path := b!"/a/x/y") (fuel := 40) (evs := [.ran 1, .wrote 1]) (by decide +kernel)
  refine ⟨r, h1, ?_⟩
  intro behave method path rest
  refine c101_served_partial plainExt_laws h1 (d := ⟨b!"GET", b!"/a/{n:x}/{b}", 1⟩) (e := ⟨b!"GET", b!"/a/{n:x}/*", 2⟩) (by simp) (by simp) rfl ?_
    (base := b!"/a/{n:x}") (name := b!"b") rfl rfl (by decide) (by decide) (by simp) behave method path (by decide)
  intro o ho _
  have key : (pieces o.pat).length ≤ 19 ∧ (pieces o.pat).count b!"**" ≤ 1 ∧ ∀ v ∈ pieces o.pat, (123 : UInt8) ∉ v.tail := by
    simp only [List.map_cons, List.map_nil, List.mem_cons, List.not_mem_nil, or_false] at ho
    rcases ho with rfl | rfl | rfl | rfl <;> decide
  refine ⟨key.1, key.2.1, ?_⟩
  intro v hv name re h
  have := key.2.2 v hv
  rw [h] at this
  simp at this

/-- C101 needs its bound on the number of pieces: with a route of 20 pieces beside `/a/{b}` and `/a/*`, without any `**`, the handler of `/a/*` runs. -/
theorem c101_violated_long : ∃ r fuel, Built plainExt id sortSiblings false
      [⟨b!"GET", b!"/a/*", 2⟩, ⟨b!"GET", b!"/a/{b}", 1⟩, ⟨b!"GET", b!"/a/{b}/a/a/a/a/a/a/a/a/a/a/a/a/a/a/a/a/a/a", 3⟩] r ∧
    (pieces b!"/a/{b}/a/a/a/a/a/a/a/a/a/a/a/a/a/a/a/a/a/a").length = 20 ∧
    serveHTTP plainExt id r (fun _ => .responds false) b!"GET" b!"/a/q" freshBuf fuel = some [.ran 2, .wrote 2] := by
  obtain ⟨r, h1, h2⟩ := serve0_spec (l := [(b!"/a/*", 2), (b!"/a/{b}", 1), (b!"/a/{b}/a/a/a/a/a/a/a/a/a/a/a/a/a/a/a/a/a/a", 3)]) (behave := fun _ => .responds false)
    (path := b!"/a/q") (fuel := 40) (evs := [.ran 2, .wrote 2]) (by decide +kernel)
  exact ⟨r, 40, h1, by decide, h2⟩

/-- C101 needs its bound on the number of `**` in each pattern: with `/a/a/a/a/a/{b}/**/a/**/a` registered as well, the handler of `/a/a/a/a/a/*` runs
although `/a/a/a/a/a/{b}` is there. -/
theorem c101_violated_stars : ∃ r fuel, Built plainExt id sortSiblings false
      [⟨b!"GET", b!"/a/a/a/a/a/*", 2⟩, ⟨b!"GET", b!"/a/a/a/a/a/{b}", 1⟩, ⟨b!"GET", b!"/a/a/a/a/a/{b}/**/a/**/a", 3⟩] r ∧
    serveHTTP plainExt id r (fun _ => .responds false) b!"GET" b!"/a/a/a/a/a/q" freshBuf fuel = some [.ran 2, .wrote 2] := by
  obtain ⟨r, h1, h2⟩ := serve0_spec (l := [(b!"/a/a/a/a/a/*", 2), (b!"/a/a/a/a/a/{b}", 1), (b!"/a/a/a/a/a/{b}/**/a/**/a", 3)]) (behave := fun _ => .responds false)
    (path := b!"/a/a/a/a/a/q") (fuel := 60) (evs := [.ran 2, .wrote 2]) (by decide +kernel)
  exact ⟨r, 60, h1, h2⟩

/-- C101 needs its condition on constraints: when `/{x:{a:b}}/{c}`, `/{a:b}/0` and `/{x:{a:b}}/*` are registered in this order, the handler of the last
runs. -/
theorem c101_violated_brace : ∃ r fuel, Built plainExt id sortSiblings false
      [⟨b!"GET", b!"/{x:{a:b}}/*", 2⟩, ⟨b!"GET", b!"/{a:b}/0", 3⟩, ⟨b!"GET", b!"/{x:{a:b}}/{c}", 1⟩] r ∧
    serveHTTP plainExt id r (fun _ => .responds false) b!"GET" b!"/{a:b}/z" freshBuf fuel = some [.ran 2, .wrote 2] := by
  obtain ⟨r, h1, h2⟩ := serve0_spec (l := [(b!"/{x:{a:b}}/*", 2), (b!"/{a:b}/0", 3), (b!"/{x:{a:b}}/{c}", 1)]) (behave := fun _ => .responds false)
    (path := b!"/{a:b}/z") (fuel := 60) (evs := [.ran 2, .wrote 2]) (by decide +kernel)
  exact ⟨r, 60, h1, h2⟩

end Gofre.Props
