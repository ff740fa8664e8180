import Verif.Proofs.Refuse
import Verif.Props.Complete
import Verif.Model.Router

/-! # C144: a refused registration changes nothing -/

namespace Gofre.Props
open Gofre.Path
open Gofre.Spec (Registered pieces)

variable {x : Ext} {ci : Bool}

/-- C144 for one method: when a pattern is refused as a duplicate the trie is as it was.  For patterns of fewer than 256 pieces. -/
theorem c144_matcher_partial {ps : List Pattern} {m : Matcher} (hr : Registered x ci sortSiblings ps m) (hps : ∀ q ∈ ps, (pieces q.raw).length < 256)
    {raw : Str} {p : Pattern} (hp : parsePattern x ci raw = .ok p) (hlen : (pieces raw).length < 256) (a : Nat) {m' : Matcher}
    (h : addPattern x ci sortSiblings m { p with attachment := a } = (m', true)) : m' = m := by
  have hh := holds sortSiblings_perm hr
  unfold addPattern at h
  simp only at h
  cases hseg : p.segments with
  | nil =>
    rw [hseg] at h
    cases hroot : m.root with
    | none => rw [hroot] at h; simp at h
    | some q => rw [hroot] at h; simp only [Prod.mk.injEq, and_true] at h; exact h.symm
  | cons s ss =>
    have hpe : ({ p with attachment := a } : Pattern) = { p with segments := s :: ss, attachment := a } := by rw [hseg]
    rw [hseg, ← hpe] at h
    simp only [Prod.mk.injEq] at h
    obtain ⟨rfl, herr⟩ := h
    have hins : (insert x ci sortSiblings { p with attachment := a } 0 s ss m.kids).1 = m.kids := by
      refine insert_refused ss 0 s m.kids herr ?_
      intro l q hl ho
      obtain ⟨hq, hon⟩ := hh.leaf l q hl
      have hsuf := registered_suffice sortSiblings_perm hr l q hl
      obtain ⟨raw', q0, b, hparse, rfl⟩ := registered_parsed hr q hq
      have hk : p.segments.map (·.kind) = q0.segments.map (·.kind) := by
        have e1 : ∀ {l : List (Segment × UInt8)} {ts : List Segment}, All2 (fun c t => shares x ci t c.1 = true) l ts → l.map (·.1.kind) = ts.map (·.kind) := by
          intro l ts h
          induction h with
          | nil => rfl
          | cons r _ ih => simp [shares_kind r, ih]
        have e2 : ∀ {l : List (Segment × UInt8)} {ts : List Segment}, OnNode x ci l ts → l.map (·.1.kind) = ts.map (·.kind) := by
          intro l ts h
          induction h with
          | nil => rfl
          | cons r _ ih => simp [on_kind r, ih]
        rw [hseg, ← e1 ho, e2 hon]
      have hne : q0.segments ≠ [] := by
        intro e
        rw [e, hseg] at hk
        cases hk
      have hraw := parse_raw hparse
      have hmax := same_limit hp hparse hlen (by have := hps _ hq; simp only at this; rwa [hraw] at this) (by rw [hseg]; simp) hne hk
      have hat : ∀ i, maxAt { p with attachment := a } i = maxAt { q0 with attachment := b } i := by
        intro i
        simp [maxAt, Pattern.isGreedy, hmax]
      -- the limits of the two patterns are the same
      have hch : ∀ (ts us : List Segment) (i : Nat) (l : List (Segment × UInt8)), ts.length = us.length →
          Suffice l (chainPath { q0 with attachment := b } i us) → Suffice l (chainPath { p with attachment := a } i ts) := by
        intro ts
        induction ts with
        | nil =>
          intro us i l hl h
          cases us with
          | nil => exact h
          | cons u us => simp at hl
        | cons t ts ih =>
          intro us i l hl h
          cases us with
          | nil => simp at hl
          | cons u us =>
            rw [chainPath] at h ⊢
            cases h with
            | cons h1 h2 => exact .cons (by rw [hat]; exact h1) (ih us (i + 1) _ (by simpa using hl) h2)
      refine hch (s :: ss) q0.segments 0 l ?_ hsuf
      have := congrArg List.length hk
      rw [hseg] at this
      simpa using this
    rw [hins]

/-- Routers that come about by registrations of patterns of fewer than 256 pieces; a registration may panic and the panic be recovered. -/
inductive Ready (x : Ext) (other : Str → Str) : Router → Prop
  | new (ci : Bool) : Ready x other (newRouter ci)
  | added {r r' : Router} (method pat : Str) (h : Nat) : Ready x other r → (pieces pat).length < 256 →
      handle x other sortSiblings r method pat h = .returned r' → Ready x other r'
  | refused {r r' : Router} (method pat : Str) (h : Nat) : Ready x other r → (pieces pat).length < 256 →
      handle x other sortSiblings r method pat h = .panicked r' → Ready x other r'

/-- What `Handle` can do. -/
theorem handle_cases (x : Ext) (other : Str → Str) (r : Router) (method pat : Str) (h : Nat) :
    handle x other sortSiblings r method pat h = .panicked r ∨ handle x other sortSiblings r method pat h = .hangs ∨
    ∃ p m e, parsePattern x r.ci pat = .ok p ∧
      addPattern x r.ci sortSiblings ((r.matchers (toUpper other method)).getD {}) { p with attachment := h } = (m, e) ∧
      handle x other sortSiblings r method pat h =
        (if e then HandleRes.panicked else HandleRes.returned) { r with matchers := fun k => if k = toUpper other method then some m else r.matchers k } := by
  unfold handle
  cases hp : parsePattern x r.ci pat with
  | error => exact .inl rfl
  | panic => exact .inl rfl
  | hangs => exact .inr (.inl rfl)
  | ok p =>
    right; right
    refine ⟨p, (addPattern x r.ci sortSiblings ((r.matchers (toUpper other method)).getD {}) { p with attachment := h }).1,
      (addPattern x r.ci sortSiblings ((r.matchers (toUpper other method)).getD {}) { p with attachment := h }).2, rfl, rfl, ?_⟩
    dsimp only
    split
    · rfl
    · rfl

theorem ready_registered {other : Str → Str} {r : Router} (hr : Ready x other r) :
    ∀ k m, r.matchers k = some m → ∃ ps, Registered x r.ci sortSiblings ps m ∧ ∀ q ∈ ps, (pieces q.raw).length < 256 := by
  have step : ∀ {r r' : Router} {method pat : Str} {h : Nat}, (∀ k m, r.matchers k = some m → ∃ ps, Registered x r.ci sortSiblings ps m ∧ ∀ q ∈ ps, (pieces q.raw).length < 256) →
      (pieces pat).length < 256 → (handle x other sortSiblings r method pat h = .returned r' ∨ handle x other sortSiblings r method pat h = .panicked r') →
      ∀ k m, r'.matchers k = some m → ∃ ps, Registered x r'.ci sortSiblings ps m ∧ ∀ q ∈ ps, (pieces q.raw).length < 256 := by
    intro r r' method pat h ih hlen hres k m hm
    rcases handle_cases x other r method pat h with he | he | ⟨p, m₁, e, hp, ha, he⟩
    · rw [he] at hres
      rcases hres with hres | hres
      · cases hres
      · cases hres; exact ih k m hm
    · rw [he] at hres; rcases hres with hres | hres <;> cases hres
    · have old : ∃ ps, Registered x r.ci sortSiblings ps ((r.matchers (toUpper other method)).getD {}) ∧ ∀ q ∈ ps, (pieces q.raw).length < 256 := by
        cases hk : r.matchers (toUpper other method) with
        | none => exact ⟨[], .new, by simp⟩
        | some m₀ => exact ih _ m₀ hk
      obtain ⟨ps, h1, h2⟩ := old
      have new : ∃ ps, Registered x r.ci sortSiblings ps m₁ ∧ ∀ q ∈ ps, (pieces q.raw).length < 256 := by
        cases e with
        | true => exact ⟨ps, .refused pat h h1 hp ha, h2⟩
        | false =>
          refine ⟨_, .added pat h h1 hp ha, ?_⟩
          intro q hq
          rcases List.mem_cons.1 hq with rfl | hq
          · show (pieces p.raw).length < 256
            rw [parse_raw hp]; exact hlen
          · exact h2 q hq
      have hr' : r' = { r with matchers := fun k => if k = toUpper other method then some m₁ else r.matchers k } := by
        rw [he] at hres
        cases e <;> simp at hres <;> exact hres.symm
      subst hr'
      simp only at hm ⊢
      split at hm
      · simp only [Option.some.injEq] at hm
        subst hm
        exact new
      · exact ih k m hm
  induction hr with
  | new ci => intro k m hm; simp [newRouter] at hm
  | added method pat h _ hlen he ih => exact step ih hlen (.inl he)
  | refused method pat h _ hlen he ih => exact step ih hlen (.inr he)

/-- C144: when `Handle` panics, for whatever reason, the router is as it was: after recovering, every request is answered as before and every
further registration does what it would have done.  For patterns of fewer than 256 pieces. -/
theorem c144_unchanged_partial {other : Str → Str} {r r' : Router} (hr : Ready x other r) (method pat : Str) (hlen : (pieces pat).length < 256) (h : Nat)
    (hp : handle x other sortSiblings r method pat h = .panicked r') : r' = r := by
  rcases handle_cases x other r method pat h with he | he | ⟨p, m₁, e, hparse, ha, he⟩
  · rw [he] at hp; cases hp; rfl
  · rw [he] at hp; cases hp
  · cases e with
    | false => rw [he] at hp; simp at hp
    | true =>
      rw [he] at hp
      simp only [if_true, HandleRes.panicked.injEq] at hp
      subst hp
      cases hk : r.matchers (toUpper other method) with
      | none =>
        -- a new matcher refuses nothing
        exfalso
        rw [hk] at ha
        simp only [Option.getD_none] at ha
        unfold addPattern at ha
        simp only at ha
        split at ha
        · simp at ha
        · rename_i s ss _
          rcases insert_cases x r.ci sortSiblings { p with attachment := h } 0 s ss [] with ⟨_, h2⟩ | ⟨a, b, mx, pr, seg, pat, ks, h2, _⟩
          · rw [h2] at ha; simp at ha
          · cases a <;> simp at h2
      | some m₀ =>
        obtain ⟨ps, h1, h2⟩ := ready_registered hr _ m₀ hk
        rw [hk, Option.getD_some] at ha
        have hm := c144_matcher_partial h1 h2 hparse hlen h ha
        subst hm
        have : (fun k => if k = toUpper other method then some m₁ else r.matchers k) = r.matchers := by
          funext k
          split
          · rename_i hkk; rw [hkk, hk]
          · rfl
        rw [this]

/-- C144, seen from outside: requests are served as before. -/
theorem c144_served_partial {other : Str → Str} {r r' : Router} (hr : Ready x other r) (method pat : Str) (hlen : (pieces pat).length < 256) (h : Nat)
    (hp : handle x other sortSiblings r method pat h = .panicked r') (behave : Nat → Behaviour) (meth path : Str) (buf : List USeg) (fuel : Nat) :
    serveHTTP x other r' behave meth path buf fuel = serveHTTP x other r behave meth path buf fuel := by
  rw [c144_unchanged_partial hr method pat hlen h hp]

/-- Duplicates and bad patterns are refused by a router with routes. -/
example : ∃ r, Ready plainExt id r ∧ (∃ r', handle plainExt id sortSiblings r b!"get" b!"/a/{y}" 7 = .panicked r') ∧
    (∃ r', handle plainExt id sortSiblings r b!"GET" b!"a" 7 = .panicked r') := by
  have h1 : ∃ r1, handle plainExt id sortSiblings (newRouter false) b!"GET" b!"/a/{x}" 1 = .returned r1 ∧
      (match handle plainExt id sortSiblings r1 b!"get" b!"/a/{y}" 7 with | .panicked _ => true | _ => false) = true ∧
      (match handle plainExt id sortSiblings r1 b!"GET" b!"a" 7 with | .panicked _ => true | _ => false) = true := by
    refine ⟨_, rfl, by decide +kernel, by decide +kernel⟩
  obtain ⟨r1, e1, e2, e3⟩ := h1
  refine ⟨r1, .added _ _ _ (.new false) (by decide +kernel) e1, ?_, ?_⟩
  · split at e2
    · exact ⟨_, by assumption⟩
    · cases e2
  · split at e3
    · exact ⟨_, by assumption⟩
    · cases e3

/-- A pattern of 258 pieces: `/**`, then 255 times `/x`, then `/a/*bc`. The parser counts pieces in eight bits, so
the last two overwrite the first two and the pattern is read as `/a/*bc` with no limit on the length of its matches
(pattern.go:103-164). -/
def longRefused : Str := b!"/**" ++ (List.replicate 255 b!"/x").flatten ++ b!"/a/*bc"

/-- C144 fails for patterns of 256 pieces and more: a router with the routes `/a/*bc` and `/**` serves `GET /a/b/c` with
the second route; a registration with a pattern of 258 pieces is refused as a duplicate of the first, but after it the
same request makes the router panic. -/
theorem c144_violated : ∃ r r', Ready plainExt id r ∧ handle plainExt id sortSiblings r b!"GET" longRefused 3 = .panicked r' ∧
    ∃ n, serveHTTP plainExt id r (fun _ => .responds false) b!"GET" b!"/a/b/c" freshBuf n = some [.ran 2, .wrote 2] ∧
      serveHTTP plainExt id r' (fun _ => .responds false) b!"GET" b!"/a/b/c" freshBuf n = some [.panic] := by
  have h1 : ∃ r1, handle plainExt id sortSiblings (newRouter false) b!"GET" b!"/a/*bc" 1 = .returned r1 ∧
      ∃ r2, handle plainExt id sortSiblings r1 b!"GET" b!"/**" 2 = .returned r2 ∧
      serveHTTP plainExt id r2 (fun _ => .responds false) b!"GET" b!"/a/b/c" freshBuf 60 = some [.ran 2, .wrote 2] ∧
      (match handle plainExt id sortSiblings r2 b!"GET" longRefused 3 with
        | .panicked r3 => decide (serveHTTP plainExt id r3 (fun _ => .responds false) b!"GET" b!"/a/b/c" freshBuf 60 = some [.panic])
        | _ => false) = true := by
    refine ⟨_, rfl, _, rfl, by decide +kernel, by decide +kernel⟩
  obtain ⟨r1, e1, r2, e2, e3, e4⟩ := h1
  split at e4
  · next r3 h3 =>
    exact ⟨r2, r3, .added _ _ _ (.added _ _ _ (.new false) (by decide +kernel) e1) (by decide +kernel) e2, h3, 60, e3,
      of_decide_eq_true e4⟩
  · cases e4

end Gofre.Props
