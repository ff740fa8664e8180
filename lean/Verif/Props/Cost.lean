import Verif.Spec.Cost
import Verif.Proofs.Cost
import Verif.Props.Route

/-! # C138: the work of matching one request -/

namespace Gofre.Props
open Gofre.Path Gofre.Path.Cost Gofre.Spec

theorem matchUrl_multiple (x : Ext) (ci : Bool) (path : Str) (s : Segment) (u : USeg) :
    matchUrl x ci path s u = some .multiple ↔ s.kind = .multiple := by
  constructor
  · intro h
    rcases matchUrl_kind h with h | h
    · cases h
    · exact h.symm
  · intro h; simp [matchUrl, h]

theorem insert_inners {x : Ext} {ci : Bool} {srt : List Node → List Node} (hp : ∀ l, (srt l).Perm l) (p : Pattern) (ss : List Segment) :
    ∀ (i : Nat) (s : Segment) (kids : List Node),
      ((Path.insert x ci srt p i s ss kids).2 = false → s.kind ≠ .multiple ∧ ∀ t ∈ ss, t.kind ≠ .multiple) → inners kids = 0 →
      inners (Path.insert x ci srt p i s ss kids).1 = 0 := by
  have happ : ∀ a b : List Node, inners (a ++ b) = inners a + inners b := by
    intro a b
    induction a with
    | nil => simp [inners]
    | cons n a ih => simp [inners, ih]; omega
  have hperm : ∀ {a b : List Node}, a.Perm b → inners a = inners b := by
    intro a b h
    induction h with
    | nil => rfl
    | cons _ _ ih => simp [inners, ih]
    | swap _ _ _ => simp [inners]; omega
    | trans _ _ ih1 ih2 => rw [ih1, ih2]
  have hchain : ∀ (ss : List Segment) (i : Nat) (s : Segment), s.kind ≠ .multiple → (∀ t ∈ ss, t.kind ≠ .multiple) →
      inner (chain p i s ss) = 0 := by
    intro ss
    induction ss with
    | nil => intro i s h _; simp [chain, inner, h, inners]
    | cons s' ss ih =>
      intro i s h hs
      simp only [chain, inner, if_neg h, inners]
      rw [ih (i + 1) s' (hs _ List.mem_cons_self) fun t ht => hs t (List.mem_cons_of_mem _ ht)]
  induction ss with
  | nil =>
    intro i s kids hA hk
    unfold Path.insert at hA ⊢
    cases hf : findShare x ci s kids with
    | none =>
      rw [hf] at hA
      obtain ⟨hs, hss⟩ := hA rfl
      simp [hperm (hp _), happ, inners, hk, hchain [] i s hs hss]
    | some t =>
      obtain ⟨a, ⟨mx, pr, seg, pat, ks⟩, b⟩ := t
      obtain ⟨rfl, -, -⟩ := findShare_some hf
      cases pat <;> simpa [happ, inners, inner] using hk
  | cons s' ss ih =>
    intro i s kids hA hk
    unfold Path.insert at hA ⊢
    cases hf : findShare x ci s kids with
    | none =>
      rw [hf] at hA
      obtain ⟨hs, hss⟩ := hA rfl
      simp [hperm (hp _), happ, inners, hk, hchain (s' :: ss) i s hs hss]
    | some t =>
      obtain ⟨a, ⟨mx, pr, seg, pat, ks⟩, b⟩ := t
      rw [hf] at hA
      obtain ⟨rfl, -, -⟩ := findShare_some hf
      simp only [happ, inners, inner] at hk ⊢
      split at hk
      · omega
      · rename_i hseg
        have := ih (i + 1) s' ks (fun h => ⟨(hA h).2 _ List.mem_cons_self, fun t ht => (hA h).2 t (List.mem_cons_of_mem _ ht)⟩) (by omega)
        rw [if_neg hseg, this]
        omega

theorem registered_inners {x : Ext} {ci : Bool} {srt : List Node → List Node} (hp : ∀ l, (srt l).Perm l) {ps : List Pattern} {m : Matcher}
    (h : Registered x ci srt ps m) (hps : ∀ p ∈ ps, ∀ s ∈ p.segments, s.kind ≠ .multiple) : inners m.kids = 0 := by
  have step : ∀ {m m' : Matcher} {p : Pattern} {r : Bool}, addPattern x ci srt m p = (m', r) → inners m.kids = 0 →
      (r = false → ∀ s ∈ p.segments, s.kind ≠ .multiple) → inners m'.kids = 0 := by
    intro m m' p r ha h0 hr
    unfold addPattern at ha
    cases hs : p.segments with
    | nil =>
      rw [hs] at ha
      cases hr : m.root <;> rw [hr] at ha <;> simp only [Prod.mk.injEq] at ha <;> rw [← ha.1] <;> exact h0
    | cons s ss =>
      rw [hs] at ha hr
      simp only [Prod.mk.injEq] at ha
      rw [← ha.1]
      refine insert_inners hp p ss 0 s m.kids (fun h => ?_) h0
      rw [ha.2] at h
      exact ⟨hr h _ List.mem_cons_self, fun t ht => hr h t (List.mem_cons_of_mem _ ht)⟩
  induction h with
  | new => simp [inners]
  | added raw a _ _ ha ih =>
    exact step ha (ih fun p hp => hps p (List.mem_cons_of_mem _ hp)) fun _ => hps _ List.mem_cons_self
  | refused raw a _ _ ha ih => exact step ha (ih hps) fun h => by cases h

/-- Enough iterations for any request. -/
theorem lookup_within (x : Ext) (ci : Bool) (m : Matcher) (path : Str) (buf : List USeg) (hb : buf.length = 19) :
    ∃ r, ∀ g, 1 + most m.kids ≤ g → lookup x ci m path buf g = some r := by
  obtain ⟨segs, h1, h2⟩ := c11_in_bounds path buf hb
  simp only [lookup, h1]
  have h19 : ¬ segs.length > maxPathSegments := by simpa using h2
  simp only [matchM, if_neg h19]
  cases segs with
  | nil =>
    cases hr : m.root with
    | some p => exact ⟨_, fun _ _ => rfl⟩
    | none =>
      refine ⟨.none, fun g hg => ?_⟩
      obtain ⟨g, rfl⟩ : ∃ k, g = k + 1 := ⟨g - 1, by omega⟩
      simp [mrun, mstep]
  | cons u us => exact ⟨_, fun g hg => mrun_within (matchUrl_multiple x ci path) h2 (by simp) g hg⟩

theorem most_le {x : Ext} {ci : Bool} {srt : List Node → List Node} (hp : ∀ l, (srt l).Perm l) {ps : List Pattern} {m : Matcher}
    (h : Registered x ci srt ps m) : 1 + most m.kids ≤ 40 * weight ps + 2 := by
  have h1 := outers_inners m.kids
  have h2 := registered_counts hp h
  unfold most weight
  omega

/-- C138: whatever was registered and whatever is requested, the main loop goes round at most forty
times per registered segment, and twice. -/
theorem c138_iterations (x : Ext) (ci : Bool) (srt : List Node → List Node) (hp : ∀ l, (srt l).Perm l) (ps : List Pattern) (m : Matcher)
    (h : Registered x ci srt ps m) (path : Str) (buf : List USeg) (hb : buf.length = 19) :
    ∃ r, ∀ g, 40 * weight ps + 2 ≤ g → lookup x ci m path buf g = some r := by
  obtain ⟨r, hr⟩ := lookup_within x ci m path buf hb
  exact ⟨r, fun g hg => hr g (Nat.le_trans (most_le hp h) hg)⟩

/-- C138: without a `**` it goes round at most twice per registered segment, and twice. -/
theorem c138_plain (x : Ext) (ci : Bool) (srt : List Node → List Node) (hp : ∀ l, (srt l).Perm l) (ps : List Pattern) (m : Matcher)
    (h : Registered x ci srt ps m) (hps : ∀ p ∈ ps, ∀ s ∈ p.segments, s.kind ≠ .multiple) (path : Str) (buf : List USeg) (hb : buf.length = 19) :
    ∃ r, ∀ g, 2 * weight ps + 2 ≤ g → lookup x ci m path buf g = some r := by
  obtain ⟨r, hr⟩ := lookup_within x ci m path buf hb
  refine ⟨r, fun g hg => hr g ?_⟩
  have h1 := outers_inners m.kids
  have h2 := registered_counts hp h
  have h3 := registered_inners hp h hps
  unfold most
  unfold weight at hg
  omega

/-- C138: and a request segment is compared with a pattern segment at most that many times twenty
per registered segment. -/
theorem c138_calls (x : Ext) (ci : Bool) (srt : List Node → List Node) (hp : ∀ l, (srt l).Perm l) (ps : List Pattern) (m : Matcher)
    (h : Registered x ci srt ps m) (path : Str) (buf : List USeg) (hb : buf.length = 19) (g : Nat) :
    (lookupC x ci m path buf g).1 = lookup x ci m path buf g ∧
      (lookupC x ci m path buf g).2 ≤ (40 * weight ps + 2) * (20 * weight ps) := by
  refine ⟨lookupC_eq _ _ _ _ _ _, ?_⟩
  obtain ⟨r, hr⟩ := lookup_within x ci m path buf hb
  have hr := hr _ (Nat.le_refl _)
  obtain ⟨segs, h1, h2⟩ := c11_in_bounds path buf hb
  simp only [lookup, lookupC, h1] at hr ⊢
  have h19 : ¬ segs.length > maxPathSegments := by simpa using h2
  simp only [matchM, matchMC, if_neg h19] at hr ⊢
  have hle : (1 + most m.kids) * (20 * counts m.kids) ≤ (40 * weight ps + 2) * (20 * weight ps) :=
    Nat.mul_le_mul (most_le hp h) (Nat.mul_le_mul_left 20 (registered_counts hp h))
  have run : ∀ r, mrun (matchUrl x ci path) m.kids segs (1 + most m.kids) (mstart segs.length) = some r →
      (mrunC (matchUrl x ci path) m.kids segs g (mstart segs.length)).2 ≤ (40 * weight ps + 2) * (20 * weight ps) :=
    fun r hr => Nat.le_trans (mrunC_le h2 _ _ r hr trivial g) hle
  cases segs with
  | nil =>
    cases hroot : m.root with
    | some p => simp
    | none => rw [hroot] at hr; exact run r hr
  | cons u us => exact run r hr

/-- Four registered segments with a `**` and a request of twelve segments: thirty times round is
not enough, thirty-one times is; the bound is 162. -/
example : served plainExt false [(b!"/**/a/b/c", 1)] b!"/a/b/a/b/a/b/a/b/a/b/b/c" freshBuf 30 = none ∧
    served plainExt false [(b!"/**/a/b/c", 1)] b!"/a/b/a/b/a/b/a/b/a/b/b/c" freshBuf 31 = some .none ∧
    checked plainExt false [(b!"/**/a/b/c", 1)] (fun ps => weight ps = 4) = true := by decide +kernel

/-- Three patterns without a `**` whose first segments are all tried. -/
example : served plainExt false [(b!"/a/b/c", 1), (b!"/a/{x}/d", 2), (b!"/{y}/b/e", 3)] b!"/a/b/e" freshBuf 5 = none ∧
    (served plainExt false [(b!"/a/b/c", 1), (b!"/a/{x}/d", 2), (b!"/{y}/b/e", 3)] b!"/a/b/e" freshBuf 20).isSome ∧
    checked plainExt false [(b!"/a/b/c", 1), (b!"/a/{x}/d", 2), (b!"/{y}/b/e", 3)]
      (fun ps => weight ps = 9 && ps.all fun p => p.segments.all fun s => s.kind ≠ .multiple) = true := by decide +kernel

/-- Its comparisons. -/
example : (match build plainExt false sortSiblings [(b!"/a/b/c", 1), (b!"/a/{x}/d", 2), (b!"/{y}/b/e", 3)] with
    | some (_, m) => (lookupC plainExt false m b!"/a/b/e" freshBuf 20).2
    | none => 0) = 8 := by decide +kernel

end Gofre.Props
