import Verif.Proofs.Fold
import Verif.Props.Router
import Verif.Props.Exact

/-! # C27: the case of letters in a request -/

namespace Gofre.Props
open Gofre.Path Gofre.Spec

/-- The expression does not distinguish the cases of ASCII letters (every expression is compiled with
`(?i)`, but may switch that off again). -/
def Insensitive (x : Ext) (src : Str) : Prop := ∀ u v, SameText u v → x.reMatch src u = x.reMatch src v

/-! ### The places of segments do not depend on case -/

/-- Pieces at the same places that differ in the case of letters. -/
def SamePlace (p q : Nat × Str) : Prop := p.1 = q.1 ∧ SameText p.2 q.2

theorem placed_case {us vs : List Str} (h : All2 SameText us vs) : ∀ k, All2 SamePlace (placed k us) (placed k vs) := by
  induction h with
  | nil => intro k; exact .nil
  | cons r _ ih =>
    intro k
    simp only [placed]
    rw [← r.length]
    exact .cons ⟨rfl, r⟩ (ih _)

theorem pushAt_case {st st' : List (Nat × Str)} {p q : Nat × Str} (hst : All2 SamePlace st st') (h : SamePlace p q) :
    All2 SamePlace (pushAt st p) (pushAt st' q) := by
  have he : p.2 = [] ↔ q.2 = [] := by rw [← List.length_eq_zero_iff, ← List.length_eq_zero_iff, h.2.length]
  unfold pushAt
  by_cases hu : p.2 = []
  · rw [if_pos hu, if_pos (he.1 hu)]; exact hst
  · rw [if_neg hu, if_neg (fun h => hu (he.2 h))]
    by_cases hd : p.2 = b!".."
    · rw [if_pos hd, if_pos ((dots_case h.2).1 hd)]
      cases hst with
      | nil => exact .nil
      | cons _ t => exact t
    · rw [if_neg hd, if_neg (fun h' => hd ((dots_case h.2).2 h'))]
      exact .cons h hst

theorem foldAt_case {us vs : List (Nat × Str)} (h : All2 SamePlace us vs) : ∀ {st st' : List (Nat × Str)}, All2 SamePlace st st' →
    All2 SamePlace (us.foldl pushAt st) (vs.foldl pushAt st') := by
  induction h with
  | nil => intro st st' h; exact h
  | cons r _ ih => intro st st' h; exact ih (pushAt_case h r)

theorem segmentsAt_case {u v : Str} (h : SameText u v) : All2 SamePlace (segmentsAt u) (segmentsAt v) := by
  have hh : ((splitOn slash u).headD []).length = ((splitOn slash v).headD []).length := by
    have := split_case h
    revert this
    generalize splitOn slash u = us
    generalize splitOn slash v = vs
    intro h
    cases h with
    | nil => rfl
    | cons r _ => exact r.length
  unfold segmentsAt
  rw [hh]
  exact all2_reverse (foldAt_case (placed_case (after_case h) _) .nil)

/-- Paths that differ in case are split at the same places. -/
theorem parse_case {u v : Str} (h : SameText u v) {buf buf' : List USeg} (hb : buf.length = 19) (hb' : buf'.length = 19) :
    parseURLPath u buf = parseURLPath v buf' := by
  have hr : ∀ {us vs : List (Nat × Str)}, All2 SamePlace us vs → us.map recorded = vs.map recorded := by
    intro us vs h
    induction h with
    | nil => rfl
    | cons r _ ih => rw [List.map_cons, List.map_cons, ih, recorded, recorded, r.1, r.2.length]
  rcases parse_at u buf hb with ⟨hf, h1⟩ | ⟨hf, h1⟩ <;> rcases parse_at v buf' hb' with ⟨hf', h1'⟩ | ⟨hf', h1'⟩
  · rw [h1, h1', hr (segmentsAt_case h)]
  · exact absurd (fits_case h hf) hf'
  · exact absurd (fits_case (same_text_symm h) hf') hf
  · rw [h1, h1']

theorem slice_case {u v : Str} (h : SameText u v) (s : USeg) :
    (sliceU u s = none ∧ sliceU v s = none) ∨ ∃ a b, sliceU u s = some a ∧ sliceU v s = some b ∧ SameText a b := by
  unfold sliceU
  rw [← h.length]
  split
  · exact .inr ⟨_, _, rfl, rfl, Gofre.Glob.all2_drop (all2_take h _) _⟩
  · exact .inl ⟨rfl, rfl⟩

theorem url_case {x : Ext} (hl : FoldLaws x.eqFold) (hfold : ∀ a b, SameText a b → x.eqFold a b = true) {u v : Str} (h : SameText u v)
    {s : Segment} (hs : s.kind = .constraint → ∀ src, s.re = some src → Insensitive x src) (e : USeg) :
    matchUrl x true u s e = matchUrl x true v s e := by
  have hb : (sliceU u e).bind (matchText x true s) = (sliceU v e).bind (matchText x true s) := by
    rcases slice_case h e with ⟨h1, h2⟩ | ⟨a, b, h1, h2, h3⟩
    · rw [h1, h2]
    · rw [h1, h2]; exact text_case hl hfold h3 hs
  unfold matchUrl
  rw [hb]

/-- C27: in case-insensitive mode two paths that differ in the case of ASCII letters get the same
answer: the same pattern with the same segments behind each variable, no pattern, or a crash. -/
theorem c27_same_answer {x : Ext} (hl : FoldLaws x.eqFold) (hfold : ∀ a b, SameText a b → x.eqFold a b = true) {ps : List Pattern} {m : Matcher} (hr : Registered x true sortSiblings ps m)
    (hre : ∀ p ∈ ps, ∀ s ∈ p.segments, s.kind = .constraint → ∀ src, s.re = some src → Insensitive x src)
    {path path' : Str} {buf buf' : List USeg} (hb : buf.length = 19) (hb' : buf'.length = 19)
    (h : SameText path path') :
    ∃ f, ∀ g, f ≤ g → lookup x true m path buf g = lookup x true m path' buf' g ∧ lookup x true m path buf g ≠ none := by
  obtain ⟨segs, h0, f, h1⟩ := lookup_any x true m path buf hb
  obtain ⟨segs', h0', f', h1'⟩ := lookup_any x true m path' buf' hb'
  rw [parse_case h hb hb', h0'] at h0
  cases h0
  refine ⟨max f f', fun g hg => ?_⟩
  rw [h1 g (by omega), h1' g (by omega)]
  refine ⟨congrArg some ?_, by simp⟩
  have hh := holds sortSiblings_perm hr
  refine answer_congr_on (P := fun s => s.kind = .constraint → ∀ src, s.re = some src → Insensitive x src) m ?_ ?_
  · intro s hs
    obtain ⟨p, hp, hsp⟩ := hh.nodes s hs
    exact hre p hp s hsp
  · have : ∀ l : List USeg, All2 (AlikeOn (fun s => s.kind = .constraint → ∀ src, s.re = some src → Insensitive x src)
        (matchUrl x true path) (matchUrl x true path')) l l := by
      intro l
      induction l with
      | nil => exact .nil
      | cons e l ih => exact .cons (fun s hs => url_case hl hfold h hs e) ih
    exact this _

/-- C27 for a router: the same things happen. -/
theorem c27_same_dispatch {x : Ext} (hl : FoldLaws x.eqFold) (hfold : ∀ a b, SameText a b → x.eqFold a b = true) {other : Str → Str} {es : List Route} {r : Router} (hr : Built x other sortSiblings true es r)
    (hre : ∀ e ∈ es, ∀ p, parsePattern x true e.pat = .ok p → ∀ s ∈ p.segments, s.kind = .constraint → ∀ src, s.re = some src → Insensitive x src)
    (behave : Nat → Behaviour) (method : Str)
    {path path' : Str} {buf buf' : List USeg} (hb : buf.length = 19) (hb' : buf'.length = 19)
    (h : SameText path path') :
    ∃ f, ∀ g, f ≤ g → serveHTTP x other r behave method path buf g = serveHTTP x other r behave method path' buf' g ∧
      serveHTTP x other r behave method path buf g ≠ none := by
  obtain ⟨hci, hm⟩ := built_matchers hr
  simp only [serve_answer behave method _ hb, serve_answer behave method _ hb']
  cases hmm : r.matchers (toUpper other method) with
  | none => exact ⟨0, fun _ _ => ⟨rfl, by simp⟩⟩
  | some m =>
    obtain ⟨ps, h1, h2⟩ := (hm _).2 m hmm
    obtain ⟨f, hf⟩ := c27_same_answer hl hfold h1 (by
      intro p hp s hs
      obtain ⟨e, he, p0, hp0, hpe⟩ := h2.mem_right hp
      rw [hpe] at hs
      exact hre e (List.mem_filter.1 he).1 p0 hp0 s hs) hb hb' h
    refine ⟨f, fun g hg => ?_⟩
    obtain ⟨e1, e2⟩ := hf g hg
    rw [hci]
    simp only
    rw [e1] at e2 ⊢
    refine ⟨rfl, ?_⟩
    cases hlk : lookup x true m path' buf' g with
    | none => exact absurd hlk e2
    | some _ => simp

/-- Library functions for the example: an expression `(?i)t` is found in a text that contains `t` up to case. -/
def foldExt : Ext where
  compiles _ := true
  reMatch src u := (List.range (u.length + 1)).any fun i => ((src.drop 4).map plainExt.upperB).isPrefixOf ((u.map plainExt.upperB).drop i)
  eqFold := plainExt.eqFold

theorem same_upper {u v : Str} (h : SameText u v) : u.map plainExt.upperB = v.map plainExt.upperB := by
  unfold SameText at h
  induction h with
  | nil => rfl
  | @cons a b _ _ r _ ih =>
    simp only [List.map_cons, ih, List.cons.injEq, and_true]
    have key : ∀ {a b : UInt8}, 97 ≤ a.toNat → a.toNat ≤ 122 → b.toNat + 32 = a.toNat → plainExt.upperB a = plainExt.upperB b := by
      intro a b h1 h2 h3
      unfold plainExt.upperB
      rw [if_pos (by simp only [UInt8.le_iff_toNat_le]; simpa using ⟨h1, h2⟩), if_neg (by simp only [UInt8.le_iff_toNat_le]; simp; omega)]
      apply UInt8.toNat_inj.1
      rw [UInt8.toNat_sub_of_le _ _ (by rw [UInt8.le_iff_toNat_le]; simp; omega)]
      simp; omega
    rcases r with rfl | ⟨h1, h2, h3⟩ | ⟨h1, h2, h3⟩
    · rfl
    · exact key h1 h2 h3
    · exact (key h1 h2 h3).symm

theorem foldExt_insensitive (src : Str) : Insensitive foldExt src := by
  intro u v h
  simp only [foldExt, same_upper h, h.length]

/-- Patterns with a literal, a wildcard, a variable and a constraint, and two spellings of a request. -/
example : FoldLaws foldExt.eqFold ∧ (∀ a b, SameText a b → foldExt.eqFold a b = true) ∧ SameText b!"/Ab/xYz/Q" b!"/aB/XYz/q" ∧
    ∃ ps m, Registered foldExt true sortSiblings ps m ∧ ps.length = 3 ∧
      (∀ p ∈ ps, ∀ s ∈ p.segments, s.kind = .constraint → ∀ src, s.re = some src → Insensitive foldExt src) ∧
      lookup foldExt true m b!"/Ab/xYz/Q" freshBuf 20 = some (.found (patOf foldExt true b!"/ab/{v:y}/q" 3) [.literal, .constraint, .literal]) := by
  refine ⟨plainExt_laws, ?_, ?_, ?_⟩
  · intro a b h
    simp [foldExt, plainExt, same_upper h]
  · have lo : ∀ {a b : UInt8}, (97 ≤ b.toNat ∧ b.toNat ≤ 122 ∧ a.toNat + 32 = b.toNat) → CaseOf a b := fun h => .inr (.inr h)
    have up : ∀ {a b : UInt8}, (97 ≤ a.toNat ∧ a.toNat ≤ 122 ∧ b.toNat + 32 = a.toNat) → CaseOf a b := fun h => .inr (.inl h)
    exact .cons (.inl rfl) (.cons (lo (by decide)) (.cons (up (by decide)) (.cons (.inl rfl) (.cons (up (by decide)) (.cons (.inl rfl)
      (.cons (.inl rfl) (.cons (.inl rfl) (.cons (lo (by decide)) .nil))))))))
  · obtain ⟨ps, m, h1, h2, h3⟩ := checked_spec (x := foldExt) (ci := true) (l := [(b!"/ab/{v:y}/q", 3), (b!"/aB/X*/r", 2), (b!"/{n}/b", 1)])
      (f := fun ps => decide (ps.length = 3)) (by decide +kernel)
    exact ⟨ps, m, h1, by simpa using h2, fun _ _ _ _ _ _ _ => foldExt_insensitive _, (h3 _ _ _).symm.trans (by decide +kernel)⟩

end Gofre.Props
