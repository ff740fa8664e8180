import Verif.Proofs.PriorityKinds
import Verif.Proofs.PatternLoop
import Verif.Proofs.Endless
import Verif.Props.Pattern

/-! # C07, C08: the priority of patterns -/

namespace Gofre.Props
open Gofre.Path Gofre.Spec

theorem kinds_of_pieces {x : Ext} {ci : Bool} {vs : List Str} {segs : List Segment} (h : All2 (SegOf x ci) vs segs) :
    segs.map (·.kind) = vs.map determineMatchType := by
  induction h with
  | nil => rfl
  | cons hr _ ih => simp [ih, (kind_mkSegment hr.2).1]

theorem determine_ne_unknown (v : Str) : determineMatchType v ≠ .unknown := by
  unfold determineMatchType
  split
  · simp
  · split
    · simp
    · split
      · split <;> simp
      · split <;> simp

theorem apart_kinds {vs : List Str} (h : Apart .unknown vs) :
    ¬ ∃ a b, vs.map determineMatchType = a ++ .multiple :: .multiple :: b := by
  rintro ⟨a, b, e⟩
  obtain ⟨v1, v2, rfl, _, h2⟩ := List.map_eq_append_iff.1 e
  obtain ⟨x, l, rfl, hx, h3⟩ := List.map_eq_cons_iff.1 h2
  obtain ⟨y, l', rfl, hy, _⟩ := List.map_eq_cons_iff.1 h3
  rw [determine_multiple_iff] at hx hy
  exact ((apart_iff _ _).1 h).2 ⟨v1, l', by rw [hx, hy]⟩

theorem countP_determine (vs : List Str) :
    (vs.map determineMatchType).countP (· = .multiple) = vs.count b!"**" := by
  induction vs with
  | nil => rfl
  | cons v vs ih =>
    simp only [List.map_cons, List.countP_cons, List.count_cons, ih]
    by_cases h : v = b!"**"
    · subst h
      have : determineMatchType b!"**" = .multiple := by decide
      simp [this]
    · have : determineMatchType v ≠ .multiple := fun e => h ((determine_multiple_iff v).1 e)
      simp [this, h]

/-! ### C07 -/

/-- The outcome `hangs` of the model is divergence of the loop of `getSplitIndex`: no number of
iterations is enough. -/
theorem c07_hangs_is_divergence (nr : Nat) (d : Int) (h : nr < 2 ^ 64) (hs : splitIndex nr d = none) :
    ∀ f, splitLoop (decimalDivider d) f nr 0 = none :=
  splitLoop_hangs_forever nr d (Nat.lt_of_lt_of_le h (by decide)) hs

/-- The text of a pattern whose registration never returns: 17 segments, 8 of them `**`. -/
abbrev endless : Str := b!"/a/**/a/**/a/**/a/**/a/**/a/**/a/**/a/**/a"

/-- C07 fails. -/
theorem c07_violated (x : Ext) :
    (pieces endless).length ≤ 19 ∧ parsePattern x false endless = .hangs := by
  refine ⟨by decide, ?_⟩
  have hind : parsePattern x false endless = parsePattern ⟨fun _ => true, fun _ _ => true, fun _ _ => true⟩ false endless := by
    rfl
  rw [hind]
  decide +kernel

/-- C07 for patterns of at most 16 pieces, or at most 6 `**` among 19 pieces. -/
theorem c07_terminates_partial (x : Ext) (ci : Bool) (pat : Str) (h19 : (pieces pat).length ≤ 19)
    (h : (pieces pat).length ≤ 16 ∨ (pieces pat).count b!"**" ≤ 6) : parsePattern x ci pat ≠ .hangs := by
  cases pat with
  | nil => simp [parsePattern]
  | cons c body =>
    by_cases hc : c = slash
    · subst hc
      by_cases hb : body = []
      · subst hb; simp [parsePattern]
      · rw [pieces_eq] at h h19
        rcases parsePattern_cases x ci body hb with ⟨he, _⟩ | ⟨segs, h1, h2, he⟩
        · rw [he]; simp
        · have hl := h1.length
          rw [he]
          have e0 : segs.length / 256 = 0 := by omega
          rw [e0]
          simp only [Nat.mul_zero, List.drop_zero]
          rw [kinds_of_pieces h1]
          obtain ⟨r, hr⟩ := computePriority_ends ((tailPieces body).map determineMatchType)
            (by intro k hk; obtain ⟨v, _, rfl⟩ := List.mem_map.1 hk; exact determine_ne_unknown v)
            (by simpa using h19) (apart_kinds h2) (by rw [countP_determine]; simpa using h)
          rw [hr]; simp
    · simp [parsePattern, hc]

/-- The hypotheses of `c07_terminates_partial` on a pattern with 16 pieces and 8 `**`. -/
example : (pieces b!"/a/**/a/**/a/**/a/**/a/**/a/**/a/**/a/**").length = 16 := by decide

theorem starShape_kinds (vs : List Str) :
    (vs.map determineMatchType).reverse.map (· == .multiple) = starShape vs := by
  rw [starShape, ← List.map_reverse, List.map_map]
  apply List.map_congr_left
  intro v _
  simp only [Function.comp_apply]
  by_cases h : v = b!"**"
  · subst h; decide
  · have : determineMatchType v ≠ .multiple := fun e => h ((determine_multiple_iff v).1 e)
    have h1 : (determineMatchType v == .multiple) = false := by
      revert this; cases determineMatchType v <;> intro this <;> first | rfl | exact absurd rfl this
    rw [h1, beq_eq_false_iff_ne.2 h]

/-- C07, the answer for patterns of at most 19 pieces: registration of a well-formed pattern fails
to return exactly when its `**` stand in an endless shape. -/
theorem c07_exact (x : Ext) (ci : Bool) (pat : Str) (h19 : (pieces pat).length ≤ 19) :
    parsePattern x ci pat = .hangs ↔
      (∃ segs, Spells x.compiles ci pat segs) ∧ EndlessShape (starShape (pieces pat)) := by
  cases pat with
  | nil =>
    constructor
    · intro h; simp [parsePattern] at h
    · rintro ⟨⟨_, h⟩, _⟩
      obtain ⟨b, hb, _⟩ := h.slashed
      cases hb
  | cons c body =>
    by_cases hc : c = slash
    · subst hc
      by_cases hb : body = []
      · subst hb
        constructor
        · intro h; simp [parsePattern] at h
        · rintro ⟨_, h⟩
          exact absurd h (by decide)
      · rw [pieces_eq] at h19 ⊢
        rcases parsePattern_cases x ci body hb with ⟨he, hn⟩ | ⟨segs, h1, h2, he⟩
        · constructor
          · intro h; rw [he] at h; cases h
          · rintro ⟨⟨segs, h⟩, _⟩
            exact absurd ⟨segs, (spells_iff x ci body hb segs).1 h⟩ hn
        · have hl := h1.length
          have e0 : segs.length / 256 = 0 := by omega
          rw [e0] at he
          simp only [Nat.mul_zero, List.drop_zero] at he
          rw [kinds_of_pieces h1] at he
          have hx := computePriority_hangs_iff ((tailPieces body).map determineMatchType)
            (by intro k hk; obtain ⟨v, _, rfl⟩ := List.mem_map.1 hk; exact determine_ne_unknown v)
            (by simpa using h19) (apart_kinds h2)
          rw [starShape_kinds] at hx
          constructor
          · intro h
            refine ⟨⟨segs, (spells_iff x ci body hb segs).2 ⟨h1, h2⟩⟩, hx.1 ?_⟩
            rw [he] at h
            split at h
            · assumption
            · cases h
          · rintro ⟨_, h⟩
            rw [he, hx.2 h]
    · constructor
      · intro h; simp [parsePattern, hc] at h
      · rintro ⟨⟨_, h⟩, _⟩
        obtain ⟨b, hb, _⟩ := h.slashed
        simp at hb; exact absurd hb.1 hc

/-- Both answers of `c07_exact`: 17 pieces with 8 `**`, and the same with a `**` at the end. -/
example : EndlessShape (starShape (pieces endless)) ∧
    ¬ EndlessShape (starShape (pieces b!"/a/**/a/**/a/**/a/**/a/**/a/**/a/**/a/a/**")) := by
  decide +kernel

/-- C07 for patterns with at most one `**`, of any length. -/
theorem c07_single_partial (x : Ext) (ci : Bool) (pat : Str) (h : (pieces pat).count b!"**" ≤ 1) :
    parsePattern x ci pat ≠ .hangs := by
  cases pat with
  | nil => simp [parsePattern]
  | cons c body =>
    by_cases hc : c = slash
    · subst hc
      by_cases hb : body = []
      · subst hb; simp [parsePattern]
      · rw [pieces_eq] at h
        rcases parsePattern_cases x ci body hb with ⟨he, _⟩ | ⟨segs, h1, h2, he⟩
        · rw [he]; simp
        · have hx := computePriority_one_star ((segs.drop (256 * (segs.length / 256))).map (·.kind)) (by
            rw [List.map_drop, kinds_of_pieces h1]
            refine Nat.le_trans (List.Sublist.countP_le (List.drop_sublist _ _)) ?_
            rw [countP_determine]; exact h)
          rw [he]
          split
          · exact absurd (by assumption) hx
          · simp
    · simp [parsePattern, hc]

/-- The hypothesis of `c07_single_partial` on a pattern of 25 pieces. -/
example : (pieces b!"/a/b/c/d/e/f/g/h/i/j/**/k/l/m/n/o/p/q/r/s/t/u/v/w/x").length = 25 ∧
    (pieces b!"/a/b/c/d/e/f/g/h/i/j/**/k/l/m/n/o/p/q/r/s/t/u/v/w/x").count b!"**" ≤ 1 := by decide

/-! ### C08 -/

/-- The priority of a pattern with at most 19 segments and at most one `**` is the number whose
digits are the kinds, `**` filling up to 19 digits. -/
theorem c08_priority_number (x : Ext) (ci : Bool) (pat : Str) (p : Pattern) (h : parsePattern x ci pat = .ok p)
    (h19 : (pieces pat).length ≤ 19) (h1 : (pieces pat).count b!"**" ≤ 1) :
    p.priority = decR (spread (p.segments.map (·.kind))).reverse := by
  cases pat with
  | nil => simp [parsePattern] at h
  | cons c body =>
    by_cases hc : c = slash
    · subst hc
      by_cases hb : body = []
      · subst hb
        simp [parsePattern] at h
        subst h
        decide
      · rw [pieces_eq] at h1 h19
        rcases parsePattern_cases x ci body hb with ⟨he, _⟩ | ⟨segs, g1, g2, he⟩
        · rw [he] at h; cases h
        · have hl := g1.length
          have e0 : segs.length / 256 = 0 := by omega
          rw [he, e0] at h
          simp only [Nat.mul_zero, List.drop_zero] at h
          rw [kinds_of_pieces g1] at h
          have hu : ∀ k ∈ (tailPieces body).map determineMatchType, k ≠ .unknown := by
            intro k hk; obtain ⟨v, _, rfl⟩ := List.mem_map.1 hk; exact determine_ne_unknown v
          have hl19 : ((tailPieces body).map determineMatchType).length ≤ 19 := by simpa using h19
          have hp : computePriority ((tailPieces body).map determineMatchType) =
              some (decR (spread ((tailPieces body).map determineMatchType)).reverse) := by
            have hcnt := countP_determine (tailPieces body)
            by_cases h0 : (tailPieces body).count b!"**" = 0
            · exact computePriority_none _ hl19 (by rw [hcnt, h0])
            · have hpos : MT.multiple ∈ (tailPieces body).map determineMatchType := by
                have : b!"**" ∈ tailPieces body := List.count_pos_iff.1 (by omega)
                exact List.mem_map.2 ⟨_, this, by decide⟩
              obtain ⟨a, b, e, hna⟩ := List.eq_append_cons_of_mem hpos
              have hnb : MT.multiple ∉ b := by
                intro hm
                rw [e, List.countP_append, List.countP_cons] at hcnt
                have : 0 < b.countP (· = .multiple) := List.countP_pos_iff.2 ⟨_, hm, by simp⟩
                simp at hcnt
                omega
              rw [e] at hu hl19 ⊢
              exact computePriority_one a b hu hl19 hna hnb
          rw [hp] at h
          simp only [PRes.ok.injEq] at h
          subst h
          show decR _ = decR _
          rw [kinds_of_pieces g1]
    · simp [parsePattern, hc] at h

theorem spread_ok (ks : List MT) (hl : ks.length ≤ 19) (h1 : ks.countP (· = .multiple) ≤ 1) :
    (spread ks).length = 19 ∧ ∀ c ∈ spread ks, c ≤ 9 := by
  have hlen : ∀ (n : Nat) (l : List MT), (l.flatMap (fun k => if k = .multiple then List.replicate n 6 else [k.code])).length
      + l.countP (· = .multiple) = l.length + n * l.countP (· = .multiple) := by
    intro n l
    induction l with
    | nil => rfl
    | cons k l ih =>
      rw [List.flatMap_cons, List.length_append, List.countP_cons, List.length_cons]
      revert ih
      generalize (l.flatMap (fun k => if k = .multiple then List.replicate n 6 else [k.code])).length = L
      intro ih
      by_cases hk : k = .multiple
      · simp only [hk, if_true, decide_true, List.length_replicate, Nat.mul_add, Nat.mul_one]; omega
      · simp only [hk, if_false, decide_false, List.length_cons, List.length_nil]
        simp only [Bool.false_eq_true, if_false, Nat.add_zero]; omega
  have hle : ∀ (n : Nat) (l : List MT), ∀ c ∈ (l.flatMap (fun k => if k = .multiple then List.replicate n 6 else [k.code])), c ≤ 9 := by
    intro n l c hc
    obtain ⟨k, _, hk⟩ := List.mem_flatMap.1 hc
    split at hk
    · have := List.eq_of_mem_replicate hk; omega
    · rename_i hne
      simp at hk
      subst hk
      cases k <;> simp [MT.code]
  constructor
  · simp only [spread, rank_code, List.length_append, List.length_replicate]
    have := hlen (20 - ks.length) ks
    have hcl : ks.countP (· = .multiple) ≤ ks.length := List.countP_le_length
    generalize ks.countP (· = .multiple) = c at *
    match c with
    | 0 => omega
    | 1 => omega
    | _ + 2 => omega
  · intro c hc
    simp only [spread, rank_code] at hc
    rcases List.mem_append.1 hc with hc | hc
    · exact hle _ _ c hc
    · have := List.eq_of_mem_replicate hc; omega

theorem segments_kinds (x : Ext) (ci : Bool) (pat : Str) (p : Pattern) (h : parsePattern x ci pat = .ok p)
    (h19 : (pieces pat).length ≤ 19) (hne : pat ≠ b!"/") : p.segments.map (·.kind) = (pieces pat).map determineMatchType := by
  have hv := c09_below_256_partial x ci pat p h hne (by omega)
  rw [← hv, List.map_map]
  apply List.map_congr_left
  intro s hs
  obtain ⟨_, hp, hc⟩ := c06_classified x ci pat p h s hs
  exact (kind_mkSegment ((piece_iff x ci s.val s).2 ⟨hp, hc⟩).2).1

theorem segments_pieces (x : Ext) (ci : Bool) (pat : Str) (p : Pattern) (h : parsePattern x ci pat = .ok p)
    (h19 : (pieces pat).length ≤ 19) :
    (p.segments.map (·.kind)).length ≤ 19 ∧
      (p.segments.map (·.kind)).countP (· = .multiple) = (pieces pat).count b!"**" := by
  by_cases hne : pat = b!"/"
  · subst hne
    simp [parsePattern] at h
    subst h
    decide
  · rw [segments_kinds x ci pat p h h19 hne]
    exact ⟨by simpa using h19, countP_determine _⟩

/-- C08 when both patterns have at most one `**`. -/
theorem c08_one_double_star_partial (x : Ext) (ci : Bool) (pat pat' : Str) (p p' : Pattern)
    (h : parsePattern x ci pat = .ok p) (h' : parsePattern x ci pat' = .ok p')
    (h19 : (pieces pat).length ≤ 19) (h19' : (pieces pat').length ≤ 19)
    (h1 : (pieces pat).count b!"**" ≤ 1) (h1' : (pieces pat').count b!"**" ≤ 1) :
    (p.priority < p'.priority ↔ spread (p.segments.map (·.kind)) < spread (p'.segments.map (·.kind))) ∧
      (p.priority = p'.priority ↔ spread (p.segments.map (·.kind)) = spread (p'.segments.map (·.kind))) := by
  obtain ⟨a, b⟩ := segments_pieces x ci pat p h h19
  obtain ⟨a', b'⟩ := segments_pieces x ci pat' p' h' h19'
  obtain ⟨l, c⟩ := spread_ok _ a (by omega)
  obtain ⟨l', c'⟩ := spread_ok _ a' (by omega)
  rw [c08_priority_number x ci pat p h h19 h1, c08_priority_number x ci pat' p' h' h19' h1']
  have e := decR_lt_iff _ _ (l.trans l'.symm) c c'
  have e' := decR_lt_iff _ _ (l'.trans l.symm) c' c
  refine ⟨e, fun he => ?_, fun he => by rw [he]⟩
  have n1 : ¬ spread (p.segments.map (·.kind)) < spread (p'.segments.map (·.kind)) := by rw [← e]; omega
  have n2 : ¬ spread (p'.segments.map (·.kind)) < spread (p.segments.map (·.kind)) := by rw [← e']; omega
  exact List.le_antisymm n2 n1

/-- The library functions, for the examples. -/
abbrev anyExt : Ext := ⟨fun _ => true, fun _ _ => true, fun a b => a == b⟩

/-- Non-vacuous: `/a/{x}` comes before `/a/*`, `/a/**/b` and `/**`. -/
example : (do
    let a ← (match parsePattern anyExt false b!"/a/{x}" with | .ok p => some p.priority | _ => none)
    let b ← (match parsePattern anyExt false b!"/a/*" with | .ok p => some p.priority | _ => none)
    let c ← (match parsePattern anyExt false b!"/a/**/b" with | .ok p => some p.priority | _ => none)
    let d ← (match parsePattern anyExt false b!"/**" with | .ok p => some p.priority | _ => none)
    some (decide (a < b ∧ b < c ∧ c < d))) = some true := by decide +kernel

/-- C08 fails with several `**`: `/**/{x}/a/**` and `/**/a/**/b` have equally many segments and
equally many `**`, and first differ where the former has a variable and the latter literal text,
yet the former comes first. -/
theorem c08_violated : ∃ p q, parsePattern anyExt false b!"/**/{x}/a/**" = .ok p ∧
    parsePattern anyExt false b!"/**/a/**/b" = .ok q ∧
    p.segments.map (·.kind) = [.multiple, .capture, .literal, .multiple] ∧
    q.segments.map (·.kind) = [.multiple, .literal, .multiple, .literal] ∧
    p.priority < q.priority := by
  refine ⟨_, _, rfl, rfl, by decide +kernel, by decide +kernel, by decide +kernel⟩

end Gofre.Props
