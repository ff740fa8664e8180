import Verif.Proofs.PatternLoop

/-! # C05, C06, C09: what patterns spell -/

namespace Gofre.Props
open Gofre.Path Gofre.Spec

theorem spells_iff (x : Ext) (ci : Bool) (body : Str) (hb : body ≠ []) (segs : List Segment) :
    Spells x.compiles ci (slash :: body) segs ↔
      All2 (SegOf x ci) (tailPieces body) segs ∧ Apart .unknown (tailPieces body) := by
  constructor
  · rintro ⟨_, h2, h3, h4⟩
    refine ⟨?_, (apart_iff _ _).2 ⟨by simp, h4⟩⟩
    rw [pieces_eq] at h2
    exact h2.imp fun v s _ hs hp => (piece_iff x ci v s).2 ⟨hp, h3 s hs⟩
  · rintro ⟨h1, h2⟩
    refine ⟨⟨body, rfl, hb⟩, ?_, ?_, ((apart_iff _ _).1 h2).2⟩
    · rw [pieces_eq]
      exact h1.imp fun v s _ _ hp => ((piece_iff x ci v s).1 hp).1
    · intro s hs
      obtain ⟨v, _, hv⟩ := h1.mem_right hs
      exact ((piece_iff x ci v s).1 hv).2

/-- C05.  A pattern gets past the syntax checks (it is accepted, or its priority computation
does not end, see C07) exactly when it is `/` or spells some segments. -/
theorem c05_accepts_iff (x : Ext) (ci : Bool) (pat : Str) :
    ((∃ p, parsePattern x ci pat = .ok p) ∨ parsePattern x ci pat = .hangs) ↔
      pat = b!"/" ∨ ∃ segs, Spells x.compiles ci pat segs := by
  cases pat with
  | nil =>
    constructor
    · rintro (⟨p, h⟩ | h) <;> simp [parsePattern] at h
    · rintro (h | ⟨_, h⟩)
      · simp at h
      · obtain ⟨b, hb, _⟩ := h.slashed; simp at hb
  | cons c body =>
    by_cases hc : c = slash
    · subst hc
      by_cases hb : body = []
      · subst hb
        simp [parsePattern]
      · have hr : ¬ (slash :: body = b!"/") := by simp [hb]
        simp only [hr, false_or]
        rcases parsePattern_cases x ci body hb with ⟨he, hn⟩ | ⟨segs, h1, h2, he⟩
        · rw [he]
          constructor
          · rintro (⟨p, h⟩ | h) <;> cases h
          · rintro ⟨segs, h⟩
            exact absurd ⟨segs, (spells_iff x ci body hb segs).1 h⟩ hn
        · constructor
          · intro _; exact ⟨segs, (spells_iff x ci body hb segs).2 ⟨h1, h2⟩⟩
          · intro _
            rw [he]
            split
            · exact .inr rfl
            · exact .inl ⟨_, rfl⟩
    · have : parsePattern x ci (c :: body) = .error := by simp [parsePattern, hc]
      rw [this]
      constructor
      · rintro (⟨p, h⟩ | h) <;> cases h
      · rintro (h | ⟨_, h⟩)
        · simp at h; exact absurd h.1 hc
        · obtain ⟨b, hb, _⟩ := h.slashed
          simp at hb; exact absurd hb.1 hc

/-- C05.  An accepted pattern with fewer than 256 pieces has exactly the spelled segments. -/
theorem c05_segments (x : Ext) (ci : Bool) (pat : Str) (p : Pattern) (h : parsePattern x ci pat = .ok p)
    (hne : pat ≠ b!"/") (hlen : (pieces pat).length < 256) :
    Spells x.compiles ci pat p.segments ∧ p.raw = pat ∧
      ((∃ s ∈ p.segments, s.kind = .multiple) → p.maxMatchable = 255) ∧
      ((∀ s ∈ p.segments, s.kind ≠ .multiple) → p.maxMatchable.toNat = p.segments.length) ∧
      p.captureVarsLen.toNat = p.segments.countP (fun s => s.kind = .capture ∨ s.kind = .constraint) := by
  cases pat with
  | nil => simp [parsePattern] at h
  | cons c body =>
    by_cases hc : c = slash
    · subst hc
      have hb : body ≠ [] := fun e => hne (by rw [e])
      rcases parsePattern_cases x ci body hb with ⟨he, hn⟩ | ⟨segs, h1, h2, he⟩
      · rw [he] at h; cases h
      · have hl : segs.length < 256 := by rw [← h1.length]; simpa [pieces_eq] using hlen
        have e0 : segs.length / 256 = 0 := by omega
        rw [e0] at he
        simp only [Nat.mul_zero, List.drop_zero] at he
        rw [he] at h
        split at h
        · cases h
        · simp only [PRes.ok.injEq] at h
          subst h
          have hmax : ∀ l : List Segment, (∃ s ∈ l, s.kind = .multiple) → maxCodeOf l = 6 := by
            intro l
            have gen : ∀ (l : List Segment) (m : Nat), m ≤ 6 →
                (m ≤ l.foldl (fun m s => max m s.kind.code) m ∧ l.foldl (fun m s => max m s.kind.code) m ≤ 6) ∧
                ((∃ s ∈ l, s.kind = .multiple) → l.foldl (fun m s => max m s.kind.code) m = 6) := by
              intro l
              induction l with
              | nil => intro m hm; simp [hm]
              | cons a l ih =>
                intro m hm
                have ha : a.kind.code ≤ 6 := by cases a.kind <;> simp [MT.code]
                obtain ⟨⟨i1, i2⟩, i3⟩ := ih (max m a.kind.code) (by omega)
                simp only [List.foldl_cons]
                refine ⟨⟨by omega, i2⟩, ?_⟩
                rintro ⟨s, hs, hk⟩
                rcases List.mem_cons.1 hs with rfl | hs
                · rw [hk] at i1 ⊢
                  simp only [MT.code] at i1 ⊢
                  rw [hk] at i2
                  simp only [MT.code] at i2
                  omega
                · exact i3 ⟨s, hs, hk⟩
            exact (gen l 0 (by omega)).2
          have hmax' : ∀ l : List Segment, (∀ s ∈ l, s.kind ≠ .multiple) → maxCodeOf l ≠ 6 := by
            intro l
            have gen : ∀ (l : List Segment) (m : Nat), m ≤ 5 → (∀ s ∈ l, s.kind ≠ .multiple) →
                l.foldl (fun m s => max m s.kind.code) m ≤ 5 := by
              intro l
              induction l with
              | nil => intro m hm _; exact hm
              | cons a l ih =>
                intro m hm hk
                have ha : a.kind.code ≤ 5 := by
                  have := hk a (by simp)
                  revert this
                  cases a.kind <;> simp [MT.code]
                simp only [List.foldl_cons]
                exact ih _ (by omega) fun s hs => hk s (by simp [hs])
            intro hk
            have := gen l 0 (by omega) hk
            unfold maxCodeOf
            omega
          refine ⟨(spells_iff x ci body hb segs).2 ⟨h1, h2⟩, rfl, ?_, ?_, ?_⟩
          · intro hm
            simp only [hmax segs hm, if_true]
          · intro hm
            simp only [hmax' segs hm, if_false]
            simp; omega
          · have : capsOf segs ≤ segs.length := List.countP_le_length
            simp only [UInt8.toNat_ofNat']
            show capsOf segs % 256 = capsOf segs
            omega
    · simp [parsePattern, hc] at h

example : parsePattern ⟨fun _ => true, fun _ _ => true, fun a b => a == b⟩ false b!"/a/{id:[0-9]+}/**/" =
    .ok { captureVarsLen := 1, maxMatchable := 255, priority := 1266666666666666666, raw := b!"/a/{id:[0-9]+}/**/",
          segments := [{ val := b!"a", kind := .literal },
            { val := b!"{id:[0-9]+}", kind := .constraint, varName := b!"id", re := some b!"[0-9]+" },
            { val := b!"**", kind := .multiple }] } := by decide

/-- Rejected texts: missing slash, empty piece, unbalanced brace, unnamed variable, `**` mixed with
text, adjacent `**`. -/
example : ([b!"", b!"a", b!"//", b!"/a//b", b!"/{a", b!"/a}", b!"/{}", b!"/{:x}", b!"/a**", b!"/**/**"].map
    (parsePattern ⟨fun _ => true, fun _ _ => true, fun a b => a == b⟩ false)).all (· = .error) = true := by decide

/-- C05: parsing never panics. -/
theorem c05_no_panic (x : Ext) (ci : Bool) (pat : Str) : parsePattern x ci pat ≠ .panic := by
  cases pat with
  | nil => simp [parsePattern]
  | cons c body =>
    by_cases hc : c = slash
    · subst hc
      by_cases hb : body = []
      · subst hb; simp [parsePattern]
      · rcases parsePattern_cases x ci body hb with ⟨he, _⟩ | ⟨segs, _, _, he⟩
        · rw [he]; simp
        · rw [he]; split <;> simp
    · simp [parsePattern, hc]

/-- C06.  Every segment of an accepted pattern is classified by the grammar (`Piece`), so that
for instance a variable never has an empty name. -/
theorem c06_classified (x : Ext) (ci : Bool) (pat : Str) (p : Pattern) (h : parsePattern x ci pat = .ok p)
    (s : Segment) (hs : s ∈ p.segments) :
    s.val ∈ pieces pat ∧ Piece ci s.val s ∧ (∀ src, s.re = some src → x.compiles src = true) := by
  cases pat with
  | nil => simp [parsePattern] at h
  | cons c body =>
    by_cases hc : c = slash
    · subst hc
      by_cases hb : body = []
      · subst hb
        simp [parsePattern] at h
        subst h
        simp at hs
      · rcases parsePattern_cases x ci body hb with ⟨he, hn⟩ | ⟨segs, h1, h2, he⟩
        · rw [he] at h; cases h
        · rw [he] at h
          split at h
          · cases h
          · simp only [PRes.ok.injEq] at h
            subst h
            have hs' : s ∈ segs := List.mem_of_mem_drop hs
            obtain ⟨v, hv, hseg⟩ := h1.mem_right hs'
            have hval := (kind_mkSegment hseg.2).2
            rw [hval, pieces_eq]
            obtain ⟨hp, hc⟩ := (piece_iff x ci v s).1 hseg
            exact ⟨hv, hp, hc⟩
    · simp [parsePattern, hc] at h

/-- C06: consequences for variables, spelled out. -/
theorem c06_variables (ci : Bool) (v : Str) (s : Segment) (h : Piece ci v s) :
    (s.kind = .capture → s.varName ≠ [] ∧ v = 123 :: s.varName ++ [125]) ∧
    (s.kind = .constraint → s.varName ≠ [] ∧ ∃ re, re ≠ [] ∧ v = 123 :: s.varName ++ 58 :: re ++ [125] ∧
      s.re = some (if ci then b!"(?i)" ++ re else re)) ∧
    (s.kind = .single ↔ v = b!"*") ∧ (s.kind = .multiple ↔ v = b!"**") := by
  cases h with
  | single => simp
  | multiple => simp
  | constraint name re h1 h2 h3 h4 h5 => exact ⟨by simp, fun _ => ⟨h1, re, h3, rfl, rfl⟩, by simp, by simp⟩
  | capture name h1 h2 h3 => exact ⟨fun _ => ⟨h1, rfl⟩, by simp, by simp, by simp⟩
  | regex v h1 h2 h3 h4 h5 =>
    refine ⟨by simp, by simp, by simp [h4], ?_⟩
    simp only [reduceCtorEq, false_iff]
    intro e; subst e; exact h5 ⟨[], [], rfl⟩
  | literal v h0 h1 h2 h3 h4 =>
    refine ⟨by simp, by simp, ?_, ?_⟩ <;>
    · simp only [reduceCtorEq, false_iff]
      intro e; subst e; simp at h3

/-- C06: no text spells two different segments. -/
theorem c06_unambiguous (x : Ext) (ci : Bool) (v : Str) (s t : Segment) (h : Piece ci v s) (h' : Piece ci v t)
    (hs : ∀ src, s.re = some src → x.compiles src = true) (ht : ∀ src, t.re = some src → x.compiles src = true) :
    s = t := by
  have a := ((piece_iff x ci v s).2 ⟨h, hs⟩).2
  have b := ((piece_iff x ci v t).2 ⟨h', ht⟩).2
  rw [a] at b; simpa using b

/-! ### C09 -/

/-- The number of segments of an accepted pattern is the number of its pieces modulo 256. -/
theorem c09_count_mod (x : Ext) (ci : Bool) (pat : Str) (p : Pattern) (h : parsePattern x ci pat = .ok p)
    (hne : pat ≠ b!"/") : p.segments.length = (pieces pat).length % 256 := by
  cases pat with
  | nil => simp [parsePattern] at h
  | cons c body =>
    by_cases hc : c = slash
    · subst hc
      have hb : body ≠ [] := fun e => hne (by rw [e])
      rcases parsePattern_cases x ci body hb with ⟨he, hn⟩ | ⟨segs, h1, h2, he⟩
      · rw [he] at h; cases h
      · rw [he] at h
        split at h
        · cases h
        · simp only [PRes.ok.injEq] at h
          subst h
          rw [pieces_eq, h1.length, List.length_drop]
          omega
    · simp [parsePattern, hc] at h

/-- The pattern `/a/a/.../a` with `n` pieces. -/
def repeated (n : Nat) : Str := (List.replicate n b!"/a").flatten

theorem repeated_succ (n : Nat) : repeated (n + 1) = slash :: 97 :: repeated n := by
  simp [repeated, List.replicate_succ]

theorem tailPieces_repeated (n : Nat) : tailPieces (97 :: repeated n) = List.replicate (n + 1) b!"a" := by
  induction n with
  | zero => decide
  | succ n ih =>
    have : (97 :: repeated (n + 1) : Str) = b!"a" ++ slash :: (97 :: repeated n) := by
      simp [repeated, List.replicate_succ]
    rw [this, tailPieces_slash _ _ (by decide), ih]
    rfl

/-- C09 fails: a pattern with 256 pieces is accepted with no segments at all, like `/`. -/
theorem c09_violated (x : Ext) :
    ∃ pat p, (pieces pat).length = 256 ∧ parsePattern x false pat = .ok p ∧ p.segments = [] := by
  have hp : pieces (repeated 256) = List.replicate 256 b!"a" := by
    rw [repeated_succ 255, pieces_eq, tailPieces_repeated]
  have hsl : repeated 256 = slash :: 97 :: repeated 255 := repeated_succ 255
  have hseg : SegOf x false b!"a" { val := b!"a", kind := .literal } := by
    refine (piece_iff x false _ _).2 ⟨.literal _ (by decide) (by decide) (by decide) (by decide) (by decide), by simp⟩
  have hall : ∀ n, All2 (SegOf x false) (List.replicate n b!"a") (List.replicate n { val := b!"a", kind := .literal }) := by
    intro n
    induction n with
    | zero => exact .nil
    | succ n ih => exact .cons hseg ih
  rcases parsePattern_cases x false (97 :: repeated 255) (by simp) with ⟨_, hn⟩ | ⟨segs, h1, h2, he⟩
  · refine absurd ⟨List.replicate 256 { val := b!"a", kind := .literal }, ?_, ?_⟩ hn
    · rw [tailPieces_repeated]; exact hall 256
    · rw [tailPieces_repeated, apart_iff]
      refine ⟨by simp, ?_⟩
      rintro ⟨a, b, e⟩
      have : b!"**" ∈ List.replicate 256 b!"a" := by rw [e]; simp
      have := List.eq_of_mem_replicate this
      revert this; decide
  · have hlen : segs.length = 256 := by
      rw [← h1.length, tailPieces_repeated, List.length_replicate]
    rw [hlen] at he
    have e0 : segs.drop (256 * (256 / 256)) = [] := by
      apply List.drop_eq_nil_of_le; omega
    rw [e0] at he
    rw [show computePriority (List.map (fun s : Segment => s.kind) []) = some 0 by decide] at he
    exact ⟨repeated 256, _, by rw [hp, List.length_replicate], by rw [hsl]; exact he, rfl⟩

/-- C09 below 256 pieces: nothing is lost. -/
theorem c09_below_256_partial (x : Ext) (ci : Bool) (pat : Str) (p : Pattern) (h : parsePattern x ci pat = .ok p)
    (hne : pat ≠ b!"/") (hlen : (pieces pat).length < 256) :
    p.segments.map (·.val) = pieces pat := by
  have hs := (c05_segments x ci pat p h hne hlen).1.spelled
  have : All2 (fun v w => v = w) (pieces pat) (p.segments.map (·.val)) := by
    refine (All2.map_left.2 (hs.flip.imp fun s v _ _ hp => ?_)).flip
    cases hp <;> rfl
  exact (this.eq_of).symm

end Gofre.Props
