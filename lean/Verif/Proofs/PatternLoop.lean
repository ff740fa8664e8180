import Verif.Proofs.Pattern

namespace Gofre.Path
open Gofre.Spec

/-- Forget the start position. -/
def PSt.noStart (s : PSt) : PSt := { s with start := 0 }

/-- Apply a function to the result. -/
def PRes.map {α β : Type} (f : α → β) : PRes α → PRes β
  | .ok a => .ok (f a)
  | .error => .error
  | .panic => .panic
  | .hangs => .hangs

/-- The pieces processed one after another. -/
def runPieces (x : Ext) (ci : Bool) : List Str → PSt → PRes PSt
  | [], s => .ok s
  | v :: vs, s =>
    match endSegment x ci v 0 s with
    | .ok s' => runPieces x ci vs s'
    | r => r

theorem endSegment_noStart (x : Ext) (ci : Bool) (v : Str) (pos : Nat) (s : PSt) :
    (endSegment x ci v pos s).map PSt.noStart = endSegment x ci v 0 s.noStart := by
  obtain ⟨st, count, caps, last, mc, segs⟩ := s
  show (endSegment x ci v pos ⟨st, count, caps, last, mc, segs⟩).map PSt.noStart =
    endSegment x ci v 0 ⟨0, count, caps, last, mc, segs⟩
  unfold endSegment
  dsimp only
  by_cases h1 : (!validatePathSegment v) = true
  · rw [if_pos h1, if_pos h1]; rfl
  · rw [if_neg h1, if_neg h1]
    by_cases h2 : last = .multiple ∧ determineMatchType v = .multiple
    · rw [if_pos h2, if_pos h2]; rfl
    · rw [if_neg h2, if_neg h2]
      cases mkSegment x ci v with
      | none => rfl
      | some seg =>
        dsimp only
        by_cases h3 : count.toNat < segs.length
        · rw [if_pos h3, if_pos h3]; rfl
        · rw [if_neg h3, if_neg h3]; rfl

/-- Pieces of a text, a trailing empty piece dropped. -/
def tailPieces (t : Str) : List Str :=
  let ps := splitOn slash t
  if ps.getLast? = some [] then ps.dropLast else ps

theorem pieces_eq (c : UInt8) (t : Str) : pieces (c :: t) = tailPieces t := rfl

theorem tailPieces_slash (w r : Str) (hw : slash ∉ w) :
    tailPieces (w ++ slash :: r) = w :: tailPieces r := by
  unfold tailPieces
  rw [splitOn_append hw]
  dsimp only
  have hne := splitOn_ne_nil slash r
  generalize splitOn slash r = q at hne ⊢
  cases q with
  | nil => exact absurd rfl hne
  | cons a b =>
    rw [List.getLast?_cons_cons]
    split
    · rw [List.dropLast_cons_of_ne_nil (by simp)]
    · rfl

theorem tailPieces_end (w : Str) (hw : slash ∉ w) : tailPieces (w ++ [slash]) = [w] := by
  unfold tailPieces
  rw [splitOn_append hw]
  simp [splitOn]

theorem tailPieces_plain (w : Str) (hw : slash ∉ w) (hne : w ≠ []) : tailPieces w = [w] := by
  unfold tailPieces
  rw [splitOn_of_not_mem hw]
  simp [hne]

/-- The loop over positions is the loop over pieces. -/
theorem parseLoop_eq (x : Ext) (ci : Bool) (pat rest : Str) (pre w : Str) (s : PSt)
    (hpat : pat = pre ++ w ++ rest) (hs : s.start + 1 = pre.length) (hw : slash ∉ w) (hr : rest ≠ []) :
    (parseLoop x ci pat (pre ++ w).length rest s).map PSt.noStart =
      runPieces x ci (tailPieces (w ++ rest)) s.noStart := by
  induction rest generalizing pre w s with
  | nil => exact absurd rfl hr
  | cons c rest ih =>
    have htake : (pat.take (pre ++ w).length).drop (s.start + 1) = w := by
      rw [hpat, hs, List.take_left']
      · simp
      · rfl
    rw [parseLoop]
    by_cases hc : c = slash
    · rw [if_pos (.inl hc)]
      dsimp only
      rw [if_pos hc, htake]
      have hE := endSegment_noStart x ci w (pre ++ w).length s
      cases rest with
      | nil =>
        rw [hc, tailPieces_end w hw]
        simp only [runPieces]
        rw [← hE]
        cases endSegment x ci w (pre ++ w).length s <;> simp [PRes.map, parseLoop]
      | cons d rest =>
        rw [hc, tailPieces_slash w (d :: rest) hw]
        simp only [runPieces]
        rw [← hE]
        cases he : endSegment x ci w (pre ++ w).length s with
        | error => rfl
        | panic => rfl
        | hangs => rfl
        | ok s' =>
          have hst : s'.start = (pre ++ w).length := by
            unfold endSegment at he
            dsimp only at he
            split at he
            · cases he
            · split at he
              · cases he
              · split at he
                · cases he
                · split at he
                  · simp only [PRes.ok.injEq] at he
                    rw [← he]
                  · cases he
          have := ih (pre ++ w ++ [c]) [] s' (by rw [hpat]; simp) (by rw [hst]; simp [Nat.add_assoc]) (by simp) (by simp)
          simp only [PRes.map, List.append_nil, List.nil_append] at this ⊢
          have e : (pre ++ w).length + 1 = (pre ++ w ++ [c]).length := by simp [Nat.add_assoc]
          rw [e]
          exact this
    · have hw' : slash ∉ w ++ [c] := by
        simp only [List.mem_append, List.mem_singleton, not_or]
        exact ⟨hw, fun h => hc h.symm⟩
      cases rest with
      | nil =>
        rw [if_pos (.inr rfl)]
        dsimp only
        rw [if_neg hc]
        have hdrop : pat.drop (s.start + 1) = w ++ [c] := by
          rw [hpat, hs]; simp
        rw [hdrop, tailPieces_plain _ hw' (by simp)]
        simp only [runPieces]
        rw [← endSegment_noStart x ci (w ++ [c]) (pre ++ w).length s]
        cases endSegment x ci (w ++ [c]) (pre ++ w).length s <;> simp [PRes.map, parseLoop]
      | cons d rest =>
        rw [if_neg (by simp [hc])]
        have := ih pre (w ++ [c]) s (by rw [hpat]; simp) hs hw' (by simp)
        have e : (pre ++ w).length + 1 = (pre ++ (w ++ [c])).length := by simp; omega
        rw [e, this]
        simp

/-- Number of captures. -/
def capsOf (segs : List Segment) : Nat := segs.countP fun s => s.kind = .capture ∨ s.kind = .constraint

/-- Largest kind code. -/
def maxCodeOf (segs : List Segment) : Nat := segs.foldl (fun m s => max m s.kind.code) 0

theorem maxCodeOf_concat (segs : List Segment) (s : Segment) :
    maxCodeOf (segs ++ [s]) = max (maxCodeOf segs) s.kind.code := by simp [maxCodeOf]

/-- The loop state after the segments `done`. -/
structure PInv (N : Nat) (done : List Segment) (s : PSt) : Prop where
  count : s.count = UInt8.ofNat done.length
  caps : s.caps = UInt8.ofNat (capsOf done)
  last : s.last = (done.getLast?.map (·.kind)).getD .unknown
  maxCode : s.maxCode = maxCodeOf done
  len : s.segs.length = N
  segs : s.segs.take s.count.toNat = (done.drop (256 * (done.length / 256))).map some

theorem kind_mkSegment {x : Ext} {ci : Bool} {v : Str} {seg : Segment} (h : mkSegment x ci v = some seg) :
    seg.kind = determineMatchType v ∧ seg.val = v := by
  unfold mkSegment at h
  cases hk : determineMatchType v <;> rw [hk] at h <;> dsimp only at h
  case constraint =>
    generalize (if ci = true then _ else _) = src at h
    by_cases hc : x.compiles src = true
    · rw [if_pos hc] at h; simp only [Option.some.injEq] at h; subst h; simp
    · rw [if_neg hc] at h; cases h
  all_goals
    simp only [Option.some.injEq] at h
    subst h
    simp

theorem determine_multiple_iff (v : Str) : determineMatchType v = .multiple ↔ v = b!"**" := by
  unfold determineMatchType
  constructor
  · intro h
    split at h
    · cases h
    · split at h
      · assumption
      · split at h
        · split at h <;> cases h
        · split at h <;> cases h
  · rintro rfl; simp

theorem endSegment_ok {x : Ext} {ci : Bool} {v : Str} {N : Nat} {done : List Segment} {s s' : PSt}
    (hi : PInv N done s) (h : endSegment x ci v 0 s = .ok s') :
    ∃ seg, validatePathSegment v = true ∧ mkSegment x ci v = some seg ∧
      ¬ (s.last = .multiple ∧ v = b!"**") ∧ PInv N (done ++ [seg]) s' := by
  unfold endSegment at h
  by_cases h1 : (!validatePathSegment v) = true
  · rw [if_pos h1] at h; cases h
  rw [if_neg h1] at h
  dsimp only at h
  by_cases h2 : s.last = .multiple ∧ determineMatchType v = .multiple
  · rw [if_pos h2] at h; cases h
  rw [if_neg h2] at h
  cases hm : mkSegment x ci v with
  | none => rw [hm] at h; cases h
  | some seg =>
    rw [hm] at h
    dsimp only at h
    by_cases h3 : s.count.toNat < s.segs.length
    · rw [if_pos h3] at h
      simp only [PRes.ok.injEq] at h
      refine ⟨seg, by simpa using h1, rfl, ?_, ?_⟩
      · rw [determine_multiple_iff] at h2; exact h2
      · have hk := (kind_mkSegment hm).1
        have hc : s.count.toNat = done.length % 256 := by rw [hi.count]; simp
        subst h
        constructor
        · simp only [List.length_append, List.length_cons, List.length_nil]
          rw [hi.count]
          apply UInt8.toNat_inj.1
          simp
        · simp only [capsOf, List.countP_append, List.countP_singleton, hk]
          have := hi.caps
          simp only [capsOf] at this
          by_cases hcap : determineMatchType v = .capture ∨ determineMatchType v = .constraint
          · rw [if_pos hcap]
            simp only [hcap, decide_true, if_true]
            rw [this]
            apply UInt8.toNat_inj.1
            simp
          · rw [if_neg hcap]
            simp only [hcap, decide_false, Bool.false_eq_true, if_false, Nat.add_zero]
            exact this
        · simp [hk]
        · rw [maxCodeOf_concat, hi.maxCode, hk]
        · simp [hi.len]
        · dsimp only
          have hc1 : (s.count + 1).toNat = (done.length + 1) % 256 := by
            rw [UInt8.toNat_add, hc]; simp
          rw [hc1, List.length_append, List.length_singleton]
          by_cases hw : done.length % 256 = 255
          · have e1 : (done.length + 1) % 256 = 0 := by omega
            have e2 : 256 * ((done.length + 1) / 256) = done.length + 1 := by omega
            rw [e1, e2]
            simp
          · have e1 : (done.length + 1) % 256 = done.length % 256 + 1 := by omega
            have e2 : (done.length + 1) / 256 = done.length / 256 := by omega
            rw [e1, e2]
            have hle : 256 * (done.length / 256) ≤ done.length := by omega
            rw [List.drop_append_of_le_length hle, List.map_append, ← hi.segs, hc, List.take_add_one]
            rw [hc] at h3
            rw [List.take_set_of_le (by omega)]
            simp [h3]
    · rw [if_neg h3] at h; cases h

theorem endSegment_of {x : Ext} {ci : Bool} {v : Str} {N : Nat} {done : List Segment} {s : PSt} {seg : Segment}
    (hi : PInv N done s) (hN : done.length < N) (h1 : validatePathSegment v = true)
    (h2 : mkSegment x ci v = some seg) (h3 : ¬ (s.last = .multiple ∧ v = b!"**")) :
    ∃ s', endSegment x ci v 0 s = .ok s' := by
  unfold endSegment
  rw [if_neg (by simp [h1])]
  dsimp only
  rw [if_neg (fun h => h3 ⟨h.1, (determine_multiple_iff v).1 h.2⟩), h2]
  dsimp only
  have hc : s.count.toNat = done.length % 256 := by rw [hi.count]; simp
  rw [if_pos (by rw [hc, hi.len]; omega)]
  exact ⟨_, rfl⟩

theorem endSegment_no_panic {x : Ext} {ci : Bool} {v : Str} {N : Nat} {done : List Segment} {s : PSt}
    (hi : PInv N done s) (hN : done.length < N) :
    endSegment x ci v 0 s ≠ .panic ∧ endSegment x ci v 0 s ≠ .hangs := by
  unfold endSegment
  have hc : s.count.toNat = done.length % 256 := by rw [hi.count]; simp
  have h3 : s.count.toNat < s.segs.length := by rw [hc, hi.len]; omega
  split
  · simp
  · dsimp only
    split
    · simp
    · split
      · simp
      · simp

/-- No two adjacent `**`, the first one not preceded by one. -/
def Apart : MT → List Str → Prop
  | _, [] => True
  | k, v :: vs => ¬ (k = .multiple ∧ v = b!"**") ∧ Apart (determineMatchType v) vs

theorem apart_iff (k : MT) (vs : List Str) :
    Apart k vs ↔ ¬ (k = .multiple ∧ vs.head? = some b!"**") ∧ ¬ ∃ a b, vs = a ++ b!"**" :: b!"**" :: b := by
  induction vs generalizing k with
  | nil => simp [Apart]
  | cons v vs ih =>
    rw [Apart, ih, determine_multiple_iff]
    simp only [List.head?_cons, Option.some.injEq]
    constructor
    · rintro ⟨h1, h2, h3⟩
      refine ⟨h1, ?_⟩
      rintro ⟨a, b, e⟩
      cases a with
      | nil => simp at e; exact h2 ⟨e.1, by rw [e.2]; rfl⟩
      | cons a0 a => simp at e; exact h3 ⟨a, b, e.2⟩
    · rintro ⟨h1, h2⟩
      refine ⟨h1, ?_, ?_⟩
      · rintro ⟨e1, e2⟩
        cases vs with
        | nil => simp at e2
        | cons w vs => simp at e2; exact h2 ⟨[], vs, by rw [e1, e2]; rfl⟩
      · rintro ⟨a, b, e⟩
        exact h2 ⟨v :: a, b, by rw [e]; rfl⟩

/-- The segment spelled by a piece, as computed. -/
def SegOf (x : Ext) (ci : Bool) (v : Str) (seg : Segment) : Prop :=
  validatePathSegment v = true ∧ mkSegment x ci v = some seg

theorem last_concat (done : List Segment) (seg : Segment) :
    ((done ++ [seg]).getLast?.map (·.kind)).getD .unknown = seg.kind := by simp

theorem runPieces_ok {x : Ext} {ci : Bool} {N : Nat} (vs : List Str) (done : List Segment) (s s' : PSt)
    (hi : PInv N done s) (h : runPieces x ci vs s = .ok s') :
    ∃ segs, All2 (SegOf x ci) vs segs ∧ Apart s.last vs ∧ PInv N (done ++ segs) s' := by
  induction vs generalizing done s with
  | nil =>
    simp only [runPieces, PRes.ok.injEq] at h
    subst h
    exact ⟨[], .nil, trivial, by simpa using hi⟩
  | cons v vs ih =>
    rw [runPieces] at h
    cases he : endSegment x ci v 0 s with
    | ok t =>
      rw [he] at h
      obtain ⟨seg, a1, a2, a3, a4⟩ := endSegment_ok hi he
      obtain ⟨segs, b1, b2, b3⟩ := ih (done ++ [seg]) t a4 h
      refine ⟨seg :: segs, .cons ⟨a1, a2⟩ b1, ⟨a3, ?_⟩, by simpa using b3⟩
      have := a4.last
      rw [last_concat, (kind_mkSegment a2).1] at this
      rwa [this] at b2
    | error => rw [he] at h; cases h
    | panic => rw [he] at h; cases h
    | hangs => rw [he] at h; cases h

theorem runPieces_of {x : Ext} {ci : Bool} {N : Nat} (vs : List Str) (segs done : List Segment) (s : PSt)
    (hi : PInv N done s) (hN : done.length + vs.length ≤ N) (ha : All2 (SegOf x ci) vs segs) (hap : Apart s.last vs) :
    ∃ s', runPieces x ci vs s = .ok s' := by
  induction vs generalizing done s segs with
  | nil => exact ⟨s, rfl⟩
  | cons v vs ih =>
    cases ha with
    | cons h1 h2 =>
      rename_i seg segs
      simp only [List.length_cons] at hN
      obtain ⟨t, ht⟩ := endSegment_of hi (by omega) h1.1 h1.2 hap.1
      obtain ⟨seg', a1, a2, a3, a4⟩ := endSegment_ok hi ht
      have : seg' = seg := by
        rw [h1.2] at a2; simpa using a2.symm
      subst this
      rw [runPieces, ht]
      refine ih segs (done ++ [seg']) t a4 (by simp; omega) h2 ?_
      have := a4.last
      rw [last_concat, (kind_mkSegment a2).1] at this
      rw [this]; exact hap.2

theorem runPieces_no_panic {x : Ext} {ci : Bool} {N : Nat} (vs : List Str) (done : List Segment) (s : PSt)
    (hi : PInv N done s) (hN : done.length + vs.length ≤ N) :
    runPieces x ci vs s ≠ .panic ∧ runPieces x ci vs s ≠ .hangs := by
  induction vs generalizing done s with
  | nil => simp [runPieces]
  | cons v vs ih =>
    simp only [List.length_cons] at hN
    have hnp := endSegment_no_panic (x := x) (ci := ci) (v := v) hi (by omega)
    rw [runPieces]
    cases he : endSegment x ci v 0 s with
    | ok t =>
      obtain ⟨seg, a1, a2, a3, a4⟩ := endSegment_ok hi he
      exact ih (done ++ [seg]) t a4 (by simp; omega)
    | error => simp
    | panic => exact absurd he hnp.1
    | hangs => exact absurd he hnp.2

theorem length_splitOn (t : Str) : (splitOn slash t).length = t.count slash + 1 := by
  induction t with
  | nil => simp [splitOn]
  | cons c t ih =>
    rw [splitOn]
    split
    · rename_i h; subst h; simp [ih]
    · rename_i h
      have hc : (c :: t).count slash = t.count slash := List.count_cons_of_ne h
      rw [hc]
      cases hs : splitOn slash t with
      | nil => exact absurd hs (splitOn_ne_nil _ _)
      | cons a b => rw [hs] at ih; simpa using ih

theorem length_tailPieces (t : Str) : (tailPieces t).length ≤ t.count slash + 1 := by
  unfold tailPieces
  dsimp only
  rw [← length_splitOn]
  split
  · simp
  · exact Nat.le_refl _

/-- The initial state. -/
theorem init_PInv (N : Nat) : PInv N [] ⟨0, 0, 0, .unknown, 0, List.replicate N none⟩ :=
  ⟨rfl, rfl, rfl, rfl, by simp, by simp⟩

/-- The loop on a whole pattern. -/
theorem parseLoop_whole (x : Ext) (ci : Bool) (body : Str) (hb : body ≠ []) :
    (parseLoop x ci (slash :: body) 1 body ⟨0, 0, 0, .unknown, 0, List.replicate ((slash :: body).count slash) none⟩).map
        PSt.noStart =
      runPieces x ci (tailPieces body) ⟨0, 0, 0, .unknown, 0, List.replicate (body.count slash + 1) none⟩ := by
  have := parseLoop_eq x ci (slash :: body) body [slash] []
    ⟨0, 0, 0, .unknown, 0, List.replicate ((slash :: body).count slash) none⟩ (by simp) rfl (by simp) hb
  simpa [PSt.noStart] using this

/-- Outcomes of parsing a pattern other than `/`. -/
theorem parsePattern_cases (x : Ext) (ci : Bool) (body : Str) (hb : body ≠ []) :
    (parsePattern x ci (slash :: body) = .error ∧
      ¬ ∃ segs, All2 (SegOf x ci) (tailPieces body) segs ∧ Apart .unknown (tailPieces body)) ∨
    ∃ segs, All2 (SegOf x ci) (tailPieces body) segs ∧ Apart .unknown (tailPieces body) ∧
      parsePattern x ci (slash :: body) =
        match computePriority ((segs.drop (256 * (segs.length / 256))).map (·.kind)) with
        | none => .hangs
        | some prio => .ok {
            captureVarsLen := UInt8.ofNat (capsOf segs),
            maxMatchable := if maxCodeOf segs = 6 then 255 else UInt8.ofNat segs.length,
            priority := prio, segments := segs.drop (256 * (segs.length / 256)), raw := slash :: body } := by
  have hinit := init_PInv (body.count slash + 1)
  have hle := length_tailPieces body
  have hw := parseLoop_whole x ci body hb
  have hnp := runPieces_no_panic (x := x) (ci := ci) (tailPieces body) [] _ hinit (by simpa using hle)
  rw [parsePattern]
  simp only [ne_eq, not_true_eq_false, if_false, hb]
  cases hl : parseLoop x ci (slash :: body) 1 body
      ⟨0, 0, 0, .unknown, 0, List.replicate ((slash :: body).count slash) none⟩ with
  | panic => rw [hl] at hw; exact absurd hw.symm hnp.1
  | hangs => rw [hl] at hw; exact absurd hw.symm hnp.2
  | error =>
    left
    refine ⟨rfl, ?_⟩
    rintro ⟨segs, h1, h2⟩
    obtain ⟨s', hs'⟩ := runPieces_of (tailPieces body) segs [] _ hinit (by simpa using hle) h1 h2
    rw [hl, hs'] at hw
    cases hw
  | ok s =>
    right
    rw [hl] at hw
    obtain ⟨segs, h1, h2, h3⟩ := runPieces_ok (tailPieces body) [] _ _ hinit hw.symm
    refine ⟨segs, h1, h2, ?_⟩
    have e1 : s.caps = UInt8.ofNat (capsOf segs) := by simpa [PSt.noStart] using h3.caps
    have e2 : s.count = UInt8.ofNat segs.length := by simpa [PSt.noStart] using h3.count
    have e3 : s.maxCode = maxCodeOf segs := by simpa [PSt.noStart] using h3.maxCode
    have e4 : s.segs.take s.count.toNat = (segs.drop (256 * (segs.length / 256))).map some := by
      simpa [PSt.noStart] using h3.segs
    have e5 : ((segs.drop (256 * (segs.length / 256))).map some).filterMap id =
        segs.drop (256 * (segs.length / 256)) := by
      generalize segs.drop (256 * (segs.length / 256)) = l
      induction l with
      | nil => rfl
      | cons a l ih => simp
    dsimp only
    rw [e4, e5, e1, e2, e3]
    cases computePriority (List.map (fun x => x.kind) (List.drop (256 * (segs.length / 256)) segs)) <;> rfl

end Gofre.Path
