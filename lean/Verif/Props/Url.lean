import Verif.Proofs.Url

/-! # C10, C11, C13: request paths -/

namespace Gofre.Props
open Gofre.Path Gofre.Spec

theorem parseURLPath_eq (path : Str) (buf : List USeg) :
    parseURLPath path buf =
      if path = [] ∨ path = b!"/" then some []
      else match runU path ((splitOn slash path).headD []).length.succ (afterSlash path) 0 buf with
        | .ok i b => some (b.take i)
        | .full => some []
        | .panic => none := by
  unfold parseURLPath
  have := urlLoop_none path path [] 0 buf rfl (by simp)
  rw [List.length_nil] at this
  rw [this]
  rfl

theorem runU_no_panic (path : Str) : ∀ (vs : List Str) (k idx : Nat) (buf : List USeg), buf.length = 19 → idx ≤ 19 →
    runU path k vs idx buf ≠ .panic ∧ ∀ i b, runU path k vs idx buf = .ok i b → i ≤ 19 := by
  intro vs
  induction vs with
  | nil => intro k idx buf _ hi; exact ⟨by simp [runU], by intro i b h; simp [runU] at h; omega⟩
  | cons v vs ih =>
    intro k idx buf hb hi
    have hadd : addSegment path k (k + v.length) idx buf ≠ .panic ∧
        ∀ i b, addSegment path k (k + v.length) idx buf = .ok i b → i ≤ 19 ∧ b.length = 19 := by
      unfold addSegment
      split
      · exact ⟨by simp, by intro i b h; simp at h; rw [← h.2, ← h.1]; omega⟩
      · split
        · exact ⟨by simp, by intro i b h; simp at h; rw [← h.2, ← h.1]; omega⟩
        · split
          · exact ⟨by simp, by intro i b h; simp at h⟩
          · rw [if_pos (by omega)]
            refine ⟨by simp, ?_⟩
            intro i b h
            simp at h
            rw [← h.2, ← h.1]
            simp [hb]; omega
    simp only [runU]
    cases he : addSegment path k (k + v.length) idx buf with
    | ok i b =>
      obtain ⟨h1, h2⟩ := hadd.2 i b he
      exact ih (k + v.length + 1) i b h2 h1
    | full => simp
    | panic => exact absurd he hadd.1

/-- What parsing yields, for paths short enough for the offsets. -/
theorem parse_cases (path : Str) (buf : List USeg) (hb : buf.length = 19) (hlen : path.length ≤ 65535) :
    (Fits path ∧ ∃ segs, parseURLPath path buf = some segs ∧ segs.map (sliceU path) = (segmentsOf path).map some) ∨
    (¬ Fits path ∧ parseURLPath path buf = some []) := by
  rw [parseURLPath_eq]
  by_cases h0 : path = [] ∨ path = b!"/"
  · left
    rw [if_pos h0]
    refine ⟨?_, [], rfl, ?_⟩
    · intro pre hp
      have hmem : ∀ v ∈ pre, v = [] := by
        intro v hv
        have := hp.subset hv
        rcases h0 with rfl | rfl
        · simp [afterSlash, splitOn] at this
        · simp [afterSlash, splitOn] at this; exact this
      have : pre.foldl push [] = [] := by
        clear hp
        induction pre with
        | nil => rfl
        | cons v pre ih =>
          rw [List.foldl_cons, hmem v (by simp)]
          exact ih fun v hv => hmem v (by simp [hv])
      simp [normal, this]
    · rcases h0 with rfl | rfl <;> decide
  · rw [if_neg h0]
    by_cases hs : slash ∈ path
    · obtain ⟨pre, r, he, hn⟩ := List.eq_append_cons_of_mem hs
      have hsp : splitOn slash path = pre :: splitOn slash r := by rw [he, splitOn_append hn]
      have haf : afterSlash path = splitOn slash r := by simp [afterSlash, hsp]
      have hhd : ((splitOn slash path).headD []).length.succ = (pre ++ [slash]).length := by simp [hsp]
      rw [hhd]
      have hspec := runU_spec path hlen (afterSlash path) (pre ++ [slash]) [] buf
        (by rw [haf, joinWith_splitOn]; simp [he]) (by rw [haf]; exact splitOn_ne_nil _ _) hb (by simp) (by simp)
      simp only [List.length_nil] at hspec
      rcases hspec with ⟨h1, b, h2, h3, h4⟩ | ⟨⟨q, h1, h1'⟩, h2⟩
      · left
        refine ⟨fun q hq => by simpa [normal] using h1 q hq, _, by rw [h2], ?_⟩
        have hle := h1 _ (List.prefix_rfl)
        apply List.ext_getElem?
        intro i
        have hseg : segmentsOf path = ((afterSlash path).foldl push []).reverse := rfl
        rw [hseg, List.getElem?_map, List.getElem?_map]
        cases hi : ((afterSlash path).foldl push []).reverse[i]? with
        | none =>
          have : (List.take ((afterSlash path).foldl push []).length b)[i]? = none := by
            rw [List.getElem?_eq_none_iff] at hi ⊢
            simp at hi ⊢; omega
          rw [this]; rfl
        | some v =>
          obtain ⟨s, hs1, hs2⟩ := h4 i v hi
          have hlt : i < ((afterSlash path).foldl push []).length := by
            have := (List.getElem?_eq_some_iff.1 hi).1
            simpa using this
          rw [List.getElem?_take_of_lt hlt, hs1]
          simp [hs2]
      · right
        refine ⟨fun hf => ?_, by rw [h2]⟩
        have := hf q h1
        simp [normal] at this
        omega
    · left
      have hsp : splitOn slash path = [path] := splitOn_of_not_mem hs
      have haf : afterSlash path = [] := by simp [afterSlash, hsp]
      refine ⟨?_, [], ?_, ?_⟩
      · intro q hq
        rw [haf] at hq
        have : q = [] := List.prefix_nil.1 hq
        subst this; simp [normal]
      · rw [haf]; simp [runU]
      · simp [segmentsOf, haf, normal]

/-- C10. -/
theorem c10_normalised (path : Str) (buf : List USeg) (hb : buf.length = 19) (hlen : path.length ≤ 65535)
    (hf : Fits path) :
    ∃ segs, parseURLPath path buf = some segs ∧ segs.map (sliceU path) = (segmentsOf path).map some := by
  rcases parse_cases path buf hb hlen with ⟨_, h⟩ | ⟨h, _⟩
  · exact h
  · exact absurd hf h

/-- A decidable reading of `Fits`: the longest the stack of pieces gets. -/
def peak : List Str → List Str → Nat
  | st, [] => st.length
  | st, v :: vs => max st.length (peak (push st v) vs)

theorem peak_le (n : Nat) : ∀ (vs st : List Str), peak st vs ≤ n → ∀ q, q <+: vs → (q.foldl push st).length ≤ n := by
  intro vs
  induction vs with
  | nil => intro st h q hq; have := List.prefix_nil.1 hq; subst this; simpa [peak] using h
  | cons v vs ih =>
    intro st h q hq
    simp only [peak] at h
    cases q with
    | nil => simp; omega
    | cons w q =>
      rw [List.cons_prefix_cons] at hq
      rw [hq.1, List.foldl_cons]
      exact ih _ (by omega) q hq.2

theorem fits_of_peak (path : Str) (h : peak [] (afterSlash path) ≤ 19) : Fits path := by
  intro q hq
  simpa [normal] using peak_le 19 _ _ h q hq

/-- A path with doubled slashes, `..` above the root, `.` and text before the first slash. -/
example : Fits b!"x/../../a//./b/c/../d/" ∧
    segmentsOf b!"x/../../a//./b/c/../d/" = [b!"a", b!".", b!"b", b!"d"] := by
  exact ⟨fits_of_peak _ (by decide), by decide⟩

/-- What the segments of a normalised path look like. -/
theorem normal_safe (vs : List Str) (hvs : ∀ v ∈ vs, slash ∉ v) : ∀ v ∈ normal vs, v ≠ [] ∧ v ≠ b!".." ∧ slash ∉ v := by
  have gen : ∀ (vs st : List Str), (∀ v ∈ vs, slash ∉ v) → (∀ v ∈ st, v ≠ [] ∧ v ≠ b!".." ∧ slash ∉ v) →
      ∀ v ∈ vs.foldl push st, v ≠ [] ∧ v ≠ b!".." ∧ slash ∉ v := by
    intro vs
    induction vs with
    | nil => intro st _ h; exact h
    | cons w vs ih =>
      intro st hv h
      rw [List.foldl_cons]
      refine ih _ (fun v hv' => hv v (by simp [hv'])) ?_
      intro v hv'
      unfold push at hv'
      split at hv'
      · exact h v hv'
      · split at hv'
        · exact h v (List.mem_of_mem_tail hv')
        · rename_i h1 h2
          rcases List.mem_cons.1 hv' with rfl | hv'
          · exact ⟨h1, h2, hv v (by simp)⟩
          · exact h v hv'
  intro v hv
  exact gen vs [] hvs (by simp) v (by simpa [normal] using hv)

/-- C11: parsing never writes outside the buffer and never yields more than 19 segments, whatever
the path. -/
theorem c11_in_bounds (path : Str) (buf : List USeg) (hb : buf.length = 19) :
    ∃ segs, parseURLPath path buf = some segs ∧ segs.length ≤ 19 := by
  rw [parseURLPath_eq]
  split
  · exact ⟨[], rfl, by simp⟩
  · have := runU_no_panic path (afterSlash path) ((splitOn slash path).headD []).length.succ 0 buf hb (by omega)
    cases he : runU path ((splitOn slash path).headD []).length.succ (afterSlash path) 0 buf with
    | ok i b => exact ⟨_, rfl, by have := this.2 i b he; simp; omega⟩
    | full => exact ⟨[], rfl, by simp⟩
    | panic => exact absurd he this.1

/-- C11: the segments are slices of the path that are not empty, not `..` and without slash. -/
theorem c11_safe_values (path : Str) (buf : List USeg) (hb : buf.length = 19) (hlen : path.length ≤ 65535) :
    ∃ segs, parseURLPath path buf = some segs ∧
      ∀ s ∈ segs, ∃ v, sliceU path s = some v ∧ v ≠ [] ∧ v ≠ b!".." ∧ slash ∉ v := by
  rcases parse_cases path buf hb hlen with ⟨_, segs, h1, h2⟩ | ⟨_, h⟩
  · refine ⟨segs, h1, ?_⟩
    intro s hs
    have : sliceU path s ∈ segs.map (sliceU path) := List.mem_map.2 ⟨s, hs, rfl⟩
    rw [h2] at this
    obtain ⟨v, hv, hv2⟩ := List.mem_map.1 this
    refine ⟨v, hv2.symm, normal_safe (afterSlash path) ?_ v hv⟩
    intro w hw
    exact splitOn_no_sep slash path w (List.mem_of_mem_drop hw)
  · exact ⟨[], h, by simp⟩

example : parseURLPath b!"/a/../../b//c" (List.replicate 19 ⟨0, 0⟩) = some [⟨9, 10⟩, ⟨12, 13⟩] := by decide

/-- Over-long paths yield no segments, like the path `/`. -/
theorem overflow_empty (path : Str) (buf : List USeg) (hb : buf.length = 19) (hlen : path.length ≤ 65535)
    (hf : ¬ Fits path) : parseURLPath path buf = some [] := by
  rcases parse_cases path buf hb hlen with ⟨h, _⟩ | ⟨_, h⟩
  · exact absurd h hf
  · exact h

/-! ### C13 -/

/-- A path of 65538 bytes. -/
def longPath : Str := slash :: 98 :: List.replicate 65536 97

/-- C13 fails: the single segment of `longPath`, 65537 bytes long, is recorded as the text `b`. -/
theorem c13_violated (buf : List USeg) (hb : buf.length = 19) :
    segmentsOf longPath = [98 :: List.replicate 65536 97] ∧
    ∃ s, parseURLPath longPath buf = some [s] ∧ sliceU longPath s = some b!"b" := by
  have hno : slash ∉ (98 :: List.replicate 65536 97 : Str) := by
    intro h
    rcases List.mem_cons.1 h with h | h
    · revert h; decide
    · have := List.eq_of_mem_replicate h; revert this; decide
  have hsp : splitOn slash longPath = [[], 98 :: List.replicate 65536 97] := by
    have : longPath = [] ++ slash :: (98 :: List.replicate 65536 97) := rfl
    rw [this, splitOn_append (by simp), splitOn_of_not_mem hno]
  have haf : afterSlash longPath = [98 :: List.replicate 65536 97] := by simp only [afterSlash, hsp, List.drop_succ_cons, List.drop_zero]
  have hl : (98 :: List.replicate 65536 97 : Str).length = 65537 := by rw [List.length_cons, List.length_replicate]
  have hl2 : longPath.length = 65538 := by rw [longPath, List.length_cons, hl]
  generalize hv : (98 :: List.replicate 65536 97 : Str) = v at *
  have hne : v ≠ [] := by rw [← hv]; exact List.cons_ne_nil _ _
  have hnd : v ≠ b!".." := by intro e; rw [e] at hl; simp at hl
  have hlp : longPath = slash :: v := by rw [← hv]; rfl
  refine ⟨?_, ⟨1, 2⟩, ?_, ?_⟩
  · rw [segmentsOf, haf, normal, List.foldl_cons, List.foldl_nil, push, if_neg hne, if_neg hnd]; rfl
  · rw [parseURLPath_eq, if_neg, haf, hsp]
    · have htext : (longPath.take (1 + v.length)).drop 1 = v := by
        rw [hlp, show 1 + v.length = (slash :: v).length by simp; omega, List.take_length]; rfl
      have hadd : addSegment longPath 1 (1 + v.length) 0 buf = .ok 1 (buf.set 0 ⟨1, 2⟩) := by
        unfold addSegment
        rw [htext, if_neg hne, if_neg hnd, if_neg (by omega), if_pos (by omega), hl]
        rfl
      have : ((([[], v] : List Str)).headD []).length.succ = 1 := rfl
      rw [this]
      simp only [runU, hadd]
      cases buf with
      | nil => simp at hb
      | cons s buf => simp
    · rintro (h | h)
      · rw [h] at hl2; simp at hl2
      · rw [h] at hl2; simp at hl2
  · have h1 : ((⟨1, 2⟩ : USeg).start ≤ (⟨1, 2⟩ : USeg).stop ∧ (⟨1, 2⟩ : USeg).stop.toNat ≤ longPath.length) := by
      rw [hl2]; decide
    rw [sliceU, if_pos h1, hlp, ← hv]
    rfl

/-- C13 up to 65535 bytes: unless the path is too deep, the recorded offsets denote its pieces. -/
theorem c13_exact_partial (path : Str) (buf : List USeg) (hb : buf.length = 19) (hlen : path.length ≤ 65535) :
    ∃ segs, parseURLPath path buf = some segs ∧ (¬ Fits path → segs = []) ∧
      (Fits path → segs.map (sliceU path) = (segmentsOf path).map some) := by
  rcases parse_cases path buf hb hlen with ⟨hf, segs, h1, h2⟩ | ⟨hf, h⟩
  · exact ⟨segs, h1, fun h => absurd hf h, fun _ => h2⟩
  · exact ⟨[], h, fun _ => rfl, fun h => absurd h hf⟩

end Gofre.Props
