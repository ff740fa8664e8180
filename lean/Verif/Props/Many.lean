import Verif.Props.ShadowServed

/-! # C18 and C23 with 65536 patterns -/

namespace Gofre.Props
open Gofre.Path Gofre.Spec

/-- The pattern of `n + 1` letters `a`. -/
def manyText (n : Nat) : Str := slash :: List.replicate (n + 1) 97

def manySeg (n : Nat) : Segment := { val := List.replicate (n + 1) 97, kind := .literal }

theorem many_free {n : Nat} {c : UInt8} (h : c ≠ 97) : c ∉ (List.replicate (n + 1) 97 : Str) := by
  intro hm
  exact h (List.eq_of_mem_replicate hm)

theorem many_pieces (n : Nat) : pieces (manyText n) = [List.replicate (n + 1) 97] := by
  have := pieces_snoc (R := []) (v := List.replicate (n + 1) 97) (by simp) (many_free (by decide)) (.inl rfl)
  simpa [splitOn, manyText] using this

theorem many_piece (ci : Bool) (n : Nat) : Piece ci (List.replicate (n + 1) 97) (manySeg n) := by
  refine .literal _ (by simp) ?_ ?_ (many_free (by decide)) (many_free (by decide))
  · simp [List.replicate_succ]
  · rw [List.getLast?_replicate]; simp

theorem many_parse (x : Ext) (ci : Bool) (n : Nat) : ∃ p, parsePattern x ci (manyText n) = .ok p ∧ p.segments = [manySeg n] ∧ p.raw = manyText n := by
  have hp := many_pieces n
  have hc : (pieces (manyText n)).count b!"**" ≤ 1 := by rw [hp]; exact List.count_le_length
  have hsp : Spells x.compiles ci (manyText n) [manySeg n] := by
    refine ⟨⟨_, rfl, by simp⟩, by rw [hp]; exact .cons (many_piece ci n) .nil, ?_, ?_⟩
    · intro s hs src h
      rw [List.mem_singleton.1 hs] at h
      cases h
    · rw [hp]
      rintro ⟨a, b, h⟩
      have := congrArg List.length h
      simp at this
      omega
  rcases (c05_accepts_iff x ci (manyText n)).2 (.inr ⟨_, hsp⟩) with ⟨p, h⟩ | h
  · refine ⟨p, h, ?_, parse_raw h⟩
    have := (c05_segments x ci _ p h (by simp [manyText]) (by rw [hp]; simp)).1.spelled
    exact pieces_unique this hsp.spelled
  · exact absurd h (c07_single_partial x ci _ hc)

/-- `n` patterns are registered, each with its own node. -/
structure Many (n : Nat) (ps : List Pattern) (m : Matcher) : Prop where
  reg : Registered plainExt false sortSiblings ps m
  root : m.root = none
  kids : m.kids.length = n
  count : ps.length = n
  segs : ∀ c ∈ m.kids, ∃ k < n, c.seg = manySeg k
  all : ∀ k < n, ∃ p ∈ ps, p.raw = manyText k
  only : ∀ p ∈ ps, ∃ k < n, p.raw = manyText k ∧ p.segments = [manySeg k]

theorem findShare_free {x : Ext} {ci : Bool} {s : Segment} : ∀ {kids : List Node}, (∀ c ∈ kids, shares x ci s c.seg = false) → findShare x ci s kids = none := by
  intro kids
  induction kids with
  | nil => intro _; rfl
  | cons c cs ih =>
    intro h
    simp [findShare, h c (by simp), ih fun d hd => h d (by simp [hd])]

theorem Many.step {n : Nat} {ps : List Pattern} {m : Matcher} (h : Many n ps m) : ∃ p m', p.raw = manyText n ∧ Many (n + 1) (p :: ps) m' := by
  obtain ⟨p, h1, h2, h3⟩ := many_parse plainExt false n
  have hfree : findShare plainExt false (manySeg n) m.kids = none := by
    refine findShare_free fun c hc => ?_
    obtain ⟨k, hk, e⟩ := h.segs c hc
    rw [e]
    simp only [shares, manySeg, if_true]
    simp only [Bool.false_eq_true, if_false, beq_eq_false_iff_ne]
    intro h
    have := congrArg List.length h
    simp at this
    omega
  have hadd : addPattern plainExt false sortSiblings m { p with attachment := n } =
      ({ m with kids := sortSiblings (m.kids ++ [chain { p with attachment := n } 0 (manySeg n) []]) }, false) := by
    unfold addPattern
    simp only [h2]
    rw [Gofre.Path.insert, hfree]
  refine ⟨{ p with attachment := n }, _, h3, .added _ n h.reg h1 hadd, h.root, ?_, by simp [h.count], ?_, ?_, ?_⟩
  · rw [(sortSiblings_perm _).length_eq]
    simp [h.kids]
  · intro c hc
    have := (sortSiblings_perm _).mem_iff.1 hc
    rcases List.mem_append.1 this with hm | hm
    · obtain ⟨k, hk, e⟩ := h.segs c hm
      exact ⟨k, by omega, e⟩
    · rw [List.mem_singleton.1 hm]
      exact ⟨n, by omega, rfl⟩
  · intro k hk
    by_cases e : k = n
    · subst e
      exact ⟨_, List.mem_cons_self, h3⟩
    · obtain ⟨q, hq, hr⟩ := h.all k (by omega)
      exact ⟨q, by simp [hq], hr⟩
  · intro q hq
    rcases List.mem_cons.1 hq with rfl | hq
    · exact ⟨n, by omega, h3, h2⟩
    · obtain ⟨k, hk, hr⟩ := h.only q hq
      exact ⟨k, by omega, hr⟩

theorem many (n : Nat) : ∃ ps m, Many n ps m := by
  induction n with
  | zero => exact ⟨[], {}, .new, rfl, rfl, rfl, by simp, by simp, by simp⟩
  | succ n ih =>
    obtain ⟨ps, m, h⟩ := ih
    obtain ⟨p, m', -, h'⟩ := h.step
    exact ⟨_, _, h'⟩

/-- With 65536 nodes on the first level nothing is found. -/
theorem Many.unserved {ps : List Pattern} {m : Matcher} (h : Many 65536 ps m) {path : Str} {buf : List USeg} (hb : buf.length = 19) :
    ∃ f, ∀ g, f ≤ g → lookup plainExt false m path buf g = some .none := by
  obtain ⟨segs, -, f, hf⟩ := lookup_any plainExt false m path buf hb
  refine ⟨f, fun g hg => ?_⟩
  rw [hf g hg]
  have hk := h.kids
  simp only [answer, h.root, hk]
  cases hm : m.kids with
  | nil => rfl
  | cons c cs => simp [tryC, Res.toM]

theorem Many.describes {n : Nat} {ps : List Pattern} {m : Matcher} (h : Many (n + 1) ps m) :
    ∃ p ∈ ps, p.raw = b!"/a" ∧ Describes plainExt false p.segments (segmentsOf b!"/a") := by
  obtain ⟨p, hp, hr⟩ := h.all 0 (by omega)
  obtain ⟨k, -, hr', hs⟩ := h.only p hp
  have hk : k = 0 := by
    have := congrArg List.length (hr.symm.trans hr')
    simpa [manyText] using this.symm
  subst hk
  refine ⟨p, hp, hr, ?_⟩
  rw [hs]
  exact (describes_one (by decide)).2 ⟨b!"a", [], by decide, .inl rfl, describes_nil.2 rfl⟩

/-- C18 fails for 65536 patterns, even when each is one literal: no request at all is served, though patterns describe some. -/
theorem c18_violated_many : ∃ ps m, Registered plainExt false sortSiblings ps m ∧ ps.length = 65536 ∧ (∀ p ∈ ps, ∃ s, p.segments = [s] ∧ s.kind = .literal) ∧
    (∃ p ∈ ps, Describes plainExt false p.segments (segmentsOf b!"/a")) ∧
    ∀ path buf, buf.length = 19 → ∃ f, ∀ g, f ≤ g → lookup plainExt false m path buf g = some .none := by
  obtain ⟨ps, m, h⟩ := many 65536
  refine ⟨ps, m, h.reg, h.count, ?_, ?_, fun path buf hb => h.unserved hb⟩
  · intro p hp
    obtain ⟨k, -, -, hs⟩ := h.only p hp
    exact ⟨_, hs, rfl⟩
  · obtain ⟨p, hp, -, hd⟩ := Many.describes (n := 65535) h
    exact ⟨p, hp, hd⟩

/-- C23 fails for 65536 patterns: `/a` is served, and after registering one more literal no request is. -/
theorem c23_violated_many : ∃ ps m m' new, Registered plainExt false sortSiblings ps m ∧ Registered plainExt false sortSiblings (new :: ps) m' ∧
    (∀ p ∈ new :: ps, ∃ s, p.segments = [s] ∧ s.kind = .literal) ∧
    (∃ f q labels, ∀ g, f ≤ g → lookup plainExt false m b!"/a" freshBuf g = some (.found q labels)) ∧
    ∀ path buf, buf.length = 19 → ∃ f, ∀ g, f ≤ g → lookup plainExt false m' path buf g = some .none := by
  obtain ⟨ps, m, h⟩ := many 65535
  obtain ⟨new, m', -, h'⟩ := h.step
  refine ⟨ps, m, m', new, h.reg, h'.reg, ?_, ?_, fun path buf hb => h'.unserved hb⟩
  · intro p hp
    obtain ⟨k, -, -, hs⟩ := h'.only p hp
    exact ⟨_, hs, rfl⟩
  · obtain ⟨p, hp, -, hd⟩ := Many.describes (n := 65534) h
    have hlit : ∀ p ∈ ps, ∀ s ∈ p.segments, s.kind = .literal := by
      intro p hp s hs
      obtain ⟨k, -, -, e⟩ := h.only p hp
      rw [e] at hs
      rw [List.mem_singleton.1 hs]; rfl
    have hlen : ∀ p ∈ ps, p.segments.length = 1 ∧ (pieces p.raw).length = 1 := by
      intro p hp
      obtain ⟨k, -, e', e⟩ := h.only p hp
      rw [e, e', many_pieces]; exact ⟨rfl, rfl⟩
    obtain ⟨f, q, labels, -, hq⟩ := c18_served_partial plainExt_laws h.reg (buf := freshBuf) (path := b!"/a")
      (fun p hp s hs => ⟨fun hk => (by rw [hlit p hp s hs] at hk; cases hk), fun _ h => (by cases h)⟩) (by rw [h.count]; decide)
      (fun p hp => by rw [(hlen p hp).2]; decide)
      (fun p hp a s b e hk => by rw [hlit p hp s (by rw [e]; simp)] at hk; cases hk) (by decide) (by decide) (fits_of_peak _ (by decide))
      ⟨fun p hp s hs hk => (by rw [hlit p hp s hs] at hk; cases hk), (fun h => by cases h), (fun h => by cases h)⟩
      (fun p hp k h0 h1 => by rw [(hlen p hp).1] at h1; omega) hp hd
    exact ⟨f, q, labels, hq⟩

end Gofre.Props
