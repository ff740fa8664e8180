import Verif.Proofs.PriorityTail
import Verif.Props.HighPriority

/-! # C08, C119: patterns with several `**` that end in `**` -/

namespace Gofre.Props
open Gofre.Path Gofre.Spec

theorem stretch_none (n : Nat) (ks : List MT) (h : .multiple ∉ ks) : stretch n ks = ks.map rank := by
  induction ks with
  | nil => rfl
  | cons k ks ih =>
    have hk : k ≠ .multiple := fun e => h (by simp [e])
    simp [stretch, hk, ih fun hm => h (by simp [hm])]

theorem stretch_split (n : Nat) (a b : List MT) (hb : .multiple ∉ b) :
    stretch n (a ++ .multiple :: b) = a.map rank ++ List.replicate n 6 ++ b.map rank := by
  induction a with
  | nil => simp [stretch, hb]
  | cons k a ih => simp [stretch, ih]

/-- With at most one `**` both readings are the same. -/
theorem reach_spread (ks : List MT) (h : ks.countP (· = .multiple) ≤ 1) : reach ks = spread ks := by
  have hflat : ∀ (n : Nat) (l : List MT), .multiple ∉ l →
      l.flatMap (fun k => if k = .multiple then List.replicate n 6 else [rank k]) = l.map rank := by
    intro n l
    induction l with
    | nil => intro _; rfl
    | cons k l ih =>
      intro h
      have hk : k ≠ .multiple := fun e => h (by simp [e])
      simp only [List.flatMap_cons, hk, if_false, List.map_cons]
      rw [ih fun hm => h (by simp [hm])]; rfl
  have key : ∀ n, stretch n ks = ks.flatMap fun k => if k = .multiple then List.replicate n 6 else [rank k] := by
    intro n
    by_cases hm : .multiple ∈ ks
    · obtain ⟨a, b, e, hna⟩ := List.eq_append_cons_of_mem hm
      have hnb : .multiple ∉ b := by
        intro hb
        have h1 : 0 < b.countP (· = .multiple) := List.countP_pos_iff.2 ⟨_, hb, by simp⟩
        rw [e, List.countP_append, List.countP_cons] at h
        simp at h
        omega
      rw [e, stretch_split n a b hnb, List.flatMap_append, List.flatMap_cons, hflat n a hna, hflat n b hnb]
      simp
    · rw [stretch_none n ks hm, hflat n ks hm]
  simp only [reach, spread, key]

/-- Kinds that end in `**` are read as themselves and then as `**` up to 19. -/
theorem reach_tail (a : List MT) (hl : a.length + 1 ≤ 19) :
    reach (a ++ [MT.multiple]) = (a ++ [MT.multiple]).map rank ++ List.replicate (19 - (a.length + 1)) 6 := by
  have hs : stretch (20 - (a ++ [MT.multiple]).length) (a ++ [.multiple]) =
      (a ++ [MT.multiple]).map rank ++ List.replicate (19 - (a.length + 1)) 6 := by
    rw [stretch_split _ a [] (by simp)]
    have e : 20 - (a ++ [MT.multiple]).length = (19 - (a.length + 1)) + 1 := by simp; omega
    rw [e, List.replicate_succ]
    simp [rank]
  simp only [reach, hs]
  simp
  omega

/-- Patterns whose `**` the priority reads well: at most one, or one at the end. -/
abbrev Placed (pat : Str) : Prop := (pieces pat).count b!"**" ≤ 1 ∨ (pieces pat).getLast? = some b!"**"

/-- The priority of a pattern of at most 19 pieces with at most one `**`, or with several one of
which is at the end: the number spelled by the kinds, the last `**` filling up. -/
theorem c08_tail_number (x : Ext) (ci : Bool) (pat : Str) (p : Pattern) (h : parsePattern x ci pat = .ok p)
    (h19 : (pieces pat).length ≤ 19) (hp : Placed pat) :
    p.priority = decR (reach (p.segments.map (·.kind))).reverse ∧
      (reach (p.segments.map (·.kind))).length = 19 ∧ ∀ c ∈ reach (p.segments.map (·.kind)), c ≤ 9 := by
  obtain ⟨a, b⟩ := segments_pieces x ci pat p h h19
  rcases hp with h1 | hlast
  · rw [reach_spread _ (by omega)]
    exact ⟨c08_priority_number x ci pat p h h19 h1, spread_ok _ a (by omega)⟩
  · cases pat with
    | nil => simp [parsePattern] at h
    | cons c body =>
      by_cases hc : c = slash
      · subst hc
        by_cases hb : body = []
        · subst hb
          exact absurd hlast (by decide)
        · rw [pieces_eq] at h19 hlast
          rcases parsePattern_cases x ci body hb with ⟨he, _⟩ | ⟨segs, g1, g2, he⟩
          · rw [he] at h; cases h
          · have hl := g1.length
            have e0 : segs.length / 256 = 0 := by omega
            rw [he, e0] at h
            simp only [Nat.mul_zero, List.drop_zero] at h
            rw [kinds_of_pieces g1] at h
            obtain ⟨vs, hvs⟩ := List.getLast?_eq_some_iff.1 hlast
            have hm : (tailPieces body).map determineMatchType = vs.map determineMatchType ++ [.multiple] := by
              rw [hvs, List.map_append]
              congr 1
            have hlen : (vs.map determineMatchType).length + 1 ≤ 19 := by
              rw [hvs] at h19; simpa using h19
            rw [hm, computePriority_tail _ hlen] at h
            simp only [PRes.ok.injEq] at h
            subst h
            show decR _ = decR _ ∧ _
            dsimp only
            rw [kinds_of_pieces g1, hm, reach_tail _ hlen, rank_code]
            refine ⟨rfl, by simp at hlen ⊢; omega, ?_⟩
            intro c hc
            rcases List.mem_append.1 hc with hc | hc
            · obtain ⟨k, _, rfl⟩ := List.mem_map.1 hc
              cases k <;> simp [MT.code]
            · have := List.eq_of_mem_replicate hc; omega
      · simp [parsePattern, hc] at h

/-- C08 for patterns with at most one `**` and for patterns with several that end in `**`. -/
theorem c08_tail_partial (x : Ext) (ci : Bool) (pat pat' : Str) (p p' : Pattern)
    (h : parsePattern x ci pat = .ok p) (h' : parsePattern x ci pat' = .ok p')
    (h19 : (pieces pat).length ≤ 19) (h19' : (pieces pat').length ≤ 19) (hp : Placed pat) (hp' : Placed pat') :
    (p.priority < p'.priority ↔ reach (p.segments.map (·.kind)) < reach (p'.segments.map (·.kind))) ∧
      (p.priority = p'.priority ↔ reach (p.segments.map (·.kind)) = reach (p'.segments.map (·.kind))) := by
  obtain ⟨n, l, c⟩ := c08_tail_number x ci pat p h h19 hp
  obtain ⟨n', l', c'⟩ := c08_tail_number x ci pat' p' h' h19' hp'
  rw [n, n']
  have e := decR_lt_iff _ _ (l.trans l'.symm) c c'
  have e' := decR_lt_iff _ _ (l'.trans l.symm) c' c
  refine ⟨e, fun he => ?_, fun he => by rw [he]⟩
  have n1 : ¬ reach (p.segments.map (·.kind)) < reach (p'.segments.map (·.kind)) := by rw [← e]; omega
  have n2 : ¬ reach (p'.segments.map (·.kind)) < reach (p.segments.map (·.kind)) := by rw [← e']; omega
  exact List.le_antisymm n2 n1

/-- Three patterns with two `**`, one at the end, from the most to the least specific; the first and
the second differ in their third segment. -/
example : Placed b!"/a/**/b/**" ∧ Placed b!"/a/**/{x}/c/**" ∧ (do
    let a ← (match parsePattern anyExt false b!"/a/**/b/**" with | .ok p => some p.priority | _ => none)
    let b ← (match parsePattern anyExt false b!"/a/**/{x}/c/**" with | .ok p => some p.priority | _ => none)
    let c ← (match parsePattern anyExt false b!"/a/**" with | .ok p => some p.priority | _ => none)
    let d ← (match parsePattern anyExt false b!"/**/a/**" with | .ok p => some p.priority | _ => none)
    some (decide (a < b ∧ b < c ∧ c < d))) = some true := by decide +kernel

/-- C119, the meaning, for patterns with at most one `**` and for patterns with several that end in
`**`. -/
theorem c119_tail_partial (x : Ext) (ci : Bool) (pat pat' : Str) (p p' : Pattern)
    (h : parsePattern x ci pat = .ok p) (h' : parsePattern x ci pat' = .ok p')
    (h19 : (pieces pat).length ≤ 19) (h19' : (pieces pat').length ≤ 19) (hp : Placed pat) (hp' : Placed pat') :
    p.highPriorityThan p' = true ↔
      reach (p.segments.map (·.kind)) < reach (p'.segments.map (·.kind)) ∨
      reach (p.segments.map (·.kind)) = reach (p'.segments.map (·.kind)) ∧ pat < pat' := by
  obtain ⟨hlt, heq⟩ := c08_tail_partial x ci pat pat' p p' h h' h19 h19' hp hp'
  have hr := parse_raw h
  have hr' := parse_raw h'
  unfold Pattern.highPriorityThan
  by_cases e : p.priority = p'.priority
  · rw [if_pos e, hr, hr']
    have hn : ¬ reach (p.segments.map (·.kind)) < reach (p'.segments.map (·.kind)) := by rw [← hlt]; omega
    simp only [decide_eq_true_eq]
    exact ⟨fun h => .inr ⟨heq.1 e, h⟩, fun h => h.elim (fun h => absurd h hn) (·.2)⟩
  · rw [if_neg e]
    have hn := mt heq.2 e
    simp only [decide_eq_true_eq, hn, false_and, or_false, hlt]

/-- `/a/**/b/**` before `/a/**/c/**` (equally specific) before `/a/**/*/**`. -/
example : (do
    let a ← (match parsePattern anyExt false b!"/a/**/b/**" with | .ok p => some p | _ => none)
    let b ← (match parsePattern anyExt false b!"/a/**/c/**" with | .ok p => some p | _ => none)
    let c ← (match parsePattern anyExt false b!"/a/**/*/**" with | .ok p => some p | _ => none)
    some (a.highPriorityThan b && b.highPriorityThan c)) = some true := by decide +kernel

end Gofre.Props
