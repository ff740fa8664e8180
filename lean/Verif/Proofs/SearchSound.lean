import Verif.All2
import Verif.Proofs.SearchRefine

/-! # What the search finds is laid over the request -/

namespace Gofre.Path

/-- A way down the trie to a node carrying the pattern `p`, with the segments and the length
limits of the nodes passed. -/
inductive Leaf : List Node → List (Segment × UInt8) → Pattern → Prop
  | here {ns mx pr seg p kids} : Node.mk mx pr seg (some p) kids ∈ ns → Leaf ns [(seg, mx)] p
  | down {ns mx pr seg pat kids l p} : Node.mk mx pr seg pat kids ∈ ns → Leaf kids l p → Leaf ns ((seg, mx) :: l) p

/-- Every request segment gets the kind of the pattern segment laid over it. -/
def labelsOf {U : Type} : List Segment → List (List U) → List MT
  | s :: ss, b :: bs => List.replicate b.length s.kind ++ labelsOf ss bs
  | _, _ => []

variable {U : Type}

/-- The segments `ss` laid over the request segments `us` in blocks. -/
structure Laid (acc : Segment → U → Option MT) (ss : List Segment) (bs : List (List U)) (us : List U) (ls : List MT) : Prop where
  blocks : All2 (fun s b => s.kind ≠ .unknown ∧ (s.kind ≠ .multiple → b.length = 1) ∧ ∀ u ∈ b, acc s u = some s.kind) ss bs
  joined : bs.flatten = us
  last : ∀ s, ss.getLast? = some s → s.kind = .multiple → bs.getLast? ≠ some []
  labels : ls = labelsOf ss bs

variable {acc : Segment → U → Option MT}

theorem starLoop_found {any : U → Option Bool} {f : List U → Res} {p : Pattern} : ∀ {us : List U} {ls : List MT},
    starLoop any f us = .found p ls →
    ∃ run v ls', us = run ++ v ∧ v ≠ [] ∧ f v = .found p ls' ∧ ls = List.replicate run.length .multiple ++ ls' := by
  intro us
  induction us with
  | nil => intro ls h; simp [starLoop] at h
  | cons u us ih =>
    intro ls h
    have hgo : (starLoop any f us).cons .multiple = .found p ls →
        ∃ run v ls', u :: us = run ++ v ∧ v ≠ [] ∧ f v = .found p ls' ∧ ls = List.replicate run.length .multiple ++ ls' := by
      intro h
      cases hs : starLoop any f us with
      | found p' l' =>
        rw [hs] at h
        simp only [Res.cons, Res.found.injEq] at h
        obtain ⟨rfl, rfl⟩ := h
        obtain ⟨run, v, ls', h1, h2, h3, h4⟩ := ih hs
        exact ⟨u :: run, v, ls', by rw [h1]; rfl, h2, h3, by rw [h4]; rfl⟩
      | next => rw [hs] at h; cases h
      | stop => rw [hs] at h; cases h
      | abort => rw [hs] at h; cases h
      | panic => rw [hs] at h; cases h
    cases hany : any u with
    | none => simp [starLoop, hany] at h
    | some t =>
      cases t with
      | false => simp only [starLoop, hany] at h; exact hgo h
      | true =>
        rw [starLoop_true hany] at h
        cases hf : f (u :: us) with
        | stop => rw [hf] at h; exact hgo h
        | found p' l' =>
          rw [hf] at h
          simp only [Res.orStop, Res.found.injEq] at h
          obtain ⟨rfl, rfl⟩ := h
          exact ⟨[], u :: us, _, rfl, by simp, hf, by simp⟩
        | next => rw [hf] at h; cases h
        | abort => rw [hf] at h; cases h
        | panic => rw [hf] at h; cases h

theorem Leaf.mono {ns ms : List Node} (h : ∀ n ∈ ns, n ∈ ms) {l : List (Segment × UInt8)} {p : Pattern} (hl : Leaf ns l p) : Leaf ms l p := by
  cases hl with
  | here hm => exact .here (h _ hm)
  | down hm hl => exact .down (h _ hm) hl

theorem Laid.cons_one {s : Segment} {u : U} {ss : List Segment} {bs : List (List U)} {us : List U} {ls : List MT}
    (h : Laid acc ss bs us ls) (hne : s.kind ≠ .multiple) (hu : s.kind ≠ .unknown) (ha : acc s u = some s.kind) :
    Laid acc (s :: ss) ([u] :: bs) (u :: us) (s.kind :: ls) := by
  refine ⟨.cons ⟨hu, fun _ => rfl, by simpa using ha⟩ h.blocks, by simp [h.joined], ?_, by simp [labelsOf, h.labels]⟩
  intro t ht hk
  have hlen := h.blocks.length
  cases ss with
  | nil => simp at ht; subst ht; exact absurd hk hne
  | cons s' ss =>
    cases bs with
    | nil => simp at hlen
    | cons b bs =>
      rw [List.getLast?_cons_cons] at ht ⊢
      exact h.last t ht hk

theorem Laid.cons_run {s : Segment} {run : List U} {ss : List Segment} {bs : List (List U)} {us : List U} {ls : List MT}
    (h : Laid acc ss bs us ls) (hss : ss ≠ []) (hm : s.kind = .multiple) (ha : ∀ u, acc s u = some .multiple) :
    Laid acc (s :: ss) (run :: bs) (run ++ us) (List.replicate run.length .multiple ++ ls) := by
  refine ⟨.cons ⟨by simp [hm], fun h => absurd hm h, fun u _ => by rw [hm]; exact ha u⟩ h.blocks, by simp [h.joined], ?_,
    by simp [labelsOf, h.labels, hm]⟩
  intro t ht hk
  have hlen := h.blocks.length
  cases ss with
  | nil => exact absurd rfl hss
  | cons s' ss =>
    cases bs with
    | nil => simp at hlen
    | cons b bs =>
      rw [List.getLast?_cons_cons] at ht ⊢
      exact h.last t ht hk

/-- Everything the search finds is a leaf of the trie laid over the request. -/
theorem tryC_sound (hkind : ∀ s u k, acc s u = some k → k = .unknown ∨ k = s.kind)
    (hstar : ∀ s u v, acc s u = some .multiple → acc s v = some .multiple) :
    ∀ (n : Nat) (ns : List Node), sizeOf ns ≤ n → ∀ (d b : Nat) (us : List U) (p : Pattern) (ls : List MT),
      tryC acc d ns b us = .found p ls → ∃ l bs, Leaf ns l p ∧ l ≠ [] ∧ Laid acc (l.map (·.1)) bs us ls := by
  intro n
  induction n with
  | zero => intro ns h; cases ns <;> simp at h
  | succ n ih =>
    intro ns hn d b us p ls h
    match ns, b with
    | [], _ => simp [tryC] at h
    | _ :: _, 0 => simp [tryC] at h
    | .mk mx pr seg pat kids :: rest, b + 1 =>
      rw [tryC] at h
      have hrest : tryC acc d rest b us = .found p ls →
          ∃ l bs, Leaf (.mk mx pr seg pat kids :: rest) l p ∧ l ≠ [] ∧ Laid acc (l.map (·.1)) bs us ls := by
        intro h
        obtain ⟨l, bs, h1, h2⟩ := ih rest (by simp at hn; omega) d b us p ls h
        exact ⟨l, bs, h1.mono (by intro n hn; simp [hn]), h2⟩
      cases us with
      | nil => simp [tryN] at h
      | cons u us =>
        rw [tryN_cons] at h
        by_cases hmx : mx.toNat < us.length + 1
        · rw [if_pos hmx] at h; exact hrest h
        · rw [if_neg hmx] at h
          have hbelow : ∀ vs ls', below acc d kids vs = .found p ls' →
              ∃ l bs, Leaf kids l p ∧ l ≠ [] ∧ Laid acc (l.map (·.1)) bs vs ls' := by
            intro vs ls' hb
            unfold below at hb
            split at hb
            · exact ih kids (by have := sizeOf_kids mx pr seg pat kids rest; omega) _ _ vs p ls' hb
            · cases hb
          cases hacc : acc seg u with
          | none => rw [hacc] at h; simp [byKind] at h
          | some k =>
            rw [hacc] at h
            by_cases hunk : k = .unknown
            · subst hunk; exact hrest h
            · have hk : k = seg.kind := (hkind _ _ _ hacc).resolve_left hunk
              by_cases hmul : k = .multiple
              · subst hmul
                simp only [byKind] at h
                by_cases hleaf : kids = [] ∧ pat.isSome
                · obtain ⟨rfl, hsome⟩ := hleaf
                  obtain ⟨q, rfl⟩ := Option.isSome_iff_exists.1 hsome
                  simp only [ifLeaf, Res.found.injEq] at h
                  obtain ⟨rfl, rfl⟩ := h
                  refine ⟨[(seg, mx)], [u :: us], .here List.mem_cons_self, by simp, ?_⟩
                  refine ⟨.cons ⟨by rw [← hk]; simp, fun h => absurd hk.symm h, fun v _ => ?_⟩ .nil, by simp, by simp, ?_⟩
                  · rw [← hk]; exact hstar _ _ _ hacc
                  · simp [labelsOf, ← hk]
                · rw [ifLeaf_no hleaf] at h
                  cases hs : starLoop (fun v => anyAcc acc v kids) (below acc d kids) (u :: us) with
                  | found p' l' =>
                    rw [hs] at h
                    simp only [Res.found.injEq] at h
                    obtain ⟨rfl, rfl⟩ := h
                    obtain ⟨run, v, ls', h1, _, h3, h4⟩ := starLoop_found hs
                    obtain ⟨l, bs, g1, g2, g3⟩ := hbelow v ls' h3
                    refine ⟨(seg, mx) :: l, run :: bs, .down List.mem_cons_self g1, by simp, ?_⟩
                    rw [h1, h4]
                    exact g3.cons_run (by simpa using g2) hk.symm fun w => hstar _ _ _ hacc
                  | next => rw [hs] at h; exact hrest h
                  | stop => rw [hs] at h; cases h
                  | abort => rw [hs] at h; cases h
                  | panic => rw [hs] at h; cases h
              · rw [byKind_other hunk hmul] at h
                cases us with
                | nil =>
                  cases pat with
                  | none => cases h
                  | some q =>
                    simp only [ordinary, Res.found.injEq] at h
                    obtain ⟨rfl, rfl⟩ := h
                    refine ⟨[(seg, mx)], [[u]], .here List.mem_cons_self, by simp, ?_⟩
                    rw [hk] at hunk hmul hacc ⊢
                    exact Laid.cons_one (ss := []) (bs := []) (ls := []) ⟨.nil, rfl, by simp, rfl⟩ hmul hunk hacc
                | cons v us =>
                  simp only [ordinary] at h
                  cases hb : below acc d kids (v :: us) with
                  | found p' l' =>
                    rw [hb] at h
                    simp only [Res.up, Res.found.injEq] at h
                    obtain ⟨rfl, rfl⟩ := h
                    obtain ⟨l, bs, g1, g2, g3⟩ := hbelow _ _ hb
                    refine ⟨(seg, mx) :: l, [u] :: bs, .down List.mem_cons_self g1, by simp, ?_⟩
                    rw [hk] at hunk hmul hacc ⊢
                    exact g3.cons_one hmul hunk hacc
                  | next => rw [hb] at h; exact hrest h
                  | stop => rw [hb] at h; exact hrest h
                  | abort => rw [hb] at h; cases h
                  | panic => rw [hb] at h; cases h

end Gofre.Path
