import Verif.Proofs.Best
import Verif.Props.Route
import Verif.Props.Priority

/-! # The order of siblings in a trie of registered patterns -/

namespace Gofre.Path
open Gofre.Spec

/-- The children `ns` reached along the way `pre`. -/
inductive Level (root : List Node) : List (Segment × Nat) → List Node → Prop
  | top : Level root [] root
  | down {pre ns n} : Level root pre ns → n ∈ ns → Level root (pre ++ [(n.seg, n.prio)]) n.kids

theorem Level.thru {root ns : List Node} {pre : List (Segment × Nat)} (h : Level root pre ns) :
    ∀ {l}, Thru ns l → Thru root (pre ++ l) := by
  induction h with
  | top => intro l hl; exact hl
  | @down pre ns n _ hn ih =>
    intro l hl
    rw [List.append_assoc]
    cases n with
    | mk mx pr seg pat kids => exact ih (.down hn hl)

theorem Level.node {root ns : List Node} {pre : List (Segment × Nat)} (h : Level root pre ns) {n : Node} (hn : n ∈ ns) :
    Thru root (pre ++ [(n.seg, n.prio)]) := by
  cases n with
  | mk mx pr seg pat kids => exact h.thru (.here hn)

theorem every_of_level {P : List Node → Prop} {root : List Node} (h : ∀ pre ns, Level root pre ns → P ns) : Every P root := by
  have : ∀ (n : Nat) (ns : List Node), sizeOf ns ≤ n → ∀ pre, Level root pre ns → Every P ns := by
    intro n
    induction n with
    | zero => intro ns h; cases ns <;> simp at h
    | succ n ih =>
      intro ns hs pre hl
      refine .mk (h _ _ hl) fun c hc => ih c.kids ?_ _ (hl.down hc)
      have h1 := List.sizeOf_lt_of_mem hc
      have : sizeOf c.kids < sizeOf c := by cases c; simp [Node.kids]; omega
      omega
  exact this _ root (Nat.le_refl _) _ .top

theorem Every.level {P : List Node → Prop} {root ns : List Node} {pre : List (Segment × Nat)} (h : Every P root) (hl : Level root pre ns) :
    Every P ns := by
  induction hl with
  | top => exact h
  | down _ hn ih => exact ih.kids hn

/-- The way to a pattern, with the priorities of the nodes. -/
inductive LeafP : List Node → List (Segment × Nat) → Pattern → Prop
  | here {ns mx pr seg kids p} : Node.mk mx pr seg (some p) kids ∈ ns → LeafP ns [(seg, pr)] p
  | down {ns mx pr seg pat kids l p} : Node.mk mx pr seg pat kids ∈ ns → LeafP kids l p → LeafP ns ((seg, pr) :: l) p

theorem LeafP.mono {ns ms : List Node} (h : ∀ n ∈ ns, n ∈ ms) {l : List (Segment × Nat)} {q : Pattern} (hs : LeafP ns l q) : LeafP ms l q := by
  cases hs with
  | here hm => exact .here (h _ hm)
  | down hm hl => exact .down (h _ hm) hl

theorem LeafP.append {ns ms : List Node} {l : List (Segment × Nat)} {q : Pattern} : LeafP (ns ++ ms) l q ↔ LeafP ns l q ∨ LeafP ms l q := by
  constructor
  · intro h
    cases h with
    | here hm =>
      rcases List.mem_append.1 hm with h | h
      · exact .inl (.here h)
      · exact .inr (.here h)
    | down hm hl =>
      rcases List.mem_append.1 hm with h | h
      · exact .inl (.down h hl)
      · exact .inr (.down h hl)
  · rintro (h | h)
    · exact h.mono (by intro n hn; simp [hn])
    · exact h.mono (by intro n hn; simp [hn])

theorem LeafP.cons_split {n : Node} {ns : List Node} {l : List (Segment × Nat)} {q : Pattern} : LeafP (n :: ns) l q ↔ LeafP [n] l q ∨ LeafP ns l q :=
  LeafP.append (ns := [n])

theorem leafP_of_leaf {ns : List Node} {l : List (Segment × UInt8)} {q : Pattern} (h : Leaf ns l q) :
    ∃ l', LeafP ns l' q ∧ l'.map (·.1) = l.map (·.1) := by
  induction h with
  | here hm => exact ⟨_, .here hm, rfl⟩
  | down hm _ ih =>
    obtain ⟨l', h1, h2⟩ := ih
    exact ⟨_, .down hm h1, by simp [h2]⟩

theorem leaf_of_leafP {ns : List Node} {l : List (Segment × Nat)} {q : Pattern} (h : LeafP ns l q) :
    ∃ l', Leaf ns l' q ∧ l'.map (·.1) = l.map (·.1) := by
  induction h with
  | here hm => exact ⟨_, .here hm, rfl⟩
  | down hm _ ih =>
    obtain ⟨l', h1, h2⟩ := ih
    exact ⟨_, .down hm h1, by simp [h2]⟩

theorem Level.leafP {root ns : List Node} {pre : List (Segment × Nat)} (h : Level root pre ns) :
    ∀ {l q}, LeafP ns l q → LeafP root (pre ++ l) q := by
  induction h with
  | top => intro l q hl; exact hl
  | @down pre ns n _ hn ih =>
    intro l q hl
    rw [List.append_assoc]
    cases n with
    | mk mx pr seg pat kids => exact ih (.down hn hl)

theorem leafP_head {n : Node} {l : List (Segment × Nat)} {q : Pattern} (h : LeafP [n] l q) : ∃ t, l = (n.seg, n.prio) :: t := by
  cases h with
  | here hm => rw [List.mem_singleton] at hm; subst hm; exact ⟨_, rfl⟩
  | down hm _ => rw [List.mem_singleton] at hm; subst hm; exact ⟨_, rfl⟩

theorem leafP_chain (p : Pattern) : ∀ (ss : List Segment) (s : Segment) (i : Nat) (l : List (Segment × Nat)) (q : Pattern),
    LeafP [chain p i s ss] l q → q = p ∧ ∀ c ∈ l, c.2 = p.priority := by
  intro ss
  induction ss with
  | nil =>
    intro s i l q h
    cases h with
    | here hm => rw [List.mem_singleton, chain] at hm; cases hm; simp
    | down hm hl => rw [List.mem_singleton, chain] at hm; cases hm; cases hl <;> contradiction
  | cons s' ss ih =>
    intro s i l q h
    cases h with
    | here hm => rw [List.mem_singleton, chain] at hm; cases hm
    | down hm hl =>
      rw [List.mem_singleton, chain] at hm
      cases hm
      obtain ⟨h1, h2⟩ := ih _ _ _ _ hl
      refine ⟨h1, fun c hc => ?_⟩
      rcases List.mem_cons.1 hc with rfl | hc
      · rfl
      · exact h2 c hc

variable {x : Ext} {ci : Bool} {srt : List Node → List Node} {p : Pattern}

/-- Below a constraint node there is only the pattern it was made for. -/
theorem insert_leafP (hp : ∀ l, (srt l).Perm l) :
    ∀ (ss : List Segment) (i : Nat) (s : Segment) (kids : List Node) (l : List (Segment × Nat)) (q : Pattern),
    LeafP (insert x ci srt p i s ss kids).1 l q →
    LeafP kids l q ∨ ((insert x ci srt p i s ss kids).2 = false ∧ q = p ∧
      ((∀ t ∈ s :: ss, t.kind = .constraint → ∀ c, Has kids c → shares x ci t c = false) → ∀ c ∈ l, c.1.kind = .constraint → c.2 = p.priority)) := by
  intro ss
  induction ss with
  | nil =>
    intro i s kids l q h
    rcases insert_cases x ci srt p i s [] kids with ⟨_, he⟩ | ⟨a, b, mx, pr, seg, pat, ks, hk, hs, _, hc⟩
    · rw [he] at h ⊢
      rcases LeafP.append.1 (h.mono fun n hn => (hp _).mem_iff.1 hn) with h | h
      · exact .inl h
      · obtain ⟨h1, h2⟩ := leafP_chain _ _ _ _ _ _ h
        exact .inr ⟨rfl, h1, fun _ c hc _ => h2 c hc⟩
    · subst hk
      rcases hc with ⟨_, q', rfl, he⟩ | ⟨_, rfl, he⟩ | ⟨_, _, h0, _⟩
      · rw [he] at h
        left
        rcases LeafP.append.1 h with h | h
        · exact LeafP.append.2 (.inl h)
        · refine LeafP.append.2 (.inr ?_)
          rcases LeafP.cons_split.1 h with h | h
          · cases h with
            | here hm => rw [List.mem_singleton] at hm; cases hm; exact .here List.mem_cons_self
            | down hm hl => rw [List.mem_singleton] at hm; cases hm; exact .down List.mem_cons_self hl
          · exact LeafP.cons_split.2 (.inr h)
      · rw [he] at h ⊢
        rcases LeafP.append.1 h with h | h
        · exact .inl (LeafP.append.2 (.inl h))
        · rcases LeafP.cons_split.1 h with h | h
          · cases h with
            | here hm =>
              rw [List.mem_singleton] at hm; cases hm
              refine .inr ⟨rfl, rfl, fun hcon c hc hck => ?_⟩
              rw [List.mem_singleton] at hc
              subst hc
              rw [hcon s (by simp) (by rw [← shares_kind hs]; exact hck) seg (Has.append.2 (.inr (.here List.mem_cons_self)))] at hs
              cases hs
            | down hm hl => rw [List.mem_singleton] at hm; cases hm; exact .inl (LeafP.append.2 (.inr (.down List.mem_cons_self hl)))
          · exact .inl (LeafP.append.2 (.inr (LeafP.cons_split.2 (.inr h))))
      · cases h0
  | cons s1 ss1 ih =>
    intro i s kids l q h
    rcases insert_cases x ci srt p i s (s1 :: ss1) kids with ⟨_, he⟩ | ⟨a, b, mx, pr, seg, pat, ks, hk, hs, _, hc⟩
    · rw [he] at h ⊢
      rcases LeafP.append.1 (h.mono fun n hn => (hp _).mem_iff.1 hn) with h | h
      · exact .inl h
      · obtain ⟨h1, h2⟩ := leafP_chain _ _ _ _ _ _ h
        exact .inr ⟨rfl, h1, fun _ c hc _ => h2 c hc⟩
    · subst hk
      rcases hc with ⟨h0, _⟩ | ⟨h0, _⟩ | ⟨s', ss', h0, he⟩
      · cases h0
      · cases h0
      · cases h0
        rw [he] at h ⊢
        rcases LeafP.append.1 h with h | h
        · exact .inl (LeafP.append.2 (.inl h))
        · rcases LeafP.cons_split.1 h with h | h
          · cases h with
            | here hm => rw [List.mem_singleton] at hm; cases hm; exact .inl (LeafP.append.2 (.inr (.here List.mem_cons_self)))
            | down hm hl =>
              rw [List.mem_singleton] at hm; cases hm
              rcases ih _ _ _ _ _ hl with h | ⟨h1, h2, h3⟩
              · exact .inl (LeafP.append.2 (.inr (.down List.mem_cons_self h)))
              · refine .inr ⟨h1, h2, fun hcon c hc hck => ?_⟩
                rcases List.mem_cons.1 hc with rfl | hc
                · rw [hcon s (by simp) (by rw [← shares_kind hs]; exact hck) seg (Has.append.2 (.inr (.here List.mem_cons_self)))] at hs
                  cases hs
                · exact h3 (fun t ht hk c hc => hcon t (List.mem_cons_of_mem _ ht) hk c
                    (Has.append.2 (.inr (.down List.mem_cons_self hc)))) c hc hck
          · exact .inl (LeafP.append.2 (.inr (LeafP.cons_split.2 (.inr h))))

theorem registered_constraint (hp : ∀ l, (srt l).Perm l) {ps : List Pattern} {m : Matcher} (h : Registered x ci srt ps m)
    (hplain : ∀ p ∈ ps, ∀ s ∈ p.segments, Plain ci s) :
    ∀ l q, LeafP m.kids l q → ∀ c ∈ l, c.1.kind = .constraint → c.2 = q.priority := by
  have step : ∀ {m m' : Matcher} {p : Pattern} {r : Bool}, addPattern x ci srt m p = (m', r) → ∀ l q, LeafP m'.kids l q →
      LeafP m.kids l q ∨ (r = false ∧ q = p ∧
        ((∀ t ∈ p.segments, t.kind = .constraint → ∀ c, Has m.kids c → shares x ci t c = false) → ∀ c ∈ l, c.1.kind = .constraint → c.2 = p.priority)) := by
    intro m m' p r ha l q hl
    unfold addPattern at ha
    cases hs : p.segments with
    | nil =>
      rw [hs] at ha
      cases hr : m.root with
      | some q => rw [hr] at ha; simp only [Prod.mk.injEq] at ha; rw [← ha.1] at hl; exact .inl hl
      | none => rw [hr] at ha; simp only [Prod.mk.injEq] at ha; rw [← ha.1] at hl; exact .inl hl
    | cons s ss =>
      rw [hs] at ha
      simp only [Prod.mk.injEq] at ha
      rw [← ha.1] at hl
      rw [← ha.2]
      exact insert_leafP hp _ _ _ _ _ _ hl
  induction h with
  | new => intro l q h; cases h <;> contradiction
  | @added ps m m' p raw a hr hpp ha ih =>
    intro l q hl c hc hk
    rcases step ha l q hl with h | ⟨_, rfl, h⟩
    · exact ih (fun p hp => hplain p (by simp [hp])) l q h c hc hk
    · refine h ?_ c hc hk
      intro t ht htk d hd
      obtain ⟨p', hp', hdp⟩ := (holds hp hr).nodes d hd
      have hr' := Registered.added raw a hr hpp ha
      exact not_shares_constraint (Gofre.Props.registered_piece hr p' hp' d hdp) (Gofre.Props.registered_piece hr' _ List.mem_cons_self t ht)
        (hplain _ List.mem_cons_self t ht).1 htk
  | refused raw a _ _ ha ih =>
    intro l q hl c hc hk
    rcases step ha l q hl with h | ⟨h, _⟩
    · exact ih hplain l q h c hc hk
    · cases h

/-! ### Siblings are sorted and have no node in common -/

theorem registered_sorted {ps : List Pattern} {m : Matcher} (hp : ∀ l, (srt l).Perm l)
    (hs : ∀ l, (srt l).Pairwise fun a b => siblingLE a b = true) (h : Registered x ci srt ps m) :
    Every (List.Pairwise fun a b => a.prio ≤ b.prio) m.kids := by
  refine registered_every hp .nil (by simp) ?_ ?_ h
  · intro a b n n' hP _ hpr _ _
    rw [List.pairwise_append, List.pairwise_cons] at hP ⊢
    refine ⟨hP.1, ⟨by rw [hpr]; exact hP.2.1.1, hP.2.1.2⟩, ?_⟩
    intro c hc d hd
    rcases List.mem_cons.1 hd with rfl | hd
    · rw [hpr]; exact hP.2.2 c hc n (by simp)
    · exact hP.2.2 c hc d (by simp [hd])
  · intro p i s ss kids _ _
    refine (hs _).imp ?_
    intro a b hab
    unfold siblingLE at hab
    split at hab
    · omega
    · simp at hab; omega

/-- The two segments are of the same kind, not constraints, and have the same text where it counts. -/
def Alike2 (x : Ext) (ci : Bool) (a b : Segment) : Prop := a.kind ≠ .constraint ∧ shares x ci a b = true

theorem alike2_symm (hl : FoldLaws x.eqFold) {a b : Segment} (h : Alike2 x ci a b) : Alike2 x ci b a := by
  obtain ⟨h1, h2⟩ := h
  have hk := shares_kind h2
  refine ⟨by rw [hk]; exact h1, ?_⟩
  unfold shares at h2 ⊢
  rw [if_pos hk] at h2
  rw [if_pos hk.symm]
  rw [hk] at h2
  cases hka : a.kind <;> simp only [hka] at h2 h1 ⊢
  · cases ci with
    | false => simp at h2 ⊢; exact h2.symm
    | true => simp at h2 ⊢; exact hl.symm _ _ h2
  · cases ci with
    | false => simp at h2 ⊢; exact h2.symm
    | true => simp at h2 ⊢; exact hl.symm _ _ h2
  · exact absurd rfl h1
  · cases ci with
    | false => simp at h2 ⊢; exact h2.symm
    | true => simp at h2 ⊢; exact hl.symm _ _ h2

theorem registered_apart (hl : FoldLaws x.eqFold) {ps : List Pattern} {m : Matcher} (hp : ∀ l, (srt l).Perm l) (h : Registered x ci srt ps m) :
    Every (List.Pairwise fun a b => ¬ Alike2 x ci a.seg b.seg) m.kids := by
  have hsymm : ∀ {a b : Node}, ¬ Alike2 x ci a.seg b.seg → ¬ Alike2 x ci b.seg a.seg := fun h h' => h (alike2_symm hl h')
  refine registered_every hp .nil (by simp) ?_ ?_ h
  · intro a b n n' hP hseg _ _ _
    rw [List.pairwise_append, List.pairwise_cons] at hP ⊢
    refine ⟨hP.1, ⟨by rw [hseg]; exact hP.2.1.1, hP.2.1.2⟩, ?_⟩
    intro c hc d hd
    rcases List.mem_cons.1 hd with rfl | hd
    · rw [hseg]; exact hP.2.2 c hc n (by simp)
    · exact hP.2.2 c hc d (by simp [hd])
  · intro p i s ss kids hP hno
    refine (List.Perm.pairwise_iff hsymm (hp _)).2 ?_
    rw [List.pairwise_append]
    refine ⟨hP, by simp, ?_⟩
    intro c hc d hd
    rw [List.mem_singleton] at hd
    subst hd
    intro h
    have := (alike2_symm hl h).2
    obtain ⟨pat, ks, he⟩ := chain_eq_mk p i s ss
    rw [he] at this
    exact Bool.eq_false_iff.1 (hno c hc) this

/-! ### Priorities and kinds -/

theorem flatMap_codes (n : Nat) : ∀ (pre : List MT), MT.multiple ∉ pre →
    pre.flatMap (fun k => if k = .multiple then List.replicate n 6 else [k.code]) = pre.map MT.code := by
  intro pre
  induction pre with
  | nil => intro _; rfl
  | cons k pre ih =>
    intro h
    rw [List.flatMap_cons, ih (by intro h'; exact h (by simp [h'])), if_neg (by intro h'; exact h (by simp [h']))]
    rfl

theorem spread_at {pre rest : List MT} {k : MT} (hpre : MT.multiple ∉ pre) (hlen : (pre ++ k :: rest).length ≤ 19) :
    ∃ t, spread (pre ++ k :: rest) = pre.map MT.code ++ k.code :: t := by
  unfold spread
  simp only [rank_code]
  generalize hn : 20 - (pre ++ k :: rest).length = n
  rw [List.flatMap_append, flatMap_codes n pre hpre, List.flatMap_cons]
  have : ∃ t, (if k = MT.multiple then List.replicate n 6 else [k.code]) = k.code :: t := by
    split
    · rename_i hk
      subst hk
      cases n with
      | zero => omega
      | succ n => exact ⟨_, rfl⟩
    · exact ⟨_, rfl⟩
  obtain ⟨t, ht⟩ := this
  rw [ht]
  simp only [List.append_assoc, List.cons_append]
  exact ⟨_, rfl⟩

theorem spread_lt {pre rest rest' : List MT} {k k' : MT} (hpre : MT.multiple ∉ pre) (hlen : (pre ++ k :: rest).length ≤ 19)
    (hlen' : (pre ++ k' :: rest').length ≤ 19) (hk : k.code < k'.code) : spread (pre ++ k :: rest) < spread (pre ++ k' :: rest') := by
  obtain ⟨t, h⟩ := spread_at (rest := rest) hpre hlen
  obtain ⟨t', h'⟩ := spread_at (rest := rest') hpre hlen'
  rw [h, h']
  generalize pre.map MT.code = l
  induction l with
  | nil => exact List.Lex.rel hk
  | cons a l ih => exact List.Lex.cons ih

theorem take_getElem? {α : Type} {l : List α} {i : Nat} {a : α} (h : l[i]? = some a) : l = l.take i ++ a :: l.drop (i + 1) := by
  obtain ⟨hi, rfl⟩ := List.getElem?_eq_some_iff.1 h
  rw [List.getElem_cons_drop, List.take_append_drop]

/-- A pattern with at most 19 pieces and no `**` but at its end. -/
structure Short (p : Pattern) : Prop where
  pieces : (pieces p.raw).length ≤ 19
  stars : StarsLast p.segments

theorem stars_prefix {ss : List Segment} (h : StarsLast ss) {i : Nat} {k : MT} (hk : (ss.map (·.kind))[i]? = some k) :
    MT.multiple ∉ (ss.map (·.kind)).take i := by
  intro hm
  rw [← List.map_take] at hm
  obtain ⟨s, hs, hsk⟩ := List.mem_map.1 hm
  obtain ⟨a, b, hab⟩ := List.append_of_mem hs
  have hlen : i < ss.length := by
    obtain ⟨h', _⟩ := List.getElem?_eq_some_iff.1 hk
    simpa using h'
  have : ss = a ++ s :: (b ++ ss.drop i) := by
    rw [← List.cons_append, ← List.append_assoc, ← hab, List.take_append_drop]
  have h0 := h _ _ _ this hsk
  have := congrArg List.length h0
  simp at this
  omega

theorem stars_count {ss : List Segment} (h : StarsLast ss) : (ss.map (·.kind)).countP (· = .multiple) ≤ 1 := by
  induction ss with
  | nil => simp
  | cons s ss ih =>
    by_cases hs : s.kind = .multiple
    · have := h [] s ss rfl hs
      subst this
      simp [hs]
    · rw [List.map_cons, List.countP_cons]
      have := ih fun a t b e => h (s :: a) t b (by rw [e]; rfl)
      simp [hs]
      simpa using this

theorem prio_kinds {ps : List Pattern} {m : Matcher} (h : Registered x ci srt ps m) {p q : Pattern} (hp : p ∈ ps) (hq : q ∈ ps)
    (sp : Short p) (sq : Short q) (hle : p.priority ≤ q.priority) :
    MoreSpecific (p.segments.map (·.kind)) (q.segments.map (·.kind)) := by
  obtain ⟨raw, p0, a, hp1, rfl⟩ := registered_parsed h p hp
  obtain ⟨raw', q0, a', hq1, rfl⟩ := registered_parsed h q hq
  obtain ⟨sp1, sp2⟩ := sp
  obtain ⟨sq1, sq2⟩ := sq
  simp only at sp1 sp2 sq1 sq2 hle ⊢
  rw [parse_raw hp1] at sp1
  rw [parse_raw hq1] at sq1
  have count : ∀ {raw : Str} {p0 : Pattern}, parsePattern x ci raw = .ok p0 → (Gofre.Spec.pieces raw).length ≤ 19 → StarsLast p0.segments →
      (Gofre.Spec.pieces raw).count b!"**" ≤ 1 := by
    intro raw p0 h1 h2 h3
    rw [← (Gofre.Props.segments_pieces x ci raw p0 h1 h2).2]
    exact stars_count h3
  have hlt := (Gofre.Props.c08_one_double_star_partial x ci raw' raw q0 p0 hq1 hp1 sq1 sp1 (count hq1 sq1 sq2) (count hp1 sp1 sp2)).1
  have hl := (Gofre.Props.segments_pieces x ci raw p0 hp1 sp1).1
  have hl' := (Gofre.Props.segments_pieces x ci raw' q0 hq1 sq1).1
  intro i k k' ht hk hk'
  apply Classical.byContradiction
  intro hc
  have hpre := stars_prefix sp2 hk
  have e := take_getElem? hk
  have e' := take_getElem? hk'
  rw [← ht] at e'
  have : spread (q0.segments.map (·.kind)) < spread (p0.segments.map (·.kind)) := by
    have := spread_lt (k := k') (k' := k) hpre (by rw [← e']; exact hl') (by rw [← e]; exact hl) (by rw [rank_code] at hc; omega)
    rw [← e', ← e] at this
    exact this
  have := hlt.2 this
  omega

end Gofre.Path
