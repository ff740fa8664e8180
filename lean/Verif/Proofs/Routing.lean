import Verif.Model.Router
import Verif.Spec.Route
import Verif.Proofs.TrieInv
import Verif.Proofs.SearchCongr
import Verif.Proofs.Placed
import Verif.Props.Url
import Verif.Props.Pattern
import Verif.Props.Glob

/-! # From requests to the recursive search, from registrations to the leaves -/

namespace Gofre.Path
open Gofre.Spec

/-! ### Matching one segment -/

theorem matchText_kind {x : Ext} {ci : Bool} {s : Segment} {u : Str} {k : MT} (h : matchText x ci s u = some k) :
    k = .unknown ∨ k = s.kind := by
  unfold matchText at h
  cases hk : s.kind <;> rw [hk] at h <;> simp only at h
  · simp at h; exact .inl h.symm
  · split at h
    · split at h <;> split at h <;> simp at h <;> subst h <;> simp
    · simp at h; exact .inl h.symm
  · split at h
    · cases h
    · split at h <;> simp at h <;> subst h <;> simp
  · simp at h; exact .inr h.symm
  · split at h <;> simp at h <;> subst h <;> simp
  · simp at h; exact .inr h.symm
  · simp at h; exact .inr h.symm

theorem matchText_star {x : Ext} {ci : Bool} {s : Segment} {u : Str} (h : matchText x ci s u = some .multiple) (v : Str) :
    matchText x ci s v = some .multiple := by
  have : s.kind = .multiple := by
    rcases matchText_kind h with h | h
    · cases h
    · exact h.symm
  simp [matchText, this]

theorem matchUrl_eq {x : Ext} {ci : Bool} {path : Str} {s : Segment} {u : USeg} {t : Str} (h : sliceU path u = some t) :
    matchUrl x ci path s u = matchText x ci s t := by
  have hlen : (u.stop - u.start).toNat = t.length := by
    unfold sliceU at h
    split at h
    · rename_i hc
      simp only [Option.some.injEq] at h
      subst h
      have h1 : u.start.toNat ≤ u.stop.toNat := UInt16.le_iff_toNat_le.1 hc.1
      rw [UInt16.toNat_sub_of_le _ _ hc.1]
      simp
      omega
    · cases h
  unfold matchUrl
  cases hk : s.kind <;> simp only [h, Option.bind_some, hlen]
  · simp [matchText, hk]
  · split
    · rfl
    · rename_i hne; simp [matchText, hk, hne]
  · simp [matchText, hk]
  · simp [matchText, hk]
  · simp [matchText, hk]

theorem matchUrl_kind {x : Ext} {ci : Bool} {path : Str} {s : Segment} {u : USeg} {k : MT} (h : matchUrl x ci path s u = some k) :
    k = .unknown ∨ k = s.kind := by
  cases hs : sliceU path u with
  | some t => rw [matchUrl_eq hs] at h; exact matchText_kind h
  | none =>
    unfold matchUrl at h
    cases hk : s.kind <;> rw [hk] at h <;> simp only [hs, Option.bind_none] at h
    · simp at h; exact .inl h.symm
    · split at h
      · cases h
      · simp at h; exact .inl h.symm
    · cases h
    · simp at h; exact .inr h.symm
    · cases h
    · simp at h; exact .inr h.symm
    · simp at h; exact .inr h.symm

theorem matchUrl_star {x : Ext} {ci : Bool} {path : Str} (s : Segment) (u v : USeg) (h : matchUrl x ci path s u = some .multiple) :
    matchUrl x ci path s v = some .multiple := by
  have : s.kind = .multiple := by
    rcases matchUrl_kind h with h | h
    · cases h
    · exact h.symm
  simp [matchUrl, this]

/-! ### A whole request -/

/-- What a request with these segments is answered. -/
def answer {U : Type} (acc : Segment → U → Option MT) (m : Matcher) (us : List U) : MRes :=
  match us, m.root with
  | [], some p => .found p []
  | us, _ => (tryC acc 0 m.kids (m.kids.length % 65536) us).toM

theorem tryC_nil {U : Type} {acc : Segment → U → Option MT} {d : Nat} {ns : List Node} {b : Nat} : tryC acc d ns b [] = .stop := by
  cases ns with
  | nil => simp [tryC]
  | cons n ns =>
    cases b with
    | zero => simp [tryC]
    | succ b => cases n; simp [tryC, tryN]

theorem matchM_eq {U : Type} {acc : Segment → U → Option MT} (hstar : ∀ s u v, acc s u = some .multiple → acc s v = some .multiple)
    (m : Matcher) (us : List U) (hlen : us.length ≤ 19) :
    ∃ f, ∀ g, f ≤ g → matchM acc m us g = some (answer acc m us) := by
  have h19 : ¬ us.length > maxPathSegments := by simpa using hlen
  cases us with
  | nil =>
    cases hr : m.root with
    | some p => exact ⟨0, fun g _ => by simp [matchM, answer, hr]⟩
    | none =>
      refine ⟨1, fun g hg => ?_⟩
      cases g with
      | zero => omega
      | succ g => simp [matchM, answer, hr, mrun, mstep, tryC_nil, Res.toM]
  | cons u us =>
    obtain ⟨f, hf⟩ := mrun_eq (rootKids := m.kids) hstar hlen (by simp)
    refine ⟨f, fun g hg => ?_⟩
    simp only [matchM, if_neg h19]
    rw [hf g hg]
    simp only [answer]

theorem answer_congr {U V : Type} {acc : Segment → U → Option MT} {acc' : Segment → V → Option MT} (m : Matcher) {us : List U} {vs : List V}
    (h : All2 (Alike acc acc') us vs) : answer acc m us = answer acc' m vs := by
  have := tryC_congr (acc := acc) (acc' := acc') _ m.kids (Nat.le_refl _) 0 (m.kids.length % 65536) us vs h
  cases h with
  | nil => cases hr : m.root <;> simp only [answer, hr]; rw [this]
  | cons _ _ => simp only [answer]; rw [this]

theorem matchM_fuel {U : Type} {acc : Segment → U → Option MT} {m : Matcher} {us : List U} {f g : Nat} {r : MRes}
    (h : matchM acc m us f = some r) (hfg : f ≤ g) : matchM acc m us g = some r := by
  have hrun : ∀ (f g : Nat) (s : MSt), f ≤ g → mrun acc m.kids us f s = some r → mrun acc m.kids us g s = some r := by
    intro f
    induction f with
    | zero => intro g s _ h; simp [mrun] at h
    | succ f ih =>
      intro g s hg h
      cases g with
      | zero => omega
      | succ g =>
        simp only [mrun] at h ⊢
        cases hm : mstep acc m.kids us s with
        | done r' => rw [hm] at h; exact h
        | cont s' => rw [hm] at h; exact ih g s' (by omega) h
  unfold matchM at h ⊢
  split
  · rename_i hc; rw [if_pos hc] at h; exact h
  · rename_i hc
    rw [if_neg hc] at h
    cases us with
    | nil =>
      cases hr : m.root with
      | some p => rw [hr] at h; exact h
      | none => rw [hr] at h; exact hrun _ _ _ hfg h
    | cons u us => exact hrun _ _ _ hfg h

/-- The text of the segments a request is matched with: none at all when there are too many. -/
noncomputable def requestOf (path : Str) : List Str := by
  classical exact if Fits path then segmentsOf path else []

theorem parse_texts (path : Str) (buf : List USeg) (hb : buf.length = 19) (hlen : path.length ≤ 65535) :
    ∃ segs, parseURLPath path buf = some segs ∧ segs.map (sliceU path) = (requestOf path).map some ∧ segs.length ≤ 19 := by
  obtain ⟨segs, h1, h2⟩ := Gofre.Props.c11_in_bounds path buf hb
  refine ⟨segs, h1, ?_, h2⟩
  rcases Gofre.Props.parse_cases path buf hb hlen with ⟨hf, segs', h3, h4⟩ | ⟨hf, h3⟩
  · rw [h1] at h3; cases h3
    simpa [requestOf, hf] using h4
  · rw [h1] at h3; cases h3
    simp [requestOf, hf]

theorem all2_of_map {α β : Type} {f : α → Option β} : ∀ {us : List α} {ts : List β}, us.map f = ts.map some → All2 (fun u t => f u = some t) us ts := by
  intro us
  induction us with
  | nil => intro ts h; cases ts with
    | nil => exact .nil
    | cons t ts => simp at h
  | cons u us ih => intro ts h; cases ts with
    | nil => simp at h
    | cons t ts =>
      simp only [List.map_cons, List.cons.injEq] at h
      exact .cons h.1 (ih h.2)

/-- The answer to a request in terms of the text of its segments. -/
theorem lookup_eq (x : Ext) (ci : Bool) (m : Matcher) (path : Str) (buf : List USeg) (hb : buf.length = 19) (hlen : path.length ≤ 65535) :
    ∃ f, ∀ g, f ≤ g → lookup x ci m path buf g = some (answer (matchText x ci) m (requestOf path)) := by
  obtain ⟨segs, h1, h2, h3⟩ := parse_texts path buf hb hlen
  obtain ⟨f, hf⟩ := matchM_eq (acc := matchUrl x ci path) matchUrl_star m segs h3
  refine ⟨f, fun g hg => ?_⟩
  simp only [lookup, h1, hf g hg]
  rw [answer_congr (acc := matchUrl x ci path) (acc' := matchText x ci) m ((all2_of_map h2).imp fun u t _ _ h s => matchUrl_eq h)]

/-- A pattern is found at the root or in the trie. -/
theorem answer_cases {U : Type} {acc : Segment → U → Option MT} {m : Matcher} {us : List U} {p : Pattern} {labels : List MT}
    (h : answer acc m us = .found p labels) : m.root = some p ∨ (tryC acc 0 m.kids (m.kids.length % 65536) us).toM = .found p labels := by
  unfold answer at h
  split at h
  · rename_i q hq
    simp only [MRes.found.injEq] at h
    exact .inl (h.1 ▸ hq)
  · exact .inr h

/-- The answer to a request with a path of any length, in terms of the offsets recorded for its segments. -/
theorem lookup_any (x : Ext) (ci : Bool) (m : Matcher) (path : Str) (buf : List USeg) (hb : buf.length = 19) :
    ∃ segs, parseURLPath path buf = some segs ∧ ∃ f, ∀ g, f ≤ g → lookup x ci m path buf g = some (answer (matchUrl x ci path) m segs) := by
  obtain ⟨segs, h1, h2⟩ := Gofre.Props.c11_in_bounds path buf hb
  obtain ⟨f, hf⟩ := matchM_eq (acc := matchUrl x ci path) matchUrl_star m segs h2
  exact ⟨segs, h1, f, fun g hg => by simp only [lookup, h1, hf g hg]⟩

theorem lookup_fuel {x : Ext} {ci : Bool} {m : Matcher} {path : Str} {buf : List USeg} {f g : Nat} {r : MRes}
    (h : lookup x ci m path buf f = some r) (hfg : f ≤ g) : lookup x ci m path buf g = some r := by
  unfold lookup at h ⊢
  split at h
  · exact h
  · exact matchM_fuel h hfg

/-- Paths that at some point have more than 19 pieces are looked up without any segments, whatever their length. -/
theorem lookup_over (x : Ext) (ci : Bool) (m : Matcher) {path : Str} {buf : List USeg} (hb : buf.length = 19) (hf : ¬ Fits path) :
    ∃ f, ∀ g, f ≤ g → lookup x ci m path buf g = some (answer (matchUrl x ci path) m []) := by
  obtain ⟨segs, h1, h2⟩ := lookup_any x ci m path buf hb
  rcases Gofre.Props.parse_at path buf hb with ⟨h, _⟩ | ⟨_, h⟩
  · exact absurd h hf
  · rw [h, Option.some.injEq] at h1
    subst h1
    exact h2

theorem lookup_result {x : Ext} {ci : Bool} {m : Matcher} {path : Str} {buf : List USeg} (hb : buf.length = 19) (hlen : path.length ≤ 65535)
    {fuel : Nat} {r : MRes} (h : lookup x ci m path buf fuel = some r) : r = answer (matchText x ci) m (requestOf path) := by
  obtain ⟨f, hf⟩ := lookup_eq x ci m path buf hb hlen
  have : lookup x ci m path buf (max f fuel) = some r := by
    unfold lookup at h ⊢
    split
    · rename_i h0; rw [h0] at h; exact h
    · rename_i h0; rw [h0] at h; exact matchM_fuel h (by omega)
  rw [hf _ (by omega)] at this
  exact (Option.some.inj this).symm

/-! ### Registered patterns and the leaves of the trie -/

/-- The nodes of a trie. -/
inductive Has : List Node → Segment → Prop
  | here {ns mx pr seg pat kids} : Node.mk mx pr seg pat kids ∈ ns → Has ns seg
  | down {ns mx pr seg pat kids s} : Node.mk mx pr seg pat kids ∈ ns → Has kids s → Has ns s

theorem Has.mono {ns ms : List Node} (h : ∀ n ∈ ns, n ∈ ms) {s : Segment} (hs : Has ns s) : Has ms s := by
  cases hs with
  | here hm => exact .here (h _ hm)
  | down hm hl => exact .down (h _ hm) hl

theorem Has.append {ns ms : List Node} {s : Segment} : Has (ns ++ ms) s ↔ Has ns s ∨ Has ms s := by
  constructor
  · intro h
    cases h with
    | here hm =>
      rcases List.mem_append.1 hm with h | h
      · exact .inl (.here h)
      · exact .inr (.here h)
    | down hm hl =>
      rcases List.mem_append.1 hm with h | h
      · exact .inl (.down h hl)
      · exact .inr (.down h hl)
  · rintro (h | h)
    · exact h.mono (by intro n hn; simp [hn])
    · exact h.mono (by intro n hn; simp [hn])

theorem Has.cons_split {n : Node} {ns : List Node} {s : Segment} : Has (n :: ns) s ↔ Has [n] s ∨ Has ns s := Has.append (ns := [n])

theorem has_chain (p : Pattern) : ∀ (ss : List Segment) (s : Segment) (i : Nat) (c : Segment), Has [chain p i s ss] c → c ∈ s :: ss := by
  intro ss
  induction ss with
  | nil =>
    intro s i c h
    cases h with
    | here hm => rw [List.mem_singleton, chain] at hm; cases hm; simp
    | down hm hl =>
      rw [List.mem_singleton, chain] at hm
      cases hm
      cases hl with
      | here h => cases h
      | down h _ => cases h
  | cons s' ss ih =>
    intro s i c h
    cases h with
    | here hm => rw [List.mem_singleton, chain] at hm; cases hm; simp
    | down hm hl =>
      rw [List.mem_singleton, chain] at hm
      cases hm
      exact List.mem_cons_of_mem _ (ih s' (i + 1) c hl)

theorem has_of_leaf {ns : List Node} {l : List (Segment × UInt8)} {q : Pattern} (h : Leaf ns l q) : ∀ c ∈ l, Has ns c.1 := by
  induction h with
  | here hm => intro c hc; rw [List.mem_singleton] at hc; subst hc; exact .here hm
  | down hm _ ih =>
    intro c hc
    rcases List.mem_cons.1 hc with rfl | hc
    · exact .here hm
    · exact .down hm (ih c hc)

/-- New nodes carry segments of the new pattern, and a refused pattern adds none. -/
theorem insert_has {x : Ext} {ci : Bool} {srt : List Node → List Node} {p : Pattern} (hp : ∀ l, (srt l).Perm l) :
    ∀ (ss : List Segment) (i : Nat) (s : Segment) (kids : List Node) (c : Segment), Has (insert x ci srt p i s ss kids).1 c →
    Has kids c ∨ ((insert x ci srt p i s ss kids).2 = false ∧ c ∈ s :: ss) := by
  intro ss
  induction ss with
  | nil =>
    intro i s kids c h
    rcases insert_cases x ci srt p i s [] kids with ⟨_, he⟩ | ⟨a, b, mx, pr, seg, pat, ks, hk, hs, _, hc⟩
    · rw [he] at h ⊢
      rcases Has.append.1 (h.mono fun n hn => (hp _).mem_iff.1 hn) with h | h
      · exact .inl h
      · exact .inr ⟨rfl, has_chain p _ _ _ _ h⟩
    · subst hk
      have key : ∀ mx' pat', Has (a ++ .mk mx' pr seg pat' ks :: b) c → Has (a ++ .mk mx pr seg pat ks :: b) c := by
        intro mx' pat' h
        rcases Has.append.1 h with h | h
        · exact Has.append.2 (.inl h)
        · refine Has.append.2 (.inr ?_)
          rcases Has.cons_split.1 h with h | h
          · cases h with
            | here hm => rw [List.mem_singleton] at hm; cases hm; exact .here List.mem_cons_self
            | down hm hl => rw [List.mem_singleton] at hm; cases hm; exact .down List.mem_cons_self hl
          · exact Has.cons_split.2 (.inr h)
      rcases hc with ⟨_, q', rfl, he⟩ | ⟨_, rfl, he⟩ | ⟨_, _, h0, _⟩
      · rw [he] at h; exact .inl (key _ _ h)
      · rw [he] at h; exact .inl (key _ _ h)
      · cases h0
  | cons s1 ss1 ih =>
    intro i s kids c h
    rcases insert_cases x ci srt p i s (s1 :: ss1) kids with ⟨_, he⟩ | ⟨a, b, mx, pr, seg, pat, ks, hk, hs, _, hc⟩
    · rw [he] at h ⊢
      rcases Has.append.1 (h.mono fun n hn => (hp _).mem_iff.1 hn) with h | h
      · exact .inl h
      · exact .inr ⟨rfl, has_chain p _ _ _ _ h⟩
    · subst hk
      rcases hc with ⟨h0, _⟩ | ⟨h0, _⟩ | ⟨s', ss', h0, he⟩
      · cases h0
      · cases h0
      · cases h0
        rw [he] at h ⊢
        rcases Has.append.1 h with h | h
        · exact .inl (Has.append.2 (.inl h))
        · rcases Has.cons_split.1 h with h | h
          · cases h with
            | here hm => rw [List.mem_singleton] at hm; cases hm; exact .inl (Has.append.2 (.inr (.here List.mem_cons_self)))
            | down hm hl =>
              rw [List.mem_singleton] at hm; cases hm
              rcases ih _ _ _ _ hl with h | ⟨h1, h2⟩
              · exact .inl (Has.append.2 (.inr (.down List.mem_cons_self h)))
              · exact .inr ⟨h1, List.mem_cons_of_mem _ h2⟩
          · exact .inl (Has.append.2 (.inr (Has.cons_split.2 (.inr h))))

/-- What the trie holds after registering the patterns `ps`. -/
structure Holds (x : Ext) (ci : Bool) (ps : List Pattern) (m : Matcher) : Prop where
  root : ∀ p, m.root = some p → p ∈ ps ∧ p.segments = []
  rootAdded : ∀ p ∈ ps, p.segments = [] → m.root = some p
  leaf : ∀ l q, Leaf m.kids l q → q ∈ ps ∧ OnNode x ci l q.segments
  added : ∀ p ∈ ps, p.segments ≠ [] → ∃ l, Leaf m.kids l p ∧
    All2 (fun c n => (c.1 = n.1 ∨ shares x ci n.1 c.1 = true) ∧ n.2.toNat ≤ c.2.toNat) l (chainPath p 0 p.segments)
  nodes : ∀ s, Has m.kids s → ∃ p ∈ ps, s ∈ p.segments

theorem OnNode.grown {x : Ext} {ci : Bool} {l l0 : List (Segment × UInt8)} {ss : List Segment} (hg : Grown l l0) (h : OnNode x ci l0 ss) :
    OnNode x ci l ss := by
  induction hg generalizing ss with
  | nil => exact h
  | cons hr _ ih =>
    cases h with
    | cons h1 h2 => exact .cons (by rw [hr.1]; exact h1) (ih h2)

theorem on_grown {x : Ext} {ci : Bool} {l l0 c : List (Segment × UInt8)} (hg : Grown l l0)
    (h : All2 (fun c n => (c.1 = n.1 ∨ shares x ci n.1 c.1 = true) ∧ n.2.toNat ≤ c.2.toNat) l0 c) :
    All2 (fun c n => (c.1 = n.1 ∨ shares x ci n.1 c.1 = true) ∧ n.2.toNat ≤ c.2.toNat) l c := by
  induction hg generalizing c with
  | nil => exact h
  | cons hr _ ih =>
    cases h with
    | cons h1 h2 => exact .cons ⟨by rw [hr.1]; exact h1.1, Nat.le_trans h1.2 hr.2⟩ (ih h2)

theorem Holds.add {x : Ext} {ci : Bool} {srt : List Node → List Node} (hp : ∀ l, (srt l).Perm l) {ps : List Pattern} {m m' : Matcher} {p : Pattern}
    (h : Holds x ci ps m) (ha : addPattern x ci srt m p = (m', false)) : Holds x ci (p :: ps) m' := by
  unfold addPattern at ha
  cases hs : p.segments with
  | nil =>
    rw [hs] at ha
    cases hr : m.root with
    | some r => rw [hr] at ha; simp at ha
    | none =>
      rw [hr] at ha
      simp only [Prod.mk.injEq, and_true] at ha
      subst ha
      refine ⟨?_, ?_, ?_, ?_, ?_⟩
      · intro q hq; simp at hq; subst hq; exact ⟨by simp, hs⟩
      · intro q hq hqs
        rcases List.mem_cons.1 hq with rfl | hq
        · rfl
        · have := h.rootAdded q hq hqs; rw [hr] at this; cases this
      · intro l q hl; have := h.leaf l q hl; exact ⟨by simp [this.1], this.2⟩
      · intro q hq hqs
        rcases List.mem_cons.1 hq with rfl | hq
        · exact absurd hs hqs
        · exact h.added q hq hqs
      · intro s hs; obtain ⟨q, hq, h'⟩ := h.nodes s hs; exact ⟨q, by simp [hq], h'⟩
  | cons s ss =>
    rw [hs] at ha
    simp only [Prod.mk.injEq] at ha
    obtain ⟨rfl, herr⟩ := ha
    refine ⟨?_, ?_, ?_, ?_, ?_⟩
    · intro q hq; have := h.root q hq; exact ⟨by simp [this.1], this.2⟩
    · intro q hq hqs
      rcases List.mem_cons.1 hq with rfl | hq
      · rw [hs] at hqs; cases hqs
      · exact h.rootAdded q hq hqs
    · intro l q hl
      rcases insert_sound hp _ _ _ _ _ _ hl with ⟨l0, h1, h2⟩ | ⟨rfl, _, h3⟩
      · have := h.leaf l0 q h1; exact ⟨by simp [this.1], this.2.grown h2⟩
      · exact ⟨by simp, by rw [hs]; exact h3⟩
    · intro q hq hqs
      rcases List.mem_cons.1 hq with rfl | hq
      · obtain ⟨l, h1, h2⟩ := insert_adds hp _ _ _ _ herr
        exact ⟨l, h1, by rw [hs]; exact h2⟩
      · obtain ⟨l, h1, h2⟩ := h.added q hq hqs
        obtain ⟨l', h3, h4⟩ := insert_keeps hp _ _ _ _ _ _ h1
        exact ⟨l', h3, on_grown h4 h2⟩
    · intro c hc
      rcases insert_has hp _ _ _ _ _ hc with h1 | ⟨_, h2⟩
      · obtain ⟨q, hq, h'⟩ := h.nodes c h1; exact ⟨q, by simp [hq], h'⟩
      · exact ⟨p, by simp, by rw [hs]; exact h2⟩

theorem Holds.refuse {x : Ext} {ci : Bool} {srt : List Node → List Node} (hp : ∀ l, (srt l).Perm l) {ps : List Pattern} {m m' : Matcher} {p : Pattern}
    (h : Holds x ci ps m) (ha : addPattern x ci srt m p = (m', true)) : Holds x ci ps m' := by
  unfold addPattern at ha
  cases hs : p.segments with
  | nil =>
    rw [hs] at ha
    cases hr : m.root with
    | some r => rw [hr] at ha; simp only [Prod.mk.injEq, and_true] at ha; subst ha; exact h
    | none => rw [hr] at ha; simp at ha
  | cons s ss =>
    rw [hs] at ha
    simp only [Prod.mk.injEq] at ha
    obtain ⟨rfl, herr⟩ := ha
    refine ⟨h.root, h.rootAdded, ?_, ?_, ?_⟩
    · intro l q hl
      rcases insert_sound hp _ _ _ _ _ _ hl with ⟨l0, h1, h2⟩ | ⟨_, h2, _⟩
      · have := h.leaf l0 q h1; exact ⟨this.1, this.2.grown h2⟩
      · rw [herr] at h2; cases h2
    · intro q hq hqs
      obtain ⟨l, h1, h2⟩ := h.added q hq hqs
      obtain ⟨l', h3, h4⟩ := insert_keeps hp _ _ _ _ _ _ h1
      exact ⟨l', h3, on_grown h4 h2⟩
    · intro c hc
      rcases insert_has hp _ _ _ _ _ hc with h1 | ⟨h2, _⟩
      · exact h.nodes c h1
      · rw [herr] at h2; cases h2

theorem holds {x : Ext} {ci : Bool} {srt : List Node → List Node} (hp : ∀ l, (srt l).Perm l) {ps : List Pattern} {m : Matcher}
    (h : Registered x ci srt ps m) : Holds x ci ps m := by
  induction h with
  | new =>
    refine ⟨by simp, by simp, ?_, by simp, ?_⟩
    · intro l q h; cases h with
      | here h => cases h
      | down h _ => cases h
    · intro s h; cases h with
      | here h => cases h
      | down h _ => cases h
  | added raw a _ _ ha ih => exact ih.add hp ha
  | refused raw a _ _ ha ih => exact ih.refuse hp ha

/-- Registered patterns were parsed. -/
theorem registered_parsed {x : Ext} {ci : Bool} {srt : List Node → List Node} {ps : List Pattern} {m : Matcher}
    (h : Registered x ci srt ps m) : ∀ p ∈ ps, ∃ raw p0 a, parsePattern x ci raw = .ok p0 ∧ p = { p0 with attachment := a } := by
  induction h with
  | new => simp
  | added raw a _ hpp _ ih =>
    intro p hp
    rcases List.mem_cons.1 hp with rfl | hp
    · exact ⟨raw, _, a, hpp, rfl⟩
    · exact ih p hp
  | refused _ _ _ _ _ ih => exact ih

end Gofre.Path
