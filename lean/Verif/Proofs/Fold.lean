import Verif.Proofs.Levels
import Verif.Spec.Fold

/-! # Requests that differ in the case of letters -/

namespace Gofre.Path
open Gofre.Spec

variable {U V : Type} {acc : Segment → U → Option MT} {acc' : Segment → V → Option MT} {P : Segment → Prop}

/-- The two request segments are accepted by the same segments among those with `P`. -/
abbrev AlikeOn (P : Segment → Prop) (acc : Segment → U → Option MT) (acc' : Segment → V → Option MT) (u : U) (v : V) : Prop :=
  ∀ s, P s → acc s u = acc' s v

/-- All nodes have a segment with `P`. -/
abbrev AllSegs (P : Segment → Prop) (ns : List Node) : Prop := ∀ s, Has ns s → P s

theorem AllSegs.head {n : Node} {ns : List Node} (h : AllSegs P (n :: ns)) : P n.seg := by
  cases n; exact h _ (.here List.mem_cons_self)

theorem AllSegs.tail {n : Node} {ns : List Node} (h : AllSegs P (n :: ns)) : AllSegs P ns :=
  fun s hs => h s (hs.mono fun m hm => by simp [hm])

theorem AllSegs.kids {n : Node} {ns : List Node} (h : AllSegs P (n :: ns)) : AllSegs P n.kids := by
  intro s hs
  cases n
  exact h s (.down List.mem_cons_self hs)

theorem anyAcc_congr_on {u : U} {v : V} (h : AlikeOn P acc acc' u v) : ∀ (ns : List Node), AllSegs P ns → anyAcc acc u ns = anyAcc acc' v ns := by
  intro ns
  induction ns with
  | nil => intro _; rfl
  | cons n ns ih => intro hP; simp only [anyAcc, h n.seg hP.head, ih hP.tail]

theorem starLoop_congr_on {any : U → Option Bool} {any' : V → Option Bool} {f : List U → Res} {f' : List V → Res} :
    ∀ {us : List U} {vs : List V}, All2 (fun u v => any u = any' v ∧ AlikeOn P acc acc' u v) us vs →
    (∀ us vs, All2 (AlikeOn P acc acc') us vs → f us = f' vs) → starLoop any f us = starLoop any' f' vs := by
  intro us vs h hf
  induction h with
  | nil => rfl
  | @cons u v us vs hr ht ih =>
    have hall : All2 (AlikeOn P acc acc') (u :: us) (v :: vs) := .cons hr.2 (ht.imp fun _ _ _ _ h => h.2)
    simp only [starLoop, hr.1, ih, hf _ _ hall]

theorem tryC_congr_on : ∀ (n : Nat) (ns : List Node), sizeOf ns ≤ n → AllSegs P ns → ∀ (d b : Nat) (us : List U) (vs : List V),
    All2 (AlikeOn P acc acc') us vs → tryC acc d ns b us = tryC acc' d ns b vs := by
  intro n
  induction n with
  | zero => intro ns h; cases ns <;> simp at h
  | succ n ih =>
    intro ns hn hP d b us vs h
    match ns, b with
    | [], _ => simp [tryC]
    | _ :: _, 0 => simp [tryC]
    | .mk mx pr seg pat kids :: rest, b + 1 =>
      have hrest := ih rest (by simp at hn; omega) hP.tail d b us vs h
      rw [tryC, tryC, hrest]
      have hN : tryN acc d (.mk mx pr seg pat kids) us = tryN acc' d (.mk mx pr seg pat kids) vs := by
        cases h with
        | nil => simp [tryN]
        | @cons u v us vs hr ht =>
          have hbelow : ∀ us vs, All2 (AlikeOn P acc acc') us vs → below acc d kids us = below acc' d kids vs := by
            intro us vs h
            simp only [below]
            rw [ih kids (by have := sizeOf_kids mx pr seg pat kids rest; omega) hP.kids _ _ us vs h]
          have hst : starLoop (fun w => anyAcc acc w kids) (below acc d kids) (u :: us) =
              starLoop (fun w => anyAcc acc' w kids) (below acc' d kids) (v :: vs) :=
            starLoop_congr_on (P := P) (acc := acc) (acc' := acc')
              ((All2.cons hr ht).imp fun a b _ _ hab => ⟨anyAcc_congr_on hab kids hP.kids, hab⟩) hbelow
          rw [tryN_cons, tryN_cons, hr seg hP.head, hst, ht.length, hbelow _ _ ht]
          congr 1
          congr 1
          funext k
          cases ht <;> rfl
      rw [hN]

theorem answer_congr_on (m : Matcher) (hP : AllSegs P m.kids) {us : List U} {vs : List V} (h : All2 (AlikeOn P acc acc') us vs) :
    answer acc m us = answer acc' m vs := by
  have := tryC_congr_on (acc := acc) (acc' := acc') _ m.kids (Nat.le_refl _) hP 0 (m.kids.length % 65536) us vs h
  cases h with
  | nil => cases hr : m.root <;> simp only [answer, hr]; rw [this]
  | cons _ _ => simp only [answer]; rw [this]

end Gofre.Path

namespace Gofre.Glob
open Gofre.Spec

theorem upper_case {a b : UInt8} (h : CaseOf a b) : toUpperRune a = toUpperRune b := by
  rcases h with rfl | ⟨h1, h2, h3⟩ | ⟨h1, h2, h3⟩
  · rfl
  · have : ¬ (97 ≤ b.toNat ∧ b.toNat ≤ 122) := by omega
    simp only [toUpperRune, h1, h2, and_self, if_true, this, if_false]
    repeat (rw [if_neg (by omega)])
    omega
  · have : ¬ (97 ≤ a.toNat ∧ a.toNat ≤ 122) := by omega
    simp only [toUpperRune, h1, h2, and_self, if_true, this, if_false]
    repeat (rw [if_neg (by omega)])
    omega

theorem runes_case {a b : UInt8} (h : CaseOf a b) (pc : UInt8) : runesMatches true a pc = runesMatches true b pc := by
  simp only [runesMatches, if_true, upper_case h]

theorem scan_case {u v : Str} (h : All2 CaseOf u v) (pc : UInt8) : ∀ i, scan true pc u i = scan true pc v i := by
  induction h with
  | nil => intro i; rfl
  | cons r _ ih => intro i; simp only [scan, runes_case r, ih]

theorem all2_drop {α β : Type} {R : α → β → Prop} {u : List α} {v : List β} (h : All2 R u v) : ∀ n, All2 R (u.drop n) (v.drop n) := by
  induction h with
  | nil => intro n; simpa using All2.nil
  | cons r t ih =>
    intro n
    cases n with
    | zero => exact .cons r t
    | succ n => exact ih n

theorem body_case {u v : Str} (h : All2 CaseOf u v) (pat : Str) (p i : Nat) (cp : Option (Nat × Nat)) :
    body true u pat p i cp = body true v pat p i cp := by
  have hl := h.length
  have hget : (u[i]? = none ∧ v[i]? = none) ∨ ∃ a b, u[i]? = some a ∧ v[i]? = some b ∧ CaseOf a b := by
    have := all2_drop h i
    rw [← List.head?_drop, ← List.head?_drop]
    generalize u.drop i = a at this
    generalize v.drop i = b at this
    cases this with
    | nil => simp
    | cons r _ => right; exact ⟨_, _, rfl, rfl, r⟩
  unfold body
  rcases hget with ⟨h1, h2⟩ | ⟨a, b, h1, h2, h3⟩
  · rw [h1, h2]
  · rw [h1, h2]
    simp only [scan_case (all2_drop h i), runes_case h3, hl]

theorem loop_case {u v : Str} (h : All2 CaseOf u v) (pat : Str) : ∀ (f : Nat) (s : St), loop true u pat f s = loop true v pat f s := by
  intro f
  induction f with
  | zero => intro s; rfl
  | succ f ih =>
    intro s
    simp only [loop, step, h.length, body_case h, ih]

theorem match_case {u v : Str} (h : All2 CaseOf u v) (pat : Str) : regexSegmentMatch true u pat = regexSegmentMatch true v pat := by
  simp only [regexSegmentMatch, h.length, fuelFor, loop_case h]

end Gofre.Glob

namespace Gofre.Path
open Gofre.Spec

theorem text_case {x : Ext} (hl : FoldLaws x.eqFold) (hfold : ∀ a b, SameText a b → x.eqFold a b = true) {u v : Str} (h : SameText u v) {s : Segment}
    (hs : s.kind = .constraint → ∀ src, s.re = some src → ∀ u v, SameText u v → x.reMatch src u = x.reMatch src v) :
    matchText x true s u = matchText x true s v := by
  have hf : ∀ t, x.eqFold u t = x.eqFold v t := by
    intro t
    rw [Bool.eq_iff_iff]
    exact ⟨hl.trans _ _ _ (hl.symm _ _ (hfold _ _ h)), hl.trans _ _ _ (hfold _ _ h)⟩
  unfold matchText
  split
  · simp only [h.length, hf, if_true]
  · rfl
  · rfl
  · rfl
  · rename_i hk
    split
    · rfl
    · rename_i src hsrc
      rw [hs hk src hsrc u v h]
  · rw [Gofre.Glob.match_case h]
  · rfl

theorem split_case {u v : Str} (h : SameText u v) : All2 SameText (splitOn slash u) (splitOn slash v) := by
  induction h with
  | nil => exact .cons .nil .nil
  | @cons a b u v r _ ih =>
    have hab : a = slash ↔ b = slash := by
      rcases r with rfl | ⟨h1, h2, h3⟩ | ⟨h1, h2, h3⟩
      · rfl
      · constructor
        · rintro rfl; simp [slash] at h1
        · rintro rfl; simp [slash] at h3; omega
      · constructor
        · rintro rfl; simp [slash] at h3; omega
        · rintro rfl; simp [slash] at h1
    simp only [splitOn]
    by_cases ha : a = slash
    · rw [if_pos ha, if_pos (hab.1 ha)]
      exact .cons .nil ih
    · rw [if_neg ha, if_neg (fun h => ha (hab.2 h))]
      revert ih
      generalize splitOn slash u = us
      generalize splitOn slash v = vs
      intro ih
      cases ih with
      | nil => exact .cons (.cons r .nil) .nil
      | cons r' t => exact .cons (.cons r r') t

theorem dots_case {u v : Str} (h : SameText u v) : u = b!".." ↔ v = b!".." := by
  have dot : ∀ {a b : UInt8}, CaseOf a b → (a = 46 ↔ b = 46) := by
    intro a b r
    rcases r with rfl | ⟨h1, h2, h3⟩ | ⟨h1, h2, h3⟩
    · rfl
    · constructor
      · rintro rfl; simp at h1
      · rintro rfl; simp at h3; omega
    · constructor
      · rintro rfl; simp at h3; omega
      · rintro rfl; simp at h1
  cases h with
  | nil => simp
  | cons r t =>
    cases t with
    | nil => simp
    | cons r' t =>
      cases t with
      | nil => simp [dot r, dot r']
      | cons _ _ => simp

theorem push_case {st st' : List Str} {u v : Str} (hst : All2 SameText st st') (h : SameText u v) : All2 SameText (push st u) (push st' v) := by
  have he : u = [] ↔ v = [] := by cases h <;> simp
  unfold push
  by_cases hu : u = []
  · rw [if_pos hu, if_pos (he.1 hu)]; exact hst
  · rw [if_neg hu, if_neg (fun h => hu (he.2 h))]
    by_cases hd : u = b!".."
    · rw [if_pos hd, if_pos ((dots_case h).1 hd)]
      cases hst with
      | nil => exact .nil
      | cons _ t => exact t
    · rw [if_neg hd, if_neg (fun h' => hd ((dots_case h).2 h'))]
      exact .cons h hst

theorem fold_case {us vs : List Str} (h : All2 SameText us vs) : ∀ {st st' : List Str}, All2 SameText st st' →
    All2 SameText (us.foldl push st) (vs.foldl push st') := by
  induction h with
  | nil => intro st st' h; exact h
  | cons r _ ih => intro st st' h; exact ih (push_case h r)

theorem all2_reverse {α β : Type} {R : α → β → Prop} {u : List α} {v : List β} (h : All2 R u v) : All2 R u.reverse v.reverse := by
  have : ∀ {u : List α} {v : List β}, All2 R u v → ∀ {a : List α} {b : List β}, All2 R a b → All2 R (u.reverse ++ a) (v.reverse ++ b) := by
    intro u v h
    induction h with
    | nil => intro a b h; exact h
    | cons r _ ih => intro a b h; simpa using ih (All2.cons r h)
  simpa using this h .nil

theorem normal_case {us vs : List Str} (h : All2 SameText us vs) : All2 SameText (normal us) (normal vs) :=
  all2_reverse (fold_case h .nil)

theorem after_case {u v : Str} (h : SameText u v) : All2 SameText (afterSlash u) (afterSlash v) := Gofre.Glob.all2_drop (split_case h) 1

theorem all2_take {α β : Type} {R : α → β → Prop} {u : List α} {v : List β} (h : All2 R u v) : ∀ n, All2 R (u.take n) (v.take n) := by
  induction h with
  | nil => intro n; simpa using All2.nil
  | cons r t ih =>
    intro n
    cases n with
    | zero => exact .nil
    | succ n => exact .cons r (ih n)

theorem same_text_symm {u v : Str} (h : SameText u v) : SameText v u := by
  unfold SameText at *
  induction h with
  | nil => exact .nil
  | cons r _ ih =>
    refine .cons ?_ ih
    rcases r with rfl | h | h
    · exact .inl rfl
    · exact .inr (.inr h)
    · exact .inr (.inl h)

theorem fits_case {u v : Str} (h : SameText u v) (hf : Fits u) : Fits v := by
  intro pre hpre
  have e := List.prefix_iff_eq_take.1 hpre
  rw [e, ← (normal_case (all2_take (after_case h) pre.length)).length]
  exact hf _ (List.take_prefix _ _)

theorem request_case {u v : Str} (h : SameText u v) : All2 SameText (requestOf u) (requestOf v) := by
  by_cases hf : Fits u
  · simp only [requestOf, hf, fits_case h hf, if_true]
    exact normal_case (after_case h)
  · have : ¬ Fits v := fun h' => hf (fits_case (same_text_symm h) h')
    simp only [requestOf, hf, this, if_false]
    exact .nil

end Gofre.Path
