import Verif.Model.Glob
import Verif.Spec.Glob

namespace Gofre.Glob
open Gofre.Spec

/-! ## Termination -/

/-- Rank of the checkpoint: it decreases whenever the checkpoint changes. -/
def cpRank (P U : Nat) : Option (Nat × Nat) → Nat
  | none => (P + 1) * (U + 2)
  | some (pc, uc) => (P - pc) * (U + 2) + (U - uc)

/-- Loop measure. -/
def measure (P U : Nat) (s : St) : Nat :=
  if s.cp = none ∧ s.u = U ∧ s.p ≠ P then 0
  else cpRank P U s.cp * (2 * P + 3) + 2 * (P - s.p) + (if s.restore then 0 else 1) + 1

/-- Invariant used for termination. -/
def TInv (pat : Str) (U : Nat) (s : St) : Prop :=
  ∀ pc uc, s.cp = some (pc, uc) →
    uc < U ∧ pc < pat.length ∧ pc < s.p ∧ pat[pc]? = some star

theorem scan_some {ci pc l u u'} (h : scan ci pc l u = some u') :
    u ≤ u' ∧ u' < u + l.length := by
  induction l generalizing u with
  | nil => simp [scan] at h
  | cons c l ih =>
    simp only [scan] at h
    split at h
    · simp at h; subst h; simp
    · have := ih h; simp; omega

theorem skipStars_ge {p l i} (h : p < i) : p ≤ skipStars p l i := by
  induction l generalizing i with
  | nil => simp [skipStars]
  | cons c l ih =>
    simp only [skipStars]
    split
    · omega
    · exact ih (by omega)

theorem lt_of_getElem?_some {α} {l : List α} {i : Nat} {a : α} (h : l[i]? = some a) :
    i < l.length := by
  rw [List.getElem?_eq_some_iff] at h
  exact h.1

theorem rank_lt_same {P U pc uc u' : Nat} (p' : Nat) (hp : pc ≤ p') (hP : p' < P)
    (hu : uc < u') (hU : u' < U) :
    cpRank P U (some (p', u')) < cpRank P U (some (pc, uc)) := by
  simp only [cpRank]
  have h : (P - p') * (U + 2) ≤ (P - pc) * (U + 2) := Nat.mul_le_mul_right _ (by omega)
  omega

theorem rank_lt_fresh {P U u' p' : Nat} {cp : Option (Nat × Nat)}
    (hcp : ∀ pc uc, cp = some (pc, uc) → pc < p') (hP : p' < P) (hU : u' < U) :
    cpRank P U (some (p', u')) < cpRank P U cp := by
  cases cp with
  | none =>
    simp only [cpRank]
    have : (P - p') * (U + 2) ≤ P * (U + 2) := Nat.mul_le_mul_right _ (by omega)
    have h2 : (P + 1) * (U + 2) = P * (U + 2) + (U + 2) := by rw [Nat.add_mul]; omega
    omega
  | some x =>
    obtain ⟨pc, uc⟩ := x
    have := hcp pc uc rfl
    simp only [cpRank]
    have h : (P - p' + 1) * (U + 2) ≤ (P - pc) * (U + 2) := Nat.mul_le_mul_right _ (by omega)
    rw [Nat.add_mul] at h
    omega

theorem measure_lt_of_rank {P U : Nat} {s s' : St} (hs : ¬ (s.cp = none ∧ s.u = U ∧ s.p ≠ P))
    (h : cpRank P U s'.cp < cpRank P U s.cp) : measure P U s' < measure P U s := by
  simp only [measure, hs, if_false]
  split
  · omega
  · have h' := Nat.mul_le_mul_right (2 * P + 3) h
    rw [Nat.succ_mul] at h'
    split <;> split <;> omega

theorem skipStars_star {pat : Str} {p i : Nat} (hp : pat[p]? = some star) (hi : p < i)
    (hi1 : pat[i - 1]? = some star) :
    pat[skipStars p (pat.drop i) i]? = some star := by
  generalize hl : pat.drop i = l
  induction l generalizing i with
  | nil => simpa [skipStars] using hp
  | cons c l ih =>
    simp only [skipStars]
    split
    · exact hi1
    · rename_i hc
      apply ih (by omega)
      · have : pat[i]? = some c := by
          have := congrArg (fun l => l[0]?) hl
          simpa using this
        simp only [ne_eq, Decidable.not_not] at hc
        simpa [hc] using this
      · have := congrArg List.tail hl
        simpa [List.tail_drop] using this

theorem body_measure {ci url pat s s'} (hI : TInv pat url.length s) (p u : Nat)
    (hs : ¬ (s.cp = none ∧ s.u = url.length ∧ s.p ≠ pat.length))
    (hr : s.restore = false ∧ p = s.p ∧ u = s.u ∨
      ∃ pc uc, s.cp = some (pc, uc) ∧ p = pc ∧ u = uc + 1)
    (hb : body ci url pat p u s.cp = .next s') :
    TInv pat url.length s' ∧
      measure pat.length url.length s' < measure pat.length url.length s := by
  unfold body at hb
  split at hb
  · simp at hb
  rename_i uc huc
  have hu := lt_of_getElem?_some huc
  split at hb
  · simp at hb
  rename_i pc hpc
  have hp := lt_of_getElem?_some hpc
  split at hb
  · -- `?`
    rename_i hq
    rcases hr with ⟨hre, rfl, rfl⟩ | ⟨a, b, hcp, rfl, rfl⟩
    · simp at hb; subst hb
      refine ⟨fun a b hab => ?_, ?_⟩
      · obtain ⟨h1, h2, h3, h4⟩ := hI a b hab
        exact ⟨h1, h2, Nat.lt_succ_of_lt h3, h4⟩
      · simp only [measure, hs, if_false, hre]
        split <;> simp <;> omega
    · have := (hI _ _ hcp).2.2.2
      rw [hpc] at this
      injection this with this
      subst hq; exact absurd this (by decide)
  · split at hb
    · -- `*`
      rename_i hq hst
      subst hst
      simp only at hb
      split at hb
      · simp at hb
      rename_i hlast
      split at hb
      · simp at hb
      rename_i pc' hpc'
      have hp' := lt_of_getElem?_some hpc'
      have hge : p ≤ skipStars p (pat.drop (p + 1)) (p + 1) := skipStars_ge (by omega)
      have hstar := skipStars_star (i := p + 1) hpc (by omega) (by simpa using hpc)
      split at hb
      · rename_i u' hsc
        have hsc := scan_some hsc
        simp at hsc
        simp at hb; subst hb
        refine ⟨?_, ?_⟩
        · intro a b hab
          simp at hab
          obtain ⟨rfl, rfl⟩ := hab
          refine ⟨by omega, by omega, ?_, hstar⟩
          simp only; omega
        · apply measure_lt_of_rank hs
          rcases hr with ⟨hre, rfl, rfl⟩ | ⟨a, b, hcp, rfl, rfl⟩
          · apply rank_lt_fresh (by
              intro a b hab; have := hI a b hab; omega) (by omega) (by omega)
          · simp only [hcp]
            apply rank_lt_same _ hge (by omega) (by omega) (by omega)
      · simp at hb; subst hb
        refine ⟨by intro a b hab; simp at hab, ?_⟩
        rw [measure, if_pos (by simp; omega)]
        simp only [measure, hs, if_false]
        omega
    · rename_i hq hns
      have hnr : s.restore = false ∧ p = s.p ∧ u = s.u := by
        rcases hr with h | ⟨a, b, hcp, rfl, rfl⟩
        · exact h
        · have := (hI _ _ hcp).2.2.2
          rw [hpc] at this
          simp at this
          exact absurd this hns
      obtain ⟨hre, rfl, rfl⟩ := hnr
      split at hb
      · simp at hb; subst hb
        refine ⟨fun a b hab => ?_, ?_⟩
        · obtain ⟨h1, h2, h3, h4⟩ := hI a b hab
          exact ⟨h1, h2, Nat.lt_succ_of_lt h3, h4⟩
        · simp only [measure, hs, if_false, hre]
          split <;> simp <;> omega
      · simp at hb; subst hb
        refine ⟨fun a b hab => hI a b hab, ?_⟩
        simp only [measure, hs, if_false, hre]
        simp

/-- Each continuing iteration preserves the invariant and decreases the measure. -/
theorem step_measure {ci url pat s s'} (hI : TInv pat url.length s)
    (h : step ci url pat s = .next s') :
    TInv pat url.length s' ∧
      measure pat.length url.length s' < measure pat.length url.length s := by
  unfold step at h
  split at h
  · simp at h
  rename_i h0
  split at h
  · split at h
    · simp at h
    · rename_i pc uc hcp
      exact body_measure hI pc (uc + 1) (by simp [hcp]) (.inr ⟨pc, uc, hcp, rfl, rfl⟩) h
  · rename_i hr
    simp only [not_or, Bool.not_eq_true] at hr
    exact body_measure hI s.p s.u (fun h => hr.2.2 h.2.1) (.inl ⟨hr.1, rfl, rfl⟩) h

theorem loop_terminates {ci url pat} (f : Nat) (s : St) (hI : TInv pat url.length s)
    (hf : measure pat.length url.length s < f) : ∃ r, loop ci url pat f s = some r := by
  induction f generalizing s with
  | zero => omega
  | succ f ih =>
    simp only [loop]
    split
    · exact ⟨_, rfl⟩
    · rename_i s' hs'
      have := step_measure hI hs'
      exact ih s' this.1 (by omega)

theorem init_measure (url pat : Str) :
    measure pat.length url.length ⟨0, 0, false, none⟩ < fuelFor url pat := by
  simp only [measure, fuelFor, cpRank]
  split
  · exact Nat.mul_pos (by omega) (by omega)
  · rw [Nat.add_mul ((pat.length + 1) * (url.length + 2)) 1]
    simp only [Bool.false_eq_true, if_false]
    omega

theorem init_TInv (pat : Str) (U : Nat) : TInv pat U ⟨0, 0, false, none⟩ := by
  intro a b h; simp at h

/-! ## Correctness -/

/-- Internal characterisation of acceptance: as `Spec.Glob` but a final `*` needs at
least one character. -/
def M (ci : Bool) : Str → Str → Prop
  | [], u => u = []
  | pc :: p, u =>
    if pc = qm then ∃ c v, u = c :: v ∧ M ci p v
    else if pc = star then
      if p = [] then u ≠ [] else ∃ w v, u = w ++ v ∧ M ci p v
    else ∃ c v, u = c :: v ∧ runesMatches ci c pc = true ∧ M ci p v

theorem M_nil_right {ci p} (h : M ci p []) : p = [] := by
  induction p with
  | nil => rfl
  | cons c p ih =>
    simp only [M] at h
    split at h
    · simp at h
    · split at h
      · split at h
        · simp at h
        · rename_i hp
          obtain ⟨w, v, hw, hv⟩ := h
          simp at hw
          rw [hw.2] at hv
          exact absurd (ih hv) hp
      · simp at h

/-- Acceptance of the rest of the pattern from `p` on the rest of the url from `u`. -/
def Sp (ci : Bool) (url pat : Str) (p u : Nat) : Prop := M ci (pat.drop p) (url.drop u)

theorem drop_cons {α} {l : List α} {i : Nat} {a : α} (h : l[i]? = some a) :
    l.drop i = a :: l.drop (i + 1) := by
  obtain ⟨hi, rfl⟩ := List.getElem?_eq_some_iff.1 h
  exact List.drop_eq_getElem_cons hi

theorem Sp_end_right {ci url pat p u} (hp : p < pat.length) (hu : url.length ≤ u) :
    ¬ Sp ci url pat p u := by
  intro h
  rw [Sp, List.drop_eq_nil_of_le hu] at h
  have := M_nil_right h
  simp at this; omega

theorem Sp_end_left {ci url pat p u} (hp : pat.length ≤ p) (hu : u < url.length) :
    ¬ Sp ci url pat p u := by
  intro h
  rw [Sp, List.drop_eq_nil_of_le hp] at h
  simp [M] at h; omega

theorem runesMatches_qm {ci c} : runesMatches ci c qm = true := by simp [runesMatches]

/-- Non-star position: consume one character. -/
theorem Sp_char {ci} {url pat : Str} {p u : Nat} {pc : UInt8} (hpc : pat[p]? = some pc)
    (hns : pc ≠ star) :
    Sp ci url pat p u ↔
      ∃ uc, url[u]? = some uc ∧ runesMatches ci uc pc = true ∧ Sp ci url pat (p + 1) (u + 1) := by
  rw [Sp, drop_cons hpc]
  simp only [M, hns, if_false]
  constructor
  · intro h
    have : ∃ c v, url.drop u = c :: v ∧ runesMatches ci c pc = true ∧ M ci (pat.drop (p + 1)) v := by
      split at h
      · rename_i hq
        obtain ⟨c, v, h1, h2⟩ := h
        exact ⟨c, v, h1, by rw [hq]; exact runesMatches_qm, h2⟩
      · exact h
    obtain ⟨c, v, h1, h2, h3⟩ := this
    have hu : url[u]? = some c := by
      have := congrArg (fun l => l[0]?) h1; simpa using this
    refine ⟨c, hu, h2, ?_⟩
    rw [drop_cons hu] at h1
    injection h1 with _ h1
    rw [Sp, h1]; exact h3
  · rintro ⟨c, hu, h2, h3⟩
    rw [drop_cons hu]
    split
    · exact ⟨c, _, rfl, h3⟩
    · exact ⟨c, _, rfl, h2, h3⟩

/-- Star in the middle: try every later position. -/
theorem Sp_star {ci} {url pat : Str} {p u : Nat} (hpc : pat[p]? = some star)
    (hl : p + 1 < pat.length) (hu : u ≤ url.length) :
    Sp ci url pat p u ↔ ∃ u', u ≤ u' ∧ u' ≤ url.length ∧ Sp ci url pat (p + 1) u' := by
  rw [Sp, drop_cons hpc]
  have hne : pat.drop (p + 1) ≠ [] := by simp; omega
  have hsq : star ≠ qm := by decide
  simp only [M, hsq, if_false, if_true, hne]
  constructor
  · rintro ⟨w, v, h1, h2⟩
    have hlen := congrArg List.length h1
    simp at hlen
    refine ⟨u + w.length, by omega, by omega, ?_⟩
    have : url.drop (u + w.length) = v := by
      rw [← List.drop_drop, h1]; simp
    rw [Sp, this]; exact h2
  · rintro ⟨u', h1, h2, h3⟩
    refine ⟨(url.drop u).take (u' - u), (url.drop u).drop (u' - u), (List.take_append_drop _ _).symm, ?_⟩
    rw [List.drop_drop]
    have : u + (u' - u) = u' := by omega
    rw [this]; exact h3

theorem Sp_star_last {ci} {url pat : Str} {p u : Nat} (hpc : pat[p]? = some star)
    (hl : p + 1 = pat.length) : Sp ci url pat p u ↔ u < url.length := by
  rw [Sp, drop_cons hpc]
  have hsq : star ≠ qm := by decide
  have he : pat.drop (p + 1) = [] := by simp; omega
  simp [M, hsq, he]

/-- A star absorbs more of the text. -/
theorem Sp_star_mono {ci} {url pat : Str} {p u v : Nat} (hpc : pat[p]? = some star)
    (huv : u ≤ v) (hv : v ≤ url.length) (h : Sp ci url pat p v) : Sp ci url pat p u := by
  have hp := lt_of_getElem?_some hpc
  by_cases hl : p + 1 = pat.length
  · rw [Sp_star_last hpc hl] at h ⊢; omega
  · rw [Sp_star hpc (by omega) hv] at h
    obtain ⟨u', h1, h2, h3⟩ := h
    rw [Sp_star hpc (by omega) (by omega)]
    exact ⟨u', by omega, h2, h3⟩

/-- No two adjacent stars, by position. -/
def NDS (pat : Str) : Prop := ∀ p, pat[p]? = some star → pat[p + 1]? ≠ some star

/-- Consuming a star-free block. -/
theorem Sp_block {ci} {url pat : Str} {p u : Nat} (L : Nat)
    (hns : ∀ i, i < L → ∃ c, pat[p + i]? = some c ∧ c ≠ star)
    (h : Sp ci url pat p u) : Sp ci url pat (p + L) (u + L) ∧ (0 < L → u + L ≤ url.length) := by
  induction L with
  | zero => simpa using h
  | succ L ih =>
    have ih := ih (fun i hi => hns i (by omega))
    obtain ⟨c, hc, hcs⟩ := hns L (by omega)
    have h2 := (Sp_char hc hcs).1 ih.1
    obtain ⟨uc, h3, _, h5⟩ := h2
    have := lt_of_getElem?_some h3
    exact ⟨h5, fun _ => by omega⟩

/-- Loop invariant. -/
structure Inv (ci : Bool) (url pat : Str) (s : St) : Prop where
  pLe : s.p ≤ pat.length
  uLe : s.u ≤ url.length
  res : s.restore = true → s.p < pat.length ∧ s.u < url.length ∧ ¬ Sp ci url pat s.p s.u
  cp : ∀ pc uc, s.cp = some (pc, uc) →
    pat[pc]? = some star ∧ pc + 1 < pat.length ∧ uc < url.length ∧ pc < s.p ∧
    s.u + (pc + 1) = s.p + uc ∧
    (∀ i, pc < i → i < s.p → ∃ c, pat[i]? = some c ∧ c ≠ star)

/-- What is still to be decided in state `s`. -/
def Goal (ci : Bool) (url pat : Str) (s : St) : Prop :=
  (s.restore = false ∧ Sp ci url pat s.p s.u) ∨
  ∃ pc uc, s.cp = some (pc, uc) ∧ ∃ u', uc < u' ∧ u' ≤ url.length ∧ Sp ci url pat (pc + 1) u'

theorem skipStars_nds {pat : Str} (hn : NDS pat) {p : Nat} (hp : pat[p]? = some star) :
    skipStars p (pat.drop (p + 1)) (p + 1) = p := by
  cases hd : pat.drop (p + 1) with
  | nil => simp [skipStars]
  | cons c l =>
    have : pat[p + 1]? = some c := by
      have := congrArg (fun l => l[0]?) hd; simpa using this
    have hc : c ≠ star := by
      intro h; subst h; exact hn p hp this
    simp [skipStars, hc]

theorem scan_spec {ci pc} (url : Str) (u : Nat) :
    (∀ u', scan ci pc (url.drop u) u = some u' →
      u ≤ u' ∧ (∃ c, url[u']? = some c ∧ runesMatches ci c pc = true) ∧
      ∀ v c, u ≤ v → v < u' → url[v]? = some c → runesMatches ci c pc = false) ∧
    (scan ci pc (url.drop u) u = none →
      ∀ v c, u ≤ v → url[v]? = some c → runesMatches ci c pc = false) := by
  generalize hl : url.drop u = l
  induction l generalizing u with
  | nil =>
    simp at hl
    refine ⟨by simp [scan], fun _ v c hv hc => ?_⟩
    have := lt_of_getElem?_some hc; omega
  | cons a l ih =>
    have ha : url[u]? = some a := by
      have := congrArg (fun l => l[0]?) hl; simpa using this
    have hd : url.drop (u + 1) = l := by
      have := congrArg List.tail hl; simpa [List.tail_drop] using this
    have ih := ih (u + 1) hd
    simp only [scan]
    split
    · rename_i hm
      refine ⟨?_, by simp⟩
      intro u' h; simp at h; subst h
      exact ⟨by omega, ⟨a, ha, hm⟩, fun v c h1 h2 => by omega⟩
    · rename_i hm
      refine ⟨fun u' h => ?_, fun h v c hv hc => ?_⟩
      · obtain ⟨h1, h2, h3⟩ := ih.1 u' h
        refine ⟨by omega, h2, fun v c hv hv' hc => ?_⟩
        by_cases hvu : v = u
        · subst hvu; rw [ha] at hc; injection hc with hc; subst hc; simpa using hm
        · exact h3 v c (by omega) hv' hc
      · by_cases hvu : v = u
        · subst hvu; rw [ha] at hc; injection hc with hc; subst hc; simpa using hm
        · exact ih.2 h v c (by omega) hc

/-- What a step must guarantee when the question left is `G`. -/
def Good (ci : Bool) (url pat : Str) (G : Prop) : Step → Prop
  | .done (.ret b) => (b = true ↔ G)
  | .done .panic => ¬ G
  | .next s' => Inv ci url pat s' ∧ (Goal ci url pat s' ↔ G)

/-- The star branch decides `Sp p u`. -/
theorem body_star {ci} {url pat : Str} (hn : NDS pat) {p u : Nat} {cp}
    (hpc : pat[p]? = some star) (hu : u < url.length) :
    Good ci url pat (Sp ci url pat p u) (body ci url pat p u cp) := by
  have hp := lt_of_getElem?_some hpc
  have hsq : star ≠ qm := by decide
  unfold body
  rw [List.getElem?_eq_getElem hu, hpc]
  simp only [hsq, if_false, if_true, skipStars_nds hn hpc]
  split
  · rename_i hl
    have : p + 1 = pat.length := by omega
    simp [Good, Sp_star_last hpc this, hu]
  · rename_i hl
    have hl : p + 1 < pat.length := by omega
    rw [List.getElem?_eq_getElem hl]
    simp only
    have hpc1 : pat[p + 1]? = some pat[p + 1] := List.getElem?_eq_getElem hl
    have hns : pat[p + 1] ≠ star := by
      intro h; apply hn p hpc; rw [hpc1, h]
    have hsp := scan_spec (ci := ci) (pc := pat[p + 1]) url u
    split
    · rename_i u' hsc
      obtain ⟨h1, ⟨c, hc, hm⟩, h3⟩ := hsp.1 u' hsc
      have hu' := lt_of_getElem?_some hc
      refine ⟨⟨by simp only; omega, by simp only; omega, by simp, ?_⟩, ?_⟩
      · intro a b hab
        simp at hab; obtain ⟨rfl, rfl⟩ := hab
        refine ⟨hpc, hl, hu', by simp only; omega, by simp only; omega, ?_⟩
        intro i h1 h2; simp only at h2; omega
      · rw [Sp_star hpc hl (by omega)]
        simp only [Goal, true_and]
        constructor
        · rintro (h | ⟨a, b, hab, v, hv1, hv2, hv3⟩)
          · exact ⟨u', h1, by omega, h⟩
          · simp at hab; obtain ⟨rfl, rfl⟩ := hab
            exact ⟨v, by omega, hv2, hv3⟩
        · rintro ⟨v, hv1, hv2, hv3⟩
          rcases Nat.lt_trichotomy v u' with h | h | h
          · have := (Sp_char hpc1 hns).1 hv3
            obtain ⟨c', hc', hm', _⟩ := this
            rw [h3 v c' hv1 h hc'] at hm'; simp at hm'
          · subst h; exact .inl hv3
          · exact .inr ⟨p, u', rfl, v, h, hv2, hv3⟩
    · rename_i hsc
      have hno := hsp.2 hsc
      refine ⟨⟨by simp only; omega, by simp, by simp, by simp⟩, ?_⟩
      rw [Sp_star hpc hl (by omega)]
      simp only [Goal, true_and]
      constructor
      · rintro (h | ⟨a, b, hab, _⟩)
        · exact absurd h (Sp_end_right hp (by omega))
        · simp at hab
      · rintro ⟨v, hv1, hv2, hv3⟩
        obtain ⟨c', hc', hm', _⟩ := (Sp_char hpc1 hns).1 hv3
        rw [hno v c' hv1 hc'] at hm'; simp at hm'

theorem step_good {ci} {url pat : Str} (hn : NDS pat) {s : St} (hI : Inv ci url pat s) :
    Good ci url pat (Goal ci url pat s) (step ci url pat s) := by
  unfold step
  split
  · rename_i h
    have hr : s.restore = false := by
      cases hr : s.restore with
      | false => rfl
      | true => have := hI.res hr; omega
    simp only [Good, true_iff]
    refine .inl ⟨hr, ?_⟩
    rw [h.1, h.2, Sp]; simp [M]
  · rename_i h0
    split
    · rename_i h
      have hfst : ¬ (s.restore = false ∧ Sp ci url pat s.p s.u) := by
        rintro ⟨h1, h2⟩
        have h1p := hI.pLe; have h1u := hI.uLe
        rcases h with h | h | h
        · simp [h1] at h
        · exact Sp_end_left (by omega) (by omega) h2
        · exact Sp_end_right (by omega) (by omega) h2
      split
      · rename_i hcp
        simp only [Good, Goal, Bool.false_eq_true, false_iff]
        rintro (h | ⟨a, b, hab, _⟩)
        · exact hfst h
        · rw [hcp] at hab; simp at hab
      · rename_i pc uc hcp
        obtain ⟨h1, h2, h3, h4, h5, h6⟩ := hI.cp pc uc hcp
        have hG : Goal ci url pat s ↔ Sp ci url pat pc (uc + 1) := by
          rw [Sp_star h1 h2 (by omega)]
          constructor
          · rintro (h | ⟨a, b, hab, v, hv1, hv2, hv3⟩)
            · exact absurd h hfst
            · rw [hcp] at hab; simp at hab; obtain ⟨rfl, rfl⟩ := hab
              exact ⟨v, by omega, hv2, hv3⟩
          · rintro ⟨v, hv1, hv2, hv3⟩
            exact .inr ⟨pc, uc, hcp, v, by omega, hv2, hv3⟩
        rw [show Goal ci url pat s = Sp ci url pat pc (uc + 1) from propext hG]
        by_cases hlast : uc + 1 < url.length
        · exact body_star hn h1 hlast
        · have hb : body ci url pat pc (uc + 1) s.cp = .done .panic := by
            unfold body
            rw [List.getElem?_eq_none (by omega)]
          rw [hb]
          exact Sp_end_right (by omega) (by omega)
    · rename_i h
      simp only [not_or, Bool.not_eq_true] at h
      obtain ⟨hr, hp, hu⟩ := h
      have hp : s.p < pat.length := by have := hI.pLe; omega
      have hu : s.u < url.length := by have := hI.uLe; omega
      have hpc : pat[s.p]? = some pat[s.p] := List.getElem?_eq_getElem hp
      have huc : url[s.u]? = some url[s.u] := List.getElem?_eq_getElem hu
      by_cases hst : pat[s.p] = star
      · -- fresh star: the old checkpoint is subsumed
        rw [hst] at hpc
        have hG : Goal ci url pat s ↔ Sp ci url pat s.p s.u := by
          constructor
          · rintro (h | ⟨a, b, hab, v, hv1, hv2, hv3⟩)
            · exact h.2
            · obtain ⟨h1, h2, h3, h4, h5, h6⟩ := hI.cp a b hab
              have hb := Sp_block (s.p - (a + 1)) (fun i hi => h6 (a + 1 + i) (by omega) (by omega)) hv3
              have e : a + 1 + (s.p - (a + 1)) = s.p := by omega
              rw [e] at hb
              by_cases hz : 0 < s.p - (a + 1)
              · exact Sp_star_mono hpc (by omega) (hb.2 hz) hb.1
              · exact Sp_star_mono hpc (by omega) (by omega) hb.1
          · intro h; exact .inl ⟨hr, h⟩
        rw [show Goal ci url pat s = Sp ci url pat s.p s.u from propext hG]
        exact body_star hn hpc hu
      · have hchar := Sp_char (ci := ci) (url := url) (u := s.u) hpc hst
        have hcpInv : ∀ pc uc, s.cp = some (pc, uc) →
            pat[pc]? = some star ∧ pc + 1 < pat.length ∧ uc < url.length ∧ pc < s.p + 1 ∧
            (s.u + 1) + (pc + 1) = (s.p + 1) + uc ∧
            (∀ i, pc < i → i < s.p + 1 → ∃ c, pat[i]? = some c ∧ c ≠ star) := by
          intro a b hab
          obtain ⟨h1, h2, h3, h4, h5, h6⟩ := hI.cp a b hab
          refine ⟨h1, h2, h3, by omega, by omega, fun i hi hi' => ?_⟩
          by_cases he : i = s.p
          · subst he; exact ⟨_, hpc, hst⟩
          · exact h6 i hi (by omega)
        have hadv : runesMatches ci url[s.u] pat[s.p] = true →
            Good ci url pat (Goal ci url pat s) (.next ⟨s.p + 1, s.u + 1, false, s.cp⟩) := by
          intro hm
          refine ⟨⟨by simp only; omega, by simp only; omega, by simp, hcpInv⟩, ?_⟩
          have : Sp ci url pat s.p s.u ↔ Sp ci url pat (s.p + 1) (s.u + 1) := by
            rw [hchar]
            constructor
            · rintro ⟨c, hc, _, h⟩; exact h
            · intro h; exact ⟨_, huc, hm, h⟩
          simp only [Goal, hr, this]
        unfold body
        rw [huc, hpc]
        simp only
        split
        · rename_i hq
          exact hadv (by rw [hq]; exact runesMatches_qm)
        · split
          · exact hadv (by assumption)
          · rename_i hm
            have hnot : ¬ Sp ci url pat s.p s.u := by
              rw [hchar]
              rintro ⟨c, hc, hm', _⟩
              rw [huc] at hc; injection hc with hc; subst hc
              exact hm hm'
            refine ⟨⟨by simp only; omega, by simp only; omega, fun _ => ⟨hp, hu, hnot⟩, hI.cp⟩, ?_⟩
            simp only [Goal, hr, hnot, and_false, false_or]

theorem loop_good {ci} {url pat : Str} (hn : NDS pat) (f : Nat) {s : St}
    (hI : Inv ci url pat s) :
    (loop ci url pat f s = some (.ret true) → Goal ci url pat s) ∧
    (loop ci url pat f s = some (.ret false) → ¬ Goal ci url pat s) ∧
    (loop ci url pat f s = some .panic → ¬ Goal ci url pat s) := by
  induction f generalizing s with
  | zero => simp [loop]
  | succ f ih =>
    have hg := step_good hn hI
    simp only [loop]
    revert hg
    cases step ci url pat s with
    | done r =>
      cases r with
      | ret b => cases b <;> simp [Good]
      | panic => simp [Good]
    | next s' =>
      intro hg
      have := ih hg.1
      simp only [hg.2] at this
      exact this

theorem M_length_of_no_star {ci} {p u : Str} (hs : star ∉ p) (h : M ci p u) :
    u.length = p.length := by
  induction p generalizing u with
  | nil => simp [M] at h; simp [h]
  | cons c p ih =>
    simp at hs
    simp only [M] at h
    have h2 : c ≠ star := fun h => hs.1 h.symm
    simp only [h2, if_false] at h
    split at h
    · obtain ⟨a, v, rfl, h⟩ := h; simp [ih hs.2 h]
    · obtain ⟨a, v, rfl, _, h⟩ := h; simp [ih hs.2 h]

theorem init_Inv (ci url pat) : Inv ci url pat ⟨0, 0, false, none⟩ :=
  ⟨by simp, by simp, by simp, by simp⟩

theorem init_Goal (ci url pat) : Goal ci url pat ⟨0, 0, false, none⟩ ↔ M ci pat url := by
  simp [Goal, Sp]

/-- Full characterisation of the matcher's answer. -/
theorem regexSegmentMatch_iff {ci} {url pat : Str} (hn : NDS pat) :
    (regexSegmentMatch ci url pat = some (.ret true) ↔ M ci pat url) ∧
    (regexSegmentMatch ci url pat = some (.ret false) ∨
      regexSegmentMatch ci url pat = some .panic ↔ ¬ M ci pat url) := by
  unfold regexSegmentMatch
  split
  · rename_i h
    have : ¬ M ci pat url := fun hm => h.2 (M_length_of_no_star h.1 hm)
    simp [this]
  · have hg := loop_good hn (fuelFor url pat) (init_Inv ci url pat)
    rw [init_Goal] at hg
    obtain ⟨r, hr⟩ := loop_terminates (ci := ci) (fuelFor url pat) _ (init_TInv pat url.length)
      (init_measure url pat)
    rw [hr] at hg ⊢
    cases r with
    | ret b => cases b <;> simp at hg ⊢ <;> assumption
    | panic => simp at hg ⊢; assumption

/-! ## Relation to the specification -/

theorem toUpperRune_eq_iff (a b : UInt8) :
    toUpperRune a = toUpperRune b ↔ sameLetter true a b := by
  have ha := a.toNat_lt
  have hb := b.toNat_lt
  have e : a = b ↔ a.toNat = b.toNat := UInt8.toNat_inj.symm
  simp only [toUpperRune, sameLetter, isLowerLetter, e, true_and]
  generalize a.toNat = x at *
  generalize b.toNat = y at *
  repeat' split
  all_goals omega

theorem runesMatches_iff {ci uc pc} :
    runesMatches ci uc pc = true ↔ pc = qm ∨ sameLetter ci uc pc := by
  cases ci
  · simp [runesMatches, sameLetter]
  · simp [runesMatches, toUpperRune_eq_iff]

theorem NDS_of_NoDoubleStar {pat : Str} (h : NoDoubleStar pat) : NDS pat := by
  intro p h1 h2
  apply h
  refine ⟨pat.take p, pat.drop (p + 2), ?_⟩
  have e1 := drop_cons h1
  have e2 := drop_cons h2
  conv => lhs; rw [← List.take_append_drop p pat, e1, e2]

theorem NoDoubleStar_of_NDS {pat : Str} (h : NDS pat) : NoDoubleStar pat := by
  rintro ⟨a, b, rfl⟩
  apply h a.length <;> simp

theorem Glob_of_M {ci} {p u : Str} (h : M ci p u) : Glob (sameLetter ci) p u := by
  induction p generalizing u with
  | nil => simp [M] at h; subst h; exact .nil
  | cons c p ih =>
    simp only [M] at h
    split at h
    · rename_i hq; subst hq
      obtain ⟨x, v, rfl, h⟩ := h
      exact .any (ih h)
    · rename_i hq
      split at h
      · rename_i hs; subst hs
        split at h
        · rename_i hp; subst hp
          have := Gofre.Spec.Glob.star (eqv := sameLetter ci) u .nil
          simpa using this
        · obtain ⟨w, v, rfl, h⟩ := h
          exact .star w (ih h)
      · rename_i hs
        obtain ⟨x, v, rfl, hm, h⟩ := h
        rw [runesMatches_iff] at hm
        exact .lit hq hs (by simpa [hq] using hm) (ih h)

/-- `M` in terms of the specification. -/
theorem M_of_Glob {ci} {p u : Str} (hl : ∀ q, p ≠ q ++ [star]) (h : Glob (sameLetter ci) p u) :
    M ci p u := by
  induction h with
  | nil => simp [M]
  | @any p u c _ ih =>
    have := ih (fun q hq => hl (63 :: q) (by simp [hq]))
    simp only [M, if_true]
    exact ⟨c, u, rfl, this⟩
  | @star p u w _ ih =>
    have hp : p ≠ [] := by
      intro hp; exact hl [] (by simp [hp])
    have := ih (fun q hq => hl (42 :: q) (by simp [hq]))
    have hsq : star ≠ qm := by decide
    simp only [M, hsq, if_false, if_true, hp]
    exact ⟨w, u, rfl, this⟩
  | @lit p u pc uc h1 h2 hm _ ih =>
    have := ih (fun q hq => hl (pc :: q) (by simp [hq]))
    simp only [M, h1, h2, if_false]
    exact ⟨uc, u, rfl, runesMatches_iff.2 (.inr hm), this⟩

theorem M_snoc_star {ci} {q v w : Str} (h : Glob (sameLetter ci) q v)
    (hw : w ≠ []) : M ci (q ++ [star]) (v ++ w) := by
  induction h with
  | nil => simpa [M, show star ≠ qm by decide] using hw
  | @any p u c _ ih =>
    simp only [List.cons_append, M, if_true]
    exact ⟨c, u ++ w, rfl, ih⟩
  | @star p u x _ ih =>
    have hsq : star ≠ qm := by decide
    simp only [List.cons_append, M, hsq, if_false, if_true]
    rw [if_neg (by simp)]
    exact ⟨x, u ++ w, by simp, ih⟩
  | @lit p u pc uc h1 h2 hm _ ih =>
    simp only [List.cons_append, M, h1, h2, if_false]
    exact ⟨uc, u ++ w, rfl, runesMatches_iff.2 (.inr hm), ih⟩

theorem M_snoc_star_inv {ci} {q u : Str} (h : M ci (q ++ [star]) u) :
    ∃ v w, u = v ++ w ∧ w ≠ [] ∧ Glob (sameLetter ci) q v := by
  induction q generalizing u with
  | nil =>
    have : u ≠ [] := by simpa [M, show star ≠ qm by decide] using h
    exact ⟨[], u, rfl, this, .nil⟩
  | cons c q ih =>
    simp only [List.cons_append, M] at h
    split at h
    · rename_i hq; subst hq
      obtain ⟨x, v, rfl, h⟩ := h
      obtain ⟨v', w, rfl, hw, hg⟩ := ih h
      exact ⟨x :: v', w, rfl, hw, .any hg⟩
    · rename_i hq
      split at h
      · rename_i hs; subst hs
        rw [if_neg (by simp)] at h
        obtain ⟨x, v, rfl, h⟩ := h
        obtain ⟨v', w, rfl, hw, hg⟩ := ih h
        exact ⟨x ++ v', w, by simp, hw, .star x hg⟩
      · rename_i hs
        obtain ⟨x, v, rfl, hm, h⟩ := h
        obtain ⟨v', w, rfl, hw, hg⟩ := ih h
        exact ⟨x :: v', w, rfl, hw, .lit hq hs (by
          rw [runesMatches_iff] at hm; simpa [hq] using hm) hg⟩

/-! ## When can it panic? -/

/-- Strengthening of `Inv`: the checkpointed byte is accepted by the byte after the star. -/
def CpOk (ci : Bool) (url pat : Str) (s : St) : Prop :=
  ∀ pc uc, s.cp = some (pc, uc) →
    ∃ c d, url[uc]? = some c ∧ pat[pc + 1]? = some d ∧ runesMatches ci c d = true

theorem body_CpOk {ci url pat} {s s' : St} {p u : Nat} (h : CpOk ci url pat s)
    (hb : body ci url pat p u s.cp = .next s') : CpOk ci url pat s' := by
  unfold body at hb
  split at hb
  · simp at hb
  split at hb
  · simp at hb
  split at hb
  · simp at hb; subst hb; exact h
  split at hb
  · simp only at hb
    split at hb
    · simp at hb
    split at hb
    · simp at hb
    rename_i pc' hpc'
    split at hb
    · rename_i u' hsc
      simp at hb; subst hb
      intro a b hab
      simp at hab; obtain ⟨rfl, rfl⟩ := hab
      obtain ⟨_, ⟨c, hc, hm⟩, _⟩ := (scan_spec url u).1 _ hsc
      exact ⟨c, pc', hc, hpc', hm⟩
    · simp at hb; subst hb
      intro a b hab; simp at hab
  split at hb
  · simp at hb; subst hb; exact h
  · simp at hb; subst hb; exact h

theorem step_CpOk {ci url pat} {s s' : St} (h : CpOk ci url pat s)
    (hb : step ci url pat s = .next s') : CpOk ci url pat s' := by
  unfold step at hb
  split at hb
  · simp at hb
  split at hb
  · split at hb
    · simp at hb
    · exact body_CpOk h hb
  · exact body_CpOk h hb

/-- The danger condition: some `*`, not among the last two characters of the pattern, is
followed by a character accepting the last character of the text. -/
def Danger (ci : Bool) (url pat : Str) : Prop :=
  ∃ p c d, pat[p]? = some star ∧ p + 2 < pat.length ∧ pat[p + 1]? = some d ∧
    url.getLast? = some c ∧ runesMatches ci c d = true

theorem body_panic_bounds {ci url pat} (hn : NDS pat) {p u : Nat} {cp}
    (h : body ci url pat p u cp = .done .panic) :
    url.length ≤ u ∨ pat.length ≤ p := by
  unfold body at h
  split at h
  · rename_i h1; left; simpa using h1
  split at h
  · rename_i h1; right; simpa using h1
  split at h
  · simp at h
  split at h
  · rename_i pc hpc hq hs
    subst hs
    simp only [skipStars_nds hn hpc] at h
    have := lt_of_getElem?_some hpc
    split at h
    · simp at h
    split at h
    · rename_i h1; simp at h1; omega
    · split at h <;> simp at h
  split at h <;> simp at h

theorem step_panic {ci} {url pat : Str} (hn : NDS pat) {s : St} (hI : Inv ci url pat s)
    (hc : CpOk ci url pat s) (h : step ci url pat s = .done .panic) : Danger ci url pat := by
  have hpLe := hI.pLe
  have huLe := hI.uLe
  unfold step at h
  split at h
  · simp at h
  rename_i h0
  split at h
  · rename_i hre
    split at h
    · simp at h
    · rename_i pc uc hcp
      obtain ⟨h1, h2, h3, h4, h5, h6⟩ := hI.cp pc uc hcp
      obtain ⟨c, d, hc1, hd, hm⟩ := hc pc uc hcp
      have hb := body_panic_bounds hn h
      have hlast : uc + 1 = url.length := by omega
      have hds : d ≠ star := by
        intro hds; subst hds; exact hn pc h1 hd
      refine ⟨pc, c, d, h1, ?_, hd, ?_, hm⟩
      · -- otherwise the character after the star is the last one and matched
        apply Decidable.byContradiction
        intro hlt
        have hpl : pc + 2 = pat.length := by omega
        rcases hre with hre | hre | hre
        · obtain ⟨r1, r2, r3⟩ := hI.res hre
          have hp : s.p = pc + 1 := by omega
          have hu : s.u = uc := by omega
          apply r3
          rw [hp, hu, Sp_char hd hds]
          refine ⟨c, hc1, hm, ?_⟩
          rw [Sp, List.drop_eq_nil_of_le (by omega), List.drop_eq_nil_of_le (by omega)]
          simp [M]
        · omega
        · omega
      · rw [List.getLast?_eq_getElem?, ← hlast]; simpa using hc1
  · rename_i hre
    simp only [not_or] at hre
    have := body_panic_bounds hn h
    omega

theorem loop_panic {ci} {url pat : Str} (hn : NDS pat) (f : Nat) {s : St}
    (hI : Inv ci url pat s) (hc : CpOk ci url pat s)
    (h : loop ci url pat f s = some .panic) : Danger ci url pat := by
  induction f generalizing s with
  | zero => simp [loop] at h
  | succ f ih =>
    simp only [loop] at h
    split at h
    · rename_i r hr
      simp at h; subst h
      exact step_panic hn hI hc hr
    · rename_i s' hs'
      have hg := step_good hn hI
      rw [hs'] at hg
      exact ih hg.1 (step_CpOk hc hs') h

theorem panic_danger {ci} {url pat : Str} (hn : NDS pat)
    (h : regexSegmentMatch ci url pat = some .panic) : Danger ci url pat := by
  unfold regexSegmentMatch at h
  split at h
  · simp at h
  · exact loop_panic hn _ (init_Inv ci url pat) (by intro a b hab; simp at hab) h

end Gofre.Glob
