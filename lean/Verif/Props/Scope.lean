import Verif.Props.Auth

/-! # C103: only a wildcard at the end reaches deeper scopes -/

namespace Gofre.Spec
open Gofre.Auth

/-- The documented meaning of a scope (`auth/auth.go:60-70`): the levels one by one, `*` for any; only a `*` at the end also
stands for everything below. -/
def Documented (ls ms : List Str) : Prop :=
  ls.length ≤ ms.length ∧ (∀ (i : Nat) (l m : Str), ls[i]? = some l → ms[i]? = some m → l = b!"*" ∨ l = m) ∧ (ls.length < ms.length → ls.getLast? = some b!"*")

/-- The levels below those of `ls` all repeat its last one. -/
def Repeats (ls ms : List Str) : Prop :=
  ls.length < ms.length ∧ (∀ (i : Nat) (l m : Str), ls[i]? = some l → ms[i]? = some m → l = b!"*" ∨ l = m) ∧ ∀ (i : Nat) (m : Str), ls.length ≤ i → ms[i]? = some m → ls.getLast? = some m

end Gofre.Spec

namespace Gofre.Props
open Gofre.Auth Gofre.Spec

theorem covers_cases {ls ms : List Str} : Covers ls ms ↔ Documented ls ms ∨ Repeats ls ms := by
  have hup : ∀ i l m, ls[i]? = some l → ms[i]? = some m → (governing ls i = some b!"*" ∨ governing ls i = some m) → l = b!"*" ∨ l = m := by
    intro i l m h1 h2 h3
    have hi : i < ls.length := by
      rcases Nat.lt_or_ge i ls.length with h | h
      · exact h
      · rw [List.getElem?_eq_none h] at h1; cases h1
    simp only [governing, if_pos hi, h1, Option.some.injEq] at h3
    exact h3
  constructor
  · rintro ⟨h1, h2⟩
    have hl : ∀ i l m, ls[i]? = some l → ms[i]? = some m → l = b!"*" ∨ l = m := fun i l m a b => hup i l m a b (h2 i m b)
    by_cases hs : ls.getLast? = some b!"*"
    · exact .inl ⟨h1, hl, fun _ => hs⟩
    · rcases Nat.lt_or_ge ls.length ms.length with h | h
      · refine .inr ⟨h, hl, fun i m hi hm => ?_⟩
        have := h2 i m hm
        simp only [governing, if_neg (show ¬ i < ls.length by omega)] at this
        rcases this with h | h
        · exact absurd h hs
        · exact h
      · exact .inl ⟨h1, hl, fun h' => by omega⟩
  · have fin : ls.length ≤ ms.length → (∀ (i : Nat) (l m : Str), ls[i]? = some l → ms[i]? = some m → l = b!"*" ∨ l = m) →
        (∀ i m, ls.length ≤ i → ms[i]? = some m → ls.getLast? = some b!"*" ∨ ls.getLast? = some m) → Covers ls ms := by
      intro h1 h2 h3
      refine ⟨h1, fun i m hm => ?_⟩
      unfold governing
      split
      · rename_i hi
        have e : ls[i]? = some ls[i] := List.getElem?_eq_getElem hi
        rw [e]
        simpa using h2 i _ m e hm
      · rename_i hi
        exact h3 i m (by omega) hm
    rintro (⟨h1, h2, h3⟩ | ⟨h1, h2, h3⟩)
    · refine fin h1 h2 fun i m hi hm => .inl (h3 ?_)
      have : i < ms.length := by
        rcases Nat.lt_or_ge i ms.length with h | h
        · exact h
        · rw [List.getElem?_eq_none h] at hm; cases hm
      omega
    · exact fin (by omega) h2 fun i m hi hm => .inr (h3 i m hi hm)

/-- C103, exactly: a permission implies what is documented, and besides the scopes below its own that only repeat its last level. -/
theorem c103_exact (ls ms : List Str) (hl : Levels ls) (hm : Levels ms) (a b : UInt32) :
    implies ⟨scopeText ls, a⟩ ⟨scopeText ms, b⟩ = true ↔ BitsWithin b a ∧ (Documented ls ms ∨ Repeats ls ms) := by
  rw [c31_implies_iff ls ms hl hm, covers_cases]

/-- C103 for scopes of equal depth, for permissions with a wildcard at the end, and for requests that do not end in the last level of the permission. -/
theorem c103_documented_partial (ls ms : List Str) (hl : Levels ls) (hm : Levels ms) (a b : UInt32)
    (h : ls.length = ms.length ∨ ls.getLast? = some b!"*" ∨ ls.getLast? ≠ ms.getLast?) :
    implies ⟨scopeText ls, a⟩ ⟨scopeText ms, b⟩ = true ↔ BitsWithin b a ∧ Documented ls ms := by
  rw [c103_exact ls ms hl hm]
  refine and_congr_right fun _ => ⟨fun h' => ?_, .inl⟩
  rcases h' with h' | ⟨h1, h2, h3⟩
  · exact h'
  · rcases h with h | h | h
    · omega
    · exact ⟨by omega, h2, fun _ => h⟩
    · exfalso
      apply h
      have hne : ms ≠ [] := hm.1
      have hlen : 0 < ms.length := List.length_pos_iff.2 hne
      have e : ms[ms.length - 1]? = some ms[ms.length - 1] := List.getElem?_eq_getElem (by omega)
      rw [h3 (ms.length - 1) _ (by omega) e, List.getLast?_eq_getElem?, e]

/-- C103 fails: who may work in `team/billing` may work in `team/billing/billing`; the permission does not mean everything below
`team/billing` either. -/
theorem c103_violated : implies ⟨b!"team/billing", 1⟩ ⟨b!"team/billing/billing", 1⟩ = true ∧ implies ⟨b!"team/billing", 1⟩ ⟨b!"team/billing/other", 1⟩ = false ∧
    ¬ Documented [b!"team", b!"billing"] [b!"team", b!"billing", b!"billing"] := by
  refine ⟨by decide, by decide, ?_⟩
  rintro ⟨_, _, h⟩
  exact absurd (h (by decide)) (by decide)

/-- C103 fails for every permission without a wildcard at the end: there is always a scope below it that it implies and should not. -/
theorem c103_violated_never (ls : List Str) (hl : Levels ls) (a : UInt32) (h : ls.getLast? ≠ some b!"*") :
    ∃ l, Levels (ls ++ [l]) ∧ implies ⟨scopeText ls, a⟩ ⟨scopeText (ls ++ [l]), a⟩ = true ∧ ¬ Documented ls (ls ++ [l]) := by
  obtain ⟨l, hlast⟩ : ∃ l, ls.getLast? = some l := by
    cases hg : ls.getLast? with
    | none => exact absurd (List.getLast?_eq_none_iff.1 hg) hl.1
    | some l => exact ⟨l, rfl⟩
  have hmem : l ∈ ls := List.mem_of_getLast? hlast
  have hms : Levels (ls ++ [l]) := ⟨by simp, fun k hk => by
    rcases List.mem_append.1 hk with hk | hk
    · exact hl.2 k hk
    · rw [List.mem_singleton] at hk; subst hk; exact hl.2 _ hmem⟩
  refine ⟨l, hms, ?_, ?_⟩
  · rw [c103_exact ls _ hl hms]
    refine ⟨fun i hi => hi, .inr ⟨by simp, ?_, ?_⟩⟩
    · intro i k m h1 h2
      rw [List.getElem?_append_left] at h2
      · rw [h1] at h2; exact .inr (Option.some.inj h2)
      · rcases Nat.lt_or_ge i ls.length with h | h
        · exact h
        · rw [List.getElem?_eq_none h] at h1; cases h1
    · intro i m hi h2
      rw [List.getElem?_append_right hi] at h2
      rw [hlast]
      rcases Nat.eq_zero_or_pos (i - ls.length) with h0 | h0
      · rw [h0] at h2; exact h2
      · rw [List.getElem?_eq_none (by simp; omega)] at h2; cases h2
  · rintro ⟨_, _, h'⟩
    exact h (h' (by simp))

example : Levels [b!"admin", b!"timesheet"] ∧ [b!"admin", b!"timesheet"].getLast? ≠ some b!"*" := by
  refine ⟨⟨by decide, ?_⟩, by decide⟩
  intro l hl; simp at hl; rcases hl with rfl | rfl <;> decide

example : Documented [b!"admin", b!"*", b!"team1"] [b!"admin", b!"timesheet", b!"team1"] ∧ Documented [b!"admin", b!"*"] [b!"admin", b!"timesheet", b!"team1"] ∧
    implies ⟨b!"admin/*", 3⟩ ⟨b!"admin/timesheet/team1", 1⟩ = true := by
  refine ⟨⟨by decide, ?_, by decide⟩, ⟨by decide, ?_, fun _ => by decide⟩, by decide⟩
  · intro i l m h1 h2
    match i with
    | 0 => simp_all
    | 1 => simp at h1; exact .inl h1.symm
    | 2 => simp_all
    | _ + 3 => simp at h1
  · intro i l m h1 h2
    match i with
    | 0 => simp_all
    | 1 => simp at h1; exact .inl h1.symm
    | _ + 2 => simp at h1

end Gofre.Props
