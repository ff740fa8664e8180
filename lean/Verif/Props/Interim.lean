import Verif.Props.Once

/-!
# Responses with an informational status

Property C56.
-/

namespace Gofre.Response
open Gofre.Http Gofre.Spec
variable {env : Env} {c : Codec}

/-- After an interim response: nothing, or a final answer with status 200. -/
structure After (pre : List Ev) (n : Nat) (H : Header) (w : W) : Prop where
  cases : w.status = none ∧ w.out = pre ++ [.info n H] ∨
    w.status = some 200 ∧ ∃ H' body, w.out = pre ++ .info n H :: .head 200 H' :: body ∧ ∀ e ∈ body, isBody e = true

theorem After.commit {pre : List Ev} {n : Nat} {H : Header} {w : W} (h : After pre n H w) :
    ∃ H' body, w.commit.status = some 200 ∧ w.commit.out = pre ++ .info n H :: .head 200 H' :: body ∧ ∀ e ∈ body, isBody e = true := by
  unfold W.commit
  rcases h.cases with ⟨h1, h2⟩ | ⟨h1, H', body, h2, h3⟩
  · rw [h1]
    exact ⟨w.header, [], rfl, by simp [h2], by simp⟩
  · rw [h1]
    exact ⟨H', body, h1, h2, h3⟩

theorem After.more {pre : List Ev} {n : Nat} {H : Header} {w w' : W} {e : Ev} (he : isBody e = true)
    (h : ∃ H' body, w.status = some 200 ∧ w.out = pre ++ .info n H :: .head 200 H' :: body ∧ ∀ e ∈ body, isBody e = true)
    (hs : w'.status = w.status) (ho : w'.out = w.out ++ [e]) : After pre n H w' := by
  obtain ⟨H', body, h1, h2, h3⟩ := h
  refine ⟨.inr ⟨hs.trans h1, H', body ++ [e], by rw [ho, h2]; simp, ?_⟩⟩
  intro x hx
  rcases List.mem_append.1 hx with hx | hx
  · exact h3 x hx
  · rw [List.mem_singleton.1 hx]; exact he

theorem After.same {pre : List Ev} {n : Nat} {H : Header} {w : W}
    (h : ∃ H' body, w.status = some 200 ∧ w.out = pre ++ .info n H :: .head 200 H' :: body ∧ ∀ e ∈ body, isBody e = true) : After pre n H w :=
  let ⟨H', body, h1, h2, h3⟩ := h
  ⟨.inr ⟨h1, H', body, h2, h3⟩⟩

theorem after_soft (pre : List Ev) (n : Nat) (H : Header) : Soft (After pre n H) where
  header w H' h := ⟨h.cases⟩
  write w b h := by
    have h1 := h.commit
    unfold W.write
    simp only
    split
    · exact .same h1
    · split
      · exact .same h1
      · split
        · exact .more (e := .data b) rfl h1 rfl rfl
        · exact .more (e := .data _) rfl h1 rfl rfl
  flush w h := .more (e := .flush) rfl h.commit rfl rfl

theorem head_info {h : HeadResp} {w : Wr c} (hs : w.base.status = none) (h1 : 100 ≤ h.statusCode) (h2 : h.statusCode ≤ 199) (h3 : h.statusCode ≠ 101) :
    ∃ H w', headWrite env h w = .ret true w' ∧ After w.base.out h.statusCode.toNat H w'.base := by
  have e1 : ¬ (h.statusCode < 100 ∨ h.statusCode > 999) := by omega
  have e2 : h.statusCode ≤ 199 ∧ h.statusCode ≠ 101 := ⟨h2, h3⟩
  simp only [headWrite, if_neg e1, Wr.setHeader, Wr.writeHeader, W.writeHeader, hs, Option.isSome_none, Bool.false_eq_true, if_false, if_pos e2,
    Option.map_some]
  exact ⟨_, _, rfl, ⟨.inl ⟨rfl, rfl⟩⟩⟩

end Gofre.Response

namespace Gofre.Props
open Gofre.Http Gofre.Response Gofre.Spec
variable {env : Env} {c : Codec}

/-- C56 fails for every kind of response with an informational status, whatever its body: that status is sent as an interim response, and the final
answer, if there is one, has the status 200; there is one whenever the writing returns. -/
theorem c56_violated_never {req : RReq} {r : Resp} {h : HeadResp} {w : Wr c} (hk : headOf req r = some h) (hs : w.base.status = none)
    (h1 : 100 ≤ h.statusCode) (h2 : h.statusCode ≤ 199) (h3 : h.statusCode ≠ 101) :
    ∃ H rest, seen (r.write env req w) = w.base.out ++ .info h.statusCode.toNat H :: rest ∧
      (rest = [] ∨ ∃ H' body, rest = .head 200 H' :: body ∧ ∀ e ∈ body, isBody e = true) ∧
      ∀ ok w', r.write env req w = .ret ok w' → rest ≠ [] := by
  obtain ⟨H, w1, e1, hp⟩ := head_info (env := env) hs h1 h2 h3
  have soft := after_soft w.base.out h.statusCode.toNat H
  have key : After w.base.out h.statusCode.toNat H (r.write env req w).w.base := by
    cases r <;> simp only [headOf, Option.some.injEq, reduceCtorEq] at hk
    case sse h' feed =>
      by_cases hp2 : req.protoMajor = 2
      · rw [if_pos hp2] at hk
        obtain rfl := Option.some.inj hk
        simp only [Resp.write, Resp.writeWith, without_false, e1, WRes.andThen, hp2, ne_eq, not_true, if_false]
        exact soft.thenFlush (soft.events _ _ (w := w1.setHeader _) (soft.header _ _ hp))
      · rw [if_neg hp2] at hk; cases hk
    all_goals subst hk
    all_goals simp only [Resp.write, Resp.writeWith, without_false, e1, WRes.andThen]
    case plain => exact hp
    case text p => exact soft.text p hp
    case json p =>
      split
      · exact hp
      · exact soft.wrWrite _ hp
    all_goals
      split
      · exact hp
      · exact soft.run _ hp
  cases hr : r.write env req w with
  | ret ok w' =>
    rw [hr] at key
    obtain ⟨H', body, _, g2, g3⟩ := key.commit
    exact ⟨H, _, g2, .inr ⟨H', body, rfl, g3⟩, fun _ _ _ => by simp⟩
  | panic w' =>
    rw [hr] at key
    rcases key.cases with ⟨_, g⟩ | ⟨_, H', body, g, g3⟩
    · exact ⟨H, [], g, .inl rfl, fun _ _ h => by cases h⟩
    · exact ⟨H, _, g, .inr ⟨H', body, rfl, g3⟩, fun _ _ h => by cases h⟩
  | blocked w' =>
    rw [hr] at key
    rcases key.cases with ⟨_, g⟩ | ⟨_, H', body, g, g3⟩
    · exact ⟨H, [], g, .inl rfl, fun _ _ h => by cases h⟩
    · exact ⟨H, _, g, .inr ⟨H', body, rfl, g3⟩, fun _ _ h => by cases h⟩

example : ∃ H H', seen ((Resp.json { status := 102 } none).write simpleEnv {} ({} : Wr dotCodec)) = [.info 102 H, .head 200 H', .data b!"{}"] := ⟨_, _, rfl⟩

end Gofre.Props
