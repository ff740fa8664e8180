import Verif.Props.Serve
import Verif.Props.Compress

/-!
# A handler that takes the connection over gets it

Property C115.
-/

namespace Gofre.Props
open Gofre.Http Gofre.Response Gofre.Spec
variable {env : Env} {c : Codec}

/-- A response behind compressing middlewares with these levels, outermost first. -/
def behind : List Int → Resp → Resp
  | [], r => r
  | l :: ls, r => .compress l (behind ls r)

/-- Nothing was sent, or the header block of a 200 and parts of a body. -/
def Plain200 (w : W) : Prop :=
  (w.status = none ∧ w.out = []) ∨ (w.status = some 200 ∧ ∃ H rest, w.out = .head 200 H :: rest ∧ ∀ e ∈ rest, isBody e = true)

theorem plain200_commit {w : W} (h : Plain200 w) : Plain200 w.commit ∧ w.commit.status = some 200 := by
  unfold W.commit
  rcases h with ⟨h1, h2⟩ | ⟨h1, h2⟩
  · simp only [h1, Option.isSome_none, Bool.false_eq_true, if_false]
    exact ⟨.inr ⟨rfl, w.header, [], by simp [h2], by simp⟩, trivial⟩
  · simp only [h1, Option.isSome_some, if_true]
    exact ⟨.inr ⟨h1, h2⟩, trivial⟩

theorem plain200_write {w : W} (b : Str) (h : Plain200 w) : Plain200 (w.write b).2 := by
  obtain ⟨hc, hs⟩ := plain200_commit h
  unfold W.write
  simp only
  split
  · exact hc
  · split
    · exact hc
    · rcases hc with ⟨h1, _⟩ | ⟨h1, H, rest, h2, h3⟩
      · rw [hs] at h1; cases h1
      · have key : ∀ d, Plain200 { w.commit with writes := w.commit.writes + 1, out := w.commit.out ++ [.data d] } := fun d =>
          .inr ⟨h1, H, rest ++ [.data d], by simp [h2], by
            intro e he
            rcases List.mem_append.1 he with he | he
            · exact h3 e he
            · rw [List.mem_singleton.1 he]; rfl⟩
        split
        · exact key _
        · exact key _

theorem plain200_push : ∀ (ls : List (Layer c)) {w : W} (b : Str), Plain200 w → Plain200 (pushBytes ls w b).2.2
  | [], _, b, hw => plain200_write b hw
  | l :: ls, w, b, hw => by
    unfold pushBytes
    split
    · exact hw
    · simp only
      split
      · exact hw
      · exact plain200_push ls _ hw

theorem plain200_close {w : Wr c} (h : Plain200 w.base) : Plain200 w.close.base := by
  unfold Wr.close
  split
  · exact h
  · split
    · exact h
    · simp only
      split
      · exact h
      · exact plain200_push _ _ h

/-- Behind a compressing writer nothing is handed over. -/
theorem takeover_layered {req : RReq} : ∀ (ls : List Int) (drop : Bool) (w : Wr c), w.layers ≠ [] → Plain200 w.base →
    ∃ w', (behind ls .hijack).writeWith env req drop w = .ret true w' ∧ Plain200 w'.base
  | [], drop, w, hl, hp => by
    refine ⟨w, ?_, hp⟩
    simp only [behind, Resp.writeWith]
    rw [if_neg (by simp [hl])]
  | l :: ls, drop, w, hl, hp => by
    simp only [behind, Resp.writeWith]
    split
    · exact takeover_layered ls drop w hl hp
    · rename_i a _
      have hp' : Plain200 (({ w.setHeader (w.base.header.set b!"Content-Encoding" (algName a)) with
          layers := ⟨c.start a l, false⟩ :: w.layers } : Wr c)).base := by
        rcases hp with h | h
        · exact .inl h
        · exact .inr h
      obtain ⟨w', h1, h2⟩ := takeover_layered ls true _ (by simp) hp'
      exact ⟨w'.close, congrArg WRes.thenClose h1, plain200_close h2⟩

theorem takeover_plain {req : RReq} (ha : algFor req.acceptEncoding = none) : ∀ (ls : List Int) (drop : Bool) (w : Wr c),
    (behind ls .hijack).writeWith env req drop w = (Resp.hijack).writeWith env req drop w
  | [], _, _ => rfl
  | l :: ls, drop, w => by
    simp only [behind, Resp.writeWith, ha]
    exact takeover_plain ha ls drop w

theorem takeover_as (req : RReq) (levels : List Int) (plan : Nat → Option Nat) (canHijack : Bool) :
    let res := (behind levels .hijack).write env req ({ base := { plan, canHijack } } : Wr c)
    (canHijack = true ∧ (levels = [] ∨ algFor req.acceptEncoding = none) → res.w.base.out = [.hijack]) ∧
    (¬ (canHijack = true ∧ (levels = [] ∨ algFor req.acceptEncoding = none)) → ∃ H, Answered [] (seen res) 200 H) := by
  intro res
  have fin : ∀ w' : Wr c, Plain200 w'.base → ∃ H, Answered [] (seen (.ret true w' : WRes c)) 200 H := by
    intro w' h
    obtain ⟨hc, hs⟩ := plain200_commit h
    rcases hc with ⟨h1, _⟩ | ⟨_, H, rest, h2, h3⟩
    · rw [hs] at h1; cases h1
    · exact ⟨H, [], rest, by simpa [seen] using h2, by simp, h3⟩
  have hplain : (levels = [] ∨ algFor req.acceptEncoding = none) →
      res = (Resp.hijack).writeWith env req false ({ base := { plan, canHijack } } : Wr c) := by
    rintro (rfl | h)
    · rfl
    · exact takeover_plain h levels false _
  constructor
  · rintro ⟨h1, h2⟩
    rw [hplain h2]
    subst h1
    rfl
  · intro h
    by_cases h2 : levels = [] ∨ algFor req.acceptEncoding = none
    · have h1 : canHijack = false := by
        cases canHijack with
        | false => rfl
        | true => exact absurd ⟨rfl, h2⟩ h
      rw [hplain h2]
      subst h1
      exact fin _ (.inl ⟨rfl, rfl⟩)
    · have hlev : levels ≠ [] := fun e => h2 (.inl e)
      cases hal : algFor req.acceptEncoding with
      | none => exact absurd (.inr hal) h2
      | some a =>
        cases hls : levels with
        | nil => exact absurd hls hlev
        | cons l ls =>
          have : ∃ w', res = .ret true w' ∧ Plain200 w'.base := by
            show ∃ w', (behind levels .hijack).writeWith env req false _ = .ret true w' ∧ _
            rw [hls]
            simp only [behind, Resp.writeWith, hal]
            obtain ⟨w', h3, h4⟩ := takeover_layered (env := env) (req := req) ls true
              (({ ({ base := { plan, canHijack } } : Wr c).setHeader (Header.set (fun _ => []) b!"Content-Encoding" (algName a)) with
                layers := [⟨c.start a l, false⟩] } : Wr c)) (by simp) (.inl ⟨rfl, rfl⟩)
            exact ⟨w'.close, congrArg WRes.thenClose h3, plain200_close h4⟩
          obtain ⟨w', h3, h4⟩ := this
          rw [h3]
          exact fin w' h4

/-- C115, exactly: the connection is handed over if it can be, and there is no compressing middleware or the client lists
no encoding that it understands.  Everybody else gets a status of 200. -/
theorem c115_exact (req : RReq) (levels : List Int) (plan : Nat → Option Nat) (canHijack : Bool) :
    let res := (behind levels .hijack).write env req ({ base := { plan, canHijack } } : Wr c)
    (canHijack = true ∧ (levels = [] ∨ ¬ Understood req.acceptEncoding) → res.w.base.out = [.hijack]) ∧
    (¬ (canHijack = true ∧ (levels = [] ∨ ¬ Understood req.acceptEncoding)) → ∃ H, Answered [] (seen res) 200 H) := by
  rw [← alg_understood]
  exact takeover_as req levels plan canHijack

/-- C115 fails for every client that lists gzip, deflate or compress, as browsers do: behind a
compressing middleware the connection is never handed over; the client gets a status of 200. -/
theorem c115_violated_never (req : RReq) (hu : Understood req.acceptEncoding) (level : Int) (levels : List Int) (plan : Nat → Option Nat) (canHijack : Bool) :
    let res := (behind (level :: levels) .hijack).write env req ({ base := { plan, canHijack } } : Wr c)
    Ev.hijack ∉ res.w.base.out ∧ ∃ H, Answered [] (seen res) 200 H := by
  intro res
  have h := (c115_exact (env := env) (c := c) req (level :: levels) plan canHijack).2 (by simp [hu])
  refine ⟨?_, h⟩
  obtain ⟨H, pre, rest, h1, h2, h3⟩ := h
  intro hm
  have hsub : ∀ e ∈ res.w.base.out, e ∈ seen res := by
    intro e he
    change e ∈ seen res
    cases hr : res with
    | ret ok w =>
      rw [hr] at he
      simp only [seen, W.commit]
      split
      · exact he
      · exact List.mem_append.2 (.inl he)
    | panic w => rw [hr] at he; exact he
    | blocked w => rw [hr] at he; exact he
  have := hsub _ hm
  rw [h1] at this
  simp only [List.nil_append, List.mem_append, List.mem_cons] at this
  rcases this with h | h | h
  · have := h2 _ h; cases this
  · cases h
  · have := h3 _ h; cases this

example : Understood b!"gzip, deflate, br" ∧ ((behind [5] .hijack).write simpleEnv { acceptEncoding := b!"identity" } ({} : Wr dotCodec)).w.base.out = [.hijack] ∧
    ∃ H rest, ((behind [5] .hijack).write simpleEnv { acceptEncoding := b!"gzip" } ({} : Wr dotCodec)).w.base.out = .head 200 H :: rest :=
  ⟨by decide, rfl, _, _, rfl⟩

end Gofre.Props
