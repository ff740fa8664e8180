import Verif.Spec.Silent
import Verif.Props.Serve

/-! # C84: which responses leave the client without an answer -/

namespace Gofre.Props
open Gofre.Http Gofre.Response Gofre.Spec
variable {env : Env} {c : Codec}

/-- Writing did not return and the status line is not sent. -/
def Gone (r : WRes c) : Prop := (∃ w, r = .panic w ∨ r = .blocked w) ∧ r.w.base.status = none

theorem not_gone_ret {ok : Bool} {w : Wr c} : ¬ Gone (.ret ok w) := by
  rintro ⟨⟨w', h | h⟩, _⟩ <;> cases h

/-- `WriteHeader` before the status line: refused, interim, or the status line. -/
theorem writeHeader_cases (w : Wr c) (hs : w.base.status = none) (code : Int) :
    (BadCode code ∧ w.writeHeader code = none) ∨
      (∃ w', w.writeHeader code = some w' ∧ w'.layers = w.layers ∧ ¬ BadCode code ∧
        (Interim code ∧ w'.base.status = none ∨ ¬ Interim code ∧ w'.base.status.isSome)) := by
  unfold Wr.writeHeader W.writeHeader BadCode Interim
  simp only [hs, Option.isSome_none, Bool.false_eq_true, if_false]
  by_cases h1 : code < 100 ∨ code > 999
  · rw [if_pos h1]; exact .inl ⟨h1, rfl⟩
  · rw [if_neg h1]
    by_cases h2 : code ≤ 199 ∧ code ≠ 101
    · rw [if_pos h2]
      exact .inr ⟨_, rfl, rfl, h1, .inl ⟨⟨by omega, h2⟩, rfl⟩⟩
    · rw [if_neg h2]
      exact .inr ⟨_, rfl, rfl, h1, .inr ⟨fun h => h2 h.2, rfl⟩⟩

theorem head_cases (h : HeadResp) (w : Wr c) (hs : w.base.status = none) :
    (∃ w', headWrite env h w = .ret false w') ∨
      ∃ w', headWrite env h w = .ret true w' ∧ w'.layers = w.layers ∧
        (Interim h.statusCode ∧ w'.base.status = none ∨ ¬ Interim h.statusCode ∧ w'.base.status.isSome) := by
  unfold headWrite
  by_cases h1 : h.statusCode < 100 ∨ h.statusCode > 999
  · rw [if_pos h1]; exact .inl ⟨_, rfl⟩
  · rw [if_neg h1]
    rcases writeHeader_cases (w.setHeader (defaultHeaders h.contentType (customHeaders env h.headers (cookieHeaders env h.cookies w.base.header)))) hs h.statusCode with ⟨h2, _⟩ | ⟨w', h2, h3, _, h4⟩
    · exact absurd h2 h1
    · dsimp only
      rw [h2]
      exact .inr ⟨w', rfl, h3, h4⟩

theorem write_sends (w : Wr c) (hl : w.layers = []) (b : Str) : (w.write b).2.base.status.isSome ∧ (w.write b).2.layers = [] := by
  have hc : ∀ v : W, v.commit.status.isSome := by
    intro v
    unfold W.commit
    split
    · assumption
    · rfl
  simp only [Wr.write, hl, pushBytes, W.write, and_true]
  split
  · exact hc _
  · split
    · exact hc _
    · split <;> exact hc _

theorem flush_sends (w : Wr c) (hl : w.layers = []) : w.flush.base.status.isSome ∧ w.flush.layers = [] := by
  unfold Wr.flush
  rw [hl]
  refine ⟨?_, rfl⟩
  simp only [W.flush, W.commit]
  split
  · assumption
  · rfl

theorem ops_sent : ∀ (ops : List Op) (w : Wr c), w.layers = [] → w.base.status.isSome → ¬ Gone (runOps ops w)
  | [], _, _, _ => not_gone_ret
  | .set _ _ :: l, w, hl, hs => ops_sent l _ hl hs
  | .add _ _ :: l, w, hl, hs => ops_sent l _ hl hs
  | .writeHeader code :: l, w, hl, hs => by
    have : w.writeHeader code = some w := by simp [Wr.writeHeader, W.writeHeader, hs]
    simp only [runOps, this]
    exact ops_sent l w hl hs
  | .write b :: l, w, hl, _ => ops_sent l _ (write_sends w hl b).2 (write_sends w hl b).1
  | .flush :: l, w, hl, _ => ops_sent l _ (flush_sends w hl).2 (flush_sends w hl).1

theorem mute_cons {op : Op} {l : List Op} (hq : Unsent op) (hn : ∀ code, op = .writeHeader code → ¬ BadCode code) :
    (∃ pre code post, op :: l = pre ++ .writeHeader code :: post ∧ (∀ op ∈ pre, Unsent op) ∧ BadCode code) ↔
      ∃ pre code post, l = pre ++ .writeHeader code :: post ∧ (∀ op ∈ pre, Unsent op) ∧ BadCode code := by
  constructor
  · rintro ⟨pre, code, post, h1, h2, h3⟩
    cases pre with
    | nil =>
      simp only [List.nil_append, List.cons.injEq] at h1
      exact absurd h3 (hn code h1.1)
    | cons p pre =>
      simp only [List.cons_append, List.cons.injEq] at h1
      exact ⟨pre, code, post, h1.2, fun o ho => h2 o (by simp [ho]), h3⟩
  · rintro ⟨pre, code, post, rfl, h2, h3⟩
    refine ⟨op :: pre, code, post, rfl, fun o ho => ?_, h3⟩
    rcases List.mem_cons.1 ho with rfl | ho
    · exact hq
    · exact h2 o ho

theorem not_mute {op : Op} {l : List Op} (hq : ¬ Unsent op) (hn : ∀ code, op = .writeHeader code → ¬ BadCode code) :
    ¬ ∃ pre code post, op :: l = pre ++ .writeHeader code :: post ∧ (∀ op ∈ pre, Unsent op) ∧ BadCode code := by
  rintro ⟨pre, code, post, h1, h2, h3⟩
  cases pre with
  | nil =>
    simp only [List.nil_append, List.cons.injEq] at h1
    exact absurd h3 (hn code h1.1)
  | cons p pre =>
    simp only [List.cons_append, List.cons.injEq] at h1
    exact hq (h1.1 ▸ h2 p (by simp))

theorem ops_gone : ∀ (ops : List Op) (w : Wr c), w.layers = [] → w.base.status = none →
    (Gone (runOps ops w) ↔ ∃ pre code post, ops = pre ++ .writeHeader code :: post ∧ (∀ op ∈ pre, Unsent op) ∧ BadCode code)
  | [], w, _, _ => by
    constructor
    · exact fun h => absurd h not_gone_ret
    · rintro ⟨pre, code, post, h, _⟩
      cases pre <;> cases h
  | .set k v :: l, w, hl, hs => by
    rw [mute_cons (op := .set k v) trivial (fun _ h => by cases h), ← ops_gone l (w.setHeader (w.base.header.set k v)) hl hs]; rfl
  | .add k v :: l, w, hl, hs => by
    rw [mute_cons (op := .add k v) trivial (fun _ h => by cases h), ← ops_gone l (w.setHeader (w.base.header.add k v)) hl hs]; rfl
  | .writeHeader code :: l, w, hl, hs => by
    rcases writeHeader_cases w hs code with ⟨h1, h2⟩ | ⟨w', h1, h2, h3, h4⟩
    · simp only [runOps, h2]
      exact ⟨fun _ => ⟨[], code, l, rfl, by simp, h1⟩, fun _ => ⟨⟨w, .inl rfl⟩, hs⟩⟩
    · simp only [runOps, h1]
      rcases h4 with ⟨h4, h5⟩ | ⟨h4, h5⟩
      · rw [mute_cons (op := .writeHeader code) h4 (fun d e => by cases e; exact h3)]
        exact ops_gone l w' (h2.trans hl) h5
      · constructor
        · exact fun h => absurd h (ops_sent l w' (h2.trans hl) h5)
        · exact fun h => absurd h (not_mute (op := .writeHeader code) h4 (fun d e => by cases e; exact h3))
  | .write b :: l, w, hl, _ => by
    constructor
    · exact fun h => absurd h (ops_sent l _ (write_sends w hl b).2 (write_sends w hl b).1)
    · exact fun h => absurd h (not_mute (op := .write b) (fun h => h) (fun d e => by cases e))
  | .flush :: l, w, hl, _ => by
    constructor
    · exact fun h => absurd h (ops_sent l _ (flush_sends w hl).2 (flush_sends w hl).1)
    · exact fun h => absurd h (not_mute (op := .flush) (fun h => h) (fun d e => by cases e))

theorem run_ret (k : Chunks) (w : Wr c) : ∃ ok w', runChunks k w = .ret ok w' := by
  unfold runChunks
  cases writeChunks k.chunks w with
  | mk ok w' => cases ok <;> exact ⟨_, _, rfl⟩

theorem gone_iff_panic {w : Wr c} : Gone (.panic w) ↔ w.base.status = none := ⟨fun h => h.2, fun h => ⟨⟨w, .inl rfl⟩, h⟩⟩

theorem gone_iff_blocked {w : Wr c} : Gone (.blocked w) ↔ w.base.status = none := ⟨fun h => h.2, fun h => ⟨⟨w, .inr rfl⟩, h⟩⟩

theorem events_sent (closes : Bool) : ∀ (l : List (Event × Bool)) (w : Wr c), w.layers = [] → w.base.status.isSome →
    ¬ Gone (eventLoop closes l w).thenFlush
  | [], w, hl, hs => by
    cases closes
    · simp only [eventLoop, Bool.false_eq_true, if_false, WRes.thenFlush]
      rw [gone_iff_blocked]
      intro h; rw [h] at hs; exact absurd hs (by simp)
    · simp only [eventLoop, if_true, WRes.thenFlush]; exact not_gone_ret
  | (e, true) :: _, w, _, _ => by simp only [eventLoop, WRes.thenFlush]; exact not_gone_ret
  | (e, false) :: l, w, hl, hs => by
    have key : (writeText w (eventText e)).2.base.status.isSome ∧ (writeText w (eventText e)).2.layers = [] := by
      unfold writeText
      split
      · exact ⟨hs, hl⟩
      · exact write_sends w hl _
    simp only [eventLoop]
    cases hw : writeText w (eventText e) with
    | mk ok w' =>
      rw [hw] at key
      cases ok with
      | false => simp only [WRes.thenFlush]; exact not_gone_ret
      | true => exact events_sent closes l _ (flush_sends w' key.2).2 (flush_sends w' key.2).1

theorem events_gone (closes : Bool) (l : List (Event × Bool)) (w : Wr c) (hl : w.layers = []) (hs : w.base.status = none) :
    Gone (eventLoop closes l w).thenFlush ↔ l = [] ∧ closes = false := by
  match l with
  | [] =>
    cases closes
    · simp only [eventLoop, Bool.false_eq_true, if_false, WRes.thenFlush]
      rw [gone_iff_blocked]
      simp [hs]
    · simp only [eventLoop, if_true, WRes.thenFlush]
      exact ⟨fun h => absurd h not_gone_ret, fun h => by cases h.2⟩
  | (e, true) :: l => 
    simp only [eventLoop, WRes.thenFlush]
    exact ⟨fun h => absurd h not_gone_ret, fun h => by cases h.1⟩
  | (e, false) :: l =>
    refine ⟨fun h => ?_, fun h => by cases h.1⟩
    exfalso
    have key : (writeText w (eventText e)).2.layers = [] := by
      unfold writeText
      split
      · exact hl
      · exact (write_sends w hl _).2
    simp only [eventLoop] at h
    revert h
    cases hw : writeText w (eventText e) with
    | mk ok w' =>
      rw [hw] at key
      cases ok with
      | false => simp only [WRes.thenFlush]; exact not_gone_ret
      | true => exact events_sent closes l _ (flush_sends w' key).2 (flush_sends w' key).1

/-- When writing gets lost before the status line. -/
theorem write_gone (req : RReq) (hn : algFor req.acceptEncoding = none) : ∀ (r : Resp) (drop : Bool) (w : Wr c), w.layers = [] → w.base.status = none →
    (Gone (r.writeWith env req drop w) ↔ Silent req r)
  | .plain h, drop, w, hl, hs => by
    simp only [Resp.writeWith, Silent, iff_false]
    rcases head_cases (env := env) (h.without drop) w hs with ⟨w', e⟩ | ⟨w', e, _⟩ <;> rw [e] <;> exact not_gone_ret
  | .text h p, drop, w, hl, hs => by
    simp only [Resp.writeWith, Silent, iff_false]
    rcases head_cases (env := env) (h.without drop) w hs with ⟨w', e⟩ | ⟨w', e, _⟩ <;> rw [e] <;> exact not_gone_ret
  | .json h p, drop, w, hl, hs => by
    simp only [Resp.writeWith, Silent, iff_false]
    rcases head_cases (env := env) (h.without drop) w hs with ⟨w', e⟩ | ⟨w', e, _⟩ <;> rw [e]
    · exact not_gone_ret
    · simp only [WRes.andThen]
      split <;> exact not_gone_ret
  | .raw h k, drop, w, hl, hs => by
    simp only [Resp.writeWith, Silent, iff_false]
    rcases head_cases (env := env) (h.without drop) w hs with ⟨w', e⟩ | ⟨w', e, _⟩ <;> rw [e]
    · exact not_gone_ret
    · simp only [WRes.andThen]
      split
      · exact not_gone_ret
      · rename_i k
        obtain ⟨ok, w'', e⟩ := run_ret k w'
        rw [e]; exact not_gone_ret
  | .stream h k, drop, w, hl, hs => by
    simp only [Resp.writeWith, Silent, iff_false]
    rcases head_cases (env := env) (h.without drop) w hs with ⟨w', e⟩ | ⟨w', e, _⟩ <;> rw [e]
    · exact not_gone_ret
    · simp only [WRes.andThen]
      split
      · exact not_gone_ret
      · rename_i k
        obtain ⟨ok, w'', e⟩ := run_ret k w'
        rw [e]; exact not_gone_ret
  | .template h k, drop, w, hl, hs => by
    have hsc : (h.without drop).statusCode = h.statusCode := rfl
    simp only [Resp.writeWith, Silent]
    rcases head_cases (env := env) (h.without drop) w hs with ⟨w', e⟩ | ⟨w', e, _, h4⟩
    · rw [e]
      refine ⟨fun h => absurd h not_gone_ret, fun ⟨_, hi⟩ => ?_⟩
      exfalso
      unfold headWrite at e
      rw [if_neg (by rw [hsc]; unfold Interim at hi; omega)] at e
      dsimp only at e
      split at e <;> cases e
    · rw [e]
      simp only [WRes.andThen]
      rw [hsc] at h4
      cases k with
      | none =>
        dsimp only
        rw [gone_iff_panic]
        rcases h4 with ⟨h4, h5⟩ | ⟨h4, h5⟩
        · exact ⟨fun _ => ⟨rfl, h4⟩, fun _ => h5⟩
        · exact ⟨fun h => by rw [h] at h5; exact absurd h5 (by simp), fun h => absurd h.2 h4⟩
      | some k =>
        obtain ⟨ok, w'', e⟩ := run_ret k w'
        dsimp only
        rw [e]
        exact ⟨fun h => absurd h not_gone_ret, fun h => by cases h.1⟩
  | .redirect h url, drop, w, hl, hs => by
    simp only [Resp.writeWith, Silent, redirectWrite]
    generalize (if (!decide (w.base.header b!"Content-Type" ≠ []) && (req.method == b!"GET" || req.method == b!"HEAD")) = true then
      (w.base.header.set b!"Location" (env.location url)).set b!"Content-Type" b!"text/html; charset=utf-8"
      else w.base.header.set b!"Location" (env.location url)) = H
    rcases writeHeader_cases (w.setHeader H) hs h.status with ⟨h1, h2⟩ | ⟨w', h1, h2, h3, h4⟩
    · rw [h2]
      exact ⟨fun _ => h1, fun _ => gone_iff_panic.2 hs⟩
    · rw [h1]
      dsimp only
      refine ⟨fun h => ?_, fun h => absurd h h3⟩
      split at h <;> exact absurd h not_gone_ret
  | .adaptor hs ks ops, drop, w, hl, hst => ops_gone ops _ hl hst
  | .hijack, drop, w, hl, hs => by
    simp only [Resp.writeWith, Silent, iff_false]; exact not_gone_ret
  | .sse h feed, drop, w, hl, hs => by
    have hsc : (h.without drop).statusCode = h.statusCode := rfl
    simp only [Resp.writeWith, Silent]
    by_cases hp : req.protoMajor = 2
    · rw [if_neg (by simp [hp])]
      rcases head_cases (env := env) (h.without drop) w hs with ⟨w', e⟩ | ⟨w', e, hl', h4⟩
      · rw [e]
        refine ⟨fun h => absurd h not_gone_ret, fun ⟨_, hi, _⟩ => ?_⟩
        exfalso
        unfold headWrite at e
        rw [if_neg (by rw [hsc]; unfold Interim at hi; omega)] at e
        dsimp only at e
        split at e <;> cases e
      · rw [e]
        simp only [WRes.andThen]
        rw [hsc] at h4
        rcases h4 with ⟨h4, h5⟩ | ⟨h4, h5⟩
        · refine Iff.trans (events_gone feed.closes feed.events _ ?_ ?_) ?_
          · exact hl'.trans hl
          · exact h5
          exact ⟨fun h => ⟨hp, h4, h.1, h.2⟩, fun h => ⟨h.2.2.1, h.2.2.2⟩⟩
        · exact ⟨fun h => absurd h (events_sent feed.closes feed.events _ (hl'.trans hl) h5), fun h => absurd h.2.1 h4⟩
    · rw [if_pos hp]
      rcases writeHeader_cases w hs 500 with ⟨h1, _⟩ | ⟨w', h1, _⟩
      · exact absurd h1 (by unfold BadCode; omega)
      · rw [h1]
        exact ⟨fun h => absurd h not_gone_ret, fun h => absurd h.1 hp⟩
  | .compress _ r, drop, w, hl, hs => by
    simp only [Resp.writeWith, hn, Silent]
    exact write_gone req hn r drop w hl hs

/-- C84, exactly which responses leave the client without an answer when no compression is
asked for: neither a final status line nor the connection handed over. -/
theorem c84_exact (req : RReq) (hn : algFor req.acceptEncoding = none) (r : Resp) (plan : Nat → Option Nat) (canHijack : Bool) :
    let res := r.write env req ({ base := { plan, canHijack } } : Wr c)
    (¬ (∃ code H, Answered [] (seen res) code H) ∧ res.w.base.out ≠ [.hijack]) ↔ Silent req r := by
  intro res
  rw [← write_gone (env := env) (c := c) req hn r false { base := { plan, canHijack } } rfl rfl]
  show _ ↔ Gone res
  have hinfo : ∀ l : List Ev, (∀ e ∈ l, isInfo e = true) → ¬ ∃ code H, Answered [] l code H := by
    rintro l hl ⟨code, H, pre, rest, e, _⟩
    have := hl (.head code H) (by rw [e]; simp)
    cases this
  have hfine := fine_writeWith (env := env) (req := req) (out0 := []) r false (w := ({ base := { plan, canHijack } } : Wr c)) (.before [] rfl rfl (by simp) trivial)
  constructor
  · rintro ⟨h1, h2⟩
    rcases hfine with h | ⟨_, _, h⟩
    · by_cases hd : Done res
      · obtain ⟨code, H, h3, _⟩ := h.seen hd
        exact absurd ⟨code, H, h3⟩ h1
      · have hst : res.w.base.status = none := by
          cases hx : res.w.base.status with
          | none => rfl
          | some n => exact absurd (.inr (by rw [hx]; rfl)) hd
        cases hres : res with
        | ret ok w => exact absurd (.inl ⟨ok, w, hres⟩) hd
        | panic w => rw [hres] at hst; exact ⟨⟨w, .inl rfl⟩, hst⟩
        | blocked w => rw [hres] at hst; exact ⟨⟨w, .inr rfl⟩, hst⟩
    · exact absurd (by show res.w.base.out = _; simp only [res, Resp.write, h]; rfl) h2
  · rintro ⟨⟨w, hw⟩, hst⟩
    rcases hfine with h | ⟨_, _, h⟩
    · have hseen : seen res = res.w.base.out := by rcases hw with hw | hw <;> rw [hw] <;> rfl
      cases h with
      | after code H hs => 
        have hs' : res.w.base.status.isSome := hs
        rw [hst] at hs'; exact absurd hs' (by simp)
      | before pre _ ho hp =>
        have ho' : res.w.base.out = pre := by rw [List.nil_append] at ho; exact ho
        refine ⟨hinfo _ (by rw [hseen, ho']; exact hp), fun e => ?_⟩
        rw [ho'] at e
        have := hp .hijack (by rw [e]; simp)
        cases this
    · have : res = .ret true _ := h
      rw [this] at hw
      rcases hw with hw | hw <;> cases hw

/-- An adapted handler that sends early hints and then a status out of range, and one that writes
before it does. -/
example : Silent {} (.adaptor none none [.set b!"A" b!"b", .writeHeader 103, .writeHeader 1000]) ∧
    ¬ Silent {} (.adaptor none none [.set b!"A" b!"b", .write b!"x", .writeHeader 1000]) ∧
    (∃ H, seen ((Resp.adaptor none none [.set b!"A" b!"b", .writeHeader 103, .writeHeader 1000]).write simpleEnv {} ({} : Wr dotCodec)) = [.info 103 H]) := by
  refine ⟨⟨[_, _], 1000, [], rfl, ?_, .inr (by decide)⟩, ?_, _, rfl⟩
  · intro op ho
    rcases List.mem_cons.1 ho with rfl | ho
    · trivial
    · rw [List.mem_singleton.1 ho]; exact ⟨by decide, by decide, by decide⟩
  · rintro ⟨pre, code, post, h1, h2, h3⟩
    match pre, h1 with
    | [_, _], h1 => simp at h1; exact h2 (.write b!"x") (by simp [h1])
    | [_, _, _], h1 => simp at h1
    | [_], h1 => simp at h1
    | [], h1 => simp at h1

end Gofre.Props
