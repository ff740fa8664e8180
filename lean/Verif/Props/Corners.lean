import Verif.Props.Passing
import Verif.Props.Stream
import Verif.Props.Events
import Verif.Props.Escape

/-! # C53, C105, C114, C117: corners -/

namespace Gofre.Props

section
open Gofre.Security
variable {σ α : Type}

/-- C53 where there is no response: a handler that returns neither a response nor an error comes through when none of the headers is to be set,
and makes the request panic when one is. -/
theorem c53_nothing_exact (c : Config) (h : Handler σ (RespH α)) (ctx : Ctx) (r : Req) (k : Cached) (s s' : σ)
    (hh : h ctx r s = (.ret none none, s')) :
    ((∀ n, promised c r n = none) → (securityHeaders c h ctx r k s).1 = .ret none none) ∧
    ((∃ n, promised c r n ≠ none) → ∃ v, (securityHeaders c h ctx r k s).1 = .panic (some v)) := by
  unfold securityHeaders
  rw [hh]
  dsimp only
  constructor
  · intro hp
    have h1 := hp b!"Strict-Transport-Security"
    have h2 := hp b!"X-Frame-Options"
    have h3 := hp b!"X-Content-Type-Options"
    have h4 := hp b!"X-Xss-Protection"
    unfold promised at h1 h2 h3 h4
    rw [if_neg]
    intro hor
    simp only [Bool.or_eq_true] at hor
    rcases hor with ((hor | hor) | hor) | hor
    · rw [if_pos rfl, if_pos hor] at h1; cases h1
    · rw [if_neg (by decide), if_pos rfl, if_pos hor] at h2; cases h2
    · rw [if_neg (by decide), if_neg (by decide), if_pos rfl, if_pos hor] at h3; cases h3
    · rw [if_neg (by decide), if_neg (by decide), if_neg (by decide), if_pos rfl, if_pos hor] at h4; cases h4
  · rintro ⟨n, hp⟩
    refine ⟨b!"nil pointer dereference", ?_⟩
    rw [if_pos]
    unfold promised at hp
    split at hp
    · split at hp
      · rename_i hb; rw [hb]; rfl
      · exact absurd rfl hp
    · split at hp
      · split at hp
        · rename_i hb; simp [hb]
        · exact absurd rfl hp
      · split at hp
        · split at hp
          · rename_i hb; simp [hb]
          · exact absurd rfl hp
        · split at hp
          · split at hp
            · rename_i hb; simp [hb]
            · exact absurd rfl hp
          · exact absurd rfl hp

/-- With HSTS alone, over TLS and not. -/
example : (securityHeaders { stsEnabled := true } (fun _ _ (n : Nat) => (.ret none none, n)) {} { method := b!"GET", tls := true } {} 0 : HRes (RespH Nat) × Cached × Nat).1 =
      .panic (some b!"nil pointer dereference") ∧
    (securityHeaders { stsEnabled := true } (fun _ _ (n : Nat) => (.ret none none, n)) {} { method := b!"GET" } {} 0 : HRes (RespH Nat) × Cached × Nat).1 =
      .ret none none := by decide
end

section
open Gofre.Stream

theorem stream_append {careful : Bool} {s t : Conn} {as bs : List Act} (h : run careful s (as ++ bs) = some t) :
    ∃ u, run careful s as = some u ∧ run careful u bs = some t := by
  induction as generalizing s with
  | nil => exact ⟨s, rfl, h⟩
  | cons a as ih =>
    simp only [List.cons_append, run, Option.bind_eq_some_iff] at h ⊢
    obtain ⟨s', h1, h2⟩ := h
    obtain ⟨u, h3, h4⟩ := ih h2
    exact ⟨u, ⟨s', h1, h3⟩, h4⟩

theorem returned_run {careful : Bool} {s t : Conn} {as : List Act} (h : run careful s as = some t) (hl : s.loop = .returned) :
    t.loop = .returned ∧ t.written = s.written := by
  induction as generalizing s with
  | nil => simp only [run] at h; cases h; exact ⟨hl, rfl⟩
  | cons a as ih =>
    simp only [run, Option.bind_eq_some_iff] at h
    obtain ⟨s', h1, h2⟩ := h
    have : s'.loop = .returned ∧ s'.written = s.written := by
      cases a <;> simp [step, hl] at h1
      all_goals first | (obtain ⟨_, h1⟩ := h1; subst h1; exact ⟨by first | rfl | exact hl, rfl⟩) | (subst h1; exact ⟨by first | rfl | exact hl, rfl⟩)
    obtain ⟨h3, h4⟩ := ih h2 this.1
    exact ⟨h3, h4.trans this.2⟩

/-- What has been passed over the channel is written, or is held. -/
theorem passed_run {careful : Bool} {s t : Conn} {as : List Act} (h : run careful s as = some t) (hl : t.loop = .writing) :
    s.written + as.count .pass + (if s.loop = .holding ∨ s.loop = .writing then 1 else 0) = t.written + 1 ∧
      t.written = s.written + as.count .write := by
  induction as generalizing s with
  | nil => simp only [run] at h; cases h; simp [hl]
  | cons a as ih =>
    simp only [run, Option.bind_eq_some_iff] at h
    obtain ⟨s', h1, h2⟩ := h
    have hr : s'.loop ≠ .returned := fun hr => by
      have := (returned_run h2 hr).1
      rw [hl] at this
      cases this
    obtain ⟨i1, i2⟩ := ih h2
    obtain ⟨d, g, l, w⟩ := s
    cases a <;> simp only [step] at h1 <;> first | (split at h1) | skip
    all_goals first | cases h1; done | skip
    all_goals cases h1
    all_goals simp_all
    all_goals omega

/-- C114 when a writing fails: the event whose writing failed was taken from the channel and is the only one not written, the loop
returns, and nothing is written any more. -/
theorem c114_failed (careful : Bool) (as bs : List Act) (t : Conn) (h : run careful start (as ++ .fail :: bs) = some t) :
    t.loop = .returned ∧ t.written = as.count .write ∧ as.count .pass = as.count .write + 1 := by
  obtain ⟨u, h1, h2⟩ := stream_append h
  simp only [run, Option.bind_eq_some_iff] at h2
  obtain ⟨v, h3, h4⟩ := h2
  simp only [step] at h3
  split at h3
  · rename_i hw
    cases h3
    obtain ⟨e1, e2⟩ := returned_run h4 rfl
    obtain ⟨e3, e4⟩ := passed_run h1 hw
    simp [start] at e3 e4
    simp only at e2
    exact ⟨e1, by rw [e2, e4], by omega⟩
  · cases h3

example : run false start ([.take, .pass, .check, .write, .take, .pass, .check] ++ .fail :: [.cancel, .quit]) = some ⟨true, .ended, .returned, 1⟩ := by decide
end

section
open Gofre.Events

/-- C105 without any claim by a client: the process ends by itself exactly if the generator was made without a place for an event (and then
with its first event). -/
theorem c105_no_room (cap : Nat) :
    (∃ ts : List Step, ts.length < 9223372036854775807 ∧ (∀ c id, Step.connect c id ∈ ts → atoi id = none) ∧ (run cap {} ts).crashed = true) ↔ cap = 0 := by
  constructor
  · rintro ⟨ts, h1, h2, h3⟩
    apply Classical.byContradiction
    intro hc
    have := c105_survives_partial cap (by omega) ts (fun c id n hm ha => by rw [h2 c id hm] at ha; cases ha) h1
    rw [h3] at this
    cases this
  · rintro rfl
    exact ⟨[.store], by decide, by simp, by decide⟩

example : (run 0 {} [.connect 0 b!"x", .load 0, .compare 0, .store]).crashed = true ∧ (run 1 {} [.connect 0 b!"x", .load 0, .compare 0, .store]).crashed = false := by decide
end

section
open Gofre.Escape

/-- A byte as a percent sign and two capital hexadecimal digits. -/
def percentOf (c : UInt8) : Str := [37, (b!"0123456789ABCDEF").getD (c.toNat / 16) 0, (b!"0123456789ABCDEF").getD (c.toNat % 16) 0]

/-- C117, the text of an escaped segment: letters, digits and `-_.~$&+:=@` stand for themselves, every other byte is written in hexadecimal. -/
theorem c117_text (s : Str) : pathEscape s = s.flatMap fun c =>
    if c ∈ b!"abcdefghijklmnopqrstuvwxyzABCDEFGHIJKLMNOPQRSTUVWXYZ0123456789-_.~$&+:=@" then [c] else percentOf c := by
  have key : ∀ c : UInt8, pathEscape [c] =
      if c ∈ b!"abcdefghijklmnopqrstuvwxyzABCDEFGHIJKLMNOPQRSTUVWXYZ0123456789-_.~$&+:=@" then [c] else percentOf c := by
    intro c
    have : ∀ n : Fin 256, pathEscape [UInt8.ofNat n] =
        if UInt8.ofNat n ∈ b!"abcdefghijklmnopqrstuvwxyzABCDEFGHIJKLMNOPQRSTUVWXYZ0123456789-_.~$&+:=@" then [UInt8.ofNat n] else percentOf (UInt8.ofNat n) := by
      decide +kernel
    have := this ⟨c.toNat, c.toNat_lt⟩
    rwa [show UInt8.ofNat ((⟨c.toNat, c.toNat_lt⟩ : Fin 256) : Nat) = c from UInt8.ofNat_toNat] at this
  induction s with
  | nil => rfl
  | cons c s ih =>
    rw [List.flatMap_cons, ← ih, ← key c]
    simp only [pathEscape]
    split <;> rfl

example : pathEscape b!"a b/é&" = b!"a%20b%2F%C3%A9&" := by decide
end

end Gofre.Props
