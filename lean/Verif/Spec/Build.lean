import Verif.Model.Build
import Verif.Spec.Compress
import Verif.Spec.Cookies

/-! # What the functions that construct responses promise -/

namespace Gofre.Spec
open Gofre.Http Gofre.Response Gofre.Build

/-- A response as the application asked for it. -/
structure Wanted where
  status : Nat
  /-- The content type, unless the headers have one. -/
  type : Str := []
  headers : Map Str := []
  cookies : Map Cookie := []
  body : Str := []

/-- The JSON text of a payload. -/
inductive JsonText : JsonPayload → Str → Prop
  | nil : JsonText none b!"{}"
  | value (t : Str) : JsonText (some (some t)) t

/-- What a function, stream or template that does not fail writes. -/
inductive Writes : Option Chunks → Str → Prop
  | nothing : Writes none []
  | chunks (l : List Str) : Writes (some ⟨l, false⟩) l.flatten

/-- The text of an error: its message with an upper-case letter at the beginning. -/
inductive ErrorText : Option Str → Str → Prop
  | nil : ErrorText none []
  | empty : ErrorText (some []) []
  | message {b u : UInt8} (l : Str) : b < 128 → Upper b u → ErrorText (some (b :: l)) (u :: l)

/-- What each function documents. -/
inductive Builds (quote : Str → Str) : Resp → Wanted → Prop
  | plainTextOK (p : Str) : Builds quote (plainTextOK p) { status := 200, type := b!"text/plain; charset=utf-8", body := p }
  | plainText (s : Nat) (p : Str) : Builds quote (plainText s p) { status := s, type := b!"text/plain; charset=utf-8", body := p }
  | plainTextWithHeaders (s : Nat) (p : Str) (m : Map Str) : Builds quote (plainTextWithHeaders s p (some m)) { status := s, type := b!"text/plain; charset=utf-8", body := p, headers := m }
  | plainTextWithHeadersAndCookies (s : Nat) (p : Str) (m : Map Str) (k : Map Cookie) : Builds quote (plainTextWithHeadersAndCookies s p (some m) (some k)) { status := s, type := b!"text/plain; charset=utf-8", body := p, headers := m, cookies := k }
  | htmlOK (p : Str) : Builds quote (htmlOK p) { status := 200, type := b!"text/html; charset=utf-8", body := p }
  | html (s : Nat) (p : Str) : Builds quote (html s p) { status := s, type := b!"text/html; charset=utf-8", body := p }
  | htmlWithHeaders (s : Nat) (p : Str) (m : Map Str) : Builds quote (htmlWithHeaders s p (some m)) { status := s, type := b!"text/html; charset=utf-8", body := p, headers := m }
  | htmlWithHeadersAndCookies (s : Nat) (p : Str) (m : Map Str) (k : Map Cookie) : Builds quote (htmlWithHeadersAndCookies s p (some m) (some k)) { status := s, type := b!"text/html; charset=utf-8", body := p, headers := m, cookies := k }
  | jsonOK {p : JsonPayload} {t : Str} (h : JsonText p t) : Builds quote (jsonOK p) { status := 200, type := b!"application/json", body := t }
  | json (s : Nat) {p : JsonPayload} {t : Str} (h : JsonText p t) : Builds quote (json s p) { status := s, type := b!"application/json", body := t }
  | jsonWithCookies (s : Nat) (k : Map Cookie) {p : JsonPayload} {t : Str} (h : JsonText p t) : Builds quote (jsonWithCookies s p (some k)) { status := s, type := b!"application/json", body := t, cookies := k }
  | jsonWithHeaders (s : Nat) (m : Map Str) {p : JsonPayload} {t : Str} (h : JsonText p t) : Builds quote (jsonWithHeaders s p (some m)) { status := s, type := b!"application/json", body := t, headers := m }
  | jsonWithHeadersAndCookies (s : Nat) (m : Map Str) (k : Map Cookie) {p : JsonPayload} {t : Str} (h : JsonText p t) : Builds quote (jsonWithHeadersAndCookies s p (some m) (some k)) { status := s, type := b!"application/json", body := t, headers := m, cookies := k }
  | jsonError (s : Nat) {e : Option Str} {t : Str} (h : ErrorText e t) : Builds quote (jsonError quote s e) { status := s, type := b!"application/json", body := b!"{\"error\":" ++ quote t ++ b!"}" }
  | jsonErrorWithCookies (s : Nat) (k : Map Cookie) {e : Option Str} {t : Str} (h : ErrorText e t) : Builds quote (jsonErrorWithCookies quote s e (some k)) { status := s, type := b!"application/json", body := b!"{\"error\":" ++ quote t ++ b!"}", cookies := k }
  | jsonErrorWithHeaders (s : Nat) (m : Map Str) {e : Option Str} {t : Str} (h : ErrorText e t) : Builds quote (jsonErrorWithHeaders quote s e (some m)) { status := s, type := b!"application/json", body := b!"{\"error\":" ++ quote t ++ b!"}", headers := m }
  | jsonErrorWithHeadersAndCookies (s : Nat) (m : Map Str) (k : Map Cookie) {e : Option Str} {t : Str} (h : ErrorText e t) : Builds quote (jsonErrorWithHeadersAndCookies quote s e (some m) (some k)) { status := s, type := b!"application/json", body := b!"{\"error\":" ++ quote t ++ b!"}", headers := m, cookies := k }
  | raw (ct : Str) {w : Option Chunks} {t : Str} (h : Writes w t) : Builds quote (raw ct w) { status := 200, type := ct, body := t }
  | rawWithCookies (s : Nat) (k : Map Cookie) (ct : Str) {w : Option Chunks} {t : Str} (h : Writes w t) : Builds quote (rawWithCookies s ct (some k) w) { status := s, type := ct, body := t, cookies := k }
  | rawWithHeaders (s : Nat) (m : Map Str) (ct : Str) {w : Option Chunks} {t : Str} (h : Writes w t) : Builds quote (rawWithHeaders s ct (some m) w) { status := s, type := ct, body := t, headers := m }
  | rawWithHeadersAndCookies (s : Nat) (m : Map Str) (k : Map Cookie) (ct : Str) {w : Option Chunks} {t : Str} (h : Writes w t) : Builds quote (rawWithHeadersAndCookies s ct (some m) (some k) w) { status := s, type := ct, body := t, headers := m, cookies := k }
  | stream (ct : Str) {w : Option Chunks} {t : Str} (h : Writes w t) : Builds quote (stream ct w) { status := 200, type := ct, body := t }
  | streamWithCookies (s : Nat) (k : Map Cookie) (ct : Str) {w : Option Chunks} {t : Str} (h : Writes w t) : Builds quote (streamWithCookies s ct (some k) w) { status := s, type := ct, body := t, cookies := k }
  | streamWithHeaders (s : Nat) (m : Map Str) (ct : Str) {w : Option Chunks} {t : Str} (h : Writes w t) : Builds quote (streamWithHeaders s ct (some m) w) { status := s, type := ct, body := t, headers := m }
  | streamWithHeadersAndCookies (s : Nat) (m : Map Str) (k : Map Cookie) (ct : Str) {w : Option Chunks} {t : Str} (h : Writes w t) : Builds quote (streamWithHeadersAndCookies s ct (some m) (some k) w) { status := s, type := ct, body := t, headers := m, cookies := k }
  | templateOK (t : List Str) : Builds quote (templateOK ⟨true, some ⟨t, false⟩⟩) { status := 200, type := b!"text/html; charset=utf-8", body := t.flatten }
  | templateNotFound (t : List Str) : Builds quote (templateNotFound ⟨true, some ⟨t, false⟩⟩) { status := 404, type := b!"text/html; charset=utf-8", body := t.flatten }
  | templateWithCookies (s : Nat) (k : Map Cookie) (t : List Str) : Builds quote (templateWithCookies ⟨true, some ⟨t, false⟩⟩ s (some k)) { status := s, type := b!"text/html; charset=utf-8", body := t.flatten, cookies := k }
  | templateWithHeaders (s : Nat) (m : Map Str) (t : List Str) : Builds quote (templateWithHeaders ⟨true, some ⟨t, false⟩⟩ s (some m)) { status := s, type := b!"text/html; charset=utf-8", body := t.flatten, headers := m }
  | templateWithHeadersAndCookies (s : Nat) (m : Map Str) (k : Map Cookie) (t : List Str) : Builds quote (templateWithHeadersAndCookies ⟨true, some ⟨t, false⟩⟩ s (some m) (some k)) { status := s, type := b!"text/html; charset=utf-8", body := t.flatten, headers := m, cookies := k }
  | templateTextOK (t : List Str) : Builds quote (templateOK ⟨false, some ⟨t, false⟩⟩) { status := 200, type := b!"text/plain; charset=utf-8", body := t.flatten }
  | templateTextNotFound (t : List Str) : Builds quote (templateNotFound ⟨false, some ⟨t, false⟩⟩) { status := 404, type := b!"text/plain; charset=utf-8", body := t.flatten }
  | templateTextWithCookies (s : Nat) (k : Map Cookie) (t : List Str) : Builds quote (templateWithCookies ⟨false, some ⟨t, false⟩⟩ s (some k)) { status := s, type := b!"text/plain; charset=utf-8", body := t.flatten, cookies := k }
  | templateTextWithHeaders (s : Nat) (m : Map Str) (t : List Str) : Builds quote (templateWithHeaders ⟨false, some ⟨t, false⟩⟩ s (some m)) { status := s, type := b!"text/plain; charset=utf-8", body := t.flatten, headers := m }
  | templateTextWithHeadersAndCookies (s : Nat) (m : Map Str) (k : Map Cookie) (t : List Str) : Builds quote (templateWithHeadersAndCookies ⟨false, some ⟨t, false⟩⟩ s (some m) (some k)) { status := s, type := b!"text/plain; charset=utf-8", body := t.flatten, headers := m, cookies := k }
  | internalServerError  : Builds quote (internalServerError) { status := 500 }

/-- The client got what was wanted: one status line, a header block with the headers, cookies and
content type, the body. -/
def Sent (env : Env) (out : List Ev) (wd : Wanted) : Prop :=
  ∃ H rest, out = .head wd.status H :: rest ∧ (∀ e ∈ rest, isBody e = true) ∧ bodyOf rest = wd.body ∧
    Block env ⟨wd.status, wd.type, some wd.headers, some wd.cookies⟩ (fun _ => []) H

/-- The body of a response whose payload can be encoded and produced. -/
inductive BodyText : Resp → Str → Prop
  | plain (h) : BodyText (.plain h) []
  | text (h p) : BodyText (.text h p) p
  | jsonNil (h) : BodyText (.json h none) b!"{}"
  | json (h b) : BodyText (.json h (some (some b))) b
  | rawNil (h) : BodyText (.raw h none) []
  | raw (h l) : BodyText (.raw h (some ⟨l, false⟩)) l.flatten
  | streamNil (h) : BodyText (.stream h none) []
  | stream (h l) : BodyText (.stream h (some ⟨l, false⟩)) l.flatten
  | template (h l) : BodyText (.template h (some ⟨l, false⟩)) l.flatten

end Gofre.Spec
