import Verif.Spec.Response
import Verif.Spec.Trim

/-! # Accept-Encoding and compressed bodies -/

namespace Gofre.Spec
open Gofre.Http Gofre.Response

/-- White space in ASCII. -/
def Blank (s : Str) : Prop := ∀ b ∈ s, b ∈ ([9, 10, 11, 12, 13, 32] : Str)

/-- `name` is one of the comma separated elements of the header, up to letter case and white space. -/
def Lists (accept name : Str) : Prop :=
  ∃ e ∈ splitOn 44 accept, ∃ pre mid post, e = pre ++ mid ++ post ∧ Blank pre ∧ Blank post ∧ mid.map lowerByte = name

/-- Only ASCII bytes. -/
def AsciiText (s : Str) : Prop := ∀ b ∈ s, b < 128

/-- The first text reads as the second, a text of small letters: every letter is small or capital; `i` may also be the Turkish capital with
a dot and `k` the Kelvin sign, whose small letters these are in Unicode. -/
inductive SpeltAs : Str → Str → Prop
  | nil : SpeltAs [] []
  | small {c : UInt8} {s n : Str} : 97 ≤ c → c ≤ 122 → SpeltAs s n → SpeltAs (c :: s) (c :: n)
  | capital {c : UInt8} {s n : Str} : 65 ≤ c → c ≤ 90 → SpeltAs s n → SpeltAs (c :: s) ((c + 32) :: n)
  | dotted {s n : Str} : SpeltAs s n → SpeltAs (b!"İ" ++ s) (105 :: n)
  | kelvin {s n : Str} : SpeltAs s n → SpeltAs (b!"\u212a" ++ s) (107 :: n)

/-- A member of the list that reads as the name. -/
def Takes (accept name : Str) : Prop := ∃ m, Member accept m ∧ SpeltAs m name

/-- The client lists an encoding that the server takes for one of its own. -/
def Understood (accept : Str) : Prop := Takes accept b!"gzip" ∨ Takes accept b!"compress" ∨ Takes accept b!"deflate"

/-- The encoding the client is to get. -/
def Chosen (accept : Str) : Alg → Prop
  | .gzip => Takes accept b!"gzip" ∨ Takes accept b!"compress"
  | .deflate => Takes accept b!"deflate" ∧ ¬ (Takes accept b!"gzip" ∨ Takes accept b!"compress")

/-- The name of an encoding in the header. -/
def encodingName : Alg → Str
  | .gzip => b!"gzip"
  | .deflate => b!"deflate"

/-- The body the client has received. -/
def bodyOf (out : List Ev) : Str := out.flatMap fun
  | .data b => b
  | _ => []

/-- What is done with a compressor. -/
inductive Feeding
  | write (b : Str)
  | flush

/-- The state of a compressor, and all it has put out so far. -/
def feedAll (c : Codec) (s : c.σ × Str) : List Feeding → c.σ × Str
  | [] => s
  | .write b :: l => feedAll c ((c.write s.1 b).1, s.2 ++ (c.write s.1 b).2) l
  | .flush :: l => feedAll c ((c.flush s.1).1, s.2 ++ (c.flush s.1).2) l

/-- The bytes written to it. -/
def writtenBytes (l : List Feeding) : Str := l.flatMap fun
  | .write b => b
  | .flush => []

/-- The compressors are lossless: what is put out until the end decodes to what was written. -/
def Lossless (c : Codec) (decode : Alg → Str → Option Str) : Prop :=
  ∀ a level l, -1 ≤ level → level ≤ 9 →
    let r := feedAll c (c.start a level, []) l
    decode a (r.2 ++ (c.close r.1).2) = some (writtenBytes l)

/-- A response wrapped in compressing responses with the given levels, the first of which is the outermost. -/
def nested (levels : List Int) (r : Resp) : Resp := levels.foldr Resp.compress r

/-- What is left of a body after decoding it a number of times. -/
def decodings (decode : Str → Option Str) : Nat → Str → Option Str
  | 0, s => some s
  | n + 1, s => (decode s).bind (decodings decode n)

/-- A connection that accepts everything. -/
def Reliable (w : W) : Prop := ∀ i, w.plan i = none

end Gofre.Spec
