import Verif.Model.Pool

/-! # What C58, C66 and C77 mean -/

namespace Gofre.Spec
open Gofre.Pool

variable {β : Type}

/-- A program with values: every place has its own object, nothing is reused.  The places and what
is read are those of the program. -/
structure Values (β : Type) where
  val : Nat → β
  copies : Nat → β
  log : List (Nat × β) := []

/-- One step on values. -/
def Values.step (empty : β) (s : Values β) : Op β → Values β
  | .get o _ => { s with val := fun x => if x = o then empty else s.val x }
  | .make o => { s with val := fun x => if x = o then empty else s.val x }
  | .setNil o => { s with val := fun x => if x = o then empty else s.val x }
  | .assign o p => { s with val := fun x => if x = o then s.val p else s.val x }
  | .update o f => { s with val := fun x => if x = o then f (s.val o) else s.val x }
  | .read o => { s with log := s.log ++ [(o, s.val o)] }
  | .clone o v => { s with copies := fun x => if x = v then s.val o else s.copies x }
  | .readClone v => { s with log := s.log ++ [(v, s.copies v)] }
  | .ensure _ _ | .clear _ | .put _ | .forget _ => s

/-- What the program with values reads. -/
def valueLog (empty : β) (ops : List (Op β)) : List (Nat × β) :=
  (ops.foldl (·.step empty) ({ val := fun _ => empty, copies := fun _ => empty } : Values β)).log

/-- What a program knows about a place: no object, an object of its own, an object it is about to give
back, or an object it has passed on or given back. -/
inductive Status where
  | absent | own | cleared | gone
  deriving DecidableEq, Repr

/-- The rules: an object is passed on to at most one place, and not used in the old one any more; it is
given back once, and then not used any more (a response is written at most once). -/
def Allowed (st : Nat → Status) : Op β → Prop
  | .get _ _ | .make _ | .setNil _ | .readClone _ | .forget _ => True
  | .ensure o _ | .read o | .clone o _ => st o = .own ∨ st o = .absent
  | .assign o p => st p = .own ∧ o ≠ p
  | .update o _ => st o = .own
  | .clear o => st o = .own ∨ st o = .absent
  | .put o => st o = .cleared ∨ st o = .absent

instance (st : Nat → Status) (op : Op β) : Decidable (Allowed st op) := by cases op <;> unfold Allowed <;> infer_instance

/-- How a step changes what is known. -/
def after (st : Nat → Status) : Op β → Nat → Status
  | .get o _ | .make o | .ensure o _ => fun x => if x = o then .own else st x
  | .setNil o => fun x => if x = o then .absent else st x
  | .assign o p => fun x => if x = o then .own else if x = p then .gone else st x
  | .clear o => fun x => if x = o then (if st o = .own then .cleared else st o) else st x
  | .put o => fun x => if x = o then (if st o = .cleared then .gone else st o) else st x
  | .update _ _ | .read _ | .clone _ _ | .readClone _ | .forget _ => st

/-- A program that follows the rules. -/
def Follows (st : Nat → Status) : List (Op β) → Prop
  | [] => True
  | op :: ops => Allowed st op ∧ Follows (after st op) ops

instance decFollows : (st : Nat → Status) → (ops : List (Op β)) → Decidable (Follows st ops)
  | _, [] => isTrue trivial
  | st, op :: ops => @instDecidableAnd _ _ _ (decFollows (after st op) ops)

/-- What is known after an execution. -/
def known (st : Nat → Status) (ops : List (Op β)) : Nat → Status := ops.foldl after st

end Gofre.Spec

namespace Gofre.Spec
open Gofre.Pool

variable {β : Type}

/-- Where a request is in `ServeHTTP` (`router/router.go:66-104`): not there, between taking the buffer
and the deferred function, or in the deferred function after the segments were reset. -/
inductive Phase where
  | idle | running | resetting
  deriving DecidableEq, Repr

/-- All interleavings of requests in `ServeHTTP`: place `r` is the buffer of request `r`.  A request
takes a buffer, works with it as it likes, and however its handler ends (the function is deferred)
resets the buffer and puts it back.  Clones are read at any time, also after the request. -/
inductive Serving : (Nat → Phase) → List (Op β) → Prop where
  | done {ph} : Serving ph []
  | start {ph r choice ops} : ph r = .idle → Serving (fun x => if x = r then .running else ph x) ops → Serving ph (.get r choice :: ops)
  | update {ph r f ops} : ph r = .running → Serving ph ops → Serving ph (.update r f :: ops)
  | read {ph r ops} : ph r = .running → Serving ph ops → Serving ph (.read r :: ops)
  | clone {ph r v ops} : ph r = .running → Serving ph ops → Serving ph (.clone r v :: ops)
  | readClone {ph v ops} : Serving ph ops → Serving ph (.readClone v :: ops)
  | reset {ph r ops} : ph r = .running → Serving (fun x => if x = r then .resetting else ph x) ops → Serving ph (.clear r :: ops)
  | giveBack {ph r ops} : ph r = .resetting → Serving (fun x => if x = r then .idle else ph x) ops → Serving ph (.put r :: ops)
  | forget {ph i ops} : Serving ph ops → Serving ph (.forget i :: ops)

/-- The phases after an execution. -/
def phases (ph : Nat → Phase) : List (Op β) → Nat → Phase
  | [] => ph
  | .get r _ :: ops => phases (fun x => if x = r then .running else ph x) ops
  | .clear r :: ops => phases (fun x => if x = r then .resetting else ph x) ops
  | .put r :: ops => phases (fun x => if x = r then .idle else ph x) ops
  | _ :: ops => phases ph ops

end Gofre.Spec
