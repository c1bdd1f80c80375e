import Verif.Model.Storage
/-!
# Who is told of a failure

A function of the library is made of calls of its storage and of the streams it has got from it. It tells of failures if it ends with the
first call that fails, with the error of that call.
-/
namespace Flatdata.Spec

/-- A call of a storage or a stream. -/
inductive Io (B : Backend) where
  | subdir (o : B.Obj) (name : String)
  | exists' (o : B.Obj) (name : String)
  | read (o : B.Obj) (name : String)
  | create (o : B.Obj) (name : String)
  | write (s : B.Strm) (data : Bytes)
  | seek (s : B.Strm)

variable {B : Backend}

/-- The call, without the value of a successful one. -/
def Io.run : Io B → Act B.W IoErr Unit
  | .subdir o n => do let _ ← (B.subdir o n).mapErr Empty.elim
  | .exists' o n => do let _ ← (B.existsRes o n).mapErr Empty.elim
  | .read o n => do let _ ← B.readResource o n
  | .create o n => do let _ ← B.createOutputStream o n
  | .write s d => B.writeAll s d
  | .seek s => B.seekStart s

/-- Calls that all succeed lead from `w` to the second world. -/
inductive AllSucceed (w : B.W) : B.W → Prop
  | none : AllSucceed w w
  | call {c : Io B} {w1 w2 : B.W} (h : AllSucceed w w1) (hc : c.run w1 = (.ok (), w2)) : AllSucceed w w2

/-- The function that was called in `w` has returned `r` and left the second world: it succeeds after calls that all succeed; or one call does not
succeed, and then the function makes no further call and has the same outcome. -/
inductive Reported {α : Type} (w : B.W) : Res IoErr α → B.W → Prop
  | ok {a : α} {w' : B.W} (h : AllSucceed w w') : Reported w (.ok a) w'
  | err {c : Io B} {x : IoErr} {w1 w' : B.W} (h : AllSucceed w w1) (hc : c.run w1 = (.err x, w')) : Reported w (.err x) w'
  | panic {c : Io B} {w1 w' : B.W} (h : AllSucceed w w1) (hc : c.run w1 = (.panic, w')) : Reported w .panic w'
  | ub {c : Io B} {w1 w' : B.W} (h : AllSucceed w w1) (hc : c.run w1 = (.ub, w')) : Reported w .ub w'

/-- A function that tells of failures. -/
def Reports {α : Type} (x : Act B.W IoErr α) : Prop := ∀ w r w', x w = (r, w') → Reported w r w'

/-- A function that tells of failures, but may panic for reasons of its own. -/
def Tells {α : Type} (x : Act B.W IoErr α) : Prop :=
  ∀ w r w', x w = (r, w') → (∀ a, r = .ok a → AllSucceed w w') ∧ (∀ y, r = .err y → Reported w r w')

/-- The outcome of a function that adds the name of the resource to the error. -/
def named {α : Type} (name : String) : Res IoErr α → Res RErr α
  | .ok a => .ok a
  | .err y => .err (.io y name)
  | .panic => .panic
  | .ub => .ub

/-- No call of the storage or of a stream panics or is undefined. -/
def Calm (B : Backend) : Prop := ∀ (c : Io B) w w', c.run w ≠ (.panic, w') ∧ c.run w ≠ (.ub, w')

end Flatdata.Spec
