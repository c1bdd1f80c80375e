import Verif.Model.Unwind
/-!
# Executions of a client with panics, for C67
-/
namespace Flatdata.Spec

/-- The values of the crate that are on the stack of a thread, by scope, the innermost first. -/
structure Stack (B : Backend) where
  thread : Thread
  scopes : List (List (Owned B))

/-- One step of a client that, in destructors of its own, does not call code that panics. -/
inductive Stack.Step {B : Backend} : Stack B → Stack B → Prop
  /-- Calls that return: values are created, written, closed, cloned, moved, forgotten, scopes entered. Nothing is assumed about
  the values afterwards. -/
  | calls (s s' : List (List (Owned B))) : Step ⟨.running, s⟩ ⟨.running, s'⟩
  /-- A panic, in the client or in the crate. -/
  | panics (s : List (List (Owned B))) : Step ⟨.running, s⟩ ⟨Thread.panic .running, s⟩
  /-- The innermost scope is left, by its end or by unwinding: its next value is dropped. -/
  | drops (t : Thread) (v : Owned B) (vs : List (Owned B)) (s : List (List (Owned B))) (ht : t ≠ .aborted) :
      Step ⟨t, (v :: vs) :: s⟩ ⟨v.dropIn t, vs :: s⟩
  /-- All values of the innermost scope have been dropped. -/
  | left (t : Thread) (s : List (List (Owned B))) (ht : t ≠ .aborted) : Step ⟨t, [] :: s⟩ ⟨t, s⟩
  /-- `catch_unwind`. -/
  | caught (s : List (List (Owned B))) : Step ⟨.unwinding, s⟩ ⟨.running, s⟩

/-- Any number of steps. -/
inductive Stack.Steps {B : Backend} : Stack B → Stack B → Prop
  | refl (c : Stack B) : Steps c c
  | step {c c1 c2 : Stack B} (h : Steps c c1) (s : c1.Step c2) : Steps c c2

/-- Is a handle inside of the value still open (`is_open`)? -/
def Open {B : Backend} : Owned B → Prop
  | .handle h => h.isOpen = true
  | .vector v => v.isOpen = true
  | .multi v => v.index.isOpen = true ∨ v.handle.isOpen = true

end Flatdata.Spec
