import Verif.Spec.Shared
/-!
# Power failures

The library never asks the operating system to put anything on the disk (`fsync`). When the power fails, what is on the disk is older
than what the process has written, and not equally old for all files.
-/
namespace Flatdata.Spec

/-- The process gets as far as the moment `i`: earlier calls end as they would, the call of that moment fails after at most `bytes` bytes. -/
def cutAt (i : Moment) (w : FileW) : FileW :=
  { w with fs := { w.fs with
    fault := fun t => if t < i.call then w.fs.fault t else if t = i.call then some (min i.bytes ((w.fs.fault t).getD i.bytes)) else some 0 } }

/-- The power fails while a process runs `x` from `w` on, or later. The first process afterwards finds every file as it was at some moment:
each file at its own one (perhaps when it was not there yet), but the bytes of one file in the order in which they were written. -/
structure PowerLoss {E α : Type} (x : Act FileW E α) (w w1 : FileW) : Prop where
  files : ∀ k, ∃ i, w1.fs.files k = (x (cutAt i w)).2.fs.files k
  initial : Kind.initial .disk w1

/-- A file whose length has been written, but not all of its bytes: the others are zero. -/
def Torn (d d' : Bytes) : Prop := d'.length = d.length ∧ ∀ j : Nat, d'[j]? = d[j]? ∨ d'[j]? = some 0#8

/-- The same for a file system that does not keep the order of the bytes within a file. -/
structure TornLoss {E α : Type} (x : Act FileW E α) (w w1 : FileW) : Prop where
  files : ∀ k, ∃ i, w1.fs.files k = (x (cutAt i w)).2.fs.files k ∨
    ∃ d d', (x (cutAt i w)).2.fs.files k = some d ∧ w1.fs.files k = some d' ∧ Torn d d'
  initial : Kind.initial .disk w1

end Flatdata.Spec
