import Verif.Proofs.Borrow
import Verif.Props.ExtVectors
/-!
# C60: dynamic borrow checks
-/
namespace Flatdata
open Spec Borrow StorageExample

/-- C60, as one would like it: a call of a storage in memory never fails a borrow check, whatever borrows of its own streams the
client holds (it cannot hold one of the maps, which are private). -/
def C60_claim : Prop := ∀ (o : Obj) (n : String) (w : MemW) (b : MemCell → Flag), MemSt.Free b →
  MemSt.readResourceB o n (w, b) = inner (MemSt.readResource o n) (w, b) ∧
  MemSt.existsResB o n (w, b) = inner (MemSt.existsRes o n) (w, b) ∧
  MemSt.createOutputStreamB o n (w, b) = inner (MemSt.createOutputStream o n) (w, b)

namespace BorrowExample

/-- A stream was created in memory, and the client holds its `borrow_mut()`. -/
def streamed : MemW := (MemSt.createOutputStream obj "x" mem0).2

def holding : MemCell → Flag := upd (fun _ => .free) (.stream (MemSt.loc obj "x")) .exclusive

theorem holding_free : MemSt.Free holding := fun _ => ⟨upd_other _ _ (by simp), upd_other _ _ (by simp)⟩

theorem held : MemSt.Held streamed holding (MemSt.loc obj "x") := ⟨by decide, by decide, by decide⟩

end BorrowExample
open BorrowExample

/-- It is refuted: a client that holds a `borrow_mut()` of the stream of a resource that was not read yet panics when it reads the
resource (`stream.borrow()` in `read_resource`, src/memstorage.rs:76). -/
theorem C60_refuted : ¬ C60_claim := by
  intro h
  have h1 := (h obj "x" streamed holding holding_free).1
  rcases MemSt.readResourceB_eq (w := streamed) holding_free obj "x" with ⟨_, h2⟩ | ⟨h2, _⟩
  · rw [h1] at h2
    have h3 := congrArg Prod.fst h2
    change (MemSt.readResource obj "x" streamed).1 = .panic at h3
    revert h3
    decide
  · exact h2 held

/-- Exactly this call fails: for all borrows of streams, `exists` and `create_output_stream` pass their checks, and
`read_resource` fails them if and only if the bytes have to be copied from a stream that is mutably borrowed; then it panics and
nothing changes. -/
theorem C60_memory_exact (o : Obj) (n : String) (w : MemW) (b : MemCell → Flag) (h : MemSt.Free b) :
    MemSt.existsResB o n (w, b) = inner (MemSt.existsRes o n) (w, b) ∧
    MemSt.createOutputStreamB o n (w, b) = inner (MemSt.createOutputStream o n) (w, b) ∧
    MemSt.readResourceB o n (w, b) =
      open Classical in if w.resources (MemSt.loc o n) = none ∧ (w.streams (MemSt.loc o n)).isSome = true ∧
          b (.stream (MemSt.loc o n)) = .exclusive then (.panic, (w, b))
        else inner (MemSt.readResource o n) (w, b) := by
  refine ⟨MemSt.existsResB_eq h o n, MemSt.createOutputStreamB_eq h o n, ?_⟩
  rcases MemSt.readResourceB_eq (w := w) h o n with ⟨h1, h2⟩ | ⟨h1, h2⟩
  · rw [h2]; exact (if_pos h1).symm
  · rw [h2]; exact (if_neg h1).symm

example : MemSt.Free holding ∧ MemSt.readResourceB obj "x" (streamed, holding) = (.panic, (streamed, holding)) := by
  refine ⟨holding_free, ?_⟩
  rcases MemSt.readResourceB_eq (w := streamed) holding_free obj "x" with ⟨_, h2⟩ | ⟨h2, _⟩
  · exact h2
  · exact absurd held h2

/-- On disk, reading passes its checks whatever streams the client has borrowed; the other two methods have none. -/
theorem C60_disk_read (o : Obj) (n : String) (w : FileW) (b : FileCell → Flag) (h : ∀ id, b (.maps id) = .free) :
    FileSt.readResourceB o n (w, b) = inner (FileSt.readResource o n) (w, b) := FileSt.readResourceB_eq h o n

example : ∀ id, upd (fun _ => Flag.free) (FileCell.stream 3) .exclusive (.maps id) = .free := fun _ => upd_other _ _ (by simp)

/-- The guards of the library that live longer than one call: each has the effect of a guard for each of the calls in its scope.
In particular `write` never runs into its own guard, although it creates and writes the stream of the schema while the stream of
the data is borrowed, and nothing is left borrowed. Whatever is borrowed before. -/
theorem C60_guards (p : Profile) (e : Endian) :
    (∀ (o : Obj) (name schema : String) (data : Bytes), memB.write p e o name schema data = Storage.write memB.backend p e o name schema data) ∧
    (∀ (o : Obj) (name schema : String) (data : Bytes), fileB.write p e o name schema data = Storage.write fileB.backend p e o name schema data) ∧
    ∀ G : Borrowing, (∀ s, G.reserve p e s = Storage.writeSize G.backend p e 0 s) ∧
      ∀ (h : Handle G.backend) s, G.finish p e h.size s = h.finish p e s :=
  ⟨fun o n s d => Borrowing.write_eq p e memB_apart o n s d, fun o n s d => Borrowing.write_eq p e fileB_apart o n s d,
    fun G => ⟨fun s => G.reserve_eq p e s, fun h s => G.finish_eq p e h s⟩⟩

/-- Writing through a stream that is borrowed panics, and nothing changes. -/
theorem C60_busy (G : Borrowing) (s : G.plain.Strm) (d : Bytes) (w : G.plain.W) (b : G.Cell → Flag) (h : b (G.cell s) ≠ .free) :
    G.backend.writeAll s d (w, b) = (.panic, (w, b)) ∧ G.backend.seekStart s (w, b) = (.panic, (w, b)) :=
  ⟨withMut_not _ h, withMut_not _ h⟩

example : holding (memB.cell (MemSt.loc obj "x")) ≠ .free := by decide

/-- The part of the claim that holds: no session that releases its borrows of streams before the next call ever fails a borrow
check. It sees the same, and leaves the same state behind, as if there were no checks; and afterwards nothing is borrowed. In
memory... -/
theorem C60_memory_partial [DiffLib] (p : Profile) (e : Endian) (x : Session) (hx : x.Plain) (objs : List Obj) (w : MemW) :
    x.run p e (Vars.init (B := memB.backend) objs) (w, fun _ => .free) =
      ((x.run p e (Vars.init (B := mem) objs) w).1, ((x.run p e (Vars.init (B := mem) objs) w).2, fun _ => .free)) :=
  memB_clean.session p e x hx objs w

/-- ... and on disk. -/
theorem C60_disk_partial [DiffLib] (p : Profile) (e : Endian) (x : Session) (hx : x.Plain) (objs : List Obj) (w : FileW) :
    x.run p e (Vars.init (B := fileB.backend) objs) (w, fun _ => .free) =
      ((x.run p e (Vars.init (B := file) objs) w).1, ((x.run p e (Vars.init (B := file) objs) w).2, fun _ => .free)) :=
  fileB_clean.session p e x hx objs w

namespace BorrowExample

/-- A session: a vector of one element is written and closed, the resource is read again, and written once more. -/
def sess : Session :=
  .call (.vector 0 0 "x" "s") fun _ => .call (.vectorGrow 0 VecExample.S [.set (.plain "a" .u64 0 64) 5]) fun _ =>
  .call (.vectorClose 0 0) fun _ => .call (.read 1 0 "x" "s") fun _ => .call (.look 1) fun _ => .call (.write 0 "x" "s" [1#8]) fun _ => .done

theorem sess_plain : sess.Plain := by
  unfold sess
  refine ⟨nofun, fun _ => ⟨nofun, fun _ => ⟨nofun, fun _ => ⟨nofun, fun _ => ⟨nofun, fun _ => ⟨nofun, fun _ => trivial⟩⟩⟩⟩⟩⟩

theorem sess_seen : (@Session.run memB.backend naiveDiff .debug .little sess (Vars.init [obj]) (mem0, fun _ => .free)).1 =
    [.seen .nothing, .seen .nothing, .seen (.len 8), .seen (.len 8), .seen (.bytes (le64 5)), .seen .nothing] := by decide +kernel

end BorrowExample

end Flatdata
