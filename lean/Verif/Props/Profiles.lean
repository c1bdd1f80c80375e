import Verif.Proofs.Agree
import Verif.Props.Succeeds
/-!
# C46, C47: build profile and byte order do not matter

`Client B α` (Spec/Client) is an arbitrary program that calls the library and reacts to the results.
-/
namespace Flatdata
open Spec StorageExample VecExample MvExample BuildExample

variable {B : Backend} [DiffLib]

/-- C46: a program that does not panic in a debug build does the same in a release build: the same result (also if it is an error),
the same state of the storage. -/
theorem C46_programs {α : Type} (c : Client B α) (e : Endian) (w : B.W) (h : (c.run .debug e w).1 ≠ .panic) :
    c.run .release e w = c.run .debug e w := by
  rcases client_agree (e := e) (e' := e) (.inr ⟨rfl, rfl⟩) c w with hw | ⟨_, _, hw⟩
  · exact hw.symm
  · exact absurd hw h

/-- C46 for every single call. -/
theorem C46_calls {β : Type} (c : Call B β) (e : Endian) (w : B.W) (h : (c.run .debug e w).1 ≠ .panic) :
    c.run .release e w = c.run .debug e w := by
  rcases call_agree (e := e) (e' := e) (.inr ⟨rfl, rfl⟩) c w with hw | ⟨_, _, hw⟩
  · exact hw.symm
  · exact absurd hw h

/-- C46 for the programs that build an archive (`Spec/Program`). -/
theorem C46_build (o : B.Obj) (D : ArchiveDef) (prog : Prog) (e : Endian) (w : B.W)
    (h : (buildArchive B .debug e o D prog w).1 ≠ .panic) :
    buildArchive B .release e o D prog w = buildArchive B .debug e o D prog w := by
  rcases buildArchive_agree (e := e) (e' := e) (.inr ⟨rfl, rfl⟩) o D prog w with hw | ⟨_, _, hw⟩
  · exact hw.symm
  · exact absurd hw h

omit [DiffLib] in
/-- C46 for copying an archive. -/
theorem C46_copy (D : ArchiveDef) (a : Archive B.Base) (e : Endian) (w : B.W) (h : copyProg B w .debug e D a ≠ .panic) :
    copyProg B w .release e D a = copyProg B w .debug e D a := by
  rcases copyProg_agree (w := w) (e := e) (e' := e) (.inr ⟨rfl, rfl⟩) D a with hw | ⟨_, _, hw⟩
  · exact hw.symm
  · exact absurd hw h

/-- C47: programs do exactly the same on hosts of either byte order. -/
theorem C47_programs {α : Type} (c : Client B α) (p : Profile) (e e' : Endian) : c.run p e = c.run p e' := by
  funext w
  rcases client_agree (e := e) (e' := e') (.inl rfl) c w with hw | ⟨h1, h2, _⟩
  · exact hw
  · rw [h1] at h2; cases h2

/-- C47 for every single call. -/
theorem C47_calls {β : Type} (c : Call B β) (p : Profile) (e e' : Endian) : c.run p e = c.run p e' := by
  funext w
  rcases call_agree (e := e) (e' := e') (.inl rfl) c w with hw | ⟨h1, h2, _⟩
  · exact hw
  · rw [h1] at h2; cases h2

/-- C47 for the programs that build an archive. -/
theorem C47_build (o : B.Obj) (D : ArchiveDef) (prog : Prog) (p : Profile) (e e' : Endian) :
    buildArchive B p e o D prog = buildArchive B p e' o D prog := by
  funext w
  rcases buildArchive_agree (e := e) (e' := e') (.inl rfl) o D prog w with hw | ⟨h1, h2, _⟩
  · exact hw
  · rw [h1] at h2; cases h2

omit [DiffLib] in
/-- C47 for copying an archive. -/
theorem C47_copy (D : ArchiveDef) (a : Archive B.Base) (p : Profile) (e e' : Endian) (w : B.W) :
    copyProg B w p e D a = copyProg B w p e' D a := by
  rcases copyProg_agree (w := w) (e := e) (e' := e') (.inl rfl) D a with hw | ⟨h1, h2, _⟩
  · exact hw
  · rw [h1] at h2; cases h2

/-- Non-vacuity of `C46_calls` and `C47_calls`: an access in range, in a release build on a big-endian host. -/
example [DiffLib] : ((Call.viewAt 2 [1#8, 2#8, 3#8, 4#8] 1 : Call mem _).run .release .big mem0) =
    ((Call.viewAt 2 [1#8, 2#8, 3#8, 4#8] 1 : Call mem _).run .debug .little mem0) := by
  rw [C47_calls (B := mem) _ .release .big .little]
  exact C46_calls (B := mem) _ .little mem0 (by
    change ((Act.lift (View.at' .debug 2 [1#8, 2#8, 3#8, 4#8] 1) : Act MemW Empty Bytes) mem0).1 ≠ .panic
    decide)

namespace ProfileExample

/-- A program: writes a resource, reads it, and returns the element it finds, or 0. -/
def prog : Client mem Nat :=
  .call (.write obj "x" "s" [1#8, 2#8, 3#8]) fun r => match r with
    | .error _ => .ret 0
    | .ok () => .call (.read obj "x" "s") fun r => match r with
      | .error _ => .ret 0
      | .ok s => .call (.other fun w => Act.lift (mem.deref w s) w) fun data =>
        .call (.viewAt 1 data 1) fun x => .ret (x.length)

/-- It does not panic in a debug build, so C46 applies. -/
example (e : Endian) : (@Client.run mem naiveDiff .release e _ prog mem0).1 = .ok 2 := by
  have hd : (@Client.run mem naiveDiff .debug .little _ prog mem0).1 = .ok 2 := by decide
  rw [@C47_programs mem naiveDiff _ prog .release e .little, @C46_programs mem naiveDiff _ prog .little mem0 (by rw [hd]; decide), hd]

/-- Building the example archive, in a release build on a big-endian host, as in a debug build on a little-endian one. -/
example : @buildArchive file naiveDiff .release .big objD Coappearances.Graph graphProg (disk0 []) =
    @buildArchive file naiveDiff .debug .little objD Coappearances.Graph graphProg (disk0 []) := by
  obtain ⟨w, h⟩ : ∃ w, @buildArchive file naiveDiff .debug .little objD Coappearances.Graph graphProg (disk0 []) = (.ok (), w) :=
    @C32_build_succeeds naiveDiff .disk .debug .little Coappearances.Graph graphProg graphContent (disk0 []) objD graph_separate
      (graph_schemas .disk) graph_prepares (disk0_reachable _ _) Nat.zero_lt_one (disk0_noFault _) (disk_vacant _) (disk_clear _)
  rw [@C47_build file naiveDiff objD _ graphProg .release .big .little, @C46_build file naiveDiff objD _ graphProg .little _ (by rw [h]; exact nofun)]

/-- The restriction to programs that do not panic is needed: `at` with an index that overflows. -/
example : (@Call.run mem naiveDiff .debug .little _ (.viewAt 2 [1#8, 2#8] (2 ^ 63)) mem0).1 = .panic ∧
    (@Call.run mem naiveDiff .release .little _ (.viewAt 2 [1#8, 2#8] (2 ^ 63)) mem0).1 = .ok [1#8, 2#8] := by
  decide

end ProfileExample

end Flatdata
