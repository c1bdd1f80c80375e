import Verif.Proofs.OsPath
import Verif.Props.Interrupt
import Verif.Props.Moved
/-!
# Property C66: directories whose names are not text

On Unix the name of a directory may be any bytes. The storage writes files there, but it reads only files whose path is valid UTF-8.
-/
namespace Flatdata
open Spec StorageExample BuildExample InterruptExample

/-- An archive is built in a directory, and opened again there with the content that was written. -/
def BuildsAndOpens [DiffLib] (u : RawBytes) (p p' : Profile) (e e' : Endian) (D : ArchiveDef) (prog : Prog) (c : Content) (w : FileW) (o : Obj) : Prop :=
  ∃ w', buildArchive (fileOs u) p e o D prog w = (.ok (), w') ∧
    ∃ a w'', openArchive (fileOs u) p' e' o D w' = (.ok a, w'') ∧ ArchiveYields (fileOs u) w'' D a c

/-- C66, as one would like to have it: the round trip of C32 in directories with any name. -/
def C66_claim : Prop := ∀ [DiffLib] (u : RawBytes) (p p' : Profile) (e e' : Endian) (D : ArchiveDef) (prog : Prog) (c : Content) (w : FileW) (o : Obj),
  Separate D → SchemasReadable .disk D → Prepares p e D prog c → Kind.Reachable .disk w → Kind.alive .disk w o → Kind.noFault .disk w →
  Kind.Vacant .disk D w o → Kind.Clear .disk D w o → TextNames u D → BuildsAndOpens u p p' e e' D prog c w o

/-- Reading a resource in a directory whose path is not text: an error, `InvalidData` if the file exists and `NotFound` if not. -/
theorem C66_read (u : RawBytes) (w : FileW) (o : Obj) (n : String) (ho : u.text o.path = false) (hn : PlainName n) :
    ∃ b w', FileSt.existsRes o n w = (.ok b, w') ∧ (fileOs u).readResource o n w = (.err (if b then .invalidData else .notFound), w') :=
  FileSt.readOs_raw (u.join_raw ho hn) w

/-- Such a resource can not be read, whatever the file contains, and whatever other calls fail. -/
theorem C66_unreadable [DiffLib] (u : RawBytes) (p : Profile) (e : Endian) (w : FileW) (o : Obj) (n schema : String) (ho : u.text o.path = false)
    (hn : PlainName n) : ∃ x w', Storage.read (fileOs u) p e o n schema w = (.err (.io x n), w') ∧ (x = .invalidData ∨ x = .notFound) := by
  obtain ⟨b, w', _, h⟩ := C66_read u w o n ho hn
  refine ⟨if b then .invalidData else .notFound, w', ?_, ?_⟩
  · unfold Storage.read
    rw [Act.bind_err (Act.mapErr_err h)]
  · cases b
    · exact .inr rfl
    · exact .inl rfl

/-- ... and no archive can be opened there. -/
theorem C66_open [DiffLib] (u : RawBytes) (p : Profile) (e : Endian) (D : ArchiveDef) (w : FileW) (o : Obj) (hs : Separate D)
    (ho : u.text o.path = false) : ∃ x w', openArchive (fileOs u) p e o D w = (.err (.io x D.signature), w') ∧ (x = .invalidData ∨ x = .notFound) := by
  obtain ⟨name, schema, rs, subs⟩ := D
  have hn : PlainName (name ++ ".archive") := by
    unfold Separate at hs
    exact hs.1 _ (List.mem_append_left _ List.mem_cons_self)
  obtain ⟨x, w', h1, h2⟩ := C66_unreadable u p e w o (name ++ ".archive") schema ho hn
  refine ⟨x, w', ?_, h2⟩
  unfold openArchive
  rw [Act.bind_err h1]
  rfl

/-- In a directory whose path is text all is well. -/
theorem C66_text_partial [DiffLib] (u : RawBytes) (p p' : Profile) (e e' : Endian) (D : ArchiveDef) (prog : Prog) (c : Content) (w : FileW) (o : Obj)
    (hs : Separate D) (hm : SchemasReadable .disk D) (hc : Prepares p e D prog c) (hr : Kind.Reachable .disk w) (ho : Kind.alive .disk w o)
    (hn : Kind.noFault .disk w) (hv : Kind.Vacant .disk D w o) (hcl : Kind.Clear .disk D w o) (ht : TextNames u D) (hp : u.text o.path = true) :
    BuildsAndOpens u p p' e e' D prog c w o := by
  obtain ⟨w', h1, a, w'', h2, h3⟩ := C32_build_and_open .disk p p' e e' D prog c w o hs hm hc hr ho hn hv hcl (.inl rfl)
  have s1 := os_build hs hc hp ht w w rfl
  rcases hb : buildArchive (fileOs u) p e o D prog w with ⟨r, w1⟩
  rw [show buildArchive file p e o D prog w = (.ok (), w') from h1, hb] at s1
  obtain ⟨s1, rfl⟩ := s1
  cases r <;> first | exact False.elim s1 | skip
  refine ⟨w', hb, ?_⟩
  have s2 := os_open (p := p') (e := e') hs hp ht w' w' rfl
  rcases hq : openArchive (fileOs u) p' e' o D w' with ⟨r, w2⟩
  rw [show openArchive file p' e' o D w' = (.ok a, w'') from h2, hq] at s2
  obtain ⟨s2, s3⟩ := s2
  cases r with
  | ok b => exact ⟨b, w2, rfl, ReadAlike.archiveYields (S := (osAlike u).toReadAlike) s3 s2 h3⟩
  | err _ => exact False.elim s2
  | panic => exact False.elim s2
  | ub => exact False.elim s2

/-- C66, exactly: the round trip works if and only if the path of the directory is text. -/
theorem C66_exact [DiffLib] (u : RawBytes) (p p' : Profile) (e e' : Endian) (D : ArchiveDef) (prog : Prog) (c : Content) (w : FileW) (o : Obj)
    (hs : Separate D) (hm : SchemasReadable .disk D) (hc : Prepares p e D prog c) (hr : Kind.Reachable .disk w) (ho : Kind.alive .disk w o)
    (hn : Kind.noFault .disk w) (hv : Kind.Vacant .disk D w o) (hcl : Kind.Clear .disk D w o) (ht : TextNames u D) :
    BuildsAndOpens u p p' e e' D prog c w o ↔ u.text o.path = true := by
  refine ⟨?_, C66_text_partial u p p' e e' D prog c w o hs hm hc hr ho hn hv hcl ht⟩
  rintro ⟨w', _, a, w'', h, _⟩
  cases hx : u.text o.path with
  | true => rfl
  | false =>
    obtain ⟨x, w1, h1, _⟩ := C66_open u p' e' D w' o hs hx
    rw [h1] at h
    cases h

/-- Programs that use only setters write the same files, and get the same results, whatever the name of the directory is. -/
theorem C66_setters [DiffLib] (u : RawBytes) (p : Profile) (e : Endian) (D : ArchiveDef) (prog : Prog) (o : Obj) (h : ∀ r, ¬ Staged prog r) :
    buildArchive (fileOs u) p e o D prog = buildArchive file p e o D prog := by
  unfold buildArchive
  change (builderNew file p e o D >>= fun o' => prog.run (fileOs u) p e o') = _
  simp only [fun o' => os_run (u := u) (p := p) (e := e) (prog := prog) o' h]

/-- The others fail: `close` of a vector or a multivector wants to read what it has written. -/
theorem C66_vectors [DiffLib] (u : RawBytes) (p : Profile) (e : Endian) (D : ArchiveDef) (prog : Prog) (c : Content) (w : FileW) (o : Obj) (r : ResDecl)
    (hs : Separate D) (hc : Prepares p e D prog c) (ho : u.text o.path = false) (h : Staged prog r) :
    (buildArchive (fileOs u) p e o D prog w).1.isOk = false := (never_build hs hc ho h).not_ok w

/-- Where building an archive succeeds. -/
theorem C66_build_exact [DiffLib] (u : RawBytes) (p : Profile) (e : Endian) (D : ArchiveDef) (prog : Prog) (c : Content) (w : FileW) (o : Obj)
    (hs : Separate D) (hm : SchemasReadable .disk D) (hc : Prepares p e D prog c) (hr : Kind.Reachable .disk w) (ho : Kind.alive .disk w o)
    (hn : Kind.noFault .disk w) (hv : Kind.Vacant .disk D w o) (hcl : Kind.Clear .disk D w o) (ht : TextNames u D) :
    (∃ w', buildArchive (fileOs u) p e o D prog w = (.ok (), w')) ↔ u.text o.path = true ∨ ∀ r, ¬ Staged prog r := by
  constructor
  · rintro ⟨w', h⟩
    cases hx : u.text o.path with
    | true => exact .inl rfl
    | false =>
      refine .inr fun r hr => ?_
      have := C66_vectors u p e D prog c w o r hs hc hx hr
      rw [h] at this
      cases this
  · rintro (h | h)
    · obtain ⟨w', h1, _⟩ := C66_text_partial u p p e e D prog c w o hs hm hc hr ho hn hv hcl ht h
      exact ⟨w', h1⟩
    · rw [C66_setters u p e D prog o h]
      exact C32_build_succeeds .disk p e D prog c w o hs hm hc hr ho hn hv hcl

/-- What has been built with setters in a directory that can not be read is complete: moved or copied to a directory whose path is text
it can be opened, and has the content that was written. -/
theorem C66_moved [DiffLib] (u : RawBytes) (p p' : Profile) (e e' : Endian) (D : ArchiveDef) (prog : Prog) (c : Content) (d d2 : Disk) (path path2 : Path)
    (w : FileW) (hs : Separate D) (hm : SchemasReadable .disk D) (hc : Prepares p e D prog c) (hv : Kind.Vacant .disk D (started d) (directory path))
    (hset : ∀ r, ¬ Staged prog r) (hb : buildArchive (fileOs u) p e (directory path) D prog (started d) = (.ok (), w))
    (hcp : Copied D w.fs.disk path d2 path2) (ht : TextNames u D) (hp : u.text path2 = true) :
    ∃ a w', openArchive (fileOs u) p' e' (directory path2) D (started d2) = (.ok a, w') ∧ ArchiveYields (fileOs u) w' D a c := by
  rw [C66_setters u p e D prog _ hset] at hb
  obtain ⟨a, w1, h1, h2⟩ := build_reopen (p' := p') (e' := e') hs hm hc hv hb
  obtain ⟨a', w2, h3, h4⟩ := C55_yields p' e' D w.fs.disk d2 path path2 _ hs hcp c a w1 h1 h2
  have s2 := os_open (p := p') (e := e') (o := directory path2) hs hp ht (started d2) (started d2) rfl
  rcases hq : openArchive (fileOs u) p' e' (directory path2) D (started d2) with ⟨r, w2⟩
  rw [h3, hq] at s2
  obtain ⟨s2, s3⟩ := s2
  cases r with
  | ok b => exact ⟨b, w2, rfl, ReadAlike.archiveYields (S := (osAlike u).toReadAlike) s3 s2 h4⟩
  | err _ => exact False.elim s2
  | panic => exact False.elim s2
  | ub => exact False.elim s2

/-! ### Example -/
namespace OsExample

/-- A character that stands for a byte which is not part of valid UTF-8. -/
def byte : Char := Char.ofNat 0xF8FF

def bytes : RawBytes := ⟨fun c => c == byte, by decide, by decide⟩

/-- A directory with such a byte in its name. -/
def objR : Obj := ⟨0, ['x', byte]⟩

theorem sole_schemas : SchemasReadable .disk Sole := by
  refine ⟨(by decide : strBytes "sa" ≠ []), fun r hr => ?_, trivial⟩
  cases hr with
  | head => exact (by decide : strBytes "sv" ≠ [])
  | tail _ h => cases h

theorem sole_text : TextNames bytes Sole := by
  rintro t (⟨n, hn, rfl⟩ | h) x hx
  · cases hx with
    | tail _ h => cases h
    | head =>
      revert n
      exact (by decide : ∀ n ∈ ["A.archive", "A.archive.schema", "v", "v.schema"], bytes.text n.toList = true)
  · exact False.elim h

theorem raw_clear (D : ArchiveDef) : Kind.Clear .disk D (disk0 []) objR := by
  have hk : key (Obj.path objR) = [['x', byte]] := by decide
  refine ⟨fun _ => rfl, fun n _ => ?_, fun x _ t => ⟨rfl, fun y => ?_⟩⟩
  · change decide (key (Obj.path objR) ++ [n.toList] = [['d']]) = false
    rw [hk]; simp
  · change decide (key (Obj.path objR) ++ x.1.toList :: y :: t = [['d']]) = false
    rw [hk]; simp

theorem raw_vacant (D : ArchiveDef) : Kind.Vacant .disk D (disk0 []) objR := ⟨fun _ _ => rfl, fun _ _ _ _ _ _ => rfl, fun _ _ => rfl⟩

/-- With setters the archive is written, but not read. -/
example (D : DiffLib) : (∃ w, @buildArchive (fileOs bytes) D .debug .little objR Sole setProg (disk0 []) = (.ok (), w)) ∧
    ¬ @BuildsAndOpens D bytes .debug .debug .little .little Sole setProg soleContent (disk0 []) objR :=
  ⟨(@C66_build_exact D bytes .debug .little Sole setProg soleContent (disk0 []) objR sole_separate sole_schemas set_prepares (disk0_reachable _ _)
      Nat.zero_lt_one (disk0_noFault _) (raw_vacant _) (raw_clear _) sole_text).mpr (.inr set_setters),
    fun h => absurd ((@C66_exact D bytes .debug .debug .little .little Sole setProg soleContent (disk0 []) objR sole_separate sole_schemas set_prepares
      (disk0_reachable _ _) Nat.zero_lt_one (disk0_noFault _) (raw_vacant _) (raw_clear _) sole_text).mp h) (by decide)⟩

/-- With a vector it is not even written. -/
example (D : DiffLib) : (@buildArchive (fileOs bytes) D .debug .little objR Sole soleProg (disk0 [])).1.isOk = false :=
  @C66_vectors D bytes .debug .little Sole soleProg soleContent (disk0 []) objR rV sole_separate sole_prepares (by decide)
    (.elements List.mem_cons_self)

/-- The message. -/
example : (@buildArchive (fileOs bytes) naiveDiff .debug .little objR Sole soleProg (disk0 [])).1 = .err (.io .invalidData "v") := by decide +kernel

/-- In a directory whose name is text, on the same system. -/
example (D : DiffLib) : @BuildsAndOpens D bytes .debug .release .little .big Sole soleProg soleContent (disk0 []) objD :=
  @C66_text_partial D bytes .debug .release .little .big Sole soleProg soleContent (disk0 []) objD sole_separate sole_schemas sole_prepares
    (disk0_reachable _ _) Nat.zero_lt_one (disk0_noFault _) (disk_vacant _) (disk_clear _) sole_text (by decide)

/-- The disk after the archive has been written in that directory, and the directory renamed to `y`. -/
def renamed (x : Disk) : Disk where
  files
    | ['y'] :: t => x.files (['x', byte] :: t)
    | _ => none
  isDir
    | ['y'] :: t => x.isDir (['x', byte] :: t)
    | _ => false

/-- The hypotheses of `C66_moved`. -/
example (D : DiffLib) : ∃ w, @buildArchive (fileOs bytes) D .debug .little (directory ['x', byte]) Sole setProg (started ⟨fun _ => none, fun _ => false⟩) = (.ok (), w) ∧
    ∃ a w', @openArchive (fileOs bytes) D .debug .big (directory ['y']) Sole (started (renamed w.fs.disk)) = (.ok a, w') ∧
      ArchiveYields (fileOs bytes) w' Sole a soleContent := by
  obtain ⟨w, h⟩ := (@C66_build_exact D bytes .debug .little Sole setProg soleContent (started ⟨fun _ => none, fun _ => false⟩) (directory ['x', byte])
      sole_separate sole_schemas set_prepares (started_reachable _ _) Nat.zero_lt_one (fun _ _ => rfl)
      ⟨fun _ _ => rfl, fun _ _ _ _ _ _ => rfl, fun _ _ => rfl⟩ ⟨fun _ => rfl, fun _ _ => rfl, fun _ _ _ => ⟨rfl, fun _ => rfl⟩⟩ sole_text).mpr (.inr set_setters)
  refine ⟨w, h, @C66_moved D bytes .debug .debug .little .big Sole setProg soleContent _ (renamed w.fs.disk) ['x', byte] ['y'] w sole_separate sole_schemas
    set_prepares ⟨fun _ _ => rfl, fun _ _ _ _ _ _ => rfl, fun _ _ => rfl⟩ set_setters h ?_ sole_text (by decide)⟩
  intro t _
  have h1 : key ['x', byte] = [['x', byte]] := by decide
  have h2 : key ['y'] = [['y']] := by decide
  rw [h1, h2]
  exact ⟨rfl, rfl⟩

end OsExample

open OsExample in
/-- It does not hold. -/
theorem C66_refuted : ¬ C66_claim := fun h =>
  absurd ((@C66_exact naiveDiff bytes .debug .debug .little .little Sole setProg soleContent (disk0 []) objR sole_separate sole_schemas set_prepares
      (disk0_reachable _ _) Nat.zero_lt_one (disk0_noFault _) (raw_vacant _) (raw_clear _) sole_text).mp
    (@h naiveDiff bytes .debug .debug .little .little Sole setProg soleContent (disk0 []) objR sole_separate sole_schemas set_prepares
      (disk0_reachable _ _) Nat.zero_lt_one (disk0_noFault _) (raw_vacant _) (raw_clear _) sole_text)) (by decide)

end Flatdata
