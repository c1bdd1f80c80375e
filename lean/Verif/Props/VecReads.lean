import Verif.Props.VecClose
import Verif.Props.Vectors
/-!
# Properties C36, C37, C06 for external vectors: reads in between, other resources, fresh elements
-/
namespace Flatdata
open Spec StorageExample VecExample

/-! ## C36: reading what is being written -/

/-- A predicate kept by reading single resources is kept by `read`. -/
theorem pres_storageRead [DiffLib] {B : Backend} {p : Profile} {e : Endian} {o : B.Obj} {name expected : String} {P : B.W → Prop}
    (h : ∀ n, Act.Pres P (B.readResource o n)) : Act.Pres P (Storage.read B p e o name expected) := by
  refine .bind (.mapErr (h _)) fun sd => .bind (.mapErr (h _)) fun ss => ?_
  intro w hw
  rw [(checkResource_same p e name expected (w := w) (w' := w) (sd := sd) (ss := ss) rfl rfl).2.1]
  exact hw

theorem Writing.storageRead [DiffLib] {B : Backend} {L : Laws B} {o o' : B.Obj} {name schema n s : String} {p : Profile} {e : Endian}
    {w w' : B.W} {h : Handle B} {pre c : Bytes} (i : Writing L o name schema w h pre c) {r}
    (hr : Storage.read B p e o' n s w = (r, w')) : Writing L o name schema w' h pre c := by
  have := pres_storageRead (p := p) (e := e) (o := o') (name := n) (expected := s) (P := fun w => Writing L o name schema w h pre c)
    (fun n w i => i.read rfl) w i
  rw [hr] at this; exact this

/-- C36 in full, for external vectors: a read of a vector that is being written fails, and then `close` still shows all
elements. -/
def C36_claim (k : Kind) : Prop :=
  ∀ (_ : DiffLib) (p p' : Profile) (e e' : Endian) (S : StructDef) (w0 w w1 w2 : k.backend.W) (o : k.backend.Obj) (name schema : String)
    (v v1 : ExtVec k.backend) (es : List (List HandleOp)) (r : Res RErr (Slice k.backend.Base)), 0 < S.size → k.Reachable w0 →
    k.alive w0 o → k.Unused w0 o name → k.noFault w0 → k.mappable (strBytes schema) →
    createExternalVector p e o name schema w0 = (.ok v, w) → Grows k p e S o name w v es w1 v1 → es.length * S.size + 8 < 2 ^ 63 →
    Storage.read k.backend p' e' o name schema w1 = (r, w2) →
    (∃ x, r = .err x) ∧ ∃ xs s w3, Elements p e S es xs ∧ v1.close p e w2 = (.ok s, w3) ∧ k.backend.deref w3 s = .ok xs.flatten

/-- Builds the vector, reads it, closes it. -/
def VecExample.buildReadClose (B : Backend) (o : B.Obj) : Act B.W RErr (Slice B.Base) := do
  let v ← (build o es).mapErr (RErr.io · "x")
  let _ ← Act.attempt (@Storage.read B .debug .little naiveDiff o "x" "s")
  @ExtVec.close B .debug .little naiveDiff v

theorem VecExample.buildReadClose_err {B : Backend} {o : B.Obj} {w0 w1 w2 : B.W} {v1 : ExtVec B} {r}
    (h : (buildReadClose B o w0).1.isErr = true) (hb : build o es w0 = (.ok v1, w1))
    (hr : @Storage.read B .debug .little naiveDiff o "x" "s" w1 = (r, w2)) :
    (@ExtVec.close B .debug .little naiveDiff v1 w2).1.isErr = true := by
  unfold buildReadClose at h
  rw [Act.bind_ok (Act.mapErr_ok hb)] at h
  cases r with
  | ok a => rw [Act.bind_ok (Act.attempt_ok hr)] at h; exact h
  | err a => rw [Act.bind_ok (Act.attempt_err hr)] at h; exact h
  | panic => rw [Act.bind_def] at h; unfold Act.attempt at h; rw [hr] at h; cases h
  | ub => rw [Act.bind_def] at h; unfold Act.attempt at h; rw [hr] at h; cases h

/-- Memory: the read keeps the unfinished bytes forever. -/
theorem C36_refuted_memory : ¬ C36_claim .memory := by
  intro h
  have hb : (build (B := mem) obj es mem0).1.isOk = true := by decide
  obtain ⟨v1, w1, hb⟩ := isOk_run hb
  obtain ⟨v, w, hc, g⟩ := build_grows (k := .memory) hb
  obtain ⟨_, xs, s, w3, _, hcl, _⟩ := h naiveDiff .debug .debug .little .little S mem0 w w1
    (@Storage.read mem .debug .little naiveDiff obj "x" "s" w1).2 obj "x" "s" v v1 es
    (@Storage.read mem .debug .little naiveDiff obj "x" "s" w1).1 (by decide)
    ⟨mem0, fun _ => ⟨rfl, rfl⟩, .refl _⟩ (by change 0 < 1; decide) (unused_mem0 _) trivial trivial hc g (by decide) rfl
  have hp := buildReadClose_err (B := mem) (o := obj) (w0 := mem0) (by decide) hb rfl
  have := hp.symm.trans (congrArg (fun x => x.1.isErr) hcl)
  cases this

/-- Disk: the storage object keeps the mapping of the unfinished file, which is too short. -/
theorem C36_refuted_disk : ¬ C36_claim .disk := by
  intro h
  have hb : (build (B := file) objD es (disk0 [])).1.isOk = true := by decide
  obtain ⟨v1, w1, hb⟩ := isOk_run hb
  obtain ⟨v, w, hc, g⟩ := build_grows (k := .disk) hb
  obtain ⟨_, xs, s, w3, _, hcl, _⟩ := h naiveDiff .debug .debug .little .little S (disk0 []) w w1
    (@Storage.read file .debug .little naiveDiff objD "x" "s" w1).2 objD "x" "s" v v1 es
    (@Storage.read file .debug .little naiveDiff objD "x" "s" w1).1 (by decide)
    (disk0_reachable _ _) (by change 0 < 1; decide) (unused_disk0 ..) (disk0_noFault _) (by change strBytes "s" ≠ []; decide)
    hc g (by decide) rfl
  have hp := buildReadClose_err (B := file) (o := objD) (w0 := disk0 []) (by decide) hb rfl
  have := hp.symm.trans (congrArg (fun x => x.1.isErr) hcl)
  cases this

/-- First half: as long as nothing fails, the (first) read of a vector that is being written returns an error. -/
theorem C36_read_fails_partial [DiffLib] (k : Kind) (p p' : Profile) (e e' : Endian) (S : StructDef) (hs : 0 < S.size)
    (w0 w w1 w2 : k.backend.W) (o : k.backend.Obj) (name schema schema' : String) (v v1 : ExtVec k.backend) (es : List (List HandleOp))
    (r : Res RErr (Slice k.backend.Base)) (hu : k.Unused w0 o name) (hn : k.noFault w0)
    (hc : createExternalVector p e o name schema w0 = (.ok v, w)) (g : Grows k p e S o name w v es w1 v1)
    (hb : es.length * S.size + 8 < 2 ^ 63) (hr : Storage.read k.backend p' e' o name schema' w1 = (r, w2)) : ∃ x, r = .err x := by
  obtain ⟨i, u, n⟩ := created_inv S.size hu hc
  obtain ⟨pre, buf, c, i1, el, u1, nf, fl⟩ := grows_inv i u hs g hb
  obtain ⟨st, _, a⟩ := i1.writing.stream
  obtain ⟨r', w', h1, _, _, h2⟩ := read_cases (L := k.laws) p' e' (expected := schema') (k.loc_schema_ne o name) u1.data u1.schema (by
    intro d hd
    rw [a.medium] at hd; cases hd
    rw [take8_le64, le64_zero, leNat_zeros]; decide)
  rw [hr] at h1; cases h1
  rcases h2 with h2 | ⟨s, d, x, _, hd, _, hx, _⟩
  · exact h2
  · exfalso
    rw [a.medium] at hd; cases hd
    have h3 := hx.size
    rw [take8_le64, le64_zero, leNat_zeros] at h3
    have h4 := hx.length
    rw [List.length_append, length_le64, (nf (n hn)).2, ← h3] at h4
    rcases fl with rfl | fl
    · simp at h4
    · have : bufferLimit = 33554432 := by decide
      omega

/-- Second half: a read through another storage object has no effect on the vector. Such a read is one of the things that may
happen in a history, so `C21_roundtrip` and `C22_faults` cover it. -/
theorem C36_other_object_partial [DiffLib] (k : Kind) (p p' : Profile) (e e' : Endian) (S : StructDef) (w w1 w2 : k.backend.W)
    (o o' : k.backend.Obj) (name n schema' : String) (v v1 : ExtVec k.backend) (es : List (List HandleOp))
    (r : Res RErr (Slice k.backend.Base)) (g : Grows k p e S o name w v es w1 v1) (ho : k.alive w1 o') (hi : k.ident o' ≠ k.ident o)
    (hr : Storage.read k.backend p' e' o' n schema' w1 = (r, w2)) : Grows k p e S o name w v es w2 v1 := by
  have := pres_storageRead (p := p') (e := e') (o := o') (name := n) (expected := schema')
    (P := fun w2 => Grows k p e S o name w v es w2 v1 ∧ k.alive w2 o')
    (fun m w h => ⟨.elsewhere h.1 h.2 hi rfl, (Kind.Step.read (n := m) h.2 rfl).alive h.2⟩) w1 ⟨g, ho⟩
  rw [hr] at this; exact this.1

/-- Non-vacuity: a read through another storage object of the same directory, between `grow` and `close`. -/
example [DiffLib] (v v1 : ExtVec file) (w w1 : FileW) (g : Grows .disk .debug .little S objD "x" w v es w1 v1) (o' : file.Obj)
    (ho : Kind.alive .disk w1 o') (hi : Kind.ident .disk o' ≠ Kind.ident .disk objD) :
    Grows .disk .debug .little S objD "x" w v es (Storage.read file .release .big o' "x" "s" w1).2 v1 :=
  C36_other_object_partial .disk .debug .release .little .big S w w1 _ objD o' "x" "x" "s" v v1 es _ g ho hi rfl

/-- On disk nothing is lost by a read through the same object either: although `close` fails, the complete resource is there for
the next process. -/
theorem C36_disk_not_lost [DiffLib] (p p' p'' : Profile) (e e' e'' : Endian) (S : StructDef) (hs : 0 < S.size)
    (w0 w w1 w2 w3 w4 : FileW) (o o' : Obj) (name n schema schema' : String) (v v1 : ExtVec file) (es : List (List HandleOp))
    (r r' : Res RErr (Slice Key)) (hu : Kind.Unused .disk w0 o name) (hn : Kind.noFault .disk w0) (hm : schema ≠ "")
    (hc : createExternalVector (B := file) p e o name schema w0 = (.ok v, w)) (g : Grows .disk p e S o name w v es w1 v1)
    (hb : es.length * S.size + 8 < 2 ^ 63) (hr : Storage.read file p' e' o n schema' w1 = (r, w2))
    (hcl : v1.close p e w2 = (r', w3)) (hp : NewProcess w3 w4) (hn' : Kind.noFault .disk w4) (ho : o'.path = o.path) :
    ∃ xs s w5, Elements p e S es xs ∧ Storage.read file p'' e'' o' name schema w4 = (.ok s, w5) ∧ file.deref w5 s = .ok xs.flatten := by
  obtain ⟨i, u, nf0⟩ := created_inv (k := .disk) S.size hu hc
  obtain ⟨pre, buf, c, i1, el, u1, nf, _⟩ := grows_inv i u hs g hb
  obtain ⟨nf1, ec⟩ := nf (nf0 hn)
  have hlen := el.length_eq
  have hne := Kind.loc_schema_ne .disk o name
  have i2 : EvInv fileLaws o name schema S.size w2 v1 pre buf c := ⟨i1.writing.storageRead hr, i1.rep, i1.len, i1.all⟩
  have nf2 : Kind.noFault .disk w2 := by
    have := pres_storageRead (B := file) (p := p') (e := e') (o := o) (name := n) (expected := schema')
      (P := fileLaws.noFault) (fun m w h => (fileLaws.read_keeps rfl).2.2.2.2 h) w1 nf1
    rw [hr] at this; exact this
  have hsz : (pre ++ buf).flatten.length < 2 ^ 63 := by rw [el.allSize.length_flatten, ← hlen]; omega
  have fin : fileLaws.medium w3 (fileLaws.loc o name) = some (image (pre ++ buf).flatten) ∧
      fileLaws.medium w3 (fileLaws.loc o (Storage.schemaName name)) = some (strBytes schema) := by
    unfold ExtVec.close at hcl
    rcases i2.flush hne p (by rw [← hlen]; omega) with ⟨v', w5, h5, i5, o5⟩ | ⟨_, _, _, _, _, _, nf⟩
    · rw [Act.bind_ok (Act.attempt_ok h5)] at hcl
      change ExtVec.closeHandle p e v' w5 = _ at hcl
      have hh : ∃ r w6, v'.handle.close p e w5 = (r, w6) := ⟨_, _, rfl⟩
      obtain ⟨r6, w6, hh⟩ := hh
      obtain ⟨m1, m2, hop⟩ := i5.writing.close_stored hne p e hsz (o5.noFault nf2) hh
      have hw : w3 = w6 := by
        unfold ExtVec.closeHandle at hcl
        cases r6 with
        | ok a =>
          rw [Act.bind_ok (Act.mapErr_ok hh)] at hcl
          have hd : (a.2.drop : Act FileW RErr Unit) w6 = (.ok (), w6) := by
            unfold Handle.drop; rw [hop a rfl]; rfl
          rw [Act.bind_ok hd] at hcl
          cases h7 : a.1 with
          | ok s => rw [h7] at hcl; cases hcl; rfl
          | error x => rw [h7] at hcl; cases hcl; rfl
        | err x => exact x.elim
        | panic => rw [Act.bind_panic (by unfold Act.mapErr; rw [hh])] at hcl; cases hcl; rfl
        | ub =>
          rw [Act.bind_def] at hcl
          have : (v'.handle.close p e).mapErr (Empty.elim : Empty → RErr) w5 = (.ub, w6) := by unfold Act.mapErr; rw [hh]
          rw [this] at hcl; cases hcl; rfl
      rw [hw]
      refine ⟨m1.trans ?_, m2⟩
      rw [ec, List.flatten_append]; rfl
    · exact absurd nf2 nf
  have hl : ∀ n, fileLaws.loc o' n = fileLaws.loc o n := by
    intro n; change key (join o'.path n) = key (join o.path n); rw [ho]
  have hmm : ∀ l, fileLaws.medium w4 l = fileLaws.medium w3 l := fun l => congrFun hp.files l
  have hcache : ∀ n, fileLaws.cache w4 o' n = none := by
    intro n; change Option.map _ (w4.maps _ _) = none; rw [hp.initial.1]; rfl
  have hsn : strBytes schema ≠ [] := fun h => hm (strBytes_eq_nil.mp h)
  obtain ⟨s', w5, h5, d5⟩ := read_new_ok (L := fileLaws) p'' e'' (o := o') (name := name) (schema := schema) (w := w4)
    (Kind.loc_schema_ne .disk o' name) hn' ((hmm _).trans (by rw [hl]; exact fin.1)) ((hmm _).trans (by rw [hl]; exact fin.2))
    (holds_image (pre ++ buf).flatten (by omega)) (by omega) hsn (hcache _) (hcache _)
  exact ⟨pre ++ buf, s', w5, el, h5, d5⟩

/-- Two elements on disk, read before closing: the next process finds them. -/
example : ∃ w3 w4 r, buildReadClose file objD (disk0 []) = (.err r, w3) ∧ NewProcess w3 w4 ∧
    ∃ s w5, @Storage.read file .debug .little naiveDiff objD "x" "s" w4 = (.ok s, w5) ∧ file.deref w5 s = .ok xs.flatten := by
  let _ := naiveDiff
  have hb : (build (B := file) objD es (disk0 [])).1.isOk = true := by decide
  obtain ⟨v1, w1, hb⟩ := isOk_run hb
  obtain ⟨v, w, hc, g⟩ := build_grows (k := .disk) hb
  have he : (buildReadClose file objD (disk0 [])).1.isErr = true := by decide
  have hrd : ∃ r w2, Storage.read file .debug .little objD "x" "s" w1 = (r, w2) := ⟨_, _, rfl⟩
  obtain ⟨r, w2, hrd⟩ := hrd
  obtain ⟨x, rfl⟩ := C36_read_fails_partial .disk .debug .debug .little .little S (by decide) _ _ _ _ objD "x" "s" "s" v v1 es r
    (unused_disk0 ..) (disk0_noFault _) hc g (by decide) hrd
  have h2 : buildReadClose file objD (disk0 []) = v1.close .debug .little w2 := by
    unfold buildReadClose
    rw [Act.bind_ok (Act.mapErr_ok hb)]
    exact Act.bind_ok (Act.attempt_err hrd)
  rw [h2] at he ⊢
  cases h3 : v1.close .debug .little w2 with
  | mk r3 w3 =>
    rw [h3] at he
    cases r3 with
    | err x3 =>
      let w4 : FileW := ⟨⟨w3.fs.files, w3.fs.isDir, fun _ => ([], 0), 0, fun _ => none, 0⟩, fun _ _ => none, 1⟩
      have hp : NewProcess w3 w4 := ⟨rfl, fun _ _ => rfl, rfl⟩
      obtain ⟨xs', s', w5, el, h4, h5⟩ := C36_disk_not_lost .debug .debug .debug .little .little .little S (by decide) _ _ _ _ _ _ objD objD
        "x" "x" "s" "s" v v1 es _ _ (unused_disk0 ..) (disk0_noFault _) (by decide) hc g (by decide) hrd h3 hp (fun _ _ => rfl) rfl
      rw [el.unique VecExample.elements] at h5
      exact ⟨w3, w4, x3, rfl, hp, s', w5, h4, h5⟩
    | ok a => cases he
    | panic => cases he
    | ub => cases he

/-! ## C37: vectors and other resources -/

/-- Creating, growing and closing a vector `m` does not affect what is read from the resource `n`. -/
theorem C37_vector_ops [DiffLib] (k : Kind) (p : Profile) (e : Endian) (S : StructDef) (hs : 0 < S.size)
    (w0 w w1 : k.backend.W) (o : k.backend.Obj) (n m schema schema' : String) (v v1 : ExtVec k.backend) (es : List (List HandleOp))
    (hr : k.Reachable w0) (ha : k.alive w0 o) (hu : k.Unused w0 o m) (hf : k.noFault w0)
    (hc : createExternalVector p e o m schema' w0 = (.ok v, w)) (g : Grows k p e S o m w v es w1 v1)
    (hb : (es.length + 1) * S.size + 8 < 2 ^ 63)
    (hn : PlainName n) (hm : PlainName m) (h : n ≠ m) (h1 : n ≠ m ++ ".schema") (h2 : m ≠ n ++ ".schema") :
    SameRead k.backend n (Storage.read k.backend p e o n schema w0) (Storage.read k.backend p e o n schema w) ∧
    SameRead k.backend n (Storage.read k.backend p e o n schema w1)
      (Storage.read k.backend p e o n schema (v1.grow p S.size w1).2) ∧
    SameRead k.backend n (Storage.read k.backend p e o n schema w1)
      (Storage.read k.backend p e o n schema (v1.close p e w1).2) := by
  have sx : Suffix ".schema".toList := by constructor <;> decide
  have hne := k.loc_schema_ne o n
  have hneM := k.loc_schema_ne o m
  have off1 : ¬ OwnLoc k.laws o m (k.laws.loc o n) := by
    rintro (he | he)
    · exact k.loc_plain_ne o hn hm h he
    · exact k.loc_plain_ne o hn (hm.append sx) h1 he
  have off2 : ¬ OwnLoc k.laws o m (k.laws.loc o (Storage.schemaName n)) := by
    rintro (he | he)
    · exact k.loc_plain_ne o (hn.append sx) hm (Ne.symm h2) he
    · exact k.loc_plain_ne o (hn.append sx) (hm.append sx) (fun hx => h ((String.append_left_inj _).mp hx)) he
  have same : ∀ {a b : k.backend.W}, k.Reachable a → Kind.Steps k a b → k.noFault a → Off k.laws a b (OwnLoc k.laws o m) →
      SameRead k.backend n (Storage.read k.backend p e o n schema a) (Storage.read k.backend p e o n schema b) := by
    intro a b ra st na ho
    refine read_same p e hne ra.inv (ra.steps st).inv ((k.noFault_iff _).mp na) (ho.noFault ((k.noFault_iff _).mp na))
      (ho.keeps _ off1).same (ho.keeps _ off2).same
  obtain ⟨i, u, nf0⟩ := created_inv S.size hu hc
  obtain ⟨pre, buf, c, i1, el, u1, nf, _⟩ := grows_inv i u hs g (by rw [Nat.add_mul] at hb; omega)
  have s1 : Kind.Steps k w0 w := Kind.steps_of (fun _ => Kind.pres_createExternalVector) ha hc
  have s2 : Kind.Steps k w w1 := g.steps (s1.alive ha)
  have r1 := (hr.steps s1).steps s2
  have n1 := (nf (nf0 hf)).1
  have a1 := s2.alive (s1.alive ha)
  refine ⟨?_, ?_, ?_⟩
  · obtain ⟨f1, f2, _⟩ := hu.fresh
    rcases createExternalVector_spec (L := k.laws) p e o m schema' S.size w0 hneM f1 f2 with ⟨v', w', h3, _, o1⟩ | ⟨_, _, h3, _⟩
    · rw [hc] at h3; cases h3
      exact same hr s1 hf (o1.off fun _ h => h)
    · rw [hc] at h3; cases h3
  · have st : Kind.Steps k w1 (v1.grow p S.size w1).2 := Kind.steps_of (fun _ => Kind.pres_grow) a1 rfl
    rcases i1.grow hneM p hs (by rw [← el.length_eq]; exact hb) with ⟨_, _, w', _, _, _, h3, _, _, _, _, _, _, o3⟩ | ⟨_, _, w', h3, _, o3, _⟩
    · rw [h3] at st ⊢; exact same r1 st n1 (o3.off fun _ => .inl)
    · rw [h3] at st ⊢; exact same r1 st n1 (o3.off fun _ => .inl)
  · have st : Kind.Steps k w1 (v1.close p e w1).2 := Kind.steps_of (fun _ => Kind.pres_close i1.writing.obj) a1 rfl
    obtain ⟨r, w', h3, _, o3, _⟩ := i1.close u1 hneM p e (by rw [← el.length_eq]; rw [Nat.add_mul] at hb; omega)
    rw [h3] at st ⊢; exact same r1 st n1 o3

/-- A vector `x` beside a resource `y`. -/
example [DiffLib] : ∃ w1 v1, build (B := file) objD es (disk0 [([['d'], ['y']], image [7#8])]) = (.ok v1, w1) ∧
    SameRead file "y" (Storage.read file .debug .little objD "y" "s" w1)
      (Storage.read file .debug .little objD "y" "s" (v1.close .debug .little w1).2) := by
  have hb : (build (B := file) objD es (disk0 [([['d'], ['y']], image [7#8])])).1.isOk = true := by decide
  obtain ⟨v1, w1, hb⟩ := isOk_run hb
  obtain ⟨v, w, hc, g⟩ := build_grows (k := .disk) hb
  exact ⟨w1, v1, hb, (C37_vector_ops .disk .debug .little S (by decide) _ w w1 objD "y" "x" "s" "s" v v1 es (disk0_reachable _ _)
    (by change 0 < 1; decide) (unused_disk0 ..) (disk0_noFault _) hc g (by decide) (by decide) (by decide) (by decide) (by decide)
    (by decide)).2.2⟩

/-! ## C06: fresh elements -/

/-- After any history, `grow` hands out zeroed memory and does not disturb the buffered elements. -/
theorem C06_extvec_grow (k : Kind) (p : Profile) (e : Endian) (S : StructDef) (hs : 0 < S.size) (w0 w w1 w2 : k.backend.W)
    (o : k.backend.Obj) (name schema : String) (v v1 v2 : ExtVec k.backend) (es : List (List HandleOp)) (pos : Nat)
    (hu : k.Unused w0 o name) (hc : createExternalVector p e o name schema w0 = (.ok v, w)) (g : Grows k p e S o name w v es w1 v1)
    (hb : (es.length + 1) * S.size + 8 < 2 ^ 63) (hg : v1.grow p S.size w1 = (.ok (v2, pos), w2)) :
    (v2.data.drop pos).take S.size = zeros S.size ∧ ∃ xs, Elements p e S es xs ∧ v2.data.take pos <:+ xs.flatten := by
  obtain ⟨i, u, _⟩ := created_inv S.size hu hc
  obtain ⟨pre, buf, c, i1, el, _, _, _⟩ := grows_inv i u hs g (by rw [Nat.add_mul] at hb; omega)
  rcases i1.grow (k.loc_schema_ne o name) p hs (by rw [← el.length_eq]; exact hb) with
    ⟨v2', pos', w2', pre', buf', c', h, i2, e2, hpos, _⟩ | ⟨_, _, _, h, _⟩
  · rw [hg] at h; cases h
    have hbl : buf'.flatten.length = pos := by
      rw [hpos, (show AllSize S.size buf' from fun x hx => i2.rep.all x (by simp [hx])).length_flatten]
    have hd : v2.data = buf'.flatten ++ (zeros S.size ++ zeros 8) := by
      rw [i2.rep.eq, List.flatten_append]; simp
    refine ⟨?_, pre ++ buf, el, ?_⟩
    · rw [hd, List.drop_left' hbl, List.take_left' (by simp [zeros])]
    · rw [hd, List.take_left' hbl, ← e2, List.flatten_append]
      exact List.suffix_append _ _
  · rw [hg] at h; cases h

/-- Non-vacuity: the third element after two with content, on disk. -/
example : ∃ v w v1 w1, createExternalVector (B := file) .debug .little objD "x" "s" (disk0 []) = (.ok v, w) ∧
    Grows .disk .debug .little S objD "x" w v es w1 v1 ∧ ∃ v2 pos w2, v1.grow .debug S.size w1 = (.ok (v2, pos), w2) ∧
      (v2.data.drop pos).take S.size = zeros S.size := by
  obtain ⟨v, w, v1, w1, hc, g⟩ := VecExample.run_disk
  obtain ⟨v2, pos, w2, h⟩ := C21_grow_succeeds .disk .debug .little S (by decide) _ _ _ objD "x" "s" v v1 es (unused_disk0 ..)
    (disk0_noFault _) hc g (by decide)
  exact ⟨v, w, v1, w1, hc, g, v2, pos, w2, h, (C06_extvec_grow .disk .debug .little S (by decide) _ _ _ _ objD "x" "s" v v1 v2 es pos
    (unused_disk0 ..) hc g (by decide) h).1⟩

/-- ... so every field of the new element reads as zero. -/
theorem C06_extvec_fields_partial (k : Kind) (p : Profile) (e : Endian) (S : StructDef) (wf : WF S) (hs : 0 < S.size)
    (w0 w w1 w2 : k.backend.W) (o : k.backend.Obj) (name schema : String) (v v1 v2 : ExtVec k.backend) (es : List (List HandleOp))
    (pos : Nat) (hu : k.Unused w0 o name) (hc : createExternalVector p e o name schema w0 = (.ok v, w))
    (g : Grows k p e S o name w v es w1 v1) (hb : (es.length + 1) * S.size + 8 < 2 ^ 63)
    (hg : v1.grow p S.size w1 = (.ok (v2, pos), w2)) (f : Field) (hf : f ∈ S.fields) (hns : NoStraddle f.off f.bits) (hz : ZeroOK f) :
    f.get p e (v2.data.drop pos) = .ok 0 := by
  have h := (C06_extvec_grow k p e S hs w0 w w1 w2 o name schema v v1 v2 es pos hu hc g hb hg).1
  refine C06_zero_reads p e S.size f (wf.field f hf) hns hz _ ?_ h
  have := congrArg List.length h
  rw [List.length_take] at this
  simp only [zeros, List.length_replicate] at this
  omega

/-- The third element after two with content. -/
example : ((do let v ← build (B := mem) obj es
               let r ← v.grow .debug S.size
               pure (r.1.data, r.2) : Act MemW IoErr _) mem0).1 = .ok (le64 5 ++ le64 6 ++ zeros 8 ++ zeros 8, 16) := by decide

end Flatdata
