import Verif.Proofs.Grows
import Verif.Props.Storage
/-!
# Properties C20–C25, C36, C37, C06 for external vectors

`createExternalVector` starts, `Grows` is any history of `grow`s (successful or not) amid calls that do not concern the
resource, and `ExtVec.close` ends the life of a vector. Sizes stay below `isize::MAX`.
-/
namespace Flatdata
open Spec StorageExample

/-! ## Example -/

namespace VecExample

/-- One 8 byte field. -/
def S : StructDef := ⟨"S", 8, [.plain "a" .u64 0 64]⟩

/-- Two elements. -/
def es : List (List HandleOp) := [[.set (.plain "a" .u64 0 64) 5], [.set (.plain "a" .u64 0 64) 6]]

def xs : List Bytes := [le64 5, le64 6]

theorem elements : Elements .debug .little S es xs := ⟨by decide, by decide, trivial⟩

/-- Creates a vector and grows it by one element per list of operations. -/
def build {B : Backend} (o : B.Obj) (es : List (List HandleOp)) : Act B.W IoErr (ExtVec B) := do
  let v ← createExternalVector .debug .little o "x" "s"
  es.foldlM (fun v ops => do
    let r ← v.grow .debug S.size
    let d ← Act.lift (Vector.writeAt .debug .little S r.1.data r.2 ops)
    pure { r.1 with data := d }) v

end VecExample
open VecExample

/-- Building is a history. -/
theorem VecExample.build_grows {k : Kind} {o : k.backend.Obj} {w0 w1 : k.backend.W} {v1 : ExtVec k.backend} {es : List (List HandleOp)}
    {n : String} (h : build o es w0 = (.ok v1, w1)) :
    ∃ v w, createExternalVector .debug .little o "x" "s" w0 = (.ok v, w) ∧ Grows k .debug .little S o n w v es w1 v1 := by
  unfold build at h
  obtain ⟨v, w, hc, h⟩ := Act.bind_eq_ok h
  refine ⟨v, w, hc, ?_⟩
  have : ∀ (es pre : List (List HandleOp)) (va : ExtVec k.backend) (wa : k.backend.W),
      Grows k .debug .little S o n w v pre wa va →
      es.foldlM (fun v ops => do
        let r ← ExtVec.grow .debug S.size v
        let d ← Act.lift (Vector.writeAt .debug .little S r.1.data r.2 ops)
        pure { r.1 with data := d } : ExtVec k.backend → List HandleOp → Act k.backend.W IoErr (ExtVec k.backend)) va wa
        = (.ok v1, w1) → Grows k .debug .little S o n w v (pre ++ es) w1 v1 := by
    intro es
    induction es with
    | nil => intro pre va wa g h; cases h; simpa using g
    | cons ops es ih =>
      intro pre va wa g h
      rw [List.foldlM_cons] at h
      obtain ⟨vb, wb, h1, h⟩ := Act.bind_eq_ok h
      obtain ⟨r, wc, h2, h1⟩ := Act.bind_eq_ok h1
      obtain ⟨d, wd, h3, h1⟩ := Act.bind_eq_ok h1
      cases h1
      have h4 : Vector.writeAt .debug .little S r.1.data r.2 ops = .ok d ∧ wc = wb := by
        cases hw : Vector.writeAt .debug .little S r.1.data r.2 ops <;> rw [hw] at h3 <;> cases h3
        exact ⟨rfl, rfl⟩
      obtain ⟨h4, rfl⟩ := h4
      have := ih (pre ++ [ops]) _ _ (.grow g h2 h4) h
      simpa using this
  simpa using this es [] v w .start h

theorem VecExample.isOk_run {W E α : Type} {x : Act W E α} {w : W} (h : (x w).1.isOk = true) : ∃ a w', x w = (.ok a, w') := by
  cases hx : x w with
  | mk r w' => rw [hx] at h; cases r <;> first | exact ⟨_, _, rfl⟩ | cases h

theorem VecExample.unused_mem0 (n : String) : Kind.Unused .memory mem0 obj n := ⟨rfl, rfl, rfl, rfl⟩
theorem VecExample.unused_disk0 (f g) (n : String) : Kind.Unused .disk (disk0 f g) objD n := ⟨trivial, trivial, rfl, rfl⟩

/-- The two elements, written to memory. -/
theorem VecExample.run_memory : ∃ v w1 v1 w2, createExternalVector .debug .little obj "x" "s" mem0 = (.ok v, w1) ∧
    Grows .memory .debug .little S obj "x" w1 v es w2 v1 := by
  have hb : (build (B := mem) obj es mem0).1.isOk = true := by decide
  obtain ⟨v1, w2, hb⟩ := isOk_run hb
  obtain ⟨v, w1, hc, g⟩ := build_grows (k := .memory) hb
  exact ⟨v, w1, v1, w2, hc, g⟩

/-- The two elements, written to disk. -/
theorem VecExample.run_disk : ∃ v w1 v1 w2, createExternalVector (B := file) .debug .little objD "x" "s" (disk0 []) = (.ok v, w1) ∧
    Grows .disk .debug .little S objD "x" w1 v es w2 v1 := by
  have hb : (build (B := file) objD es (disk0 [])).1.isOk = true := by decide
  obtain ⟨v1, w2, hb⟩ := isOk_run hb
  obtain ⟨v, w1, hc, g⟩ := build_grows (k := .disk) hb
  exact ⟨v, w1, v1, w2, hc, g⟩

/-! ## C21: round trip -/

/-- Without I/O faults, every `grow` succeeds. -/
theorem C21_grow_succeeds (k : Kind) (p : Profile) (e : Endian) (S : StructDef) (hs : 0 < S.size) (w0 w w1 : k.backend.W)
    (o : k.backend.Obj) (name schema : String) (v v1 : ExtVec k.backend) (es : List (List HandleOp)) (hu : k.Unused w0 o name)
    (hn : k.noFault w0) (hc : createExternalVector p e o name schema w0 = (.ok v, w))
    (g : Grows k p e S o name w v es w1 v1) (hb : (es.length + 1) * S.size + 8 < 2 ^ 63) :
    ∃ v2 pos w2, v1.grow p S.size w1 = (.ok (v2, pos), w2) := by
  obtain ⟨i, u, n⟩ := created_inv S.size hu hc
  obtain ⟨pre, buf, c, i1, el, u1, nf, _⟩ := grows_inv i u hs g (by rw [Nat.add_mul] at hb; omega)
  rcases i1.grow (k.loc_schema_ne o name) p hs (by rw [← el.length_eq]; exact hb) with ⟨v2, pos, w2, _, _, _, h, _⟩ | ⟨_, _, _, _, _, _, h⟩
  · exact ⟨v2, pos, w2, h⟩
  · exact absurd ((k.noFault_iff _).mp (nf (n hn)).1) h

/-- Non-vacuity: a third element. -/
example : ∃ v w1 v1 w2, createExternalVector (B := file) .debug .little objD "x" "s" (disk0 []) = (.ok v, w1) ∧
    Grows .disk .debug .little S objD "x" w1 v es w2 v1 ∧ ∃ v2 pos w3, v1.grow .debug S.size w2 = (.ok (v2, pos), w3) := by
  obtain ⟨v, w1, v1, w2, hc, g⟩ := VecExample.run_disk
  exact ⟨v, w1, v1, w2, hc, g, C21_grow_succeeds .disk .debug .little S (by decide) _ _ _ objD "x" "s" v v1 es (unused_disk0 ..)
    (disk0_noFault _) hc g (by decide)⟩

/-- Without I/O faults, `close` returns a view of exactly the elements, in order; `len` counts them. -/
theorem C21_roundtrip [DiffLib] (k : Kind) (p : Profile) (e : Endian) (S : StructDef) (hs : 0 < S.size) (w0 w w1 : k.backend.W)
    (o : k.backend.Obj) (name schema : String) (v v1 : ExtVec k.backend) (es : List (List HandleOp)) (hu : k.Unused w0 o name)
    (hn : k.noFault w0) (hm : k.mappable (strBytes schema)) (hc : createExternalVector p e o name schema w0 = (.ok v, w))
    (g : Grows k p e S o name w v es w1 v1) (hb : es.length * S.size + 8 < 2 ^ 63) :
    v1.len = es.length ∧ ∃ xs s w2, Elements p e S es xs ∧ v1.close p e w1 = (.ok s, w2) ∧
      k.backend.deref w2 s = .ok xs.flatten ∧ elems S.size xs.flatten = xs ∧ k.stored w2 o name = some (image xs.flatten) := by
  obtain ⟨i, u, n⟩ := created_inv S.size hu hc
  obtain ⟨pre, buf, c, i1, el, u1, nf, _⟩ := grows_inv i u hs g hb
  have hlen := el.length_eq
  refine ⟨by rw [i1.len, hlen, List.length_append], pre ++ buf, ?_⟩
  obtain ⟨n1, n2⟩ := nf (n hn)
  obtain ⟨r, w2, h2, cl, _⟩ := i1.close u1 (k.loc_schema_ne o name) p e (by rw [← hlen]; omega)
  cases cl with
  | failed nf => exact absurd ((k.noFault_iff _).mp n1) nf
  | unread x c' _ _ _ nf => exact absurd ((k.noFault_iff _).mp n1) (nf n2 ((k.mappable_iff _).mp hm))
  | ok s hm hd hr => exact ⟨s, w2, el, h2, hd, elems_flatten hs el.allSize, (k.stored_eq ..).trans hm⟩

/-- ... and so does any later read in the same process, whatever else happens, ... -/
theorem C21_later_read [DiffLib] (k : Kind) (p : Profile) (e : Endian) (S : StructDef) (hs : 0 < S.size) (w0 w w1 w2 w3 : k.backend.W)
    (o : k.backend.Obj) (name schema : String) (v v1 : ExtVec k.backend) (es : List (List HandleOp)) (s : Slice k.backend.Base)
    (hr : k.Reachable w0) (ho : k.alive w0 o) (hu : k.Unused w0 o name)
    (hc : createExternalVector p e o name schema w0 = (.ok v, w)) (g : Grows k p e S o name w v es w1 v1)
    (hb : es.length * S.size + 8 < 2 ^ 63) (hcl : v1.close p e w1 = (.ok s, w2)) (ha : Kind.StepsAway k (k.Own o name) w2 w3)
    (hn : k.noFault w3) :
    ∃ xs w4, Elements p e S es xs ∧ Storage.read k.backend p e o name schema w3 = (.ok s, w4) ∧
      k.backend.deref w4 s = .ok xs.flatten := by
  obtain ⟨i, u, n⟩ := created_inv S.size hu hc
  obtain ⟨pre, buf, c, i1, el, u1, nf, _⟩ := grows_inv i u hs g hb
  have hlen := el.length_eq
  have s1 : Kind.Steps k w0 w := Kind.steps_of (fun _ => Kind.pres_createExternalVector) ho hc
  have s2 : Kind.Steps k w w1 := g.steps (s1.alive ho)
  have s3 : Kind.Steps k w1 w2 := Kind.steps_of (fun _ => Kind.pres_close i1.writing.obj) (s2.alive (s1.alive ho)) hcl
  have r2 : k.Reachable w2 := ((hr.steps s1).steps s2).steps s3
  obtain ⟨r, w2', h2, cl, _⟩ := i1.close u1 (k.loc_schema_ne o name) p e (by rw [← hlen]; omega)
  rw [hcl] at h2; cases h2
  cases cl with
  | ok s hm hd hrd =>
    obtain ⟨wr, _, hrd⟩ := hrd
    obtain ⟨k1, k2, _⟩ := Kind.StepsAway.keepsOwn ha
    obtain ⟨w4, h4, d4⟩ := read_again (k.loc_schema_ne o name) (r2.steps ha.steps).inv ((k.noFault_iff _).mp hn) hrd k1 k2
    exact ⟨pre ++ buf, w4, el, h4, d4.trans hd⟩

/-- Non-vacuity: read right after closing. -/
example [DiffLib] : ∃ v w1 v1 w2, createExternalVector .debug .little obj "x" "s" mem0 = (.ok v, w1) ∧
    Grows .memory .debug .little S obj "x" w1 v es w2 v1 ∧ ∃ s w3 w4, v1.close .debug .little w2 = (.ok s, w3) ∧
      Storage.read mem .debug .little obj "x" "s" w3 = (.ok s, w4) ∧ mem.deref w4 s = .ok VecExample.xs.flatten := by
  obtain ⟨v, w1, v1, w2, hc, g⟩ := VecExample.run_memory
  obtain ⟨_, _, s, w3, _, h1, _⟩ := C21_roundtrip .memory .debug .little S (by decide) mem0 w1 w2 obj "x" "s" v v1 es
    (unused_mem0 _) trivial trivial hc g (by decide)
  obtain ⟨xs', w4, el, h2, h3⟩ := C21_later_read .memory .debug .little S (by decide) mem0 w1 w2 w3 w3 obj "x" "s" v v1 es s mem0_reachable
    Nat.zero_lt_one (unused_mem0 _) hc g (by decide) h1 (.refl _) trivial
  rw [el.unique VecExample.elements] at h3
  exact ⟨v, w1, v1, w2, hc, g, s, w3, w4, h1, h2, h3⟩

/-- ... and any later process. -/
theorem C21_new_process [DiffLib] (p p' : Profile) (e e' : Endian) (S : StructDef) (hs : 0 < S.size) (w0 w w1 w2 w3 : FileW)
    (o o' : Obj) (name schema : String) (v v1 : ExtVec file) (es : List (List HandleOp)) (s : Slice Key)
    (hu : Kind.Unused .disk w0 o name) (hm : schema ≠ "")
    (hc : createExternalVector (B := file) p e o name schema w0 = (.ok v, w)) (g : Grows .disk p e S o name w v es w1 v1)
    (hb : es.length * S.size + 8 < 2 ^ 63) (hcl : v1.close p e w1 = (.ok s, w2)) (hp : NewProcess w2 w3)
    (hn : Kind.noFault .disk w3) (ho : o'.path = o.path) :
    ∃ xs s' w4, Elements p e S es xs ∧ Storage.read file p' e' o' name schema w3 = (.ok s', w4) ∧
      file.deref w4 s' = .ok xs.flatten := by
  obtain ⟨i, u, n⟩ := created_inv (k := .disk) S.size hu hc
  obtain ⟨pre, buf, c, i1, el, u1, nf, _⟩ := grows_inv i u hs g hb
  have hlen := el.length_eq
  obtain ⟨r, w2', h2, cl, _, hsch, _⟩ := i1.close u1 (Kind.loc_schema_ne .disk o name) p e (by rw [← hlen]; omega)
  rw [hcl] at h2; cases h2
  cases cl with
  | ok s hmed hd hrd =>
    have hl : ∀ n, fileLaws.loc o' n = fileLaws.loc o n := by
      intro n; change key (join o'.path n) = key (join o.path n); rw [ho]
    have hmm : ∀ l, fileLaws.medium w3 l = fileLaws.medium w2 l := fun l => congrFun hp.files l
    have hcache : ∀ n, fileLaws.cache w3 o' n = none := by
      intro n; change Option.map _ (w3.maps _ _) = none; rw [hp.initial.1]; rfl
    have hsz : (pre ++ buf).flatten.length < 2 ^ 63 := by rw [el.allSize.length_flatten, ← hlen]; omega
    have hsn : strBytes schema ≠ [] := fun h => hm (strBytes_eq_nil.mp h)
    obtain ⟨s', w4, h4, d4⟩ := read_new_ok (L := fileLaws) p' e' (o := o') (name := name) (schema := schema) (w := w3)
      (Kind.loc_schema_ne .disk o' name) hn ((hmm _).trans (by rw [hl]; exact hmed)) ((hmm _).trans (by rw [hl]; exact hsch))
      (holds_image (pre ++ buf).flatten (by omega)) (by omega) hsn (hcache _) (hcache _)
    exact ⟨pre ++ buf, s', w4, el, h4, d4⟩

/-- Two elements written to memory. -/
example [DiffLib] : ∃ v w1 v1, createExternalVector .debug .little obj "x" "s" mem0 = (.ok v, w1) ∧ ∃ w2,
    Grows .memory .debug .little S obj "x" w1 v es w2 v1 ∧ ∃ s w3, v1.close .debug .little w2 = (.ok s, w3) ∧
      mem.deref w3 s = .ok [5#8, 0#8, 0#8, 0#8, 0#8, 0#8, 0#8, 0#8, 6#8, 0#8, 0#8, 0#8, 0#8, 0#8, 0#8, 0#8] := by
  have hb : (build (B := mem) obj es mem0).1.isOk = true := by decide
  obtain ⟨v1, w2, hb⟩ := isOk_run hb
  obtain ⟨v, w1, hc, g⟩ := build_grows (k := .memory) hb
  refine ⟨v, w1, v1, hc, w2, g, ?_⟩
  obtain ⟨_, xs', s, w3, el, h1, h2, _⟩ := C21_roundtrip .memory .debug .little S (by decide) mem0 w1 w2 obj "x" "s" v v1 es
    (unused_mem0 _) trivial trivial hc g (by decide)
  refine ⟨s, w3, h1, ?_⟩
  rw [el.unique VecExample.elements] at h2
  exact h2

/-- The same on disk, read by another process. -/
example [DiffLib] : ∃ v w1 v1, createExternalVector (B := file) .debug .little objD "x" "s" (disk0 []) = (.ok v, w1) ∧ ∃ w2,
    Grows .disk .debug .little S objD "x" w1 v es w2 v1 ∧ ∃ s w3 w4, v1.close .debug .little w2 = (.ok s, w3) ∧
      NewProcess w3 w4 ∧ Kind.noFault .disk w4 ∧ ∃ s' w5, Storage.read file .release .big objD "x" "s" w4 = (.ok s', w5) ∧
      file.deref w5 s' = .ok [5#8, 0#8, 0#8, 0#8, 0#8, 0#8, 0#8, 0#8, 6#8, 0#8, 0#8, 0#8, 0#8, 0#8, 0#8, 0#8] := by
  have hb : (build (B := file) objD es (disk0 [])).1.isOk = true := by decide
  obtain ⟨v1, w2, hb⟩ := isOk_run hb
  obtain ⟨v, w1, hc, g⟩ := build_grows (k := .disk) hb
  refine ⟨v, w1, v1, hc, w2, g, ?_⟩
  obtain ⟨_, xs', s, w3, el, h1, h2, _⟩ := C21_roundtrip .disk .debug .little S (by decide) (disk0 []) w1 w2 objD "x" "s" v v1 es
    (unused_disk0 ..) (disk0_noFault _) (by change strBytes "s" ≠ []; decide) hc g (by decide)
  let w4 : FileW := ⟨⟨w3.fs.files, w3.fs.isDir, fun _ => ([], 0), 0, fun _ => none, 0⟩, fun _ _ => none, 1⟩
  have hp : NewProcess w3 w4 := ⟨rfl, fun _ _ => rfl, rfl⟩
  obtain ⟨xs', s', w5, el', h3, h4⟩ := C21_new_process .debug .release .little .big S (by decide) (disk0 []) w1 w2 w3 w4 objD objD "x" "s"
    v v1 es s (unused_disk0 ..) (by decide) hc g (by decide) h1 hp (fun _ _ => rfl) rfl
  rw [el'.unique VecExample.elements] at h4
  exact ⟨s, w3, w4, h1, hp, fun _ _ => rfl, s', w5, h3, h4⟩

/-! ## C22: faults -/

/-- Whatever I/O fails, and however often `grow` is tried again: if `close` returns a view, it shows exactly the elements
of the successful `grow`s, in order. -/
theorem C22_faults [DiffLib] (k : Kind) (p : Profile) (e : Endian) (S : StructDef) (hs : 0 < S.size) (w0 w w1 w2 : k.backend.W)
    (o : k.backend.Obj) (name schema : String) (v v1 : ExtVec k.backend) (es : List (List HandleOp)) (s : Slice k.backend.Base)
    (hu : k.Unused w0 o name) (hc : createExternalVector p e o name schema w0 = (.ok v, w))
    (g : Grows k p e S o name w v es w1 v1) (hb : es.length * S.size + 8 < 2 ^ 63)
    (hcl : v1.close p e w1 = (.ok s, w2)) :
    v1.len = es.length ∧ ∃ xs, Elements p e S es xs ∧ k.backend.deref w2 s = .ok xs.flatten ∧
      k.stored w2 o name = some (image xs.flatten) := by
  obtain ⟨i, u, n⟩ := created_inv S.size hu hc
  obtain ⟨pre, buf, c, i1, el, u1, nf, _⟩ := grows_inv i u hs g hb
  have hlen := el.length_eq
  refine ⟨by rw [i1.len, hlen, List.length_append], pre ++ buf, el, ?_⟩
  obtain ⟨r, w2', h2, cl, _⟩ := i1.close u1 (k.loc_schema_ne o name) p e (by rw [← hlen]; omega)
  rw [hcl] at h2; cases h2
  cases cl with
  | ok s hm hd hr => exact ⟨hd, (k.stored_eq ..).trans hm⟩

/-! ## C20: crash safety -/

/-- C20 in full, for external vectors: a process that reads the resource after a crash gets all elements. -/
def C20_extvec_claim : Prop :=
  ∀ (_ : DiffLib) (p p' : Profile) (e e' : Endian) (S : StructDef) (w0 w1 w2 w3 : FileW) (o o' : Obj) (name schema : String)
    (es : List (List HandleOp)) (xs : List Bytes) (s : Slice Key), 0 < S.size → Kind.Unused .disk w0 o name →
    Kind.stored .disk w0 o name = none → Life .disk p e S o name schema w0 es w1 → es.length * S.size + 8 < 2 ^ 63 →
    Elements p e S es xs → NewProcess w1 w2 → o'.path = o.path → Storage.read file p' e' o' name schema w2 = (.ok s, w3) →
    file.deref w3 s = .ok xs.flatten

/-- What is stored under the name at any time of the life of a vector: all or nothing can be read. -/
theorem life_allOrNothing [DiffLib] {k : Kind} {p : Profile} {e : Endian} {S : StructDef} (hs : 0 < S.size) {w0 w1 : k.backend.W}
    {o : k.backend.Obj} {name schema : String} {es : List (List HandleOp)} (hu : k.Unused w0 o name)
    (h0 : k.stored w0 o name = none) (hb : es.length * S.size + 8 < 2 ^ 63) (l : Life k p e S o name schema w0 es w1)
    {xs : List Bytes} (el : Elements p e S es xs) {d : Bytes} (hd : k.stored w1 o name = some d) : AllOrNothing d xs.flatten := by
  rw [Kind.stored_eq] at hd h0
  cases l with
  | created h =>
    obtain ⟨f1, f2, u⟩ := hu.fresh
    rcases createExternalVector_spec (L := k.laws) p e o name schema S.size w0 (k.loc_schema_ne o name) f1 f2 with
      ⟨v', w', h1, i1, o1⟩ | ⟨_, _, h1, _, m⟩
    · rw [h] at h1; cases h1
      obtain ⟨s, _, a⟩ := i1.writing.stream
      rw [a.medium] at hd; cases hd
      exact allOrNothing_zero _ _
    · rw [h] at h1; cases h1
      rcases m with m | ⟨b, m, hl⟩
      · rw [m, h0] at hd; cases hd
      · rw [m] at hd; cases hd
        exact allOrNothing_short (by omega) _
  | grown h g =>
    obtain ⟨i, u, n⟩ := created_inv S.size hu h
    obtain ⟨pre, buf, c, i1, el, u1, nf, _⟩ := grows_inv i u hs g hb
    obtain ⟨s, _, a⟩ := i1.writing.stream
    rw [a.medium] at hd; cases hd
    exact allOrNothing_zero _ _
  | closed h g hc =>
    obtain ⟨i, u, n⟩ := created_inv S.size hu h
    obtain ⟨pre, buf, c, i1, el', u1, nf, _⟩ := grows_inv i u hs g hb
    obtain ⟨r, w2', h2, cl, _, _, d', hd', an⟩ := i1.close u1 (k.loc_schema_ne o name) p e (by rw [← el'.length_eq]; omega)
    rw [hc] at h2; cases h2
    rw [hd'] at hd; cases hd
    rw [el.unique el']; exact an

/-- Crash safety as far as it goes: what another process reads is everything or nothing, and nothing only if the file
consists of 16 bytes starting with a zero size. -/
theorem C20_extvec_partial [DiffLib] (p p' : Profile) (e e' : Endian) (S : StructDef) (hs : 0 < S.size) (w0 w1 w2 w3 : FileW)
    (o o' : Obj) (name schema : String) (es : List (List HandleOp)) (xs : List Bytes) (s : Slice Key)
    (hu : Kind.Unused .disk w0 o name) (h0 : Kind.stored .disk w0 o name = none) (l : Life .disk p e S o name schema w0 es w1)
    (hb : es.length * S.size + 8 < 2 ^ 63) (el : Elements p e S es xs) (hp : NewProcess w1 w2) (ho : o'.path = o.path)
    (hr : Storage.read file p' e' o' name schema w2 = (.ok s, w3)) :
    file.deref w3 s = .ok xs.flatten ∨
    (file.deref w3 s = .ok [] ∧ ∃ d, Kind.stored .disk w1 o name = some d ∧ d.length = 16 ∧ d.take 8 = zeros 8) := by
  have hl : ∀ n, fileLaws.loc o' n = fileLaws.loc o n := by
    intro n; change key (join o'.path n) = key (join o.path n); rw [ho]
  have hm : ∀ l, fileLaws.medium w2 l = fileLaws.medium w1 l := fun l => congrFun hp.files l
  have hcache : ∀ n, fileLaws.cache w2 o' n = none := by
    intro n; change Option.map _ (w2.maps _ _) = none; rw [hp.initial.1]; rfl
  obtain ⟨d, x, h1, h2, hx, h3⟩ := read_ok_inv (L := fileLaws) (Kind.loc_schema_ne .disk o' name) (hcache _) (hcache _) hr
  rw [hl, hm] at h1
  have hd : Kind.stored .disk w1 o name = some d := h1
  rcases (life_allOrNothing hs hu h0 hb l el hd).reads x hx with rfl | ⟨rfl, h16⟩
  · exact .inl h3
  · refine .inr ⟨h3, d, hd, h16, ?_⟩
    have := hx.size
    apply leNat_inj (by simp [zeros]; omega)
    rw [leNat_zeros]; exact this

/-- Non-vacuity: the vector is complete on disk once it is closed. -/
example [DiffLib] : ∃ w1 w2, Life .disk .debug .little S objD "x" "s" (disk0 []) es w1 ∧ NewProcess w1 w2 ∧
    ∃ s w3, Storage.read file .release .big objD "x" "s" w2 = (.ok s, w3) ∧
      (file.deref w3 s = .ok VecExample.xs.flatten ∨
        (file.deref w3 s = .ok [] ∧ ∃ d, Kind.stored .disk w1 objD "x" = some d ∧ d.length = 16 ∧ d.take 8 = zeros 8)) := by
  obtain ⟨v, w, v1, w1, hc, g⟩ := VecExample.run_disk
  obtain ⟨_, xs', s, w2, _, h1, _⟩ := C21_roundtrip .disk .debug .little S (by decide) (disk0 []) w w1 objD "x" "s" v v1 es
    (unused_disk0 ..) (disk0_noFault _) (by change strBytes "s" ≠ []; decide) hc g (by decide)
  let w3 : FileW := ⟨⟨w2.fs.files, w2.fs.isDir, fun _ => ([], 0), 0, fun _ => none, 0⟩, fun _ _ => none, 1⟩
  have hp : NewProcess w2 w3 := ⟨rfl, fun _ _ => rfl, rfl⟩
  obtain ⟨_, s', w4, _, h3, _⟩ := C21_new_process .debug .release .little .big S (by decide) (disk0 []) w w1 w2 w3 objD objD "x" "s"
    v v1 es s (unused_disk0 ..) (by decide) hc g (by decide) h1 hp (fun _ _ => rfl) rfl
  exact ⟨w2, w3, .closed hc g h1, hp, s', w4, h3, C20_extvec_partial .debug .release .little .big S (by decide) (disk0 []) w2 w3 w4 objD objD
    "x" "s" es VecExample.xs s' (unused_disk0 ..) (by decide) (.closed hc g h1) (by decide) VecExample.elements hp rfl h3⟩

/-- One element; the process dies before the padding is written. -/
theorem C20_extvec_refuted : ¬ C20_extvec_claim := by
  intro h
  have hb : (build (B := file) objD [[.set (.plain "a" .u64 0 64) 5]] (disk0 [] fun t => if t = 7 then some 0 else none)).1.isOk = true := by
    decide
  obtain ⟨v1, w1, hb⟩ := isOk_run hb
  obtain ⟨v, w, hc, g⟩ := build_grows (k := .disk) hb
  let _ := naiveDiff
  let w2 := (v1.close .debug .little w1).2
  have hw1 : w1 = (build (B := file) objD [[.set (.plain "a" .u64 0 64) 5]] (disk0 [] fun t => if t = 7 then some 0 else none)).2 := by
    rw [hb]
  have hv1 : some v1 = (match (build (B := file) objD [[.set (.plain "a" .u64 0 64) 5]]
      (disk0 [] fun t => if t = 7 then some 0 else none)).1 with | .ok v => some v | _ => none) := by
    rw [hb]
  let w3 : FileW := ⟨⟨w2.fs.files, w2.fs.isDir, fun _ => ([], 0), 0, fun _ => none, 0⟩, fun _ _ => none, 1⟩
  have hr : (@Storage.read file .debug .little naiveDiff objD "x" "s" w3).1 = .ok ⟨[['d'], ['x']], 8, 0⟩ := by
    cases hv1
    subst hw1
    decide
  have hd : file.deref (@Storage.read file .debug .little naiveDiff objD "x" "s" w3).2 ⟨[['d'], ['x']], 8, 0⟩ = .ok [] := by
    cases hv1
    subst hw1
    decide
  have := h naiveDiff .debug .debug .little .little S (disk0 [] fun t => if t = 7 then some 0 else none) w2 w3 _ objD objD "x" "s"
    _ [le64 5] _ (by decide) (unused_disk0 ..) rfl (.closed hc g rfl) (by decide) ⟨by decide, trivial⟩ ⟨rfl, fun _ _ => rfl, rfl⟩ rfl
    (run_eq hr)
  rw [hd] at this
  exact absurd this (by decide)

end Flatdata
