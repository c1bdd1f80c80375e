import Verif.Proofs.MvView
import Verif.Props.VecReads
import Verif.Props.MultiViews
/-!
# Properties C26, C27: what a multivector stores

`createMultiVector` starts, `MGrows` is any history of `grow`s (successful or not) and `add_…` calls amid calls that do not
concern the two resources, and `MultiVec.close` ends the life of a multivector. Sizes stay below `isize::MAX`.
-/
namespace Flatdata
open Spec StorageExample VecExample

/-! ## Example -/

namespace MvExample

/-- Adds one struct to the current item. -/
def addOne {B : Backend} (v : MultiVec B) (a : Add) : Act B.W IoErr (MultiVec B) := do
  let r ← Act.lift (MultiVec.builderAdd .debug a.type a.struct.size v.data)
  let d ← Act.lift (Vector.writeAt .debug .little a.struct r.1 r.2 a.ops)
  pure { v with data := d }

/-- Starts an item and adds its structs. -/
def addItem {B : Backend} (V : Variadic) (v : MultiVec B) (as : List Add) : Act B.W IoErr (MultiVec B) := do
  let r ← (v.grow .debug .little V).mapErr Empty.elim
  let _ ← Act.ofExcept r.1
  as.foldlM addOne r.2

/-- Creates a multivector and adds items. -/
def build {B : Backend} (V : Variadic) (o : B.Obj) (its : List (List Add)) : Act B.W IoErr (MultiVec B) := do
  let v ← createMultiVector .debug .little o "x" "s"
  its.foldlM (addItem V) v

/-- The calls that write `MultiExample.contents`. -/
def its : List (List Add) :=
  [[⟨0#8, Coappearances.Nickname, [.set (.plain "ref_" .u32 0 32) 7]⟩,
    ⟨2#8, Coappearances.UnaryRelation, [.set (.plain "kind_ref" .u32 0 32) 1, .set (.plain "to_ref" .u32 32 16) 2]⟩],
   [],
   [⟨1#8, Coappearances.Description, [.set (.plain "ref_" .u32 0 32) 9]⟩]]

theorem its_contents : AllContents .debug .little its MultiExample.contents :=
  ⟨⟨rfl, by decide, rfl, by decide, trivial⟩, trivial, ⟨rfl, by decide, trivial⟩, trivial⟩

theorem its_variants : ∀ as ∈ its, ∀ a ∈ as, (a.type, a.struct) ∈ Coappearances.VerticesData.types := by
  intro as has a ha
  simp only [its, List.mem_cons, List.not_mem_nil, or_false] at has
  rcases has with rfl | rfl | rfl
  · simp only [List.mem_cons, List.not_mem_nil, or_false] at ha
    rcases ha with rfl | rfl <;> simp [Coappearances.VerticesData]
  · cases ha
  · simp only [List.mem_cons, List.not_mem_nil, or_false] at ha
    subst ha; simp [Coappearances.VerticesData]

theorem munused_mem0 (n : String) : Kind.MUnused .memory mem0 obj n := ⟨unused_mem0 _, unused_mem0 _⟩
theorem munused_disk0 (f g) (n : String) : Kind.MUnused .disk (disk0 f g) objD n := ⟨unused_disk0 .., unused_disk0 ..⟩

end MvExample
open MvExample

/-- Adding structs is a history. -/
theorem MvExample.adds_mgrows {k : Kind} {V : Variadic} {o : k.backend.Obj} {w w1 w2 : k.backend.W} {v v2 : MultiVec k.backend}
    {n : String} {its : List (List Add)} : ∀ {as : List Add} {pre : List Add} {v1}, (∀ a ∈ as, (a.type, a.struct) ∈ V.types) →
    MGrows k .debug .little V o n w v (its ++ [pre]) w1 v1 → as.foldlM addOne v1 w1 = (.ok v2, w2) →
    MGrows k .debug .little V o n w v (its ++ [pre ++ as]) w2 v2
  | [], pre, v1, _, g, h => by cases h; simpa using g
  | a :: as, pre, v1, hm, g, h => by
    rw [List.foldlM_cons] at h
    obtain ⟨vb, wb, h1, hrest⟩ := Act.bind_eq_ok h
    unfold addOne at h1
    obtain ⟨r, wc, h2, h3⟩ := Act.bind_eq_ok h1
    obtain ⟨d, wd, h4, h5⟩ := Act.bind_eq_ok h3
    obtain ⟨h6, hw⟩ := Act.lift_eq_ok h2
    obtain ⟨h7, hw'⟩ := Act.lift_eq_ok h4
    cases h5
    rw [hw', hw] at hrest
    have := adds_mgrows (as := as) (pre := pre ++ [a]) (fun a ha => hm a (by simp [ha])) (.add g (hm a (by simp)) h6 h7) hrest
    simpa using this

/-- Building is a history. -/
theorem MvExample.build_mgrows {k : Kind} {V : Variadic} {o : k.backend.Obj} {w0 w1 : k.backend.W} {v1 : MultiVec k.backend}
    {its : List (List Add)} {n : String} (hm : ∀ as ∈ its, ∀ a ∈ as, (a.type, a.struct) ∈ V.types)
    (h : build V o its w0 = (.ok v1, w1)) :
    ∃ v w, createMultiVector .debug .little o "x" "s" w0 = (.ok v, w) ∧ MGrows k .debug .little V o n w v its w1 v1 := by
  unfold build at h
  obtain ⟨v, w, hc, h⟩ := Act.bind_eq_ok h
  refine ⟨v, w, hc, ?_⟩
  have : ∀ (its pre : List (List Add)) (va : MultiVec k.backend) (wa : k.backend.W), (∀ as ∈ its, ∀ a ∈ as, (a.type, a.struct) ∈ V.types) →
      MGrows k .debug .little V o n w v pre wa va → its.foldlM (addItem V) va wa = (.ok v1, w1) →
      MGrows k .debug .little V o n w v (pre ++ its) w1 v1 := by
    intro its
    induction its with
    | nil => intro pre va wa _ g h; cases h; simpa using g
    | cons as its ih =>
      intro pre va wa hm g h
      rw [List.foldlM_cons] at h
      obtain ⟨vb, wb, h1, h⟩ := Act.bind_eq_ok h
      unfold addItem at h1
      obtain ⟨r, wc, h2, h1⟩ := Act.bind_eq_ok h1
      obtain ⟨d, wd, h3, h1⟩ := Act.bind_eq_ok h1
      have h4 : va.grow .debug .little V wa = (.ok r, wc) := by
        unfold Act.mapErr at h2
        cases hg : va.grow .debug .little V wa with
        | mk x w' =>
          rw [hg] at h2
          cases x with
          | ok a => cases h2; rfl
          | err x => exact x.elim
          | panic => cases h2
          | ub => cases h2
      obtain ⟨r1, vc⟩ := r
      cases r1 with
      | error x => cases h3
      | ok u =>
        cases h3
        have g2 := adds_mgrows (pre := []) (hm as (by simp)) (.grow g h4) h1
        have := ih (pre ++ [as]) _ _ (fun as ha => hm as (by simp [ha])) (by simpa using g2) h
        simpa using this
  simpa using this its [] v w hm .start h

/-- The three items, written to memory. -/
theorem MvExample.run_memory : ∃ v w v1 w1, createMultiVector .debug .little obj "x" "s" mem0 = (.ok v, w) ∧
    MGrows .memory .debug .little Coappearances.VerticesData obj "x" w v its w1 v1 := by
  have hb : (build (B := mem) Coappearances.VerticesData obj its mem0).1.isOk = true := by decide
  obtain ⟨v1, w1, hb⟩ := isOk_run hb
  obtain ⟨v, w, hc, g⟩ := build_mgrows (k := .memory) its_variants hb
  exact ⟨v, w, v1, w1, hc, g⟩

/-- The three items, written to disk. -/
theorem MvExample.run_disk : ∃ v w v1 w1, createMultiVector (B := file) .debug .little objD "x" "s" (disk0 []) = (.ok v, w) ∧
    MGrows .disk .debug .little Coappearances.VerticesData objD "x" w v its w1 v1 := by
  have hb : (build (B := file) Coappearances.VerticesData objD its (disk0 [])).1.isOk = true := by decide +kernel
  obtain ⟨v1, w1, hb⟩ := isOk_run hb
  obtain ⟨v, w, hc, g⟩ := build_mgrows (k := .disk) its_variants hb
  exact ⟨v, w, v1, w1, hc, g⟩

/-! ## C26: round trip -/

/-- C26 in full: whatever is written can be read, if nothing fails. -/
def C26_claim : Prop :=
  ∀ (_ : DiffLib) (k : Kind) (p : Profile) (e : Endian) (V : Variadic) (w0 w w1 : k.backend.W) (o : k.backend.Obj)
    (name schema : String) (v v1 : MultiVec k.backend) (its : List (List Add)), VariadicOK V → k.MUnused w0 o name → k.noFault w0 →
    k.mappable (strBytes schema) → createMultiVector p e o name schema w0 = (.ok v, w) → MGrows k p e V o name w v its w1 v1 →
    (its.length + 1) * V.indexSize + 8 < 2 ^ 63 → dataSize its + 8 < 2 ^ 63 →
    ∃ xss si sd w2 ib db, AllContents p e its xss ∧ v1.close p e V w1 = (.ok (si, sd), w2) ∧
      k.backend.deref w2 si = .ok ib ∧ k.backend.deref w2 sd = .ok db ∧ Shows V ⟨ib, db⟩ xss

/-- Without I/O faults, every `grow` succeeds. -/
theorem C26_grow_succeeds (k : Kind) (p : Profile) (e : Endian) (V : Variadic) (ok : IndexOK V) (w0 w w1 : k.backend.W)
    (o : k.backend.Obj) (name schema : String) (v v1 : MultiVec k.backend) (its : List (List Add)) (hu : k.MUnused w0 o name)
    (hn : k.noFault w0) (hc : createMultiVector p e o name schema w0 = (.ok v, w)) (g : MGrows k p e V o name w v its w1 v1)
    (hbI : (its.length + 1) * V.indexSize + 8 < 2 ^ 63) (hb : dataSize its + 8 < 2 ^ 63) :
    ∃ v2 w2, v1.grow p e V w1 = (.ok (.ok (), v2), w2) := by
  obtain ⟨i, u, n⟩ := mcreated_inv V hu hc
  obtain ⟨preI, bufI, cI, pre, body, c, xss, s⟩ := mgrows_inv ok i u g hbI hb
  obtain ⟨l1, l2⟩ := s.length
  rcases s.inv.grow (k.apart o name) p e ok (by omega) (by rw [l2]; exact hbI) with
    ⟨v', w', _, _, _, _, _, _, _, h1, _⟩ | ⟨_, _, _, _, _, _, _, _, _, _, _, _, nf⟩
  · exact ⟨v', w', h1⟩
  · exact absurd ((k.noFault_iff _).mp (s.fine (n hn)).1) nf

/-- Non-vacuity: a fourth item. -/
example : ∃ v w v1 w1, createMultiVector .debug .little obj "x" "s" mem0 = (.ok v, w) ∧
    MGrows .memory .debug .little Coappearances.VerticesData obj "x" w v its w1 v1 ∧
    ∃ v2 w2, v1.grow .debug .little Coappearances.VerticesData w1 = (.ok (.ok (), v2), w2) := by
  obtain ⟨v, w, v1, w1, hc, g⟩ := MvExample.run_memory
  exact ⟨v, w, v1, w1, hc, g, C26_grow_succeeds .memory .debug .little Coappearances.VerticesData MultiExample.ok.index mem0 w w1 obj "x" "s" v v1
    its (munused_mem0 _) trivial hc g (by decide) (by decide)⟩

/-- Every `add_…` succeeds, I/O faults or not. -/
theorem C26_add_succeeds (k : Kind) (p : Profile) (e : Endian) (V : Variadic) (ok : IndexOK V) (w0 w w1 : k.backend.W)
    (o : k.backend.Obj) (name schema : String) (v v1 : MultiVec k.backend) (its : List (List Add)) (hu : k.MUnused w0 o name)
    (hc : createMultiVector p e o name schema w0 = (.ok v, w)) (g : MGrows k p e V o name w v its w1 v1)
    (hbI : (its.length + 1) * V.indexSize + 8 < 2 ^ 63) (t : BitVec 8) (size : Nat) (hb : dataSize its + 1 + size + 8 < 2 ^ 63) :
    ∃ d pos, MultiVec.builderAdd p t size v1.data = .ok (d, pos) := by
  obtain ⟨i, u, n⟩ := mcreated_inv V hu hc
  obtain ⟨preI, bufI, cI, pre, body, c, xss, s⟩ := mgrows_inv ok i u g hbI (by omega)
  exact ⟨_, _, s.inv.builderAdd p t size (by have := s.length; omega)⟩

/-- Non-vacuity: a further element of the third item. -/
example : ∃ v w v1 w1, createMultiVector .debug .little obj "x" "s" mem0 = (.ok v, w) ∧
    MGrows .memory .debug .little Coappearances.VerticesData obj "x" w v its w1 v1 ∧
    ∃ d pos, MultiVec.builderAdd .debug 1#8 4 v1.data = .ok (d, pos) := by
  obtain ⟨v, w, v1, w1, hc, g⟩ := MvExample.run_memory
  exact ⟨v, w, v1, w1, hc, g, C26_add_succeeds .memory .debug .little Coappearances.VerticesData MultiExample.ok.index mem0 w w1 obj "x" "s" v v1
    its (munused_mem0 _) hc g (by decide) 1#8 4 (by decide)⟩

/-- Without I/O faults, `close` returns a view of exactly the items, provided that the index type can express the size of the
data. -/
theorem C26_roundtrip_partial [DiffLib] (k : Kind) (p : Profile) (e : Endian) (V : Variadic) (ok : VariadicOK V) (w0 w w1 : k.backend.W)
    (o : k.backend.Obj) (name schema : String) (v v1 : MultiVec k.backend) (its : List (List Add)) (hu : k.MUnused w0 o name)
    (hn : k.noFault w0) (hm : k.mappable (strBytes schema)) (hc : createMultiVector p e o name schema w0 = (.ok v, w))
    (g : MGrows k p e V o name w v its w1 v1) (hbI : (its.length + 1) * V.indexSize + 8 < 2 ^ 63) (hb : dataSize its + 8 < 2 ^ 63)
    (hbits : dataSize its < 2 ^ V.indexBits) :
    ∃ xss si sd w2 ib db, AllContents p e its xss ∧ v1.close p e V w1 = (.ok (si, sd), w2) ∧
      k.backend.deref w2 si = .ok ib ∧ k.backend.deref w2 sd = .ok db ∧ Shows V ⟨ib, db⟩ xss := by
  obtain ⟨xs, xss, cleanI, cleanD, r, w2, hx, hxss, hv, hcl, cl, st, fine, _⟩ := mclose_inv ok.index hu hc g hbI hb
  obtain ⟨n1, n2, n3⟩ := fine hn
  have n1 := (k.noFault_iff _).mp n1
  have hI : k.laws.readable (strBytes (Storage.indexSchema schema)) := k.laws.readable_of_ne _ fun h => by
    have h1 := strBytes_eq_nil.mp h
    have h2 := congrArg String.length h1
    simp [Storage.indexSchema] at h2
  cases cl with
  | failed nf => exact absurd n1 (nf n2 hI)
  | unread _ _ _ _ _ _ nf => exact absurd n1 (nf n3 ((k.mappable_iff _).mp hm))
  | ok si sd hI hD hsI hsD =>
    exact ⟨xss, si, sd, w2, _, _, hxss, hcl, hsI, hsD, (written_view ok hx hxss hv hbits (by omega)).2.2⟩

/-- Whatever I/O fails, and however often `grow` is tried again: if `close` returns a view, it shows exactly the items of the
successful `grow`s. -/
theorem C26_faults_partial [DiffLib] (k : Kind) (p : Profile) (e : Endian) (V : Variadic) (ok : VariadicOK V) (w0 w w1 w2 : k.backend.W)
    (o : k.backend.Obj) (name schema : String) (v v1 : MultiVec k.backend) (its : List (List Add)) (si sd : Slice k.backend.Base)
    (hu : k.MUnused w0 o name) (hc : createMultiVector p e o name schema w0 = (.ok v, w))
    (g : MGrows k p e V o name w v its w1 v1) (hbI : (its.length + 1) * V.indexSize + 8 < 2 ^ 63) (hb : dataSize its + 8 < 2 ^ 63)
    (hbits : dataSize its < 2 ^ V.indexBits) (hcl : v1.close p e V w1 = (.ok (si, sd), w2)) :
    ∃ xss ib db, AllContents p e its xss ∧ k.backend.deref w2 si = .ok ib ∧ k.backend.deref w2 sd = .ok db ∧
      Shows V ⟨ib, db⟩ xss := by
  obtain ⟨xs, xss, cleanI, cleanD, r, w2', hx, hxss, hv, hcl', cl, st, fine, _⟩ := mclose_inv ok.index hu hc g hbI hb
  rw [hcl] at hcl'; cases hcl'
  cases cl with
  | ok si sd hI hD hsI hsD =>
    exact ⟨xss, _, _, hxss, hsI, hsD, (written_view ok hx hxss hv hbits (by omega)).2.2⟩

/-- Reading both resources later in the same process yields the same view, whatever else happens, ... -/
theorem C26_later_read_partial [DiffLib] (k : Kind) (p : Profile) (e : Endian) (V : Variadic) (ok : VariadicOK V)
    (w0 w w1 w2 w3 : k.backend.W) (o : k.backend.Obj) (name schema : String) (v v1 : MultiVec k.backend) (its : List (List Add))
    (si sd : Slice k.backend.Base) (hr : k.Reachable w0) (ho : k.alive w0 o) (hu : k.MUnused w0 o name)
    (hc : createMultiVector p e o name schema w0 = (.ok v, w)) (g : MGrows k p e V o name w v its w1 v1)
    (hbI : (its.length + 1) * V.indexSize + 8 < 2 ^ 63) (hb : dataSize its + 8 < 2 ^ 63) (hbits : dataSize its < 2 ^ V.indexBits)
    (hcl : v1.close p e V w1 = (.ok (si, sd), w2)) (ha : Kind.StepsAway k (k.MOwn o name) w2 w3) (hn : k.noFault w3) :
    ∃ xss ib db, AllContents p e its xss ∧ Shows V ⟨ib, db⟩ xss ∧
      (∃ w4, Storage.read k.backend p e o (name ++ "_index") ("index(" ++ schema ++ ")") w3 = (.ok si, w4) ∧
        k.backend.deref w4 si = .ok ib) ∧
      (∃ w4, Storage.read k.backend p e o name schema w3 = (.ok sd, w4) ∧ k.backend.deref w4 sd = .ok db) := by
  obtain ⟨xs, xss, cleanI, cleanD, r, w2', hx, hxss, hv, hcl', cl, st, fine, oi, od⟩ := mclose_inv ok.index hu hc g hbI hb
  rw [hcl] at hcl'; cases hcl'
  have s1 : Kind.Steps k w0 w := Kind.steps_of (fun _ => Kind.pres_createMultiVector) ho hc
  have s2 : Kind.Steps k w w1 := g.steps (s1.alive ho)
  have s3 : Kind.Steps k w1 w2 := Kind.steps_of (fun _ => Kind.pres_mclose oi od) (s2.alive (s1.alive ho)) hcl
  have r2 : k.Reachable w2 := ((hr.steps s1).steps s2).steps s3
  have r3 := (r2.steps ha.steps).inv
  obtain ⟨keeps, _⟩ := ha.mkeeps
  cases cl with
  | ok si sd hI hD hsI hsD hrI hrD =>
    obtain ⟨wa, wb, _, hrI, hdI, k1, k2⟩ := hrI
    obtain ⟨wc, _, hrD⟩ := hrD
    refine ⟨xss, _, _, hxss, (written_view ok hx hxss hv hbits (by omega)).2.2, ?_, ?_⟩
    · obtain ⟨w4, h4, d4⟩ := read_again (k.loc_schema_ne o _) r3 ((k.noFault_iff _).mp hn) hrI
        (k1.trans (keeps _ (.inr (.inl rfl)))) (k2.trans (keeps _ (.inr (.inr rfl))))
      exact ⟨w4, h4, d4.trans hdI⟩
    · obtain ⟨w4, h4, d4⟩ := read_again (k.loc_schema_ne o _) r3 ((k.noFault_iff _).mp hn) hrD
        (keeps _ (.inl (.inl rfl))) (keeps _ (.inl (.inr rfl)))
      exact ⟨w4, h4, d4.trans hsD⟩

/-- Non-vacuity of `C26_faults_partial` and `C26_later_read_partial`: read right after closing. -/
example [DiffLib] : ∃ v w v1 w1, createMultiVector .debug .little obj "x" "s" mem0 = (.ok v, w) ∧
    MGrows .memory .debug .little Coappearances.VerticesData obj "x" w v its w1 v1 ∧
    ∃ si sd w2, v1.close .debug .little Coappearances.VerticesData w1 = (.ok (si, sd), w2) ∧
    (∃ ib db, mem.deref w2 si = .ok ib ∧ mem.deref w2 sd = .ok db ∧ Shows Coappearances.VerticesData ⟨ib, db⟩ MultiExample.contents) ∧
    ∃ w3, Storage.read mem .debug .little obj "x" "s" w2 = (.ok sd, w3) := by
  obtain ⟨v, w, v1, w1, hc, g⟩ := MvExample.run_memory
  obtain ⟨_, si, sd, w2, _, _, _, h2, _⟩ := C26_roundtrip_partial .memory .debug .little Coappearances.VerticesData MultiExample.ok
    mem0 w w1 obj "x" "s" v v1 its (munused_mem0 _) trivial trivial hc g (by decide) (by decide) (by decide)
  obtain ⟨xss, ib, db, hx, h3, h4, h5⟩ := C26_faults_partial .memory .debug .little Coappearances.VerticesData MultiExample.ok mem0 w w1 w2
    obj "x" "s" v v1 its si sd (munused_mem0 _) hc g (by decide) (by decide) (by decide) h2
  obtain ⟨_, _, _, _, _, _, w3, h6, _⟩ := C26_later_read_partial .memory .debug .little Coappearances.VerticesData MultiExample.ok mem0 w w1 w2 w2
    obj "x" "s" v v1 its si sd mem0_reachable Nat.zero_lt_one (munused_mem0 _) hc g (by decide) (by decide) (by decide) h2 (.refl _) trivial
  rw [hx.unique its_contents] at h5
  exact ⟨v, w, v1, w1, hc, g, si, sd, w2, h2, ⟨ib, db, h3, h4, h5⟩, w3, h6⟩

/-- ... and so does any later process. -/
theorem C26_new_process_partial [DiffLib] (p p' : Profile) (e e' : Endian) (V : Variadic) (ok : VariadicOK V)
    (w0 w w1 w2 w3 : FileW) (o o' : Obj) (name schema : String) (v v1 : MultiVec file) (its : List (List Add))
    (si sd : Slice Key) (hu : Kind.MUnused .disk w0 o name) (hm : schema ≠ "")
    (hc : createMultiVector (B := file) p e o name schema w0 = (.ok v, w)) (g : MGrows .disk p e V o name w v its w1 v1)
    (hbI : (its.length + 1) * V.indexSize + 8 < 2 ^ 63) (hb : dataSize its + 8 < 2 ^ 63) (hbits : dataSize its < 2 ^ V.indexBits)
    (hcl : v1.close p e V w1 = (.ok (si, sd), w2)) (hp : NewProcess w2 w3) (hn : Kind.noFault .disk w3) (ho : o'.path = o.path) :
    ∃ xss ib db, AllContents p e its xss ∧ Shows V ⟨ib, db⟩ xss ∧
      (∃ s w4, Storage.read file p' e' o' (name ++ "_index") ("index(" ++ schema ++ ")") w3 = (.ok s, w4) ∧
        file.deref w4 s = .ok ib) ∧
      (∃ s w4, Storage.read file p' e' o' name schema w3 = (.ok s, w4) ∧ file.deref w4 s = .ok db) := by
  obtain ⟨xs, xss, cleanI, cleanD, r, w2', hx, hxss, hv, hcl', cl, st, fine, oi, od⟩ := mclose_inv (k := .disk) ok.index hu hc g hbI hb
  rw [hcl] at hcl'; cases hcl'
  cases cl with
  | ok si sd hI hD hsI hsD hrI hrD =>
    have hl : ∀ n, fileLaws.loc o' n = fileLaws.loc o n := by
      intro n; change key (join o'.path n) = key (join o.path n); rw [ho]
    have hmm : ∀ l, fileLaws.medium w3 l = fileLaws.medium w2 l := fun l => congrFun hp.files l
    have hcache : ∀ n, fileLaws.cache w3 o' n = none := by
      intro n; change Option.map _ (w3.maps _ _) = none; rw [hp.initial.1]; rfl
    have hszI : xs.flatten.length < 2 ^ 63 := by
      have hall : AllSize V.indexSize xs := hx.allSize
      rw [hall.length_flatten, ← hx.length_eq, List.length_map, length_indexNumbers]; omega
    have hszD : (encodeItems xss).length < 2 ^ 63 := by rw [hxss.length.1]; omega
    have hsn : strBytes schema ≠ [] := fun h => hm (strBytes_eq_nil.mp h)
    have hsnI : strBytes (Storage.indexSchema schema) ≠ [] := fun h => by
      have h2 := congrArg String.length (strBytes_eq_nil.mp h)
      simp [Storage.indexSchema] at h2
    refine ⟨xss, _, _, hxss, (written_view ok hx hxss hv hbits (by omega)).2.2, ?_, ?_⟩
    · exact read_new_ok (L := fileLaws) p' e' (o := o') (name := Storage.indexName name) (schema := Storage.indexSchema schema) (w := w3)
        (Kind.loc_schema_ne .disk o' _) hn ((hmm _).trans (by rw [hl]; exact hI)) ((hmm _).trans (by rw [hl]; exact st.indexSchema))
        (holds_image _ (by omega)) (by omega) hsnI (hcache _) (hcache _)
    · exact read_new_ok (L := fileLaws) p' e' (o := o') (name := name) (schema := schema) (w := w3)
        (Kind.loc_schema_ne .disk o' _) hn ((hmm _).trans (by rw [hl]; exact hD)) ((hmm _).trans (by rw [hl]; exact st.dataSchema))
        (holds_image _ (by omega)) (by omega) hsn (hcache _) (hcache _)

/-- The karenina items of the example, in memory. -/
example [DiffLib] : ∃ v w1 v1 w2, createMultiVector .debug .little obj "x" "s" mem0 = (.ok v, w1) ∧
    MGrows .memory .debug .little Coappearances.VerticesData obj "x" w1 v its w2 v1 ∧
    ∃ si sd w3 ib db, v1.close .debug .little Coappearances.VerticesData w2 = (.ok (si, sd), w3) ∧ mem.deref w3 si = .ok ib ∧
      mem.deref w3 sd = .ok db ∧ Shows Coappearances.VerticesData ⟨ib, db⟩ MultiExample.contents := by
  have hb : (build (B := mem) Coappearances.VerticesData obj its mem0).1.isOk = true := by decide
  obtain ⟨v1, w2, hb⟩ := isOk_run hb
  obtain ⟨v, w1, hc, g⟩ := build_mgrows (k := .memory) its_variants hb
  obtain ⟨xss, si, sd, w3, ib, db, h1, h2, h3, h4, h5⟩ := C26_roundtrip_partial .memory .debug .little Coappearances.VerticesData MultiExample.ok
    mem0 w1 w2 obj "x" "s" v v1 its (munused_mem0 _) trivial trivial hc g (by decide) (by decide) (by decide)
  rw [h1.unique its_contents] at h5
  exact ⟨v, w1, v1, w2, hc, g, si, sd, w3, ib, db, h2, h3, h4, h5⟩

/-- The same on disk, read by another process. -/
example [DiffLib] : ∃ v w1 v1 w2, createMultiVector (B := file) .debug .little objD "x" "s" (disk0 []) = (.ok v, w1) ∧
    MGrows .disk .debug .little Coappearances.VerticesData objD "x" w1 v its w2 v1 ∧
    ∃ r w3 w4, v1.close .debug .little Coappearances.VerticesData w2 = (.ok r, w3) ∧ NewProcess w3 w4 ∧
      ∃ ib db, Shows Coappearances.VerticesData ⟨ib, db⟩ MultiExample.contents ∧
      (∃ s w5, Storage.read file .release .big objD "x_index" "index(s)" w4 = (.ok s, w5) ∧ file.deref w5 s = .ok ib) ∧
      (∃ s w5, Storage.read file .release .big objD "x" "s" w4 = (.ok s, w5) ∧ file.deref w5 s = .ok db) := by
  have hb : (build (B := file) Coappearances.VerticesData objD its (disk0 [])).1.isOk = true := by decide +kernel
  obtain ⟨v1, w2, hb⟩ := isOk_run hb
  obtain ⟨v, w1, hc, g⟩ := build_mgrows (k := .disk) its_variants hb
  obtain ⟨xss, si, sd, w3, ib, db, h1, h2, h3, h4, h5⟩ := C26_roundtrip_partial .disk .debug .little Coappearances.VerticesData MultiExample.ok
    (disk0 []) w1 w2 objD "x" "s" v v1 its (munused_disk0 ..) (disk0_noFault _) (by change strBytes "s" ≠ []; decide) hc g
    (by decide) (by decide) (by decide)
  let w4 : FileW := ⟨⟨w3.fs.files, w3.fs.isDir, fun _ => ([], 0), 0, fun _ => none, 0⟩, fun _ _ => none, 1⟩
  have hp : NewProcess w3 w4 := ⟨rfl, fun _ _ => rfl, rfl⟩
  obtain ⟨xss, ib, db, h6, h7, h8, h9⟩ := C26_new_process_partial .debug .release .little .big Coappearances.VerticesData MultiExample.ok
    (disk0 []) w1 w2 w3 w4 objD objD "x" "s" v v1 its si sd (munused_disk0 ..) (by decide) hc g (by decide) (by decide) (by decide)
    h2 hp (fun _ _ => rfl) rfl
  rw [h6.unique its_contents] at h7
  exact ⟨v, w1, v1, w2, hc, g, _, w3, w4, h2, hp, ib, db, h7, h8, h9⟩

/-! ### The index type is too small -/

namespace MvExample

/-- A struct of 3 bytes and a variadic type with offsets of 2 bits. -/
def T : StructDef := ⟨"T", 3, []⟩
def Tiny : Variadic := ⟨"Tiny", 1, 2, [(0#8, T)]⟩
def tinyIts : List (List Add) := [[⟨0#8, T, []⟩]]

theorem tiny_ok : VariadicOK Tiny := ⟨⟨by decide, by decide, by decide⟩, by decide⟩
theorem tiny_variants : ∀ as ∈ tinyIts, ∀ a ∈ as, (a.type, a.struct) ∈ Tiny.types := by
  intro as has a ha
  simp only [tinyIts, List.mem_cons, List.not_mem_nil, or_false] at has
  subst has
  simp only [List.mem_cons, List.not_mem_nil, or_false] at ha
  subst ha; simp [Tiny]

/-- Creates, fills and closes a multivector: the bytes of the index and of the data. -/
def result (V : Variadic) (its : List (List Add)) : Option (Out Bytes × Out Bytes) :=
  match ((build (B := mem) V obj its).mapErr (RErr.io · "x") >>= fun v => @MultiVec.close mem .debug .little naiveDiff V v) mem0 with
  | (.ok r, w) => some (mem.deref w r.1, mem.deref w r.2)
  | _ => none

theorem result_eq {V : Variadic} {its : List (List Add)} {v1 : MultiVec mem} {w1 w2 : MemW} {si sd ib db}
    (hb : build (B := mem) V obj its mem0 = (.ok v1, w1))
    (hcl : @MultiVec.close mem .debug .little naiveDiff V v1 w1 = (.ok (si, sd), w2)) (h1 : mem.deref w2 si = .ok ib)
    (h2 : mem.deref w2 sd = .ok db) : result V its = some (.ok ib, .ok db) := by
  unfold result
  rw [Act.bind_ok (Act.mapErr_ok hb), hcl]
  change some (mem.deref w2 si, mem.deref w2 sd) = _
  rw [h1, h2]

end MvExample

/-- Four bytes of data need three bits: the last offset is stored as four, but read as zero. -/
theorem C26_refuted : ¬ C26_claim := by
  intro h
  have hb : (build (B := mem) Tiny obj tinyIts mem0).1.isOk = true := by decide
  obtain ⟨v1, w1, hb⟩ := isOk_run hb
  obtain ⟨v, w, hc, g⟩ := build_mgrows (k := .memory) tiny_variants hb
  obtain ⟨xss, si, sd, w2, ib, db, h1, h2, h3, h4, h5⟩ := h naiveDiff .memory .debug .little Tiny mem0 w w1 obj "x" "s" v v1 tinyIts tiny_ok
    (munused_mem0 _) trivial trivial hc g (by decide) (by decide)
  have hr := result_eq hb h2 h3 h4
  have hd : result Tiny tinyIts = some (.ok [0#8, 4#8], .ok [0#8, 0#8, 0#8, 0#8]) := by decide
  rw [hd] at hr; cases hr
  have hx : AllContents .debug .little tinyIts [[(0#8, [0#8, 0#8, 0#8])]] := ⟨⟨rfl, by decide, trivial⟩, trivial⟩
  rw [h1.unique hx] at h5
  obtain ⟨_, h5⟩ := h5
  obtain ⟨b, l, h6, h7, h8⟩ := (h5 .debug .little).2 0 (by decide)
  have ha : MultiView.at' .debug .little Tiny ⟨[0#8, 4#8], [0#8, 0#8, 0#8, 0#8]⟩ 0 = .ok [] := by decide
  rw [ha] at h6; cases h6
  cases h7
  cases h8

/-! ## C27: the index -/

/-- C27 in full. -/
def C27_claim : Prop :=
  ∀ (_ : DiffLib) (k : Kind) (p : Profile) (e : Endian) (V : Variadic) (w0 w w1 w2 : k.backend.W) (o : k.backend.Obj)
    (name schema : String) (v v1 : MultiVec k.backend) (its : List (List Add)) (si sd : Slice k.backend.Base), VariadicOK V →
    k.MUnused w0 o name → createMultiVector p e o name schema w0 = (.ok v, w) → MGrows k p e V o name w v its w1 v1 →
    (its.length + 1) * V.indexSize + 8 < 2 ^ 63 → dataSize its + 8 < 2 ^ 63 → v1.close p e V w1 = (.ok (si, sd), w2) →
    ∃ xss ib db, AllContents p e its xss ∧ k.stored w2 o (name ++ "_index") = some (image ib) ∧ k.stored w2 o name = some (image db) ∧
      ib.length = (its.length + 1) * V.indexSize ∧ (offsets V ib).length = its.length + 1 ∧ (offsets V ib).head? = some 0 ∧
      (offsets V ib).Pairwise (· ≤ ·) ∧ (offsets V ib).getLast? = some db.length ∧
      (∀ i, i ≤ its.length → (offsets V ib)[i]? = some (dataSize (its.take i))) ∧ pieces (offsets V ib) db = xss.map encodeItem

/-- The stored index has one entry more than there are items. It starts at zero, does not decrease, ends with the size of
the data; consecutive entries delimit the items. All this as long as the index type can express the size of the data. -/
theorem C27_index_partial [DiffLib] (k : Kind) (p : Profile) (e : Endian) (V : Variadic) (ok : VariadicOK V) (w0 w w1 w2 : k.backend.W)
    (o : k.backend.Obj) (name schema : String) (v v1 : MultiVec k.backend) (its : List (List Add)) (si sd : Slice k.backend.Base)
    (hu : k.MUnused w0 o name) (hc : createMultiVector p e o name schema w0 = (.ok v, w))
    (g : MGrows k p e V o name w v its w1 v1) (hbI : (its.length + 1) * V.indexSize + 8 < 2 ^ 63) (hb : dataSize its + 8 < 2 ^ 63)
    (hbits : dataSize its < 2 ^ V.indexBits) (hcl : v1.close p e V w1 = (.ok (si, sd), w2)) :
    ∃ xss ib db, AllContents p e its xss ∧ k.stored w2 o (name ++ "_index") = some (image ib) ∧ k.stored w2 o name = some (image db) ∧
      ib.length = (its.length + 1) * V.indexSize ∧ (offsets V ib).length = its.length + 1 ∧ (offsets V ib).head? = some 0 ∧
      (offsets V ib).Pairwise (· ≤ ·) ∧ (offsets V ib).getLast? = some db.length ∧
      (∀ i, i ≤ its.length → (offsets V ib)[i]? = some (dataSize (its.take i))) ∧ pieces (offsets V ib) db = xss.map encodeItem := by
  obtain ⟨xs, xss, cleanI, cleanD, r, w2', hx, hxss, hv, hcl', cl, st, fine, oi, od⟩ := mclose_inv ok.index hu hc g hbI hb
  rw [hcl] at hcl'; cases hcl'
  cases cl with
  | ok si sd hI hD hsI hsD hrI hrD =>
    obtain ⟨h1, h2, _⟩ := written_view ok hx hxss hv hbits (by omega)
    refine ⟨xss, _, _, hxss, (k.stored_eq ..).trans hI, (k.stored_eq ..).trans hD, ?_, ?_, ?_, ?_, ?_, ?_, h2⟩
    · have hall : AllSize V.indexSize xs := hx.allSize
      rw [hall.length_flatten, ← hx.length_eq, List.length_map, length_indexNumbers]
    · rw [h1, length_indexNumbers]
    · rw [h1, List.head?_eq_getElem?, getElem?_indexNumbers _ _ (Nat.zero_le _)]; rfl
    · rw [h1]; exact indexNumbers_sorted its
    · rw [h1, hxss.length.1]; simp [indexNumbers]
    · rw [h1]; exact fun i hi => getElem?_indexNumbers _ _ hi

/-- The index of the example. -/
example : ∃ ib db, result Coappearances.VerticesData its = some (.ok ib, .ok db) ∧
    offsets Coappearances.VerticesData ib = [0, 12, 12, 17] ∧ db.length = 17 := ⟨_, _, rfl, by decide, by decide⟩

theorem image_inj {a b : Bytes} (h : image a = image b) : a = b := by
  have hl : a.length = b.length := by
    have := congrArg List.length h
    simp [image, length_le64, zeros] at this; omega
  unfold image at h
  rw [hl, List.append_assoc, List.append_assoc] at h
  exact List.append_cancel_right (List.append_cancel_left h)

/-- Creates, fills and closes a multivector: what is stored. -/
def MvExample.storedResult (V : Variadic) (its : List (List Add)) : Option (Option Bytes × Option Bytes) :=
  match ((build (B := mem) V obj its).mapErr (RErr.io · "x") >>= fun v => @MultiVec.close mem .debug .little naiveDiff V v) mem0 with
  | (.ok _, w) => some (Kind.stored .memory w obj "x_index", Kind.stored .memory w obj "x")
  | _ => none

/-- The same run as for C26: the last entry of the index is zero instead of four. -/
theorem C27_refuted : ¬ C27_claim := by
  intro h
  have hb : (build (B := mem) Tiny obj tinyIts mem0).1.isOk = true := by decide
  obtain ⟨v1, w1, hb⟩ := isOk_run hb
  obtain ⟨v, w, hc, g⟩ := build_mgrows (k := .memory) tiny_variants hb
  have hr : storedResult Tiny tinyIts = some (some (image [0#8, 4#8]), some (image [0#8, 0#8, 0#8, 0#8])) := by decide
  unfold storedResult at hr
  rw [Act.bind_ok (Act.mapErr_ok hb)] at hr
  cases hcl : @MultiVec.close mem .debug .little naiveDiff Tiny v1 w1 with
  | mk r w2 =>
    rw [hcl] at hr
    cases r with
    | ok r =>
      obtain ⟨si, sd⟩ := r
      obtain ⟨xss, ib, db, _, h1, h2, _, _, _, _, h3, _⟩ := h naiveDiff .memory .debug .little Tiny mem0 w w1 w2 obj "x" "s" v v1 tinyIts
        si sd tiny_ok (munused_mem0 _) hc g (by decide) (by decide) hcl
      change some (Kind.stored .memory w2 obj "x_index", Kind.stored .memory w2 obj "x") = _ at hr
      have h1' : Kind.stored .memory w2 obj "x_index" = some (image ib) := h1
      rw [h1', h2] at hr
      have hr := Option.some.inj hr
      have hi : ib = [0#8, 4#8] := image_inj (Option.some.inj (congrArg Prod.fst hr))
      have hd : db = [0#8, 0#8, 0#8, 0#8] := image_inj (Option.some.inj (congrArg Prod.snd hr))
      rw [hi, hd] at h3
      exact absurd h3 (by decide)
    | err x => cases hr
    | panic => cases hr
    | ub => cases hr

end Flatdata
