import Verif.Spec.Build
import Verif.Proofs.ArchiveOpen
import Verif.Proofs.MvView
import Verif.Proofs.Format
import Verif.Props.Storage
/-!
# Built archives: what is stored, and opening them
-/
namespace Flatdata
open Spec

variable {k : Kind} {p : Profile} {e : Endian}

/-- A complete resource is stored, and the storage object sees it. -/
structure Settled (k : Kind) (o : k.backend.Obj) (name schema : String) (x : Bytes) (w : k.backend.W) : Prop where
  valid : Valid k (k.stored w o) name schema x
  data : Cur k.laws w o name
  text : Cur k.laws w o (Storage.schemaName name)

theorem Cur.keeps {B : Backend} {L : Laws B} {o : B.Obj} {n : String} {w w' : B.W} (h : Cur L w o n) (kp : Keeps L w w' (L.loc o n)) :
    Cur L w' o n := by
  intro s hs
  obtain ⟨d, h1, h2, h3, h4, h5, h6⟩ := h s ((kp.cache o n rfl).symm.trans hs)
  exact ⟨d, kp.medium.trans h1, h2, h3, h4, h5, (kp.content _ h5).trans h6⟩

theorem Spec.Valid.congr {dir dir' : String → Option Bytes} {name schema : String} {x : Bytes} (h : Valid k dir name schema x)
    (h1 : dir' name = dir name) (h2 : dir' (name ++ ".schema") = dir (name ++ ".schema")) : Valid k dir' name schema x :=
  ⟨by obtain ⟨d, e1, e2⟩ := h.data; exact ⟨d, h1.trans e1, e2⟩, h2.trans h.text, h.mappable⟩

theorem Spec.Valid.unique {dir : String → Option Bytes} {name schema schema' : String} {x y : Bytes} (h : Valid k dir name schema x)
    (h' : Valid k dir name schema' y) : x = y := by
  obtain ⟨d, e1, e2, _⟩ := h.data
  obtain ⟨d', e3, e4, _⟩ := h'.data
  rw [e1] at e3; cases e3
  exact Holds.unique e2 e4

variable {o : k.backend.Obj} {name schema : String} {x : Bytes} {w w' : k.backend.W}

theorem Settled.keeps (h : Settled k o name schema x w) (k1 : Keeps k.laws w w' (k.laws.loc o name))
    (k2 : Keeps k.laws w w' (k.laws.loc o (Storage.schemaName name))) : Settled k o name schema x w' := by
  refine ⟨h.valid.congr ?_ ?_, h.data.keeps k1, h.text.keeps k2⟩
  · rw [Kind.stored_eq, Kind.stored_eq]; exact k1.medium
  · rw [Kind.stored_eq, Kind.stored_eq]; exact k2.medium

theorem Settled.readOnly (h : Settled k o name schema x w) (r : ReadOnly k.laws w w') : Settled k o name schema x w' :=
  ⟨by rw [r.stored]; exact h.valid, r.cur h.data, r.cur h.text⟩

theorem Settled.quiet {P : k.Place → Prop} (h : Settled k o name schema x w) (q : k.Quiet P w w')
    (h1 : P (k.place o name)) (h2 : P (k.place o (name ++ ".schema"))) : Settled k o name schema x w' := by
  induction q with
  | refl => exact h
  | away _ s ih => exact ih.keeps ((Kind.StepAway.keeps s).1 o name h1) ((Kind.StepAway.keeps s).1 o (name ++ ".schema") h2)
  | read _ _ hr ih => exact ih.readOnly (.read hr)

theorem Spec.Kind.Quiet.steps {P : k.Place → Prop} (q : k.Quiet P w w') : k.Steps w w' := by
  induction q with
  | refl => exact .refl _
  | away _ s ih => exact ih.step s.step
  | read _ ho hr ih => exact ih.step (.read ho hr)

theorem cur_of_unseen {B : Backend} {L : Laws B} {o : B.Obj} {n : String} {w : B.W} (h : L.cache w o n = none) : Cur L w o n := by
  intro s hs; rw [h] at hs; cases hs

theorem valid_image (hd : k.laws.medium w (k.laws.loc o name) = some (image x))
    (hs : k.laws.medium w (k.laws.loc o (Storage.schemaName name)) = some (strBytes schema)) (hl : x.length < 2 ^ 63)
    (hm : k.mappable (strBytes schema)) : Valid k (k.stored w o) name schema x := by
  refine ⟨⟨image x, (k.stored_eq ..).trans hd, holds_image x (by omega), ?_⟩, (k.stored_eq ..).trans hs, hm⟩
  simp [image, length_le64, zeros]; omega

/-- The two files of a resource with the payload `x`, and the storage object sees them. -/
structure Fixed (k : Kind) (o : k.backend.Obj) (name schema : String) (x : Bytes) (w : k.backend.W) : Prop where
  files : StoredAs (k.stored w o) name schema x
  small : x.length < 2 ^ 63
  data : Cur k.laws w o name
  text : Cur k.laws w o (Storage.schemaName name)

theorem fixed_image (hd : k.laws.medium w (k.laws.loc o name) = some (image x))
    (hs : k.laws.medium w (k.laws.loc o (Storage.schemaName name)) = some (strBytes schema)) (hl : x.length < 2 ^ 63)
    (c1 : Cur k.laws w o name) (c2 : Cur k.laws w o (Storage.schemaName name)) : Fixed k o name schema x w :=
  ⟨⟨(k.stored_eq ..).trans hd, (k.stored_eq ..).trans hs⟩, hl, c1, c2⟩

theorem Fixed.settled (h : Fixed k o name schema x w) (hm : k.mappable (strBytes schema)) : Settled k o name schema x w :=
  ⟨valid_image ((k.stored_eq ..).symm.trans h.files.data) ((k.stored_eq ..).symm.trans h.files.text) h.small hm, h.data, h.text⟩

theorem Fixed.keeps (h : Fixed k o name schema x w) (k1 : Keeps k.laws w w' (k.laws.loc o name))
    (k2 : Keeps k.laws w w' (k.laws.loc o (Storage.schemaName name))) : Fixed k o name schema x w' := by
  refine ⟨⟨Eq.trans ?_ h.files.data, Eq.trans ?_ h.files.text⟩, h.small, h.data.keeps k1, h.text.keeps k2⟩
  · rw [Kind.stored_eq, Kind.stored_eq]; exact k1.medium
  · rw [Kind.stored_eq, Kind.stored_eq]; exact k2.medium

theorem Fixed.quiet {P : k.Place → Prop} (h : Fixed k o name schema x w) (q : k.Quiet P w w')
    (h1 : P (k.place o name)) (h2 : P (k.place o (name ++ ".schema"))) : Fixed k o name schema x w' := by
  induction q with
  | refl => exact h
  | away _ s ih => exact ih.keeps ((Kind.StepAway.keeps s).1 o name h1) ((Kind.StepAway.keeps s).1 o (name ++ ".schema") h2)
  | read _ _ hr ih =>
    have r := ReadOnly.read (L := k.laws) hr
    exact ⟨by rw [r.stored]; exact ih.files, ih.small, r.cur ih.data, r.cur ih.text⟩

/-- Writing a resource as a whole. -/
theorem fixed_write (hu : k.Unused w o name) (hl : x.length < 2 ^ 63)
    (h : Storage.write k.backend p e o name schema x w = (.ok (), w')) : Fixed k o name schema x w' := by
  obtain ⟨f1, f2, u⟩ := hu.fresh
  obtain ⟨r, w1, h', hr, ho⟩ := write_spec p e o name schema w (Nat.lt_trans hl (by decide)) (k.loc_schema_ne o name) f1 f2
  rw [h] at h'; cases h'
  cases hr with
  | ok hd hs =>
    exact fixed_image hd hs hl (cur_of_unseen ((ho.cache _ _).trans u.data)) (cur_of_unseen ((ho.cache _ _).trans u.schema))

/-- Reading changes nothing but what has been read. -/
theorem readOnly_storageRead [DiffLib] {B : Backend} {L : Laws B} {o : B.Obj} {name schema : String} {w w' : B.W} {r}
    (h : Storage.read B p e o name schema w = (r, w')) : ReadOnly L w w' := by
  have step : ∀ n, Act.Pres (fun w' => ReadOnly L w w') (B.readResource o n) := by
    intro n w1 h1
    exact h1.trans (.read rfl)
  have all : Act.Pres (fun w' => ReadOnly L w w') (Storage.read B p e o name schema) := by
    unfold Storage.read
    refine Act.Pres.bind (Act.Pres.mapErr (step _)) fun d => Act.Pres.bind (Act.Pres.mapErr (step _)) fun s => ?_
    intro w1 h1
    have := (checkResource_same p e name schema (w := w1) (w' := w1) (sd := d) (ss := s) rfl rfl).2.1
    rw [this]; exact h1
  have := all w (.refl w)
  rw [h] at this; exact this

/-- Reading a resource for the first time. -/
theorem cur_of_read [DiffLib] {B : Backend} {L : Laws B} {o : B.Obj} {name schema : String} {w w' : B.W} {r}
    (hu : Unseen L o name w) (h : Storage.read B p e o name schema w = (r, w')) :
    Cur L w' o name ∧ Cur L w' o (Storage.schemaName name) :=
  ⟨(readOnly_storageRead h).cur (cur_of_unseen hu.data), (readOnly_storageRead h).cur (cur_of_unseen hu.schema)⟩

theorem Spec.Kind.Unused.keeps (hu : k.Unused w o name) (k1 : Keeps k.laws w w' (k.laws.loc o name))
    (k2 : Keeps k.laws w w' (k.laws.loc o (Storage.schemaName name))) : k.Unused w' o name := by
  have e1 : k.stored w' o name = k.stored w o name := by
    rw [Kind.stored_eq, Kind.stored_eq]; exact k1.medium
  have e2 : k.stored w' o (name ++ ".schema") = k.stored w o (name ++ ".schema") := by
    rw [Kind.stored_eq, Kind.stored_eq]; exact k2.medium
  exact ⟨by rw [e1]; exact hu.data, by rw [e2]; exact hu.schema,
    (k.unread_iff _ _ _).mpr ((k1.cache _ _ rfl).trans ((k.unread_iff _ _ _).mp hu.unread)),
    (k.unread_iff _ _ _).mpr ((k2.cache _ _ rfl).trans ((k.unread_iff _ _ _).mp hu.unreadSchema))⟩

theorem fixed_signed {D : ArchiveDef} (h : Signed k p e D o w) : Fixed k o (D.name ++ ".archive") D.schema [] w := by
  obtain ⟨w0, w1, hr, ho, hu, h, q⟩ := h
  refine Fixed.quiet ?_ q (.inl rfl) (.inr rfl)
  unfold builderNew Storage.createArchive at h
  obtain ⟨_, w2, h, hp⟩ := Act.bind_eq_ok h
  cases hp
  obtain ⟨b, w3, h1, h⟩ := Act.bind_eq_ok h
  have s1 : k.StepAway (k.Own o D.signature) w0 w3 := by
    unfold Act.mapErr at h1; split at h1 <;> cases h1
    exact .exists_ (by assumption)
  have kp := (Kind.StepAway.keeps s1).1
  cases b with
  | true => cases h
  | false =>
    have h2 : Storage.write k.backend p e o D.signature D.schema [] w3 = (.ok (), w1) := by
      change (Storage.write k.backend p e o D.signature D.schema []).mapErr _ w3 = _ at h
      unfold Act.mapErr at h; split at h <;> cases h
      assumption
    exact fixed_write (hu.keeps (kp o _ (.inl rfl)) (kp o _ (.inr rfl))) (by decide) h2

/-- What is stored after a resource has been written, byte for byte. -/
def FixedAs (k : Kind) (o : k.backend.Obj) (r : ResDecl) (w : k.backend.W) : Payload → Prop
  | .bytes b => (∀ V index, r.type ≠ .multi V index) ∧ Fixed k o r.name r.schema b w
  | .items xss => ∃ V, r.type = .multi V (r.name ++ "_index") ∧
      Fixed k o (r.name ++ "_index") (Storage.indexSchema r.schema) (indexBytes V.indexSize xss) w ∧
      Fixed k o r.name r.schema (encodeItems xss) w ∧ Shows V ⟨indexBytes V.indexSize xss, encodeItems xss⟩ xss

/-- ... as a complete resource. -/
def SettledAs (k : Kind) (o : k.backend.Obj) (r : ResDecl) (w : k.backend.W) : Payload → Prop
  | .bytes b => (∀ V index, r.type ≠ .multi V index) ∧ Settled k o r.name r.schema b w
  | .items xss => ∃ V index ib db, r.type = .multi V index ∧ Settled k o index (Storage.indexSchema r.schema) ib w ∧
      Settled k o r.name r.schema db w ∧ Shows V ⟨ib, db⟩ xss

theorem mappable_index (k : Kind) (schema : String) : k.mappable (strBytes (Storage.indexSchema schema)) := by
  refine (k.mappable_iff _).mpr (k.laws.readable_of_ne _ fun h => ?_)
  have h2 := congrArg String.length (strBytes_eq_nil.mp h)
  simp [Storage.indexSchema] at h2

theorem fixed_written [DiffLib] {r : ResDecl} {x : Payload} (h : Written k p e o r w x) : FixedAs k o r w x := by
  cases h with
  | struct ht hl hr ho hu h q =>
    refine ⟨fun _ _ h => (by simp [ht] at h), Fixed.quiet ?_ q (.inl rfl) (.inr rfl)⟩
    unfold setStruct at h
    split at h
    · cases h
    · exact fixed_write hu (by rw [List.length_take]; omega) h
  | vector ht hl hr ho hu h q =>
    exact ⟨fun _ _ h => (by simp [ht] at h), (fixed_write hu hl h).quiet q (.inl rfl) (.inr rfl)⟩
  | raw ht hl hr ho hu h q =>
    exact ⟨fun _ _ h => (by simp [ht] at h), (fixed_write hu hl h).quiet q (.inl rfl) (.inr rfl)⟩
  | @grown S w0 w1 w2 w3 v v1 es xs s ht hs hr ho hu hc g hx hb hcl q =>
    refine ⟨fun _ _ h => (by simp [ht] at h), Fixed.quiet ?_ q (.inl rfl) (.inr rfl)⟩
    obtain ⟨i, u, n⟩ := created_inv S.size hu hc
    obtain ⟨pre, buf, c, i1, el, u1, nf, _⟩ := grows_inv i u hs g hb
    have hlen := el.length_eq
    obtain ⟨r', w2', h2, cl, _, hsch, _⟩ := i1.close u1 (Kind.loc_schema_ne k o r.name) p e (by rw [← hlen]; omega)
    rw [hcl] at h2; cases h2
    rw [el.unique hx] at cl
    cases cl with
    | ok s hmed hd hrd =>
      obtain ⟨wr, hun, hrd⟩ := hrd
      obtain ⟨c1, c2⟩ := cur_of_read hun hrd
      refine fixed_image hmed hsch ?_ c1 c2
      have := i1.all'.length_flatten
      rw [el.unique hx] at this
      rw [this, ← hx.length_eq]
      omega
  | @multi V index w0 w1 w2 w3 v v1 its xss s ht hi ok hr ho hu hc g hx hbI hb hbits hcl q =>
    obtain ⟨si, sd⟩ := s
    obtain ⟨xs, xss', cleanI, cleanD, r', w2', hx', hxss, hv, hcl', cl, st, fine, oi, od⟩ := mclose_inv ok.index hu hc g hbI hb
    rw [hcl] at hcl'; cases hcl'
    obtain rfl := hxss.unique hx
    cases cl with
    | ok si sd hI hD hsI hsD hrI hrD =>
      obtain ⟨wa, wb, hua, hrI, hdI, k1, k2⟩ := hrI
      obtain ⟨wc, huc, hrD⟩ := hrD
      have view := (written_view ok hx' hxss hv hbits (by omega)).2.2
      obtain ⟨c1, c2⟩ := cur_of_read hua hrI
      obtain ⟨c3, c4⟩ := cur_of_read huc hrD
      rw [written_index ok.index hx' hxss hbits] at view
      refine ⟨V, hi ▸ ht, ?_, ?_, view⟩
      · rw [← written_index ok.index hx' hxss hbits]
        refine Fixed.quiet (fixed_image hI ?_ ?_ (c1.keeps k1) (c2.keeps k2)) q (.inr (.inl rfl)) (.inr (.inr rfl))
        · exact st.indexSchema
        · have hall : AllSize V.indexSize xs := hx'.allSize
          rw [hall.length_flatten, ← hx'.length_eq, List.length_map, length_indexNumbers]
          omega
      · refine Fixed.quiet (fixed_image hD ?_ ?_ c3 c4) q (.inl (.inl rfl)) (.inl (.inr rfl))
        · exact st.dataSchema
        · rw [hx.length.1]; omega

theorem settled_written [DiffLib] {r : ResDecl} {x : Payload} (hm : k.mappable (strBytes r.schema)) (h : Written k p e o r w x) :
    SettledAs k o r w x := by
  have h := fixed_written h
  cases x with
  | bytes b => exact ⟨h.1, h.2.settled hm⟩
  | items xss =>
    obtain ⟨V, h1, h2, h3, h4⟩ := h
    exact ⟨V, _, _, _, h1, h2.settled (mappable_index k _), h3.settled hm, h4⟩

/-! ## What is stored, as a whole -/

/-- What is stored for a resource. -/
def ResHolds (k : Kind) (dir : String → Option Bytes) (r : ResDecl) : Option Payload → Prop
  | none => r.optional = true ∧ ∀ q ∈ parts r, dir q.1 = none
  | some (.bytes b) => (∀ V index, r.type ≠ .multi V index) ∧ Valid k dir r.name r.schema b
  | some (.items xss) => ∃ V index ib db, r.type = .multi V index ∧ Valid k dir index ("index(" ++ r.schema ++ ")") ib ∧
      Valid k dir r.name r.schema db ∧ Shows V ⟨ib, db⟩ xss

def AllHold (k : Kind) (dir : String → Option Bytes) : List ResDecl → List (Option Payload) → Prop
  | [], [] => True
  | r :: rs, c :: cs => ResHolds k dir r c ∧ AllHold k dir rs cs
  | _, _ => False

mutual
def Holding (k : Kind) : ArchiveDef → Dir → Content → Prop
  | .mk name schema rs subs, dir, .mk cs ts =>
    (∃ x, Valid k (dir []) (name ++ ".archive") schema x) ∧ AllHold k (dir []) rs cs ∧ SubsHold k subs dir ts

def SubsHold (k : Kind) : SubDefs → Dir → SubContents → Prop
  | .nil, _, .nil => True
  | .cons name optional D rest, dir, .cons c ts =>
    (match c with
      | some c => Holding k D (dir.sub name) c
      | none => optional = true ∧ NotStored D (dir.sub name)) ∧ SubsHold k rest dir ts
  | _, _, _ => False
end

theorem Spec.Valid.notHuge {dir : String → Option Bytes} {name schema : String} {x : Bytes} (h : Valid k dir name schema x) :
    ¬ Huge dir name := by
  rintro ⟨d, h1, h2, h3⟩
  obtain ⟨d', e1, e2, e3⟩ := h.data
  rw [h1] at e1; cases e1
  have := e2.size
  have := e2.length
  omega

theorem parts_of_one {r : ResDecl} (h : ∀ V index, r.type ≠ .multi V index) : parts r = [(r.name, r.schema)] := by
  unfold parts
  cases hr : r.type <;> simp only
  exact absurd hr (h _ _)

theorem parts_of_multi {r : ResDecl} {V index} (h : r.type = .multi V index) :
    parts r = [(index, "index(" ++ r.schema ++ ")"), (r.name, r.schema)] := by
  unfold parts; rw [h]

variable {dir : String → Option Bytes} {r : ResDecl} {c : Option Payload}

theorem ResHolds.part (h : ResHolds k dir r c) : ∀ q ∈ parts r, (∃ x, Valid k dir q.1 q.2 x) ∨ (r.optional = true ∧ dir q.1 = none) := by
  match c, h with
  | none, h => exact fun q hq => .inr ⟨h.1, h.2 q hq⟩
  | some (.bytes b), h =>
    intro q hq
    rw [parts_of_one h.1, List.mem_singleton] at hq
    exact .inl ⟨b, by rw [hq]; exact h.2⟩
  | some (.items xss), ⟨V, index, ib, db, h1, h2, h3, _⟩ =>
    intro q hq
    rw [parts_of_multi h1] at hq
    simp only [List.mem_cons, List.not_mem_nil, or_false] at hq
    rcases hq with rfl | rfl
    · exact .inl ⟨ib, h2⟩
    · exact .inl ⟨db, h3⟩

theorem AllHold.part : ∀ {rs : List ResDecl} {cs : List (Option Payload)}, AllHold k dir rs cs →
    ∀ r ∈ rs, ∀ q ∈ parts r, (∃ x, Valid k dir q.1 q.2 x) ∨ (r.optional = true ∧ dir q.1 = none)
  | [], [], _ => fun r hr => by cases hr
  | r' :: rs, c :: cs, h => fun r hr => by
    rcases List.mem_cons.mp hr with rfl | hr
    · exact h.1.part
    · exact AllHold.part h.2 r hr
  | [], _ :: _, h => h.elim
  | _ :: _, [], h => h.elim

theorem AllHold.complete {rs : List ResDecl} {cs : List (Option Payload)} (h : AllHold k dir rs cs) :
    ∀ r ∈ rs, r.optional = false → ∀ q ∈ parts r, ∃ x, Valid k dir q.1 q.2 x := by
  intro r hr ho q hq
  rcases h.part r hr q hq with h | ⟨h, _⟩
  · exact h
  · rw [ho] at h; cases h

theorem AllHold.notHuge {rs : List ResDecl} {cs : List (Option Payload)} (h : AllHold k dir rs cs) :
    ¬ ∃ r ∈ rs, ∃ q ∈ parts r, Huge dir q.1 := by
  rintro ⟨r, hr, q, hq, hh⟩
  rcases h.part r hr q hq with ⟨x, h⟩ | ⟨_, h⟩
  · exact h.notHuge hh
  · obtain ⟨d, hd, _⟩ := hh
    rw [h] at hd; cases hd

mutual
theorem Holding.complete : ∀ {D dir c}, Holding k D dir c → Complete k D dir
  | .mk _ _ _ _, _, .mk _ _, h => by
    unfold Holding at h
    unfold Complete
    exact ⟨h.1, h.2.1.complete, SubsHold.complete h.2.2⟩

theorem SubsHold.complete : ∀ {D dir c}, SubsHold k D dir c → SubsComplete k D dir
  | .nil, _, .nil, _ => by unfold SubsComplete; trivial
  | .cons name optional D rest, dir, .cons none ts, h => by
    unfold SubsHold at h
    unfold SubsComplete
    exact ⟨fun ho => (by simp [h.1.1] at ho), SubsHold.complete h.2⟩
  | .cons name optional D rest, dir, .cons (some c) ts, h => by
    unfold SubsHold at h
    unfold SubsComplete
    exact ⟨fun _ => Holding.complete h.1, SubsHold.complete h.2⟩
  | .nil, _, .cons _ _, h => by unfold SubsHold at h; exact h.elim
  | .cons _ _ _ _, _, .nil, h => by unfold SubsHold at h; exact h.elim
end

mutual
theorem notHuge_of_empty : ∀ {D : ArchiveDef} {dir : Dir}, NotStored D dir → ¬ SomeHuge D dir
  | .mk _ _ _ _, dir, h => by
    unfold NotStored at h
    unfold SomeHuge
    rintro (⟨d, hd, _⟩ | ⟨r, hr, q, hq, d, hd, _⟩ | hs)
    · rw [h.1] at hd; cases hd
    · rw [h.2.1 r hr q hq] at hd; cases hd
    · exact subsNotHuge_of_empty h.2.2 hs

theorem subsNotHuge_of_empty : ∀ {D : SubDefs} {dir : Dir}, SubsNotStored D dir → ¬ SubsHuge D dir
  | .nil, _, _ => by unfold SubsHuge; exact id
  | .cons _ _ _ _, dir, h => by
    unfold SubsNotStored at h
    unfold SubsHuge
    rintro (hs | hs)
    · exact notHuge_of_empty h.1 hs
    · exact subsNotHuge_of_empty h.2 hs
end

mutual
theorem Holding.notHuge : ∀ {D dir c}, Holding k D dir c → ¬ SomeHuge D dir
  | .mk _ _ _ _, _, .mk _ _, h => by
    unfold Holding at h
    unfold SomeHuge
    rintro (hs | hs | hs)
    · obtain ⟨x, hv⟩ := h.1
      exact hv.notHuge hs
    · exact h.2.1.notHuge hs
    · exact SubsHold.notHuge h.2.2 hs

theorem SubsHold.notHuge : ∀ {D dir c}, SubsHold k D dir c → ¬ SubsHuge D dir
  | .nil, _, .nil, _ => by unfold SubsHuge; exact id
  | .cons name optional D rest, dir, .cons none ts, h => by
    unfold SubsHold at h
    unfold SubsHuge
    rintro (hs | hs)
    · exact notHuge_of_empty h.1.2 hs
    · exact SubsHold.notHuge h.2 hs
  | .cons name optional D rest, dir, .cons (some c) ts, h => by
    unfold SubsHold at h
    unfold SubsHuge
    rintro (hs | hs)
    · exact Holding.notHuge h.1 hs
    · exact SubsHold.notHuge h.2 hs
  | .nil, _, .cons _ _, h => by unfold SubsHold at h; exact h.elim
  | .cons _ _ _ _, _, .nil, h => by unfold SubsHold at h; exact h.elim
end

/-! ## What is shown -/

section
variable {w' : k.backend.W}

theorem SlotShows.bytes {optional : Bool} {name schema : String} {b : Bytes} {x : Option (Slice k.backend.Base)}
    (h : SlotShows k True (fun s x => k.backend.deref w' s = .ok x) optional dir name schema x) (hv : Valid k dir name schema b) :
    ∃ s, x = some s ∧ k.backend.deref w' s = .ok b := by
  cases x with
  | none => exact absurd ⟨b, hv⟩ (h.2 trivial)
  | some s =>
    obtain ⟨y, h1, h2⟩ := h
    exact ⟨s, rfl, by rw [h2, h1.unique hv]⟩

theorem SlotShows.absent {optional : Bool} {name schema : String} {x : Option (Slice k.backend.Base)}
    (h : SlotShows k True (fun s x => k.backend.deref w' s = .ok x) optional dir name schema x) (hv : dir name = none) : x = none := by
  cases x with
  | none => rfl
  | some s =>
    obtain ⟨y, h1, h2⟩ := h
    obtain ⟨d, e1, _⟩ := h1.data
    rw [hv] at e1; cases e1

theorem ResHolds.yields {x : Opened k.backend.Base} (h : ResHolds k dir r c)
    (hs : ResShows k True (fun s x => k.backend.deref w' s = .ok x) dir r x) : Yields k.backend w' r x c := by
  unfold ResShows at hs
  match c, h with
  | none, h =>
    unfold Yields
    have hp := h.2
    cases hr : r.type <;> cases x <;> simp only [hr] at hs ⊢
    case multi.two V index i d =>
      rw [parts_of_multi hr] at hp
      rw [SlotShows.absent hs.1 (hp _ List.mem_cons_self)]
      rfl
    all_goals
      rw [parts_of_one (fun V i h => by rw [hr] at h; cases h)] at hp
      rw [SlotShows.absent hs (hp _ List.mem_cons_self)]
      rfl
  | some (.bytes b), h =>
    have hr := h.1
    unfold Yields
    cases hr' : r.type <;> cases x <;> simp only [hr'] at hs
    case multi.two => exact absurd hr' (hr _ _)
    all_goals
      obtain ⟨s, rfl, hd⟩ := SlotShows.bytes hs h.2
      change (k.backend.deref w' s).bind _ = _
      rw [hd]; rfl
  | some (.items xss), ⟨V, index, ib, db, h1, h2, h3, h4⟩ =>
    refine ⟨V, index, ⟨ib, db⟩, h1, ?_, h4⟩
    rw [h1] at hs
    cases x with
    | one => exact hs.elim
    | two i d =>
      obtain ⟨si, rfl, hi⟩ := SlotShows.bytes hs.1 h2
      obtain ⟨sd, rfl, hd⟩ := SlotShows.bytes hs.2 h3
      change (k.backend.deref w' si).bind _ = _
      rw [hi]
      change (k.backend.deref w' sd).bind _ = _
      rw [hd]; rfl

theorem AllHold.yields : ∀ {rs : List ResDecl} {xs : List (Opened k.backend.Base)} {cs : List (Option Payload)}, AllHold k dir rs cs →
    AllShow k True (fun s x => k.backend.deref w' s = .ok x) dir rs xs → AllYield k.backend w' rs xs cs
  | [], [], [], _, _ => trivial
  | _ :: _, _ :: _, _ :: _, h, hs => ⟨h.1.yields hs.1, AllHold.yields h.2 hs.2⟩
  | [], _ :: _, _, _, hs => hs.elim
  | [], [], _ :: _, h, _ => h.elim
  | _ :: _, [], _, _, hs => hs.elim
  | _ :: _, _ :: _, [], h, _ => h.elim

mutual
theorem Holding.yields : ∀ {D : ArchiveDef} {dir : Dir} {a : Archive k.backend.Base} {c : Content}, Holding k D dir c →
    ArchiveShows k True (fun s x => k.backend.deref w' s = .ok x) D dir a → ArchiveYields k.backend w' D a c
  | .mk _ _ _ _, _, .mk _ _, .mk _ _, h, hs => by
    unfold Holding at h
    unfold ArchiveShows at hs
    unfold ArchiveYields
    exact ⟨h.2.1.yields hs.2.1, SubsHold.yields h.2.2 hs.2.2⟩

theorem SubsHold.yields : ∀ {D : SubDefs} {dir : Dir} {a : SubArchives k.backend.Base} {c : SubContents}, SubsHold k D dir c →
    SubsShow k True (fun s x => k.backend.deref w' s = .ok x) D dir a → SubsYield k.backend w' D a c
  | .nil, _, .nil, .nil, _, _ => by unfold SubsYield; trivial
  | .cons _ _ _ _, _, .cons a _, .cons c _, h, hs => by
    unfold SubsHold at h
    unfold SubsShow at hs
    unfold SubsYield
    refine ⟨?_, SubsHold.yields h.2 hs.2⟩
    match a, c, h.1, hs.1 with
    | some a, some c, h1, hs1 => exact Holding.yields h1 hs1
    | none, none, _, _ => trivial
    | none, some c, h1, hs1 => exact absurd (Holding.complete h1) (hs1.2 trivial)
    | some a, none, h1, hs1 =>
      have hc := ArchiveShows.complete hs1
      exfalso
      rename_i D _ _ _ _ _
      cases D
      unfold Complete at hc
      obtain ⟨x, hv⟩ := hc.1
      obtain ⟨d, hd, _⟩ := hv.data
      have hns := h1.2
      unfold NotStored at hns
      rw [hns.1] at hd; cases hd
  | .nil, _, .nil, .cons _ _, h, _ => by unfold SubsHold at h; exact h.elim
  | .nil, _, .cons _ _, _, _, hs => by unfold SubsShow at hs; exact hs.elim
  | .cons _ _ _ _, _, .nil, _, _, hs => by unfold SubsShow at hs; exact hs.elim
  | .cons _ _ _ _, _, .cons _ _, .nil, h, _ => by unfold SubsHold at h; exact h.elim
end
end

/-- Opening what is stored. -/
theorem open_holding [DiffLib] {D : ArchiveDef} {c : Content} (u : Usable k w o (NamesOf D)) (hn : k.noFault w)
    (h : Holding k D (k.dir w o) c) : ∃ a w', openArchive k.backend p e o D w = (.ok a, w') ∧ ArchiveYields k.backend w' D a c ∧
      Went k w w' := by
  obtain ⟨x, w', h1, g, out⟩ := openArchive_spec (p := p) (e := e) D u
  cases x with
  | ok a => exact ⟨a, w', h1, h.yields (ArchiveShows.mono (fun _ => hn) (fun s x hs => hs.1) out), g⟩
  | err x => exact absurd h.complete (out hn)
  | panic => exact absurd out.2 h.notHuge
  | ub => exact out.elim

/-! ## From histories to what is stored -/

section
variable [DiffLib] {o : k.backend.Obj} {w : k.backend.W}

theorem Spec.Signed.usable {D : ArchiveDef} (h : Signed k p e D o w) : k.Reachable w ∧ k.alive w o := by
  obtain ⟨w0, w1, hr, ho, hu, h, q⟩ := h
  unfold builderNew at h
  obtain ⟨_, w2, h, hp⟩ := Act.bind_eq_ok h
  cases hp
  have s1 : Kind.Steps k w0 w1 := (Kind.aside_createArchive (P := fun _ => False) id id w0 ⟨.refl w0, ho⟩ |> fun a => by
    rw [h] at a; exact a.1.steps)
  have s2 := s1.trans q.steps
  exact ⟨hr.steps s2, s2.alive ho⟩

theorem settled_res {r : ResDecl} {x : Payload} (h : SettledAs k o r w x) : ResHolds k (k.stored w o) r (some x) ∧
    ∀ q ∈ parts r, Cur k.laws w o q.1 ∧ Cur k.laws w o (Storage.schemaName q.1) := by
  cases x with
  | bytes b =>
    refine ⟨⟨h.1, h.2.valid⟩, fun q hq => ?_⟩
    rw [parts_of_one h.1, List.mem_singleton] at hq
    rw [hq]; exact ⟨h.2.data, h.2.text⟩
  | items xss =>
    obtain ⟨V, index, ib, db, h1, h2, h3, h4⟩ := h
    refine ⟨⟨V, index, ib, db, h1, h2.valid, h3.valid, h4⟩, fun q hq => ?_⟩
    rw [parts_of_multi h1] at hq
    simp only [List.mem_cons, List.not_mem_nil, or_false] at hq
    rcases hq with rfl | rfl
    · exact ⟨h2.data, h2.text⟩
    · exact ⟨h3.data, h3.text⟩

theorem Spec.AllBuilt.hold : ∀ {rs : List ResDecl} {cs : List (Option Payload)}, AllBuilt k p e o w rs cs →
    (∀ r ∈ rs, k.mappable (strBytes r.schema)) → AllHold k (k.stored w o) rs cs ∧
    ∀ r ∈ rs, ∀ q ∈ parts r, Cur k.laws w o q.1 ∧ Cur k.laws w o (Storage.schemaName q.1)
  | [], [], _, _ => ⟨trivial, fun r hr => by cases hr⟩
  | r :: rs, some x :: cs, h, hm => by
    obtain ⟨h1, h2⟩ := AllBuilt.hold h.2 (fun r hr => hm r (List.mem_cons_of_mem _ hr))
    obtain ⟨h3, h4⟩ := settled_res (settled_written (hm r List.mem_cons_self) h.1)
    refine ⟨⟨h3, h1⟩, fun r' hr => ?_⟩
    rcases List.mem_cons.mp hr with rfl | hr
    · exact h4
    · exact h2 r' hr
  | r :: rs, none :: cs, h, hm => by
    obtain ⟨h1, h2⟩ := AllBuilt.hold h.2 (fun r hr => hm r (List.mem_cons_of_mem _ hr))
    refine ⟨⟨⟨h.1.1, fun q hq => (h.1.2 q hq).1⟩, h1⟩, fun r' hr => ?_⟩
    rcases List.mem_cons.mp hr with rfl | hr
    · intro q hq
      obtain ⟨_, u1, u2⟩ := h.1.2 q hq
      exact ⟨cur_of_unseen ((k.unread_iff _ _ _).mp u1), cur_of_unseen ((k.unread_iff _ _ _).mp u2)⟩
    · exact h2 r' hr
  | [], _ :: _, h, _ => h.elim
  | _ :: _, [], h, _ => h.elim

/-- The content of a subdirectory belongs to the content of the directory. -/
def Nested (k : Kind) : Prop :=
  ∀ {o o' d w1 w2}, k.backend.subdir o d w1 = (.ok o', w2) → ∀ w, k.dir w o' = (k.dir w o).sub d

omit [DiffLib] in
theorem nested_disk : Nested .disk := by
  intro o o' d w1 w2 h w
  cases h; rfl

mutual
theorem Spec.Built.hold : ∀ {D : ArchiveDef} {o : k.backend.Obj} {c : Content}, Built k p e w D o c → SchemasReadable k D →
    (Nested k ∨ c.subs.empty) → Holding k D (k.dir w o) c ∧ Usable k w o (NamesOf D)
  | .mk name schema rs subs, o, .mk cs ts, h, hm, hk => by
    unfold Built at h
    unfold SchemasReadable at hm
    unfold Holding
    obtain ⟨hs, ha, hsub⟩ := h
    have hx := (fixed_signed hs).settled hm.1
    obtain ⟨hr, ho⟩ := hs.usable
    obtain ⟨h1, h2⟩ := ha.hold hm.2.1
    rw [k.dir_nil]
    refine ⟨⟨⟨_, hx.valid⟩, h1, SubsBuilt.hold hsub hm.2.2 hk⟩, hr, ho, fun n hn => ?_⟩
    rcases hn with rfl | ⟨r, hr, q, hq, rfl⟩
    · exact ⟨hx.data, hx.text⟩
    · exact h2 r hr q hq

theorem Spec.SubsBuilt.hold : ∀ {D : SubDefs} {o : k.backend.Obj} {c : SubContents}, SubsBuilt k p e w D o c → SubSchemasReadable k D →
    (Nested k ∨ c.empty) → SubsHold k D (k.dir w o) c
  | .nil, _, .nil, _, _, _ => by unfold SubsHold; trivial
  | .cons name optional D rest, o, .cons none ts, h, hm, hk => by
    unfold SubsBuilt at h
    unfold SubSchemasReadable at hm
    unfold SubsHold
    exact ⟨h.1, SubsBuilt.hold h.2 hm.2 (hk.imp id fun h => h.2)⟩
  | .cons name optional D rest, o, .cons (some c) ts, h, hm, hk => by
    unfold SubsBuilt at h
    unfold SubSchemasReadable at hm
    unfold SubsHold
    rcases hk with hk | hk
    · obtain ⟨⟨o', w1, w2, hsd, hst, hb⟩, h2⟩ := h
      refine ⟨?_, SubsBuilt.hold h2 hm.2 (.inl hk)⟩
      change Holding k D (Dir.sub (k.dir w o) name) c
      rw [← hk hsd w]
      exact (Built.hold hb hm.1 (.inl hk)).1
    · cases hk.1
  | .nil, _, .cons _ _, h, _, _ => by unfold SubsBuilt at h; exact h.elim
  | .cons _ _ _ _, _, .nil, h, _, _ => by unfold SubsBuilt at h; exact h.elim
end
/-! ## The files -/

omit [DiffLib] in
theorem Spec.StoredAs.mem {dir : Dir} {name schema : String} {x : Bytes} (h : StoredAs (dir []) name schema x) :
    ∀ y ∈ filesOf name schema x, dir y.1 y.2.1 = some y.2.2 := by
  intro y hy
  simp only [filesOf, List.mem_cons, List.not_mem_nil, or_false] at hy
  rcases hy with rfl | rfl
  · exact h.data
  · exact h.text

omit [DiffLib] in
theorem fixed_res {r : ResDecl} {x : Payload} (h : FixedAs k o r w x) : ∀ y ∈ resListing r (some x), k.dir w o y.1 y.2.1 = some y.2.2 := by
  cases x with
  | bytes b => exact StoredAs.mem (by rw [k.dir_nil]; exact h.2.files)
  | items xss =>
    obtain ⟨V, h1, h2, h3, _⟩ := h
    intro y hy
    unfold resListing at hy
    simp only [h1, List.mem_append] at hy
    rcases hy with hy | hy
    · exact StoredAs.mem (by rw [k.dir_nil]; exact h2.files) y hy
    · exact StoredAs.mem (by rw [k.dir_nil]; exact h3.files) y hy

theorem Spec.AllBuilt.files : ∀ {rs : List ResDecl} {cs : List (Option Payload)}, AllBuilt k p e o w rs cs →
    ∀ y ∈ allListing rs cs, k.dir w o y.1 y.2.1 = some y.2.2
  | [], [], _, y, hy => by cases hy
  | _ :: _, some _ :: _, h, y, hy => by
    rcases List.mem_append.mp hy with hy | hy
    · exact fixed_res (fixed_written h.1) y hy
    · exact AllBuilt.files h.2 y hy
  | _ :: _, none :: _, h, y, hy => AllBuilt.files h.2 y hy
  | [], _ :: _, h, _, _ => h.elim
  | _ :: _, [], h, _, _ => h.elim

mutual
theorem Spec.Built.files : ∀ {D : ArchiveDef} {o : k.backend.Obj} {c : Content}, Built k p e w D o c → (Nested k ∨ c.subs.empty) →
    ∀ y ∈ listing D c, k.dir w o y.1 y.2.1 = some y.2.2
  | .mk name schema rs subs, o, .mk cs ts, h, hk, y, hy => by
    unfold Built at h
    unfold listing at hy
    obtain ⟨hs, ha, hsub⟩ := h
    rcases List.mem_append.mp hy with hy | hy
    · rcases List.mem_append.mp hy with hy | hy
      · exact StoredAs.mem (by rw [k.dir_nil]; exact (fixed_signed hs).files) y hy
      · exact ha.files y hy
    · exact SubsBuilt.files hsub hk y hy

theorem Spec.SubsBuilt.files : ∀ {D : SubDefs} {o : k.backend.Obj} {c : SubContents}, SubsBuilt k p e w D o c → (Nested k ∨ c.empty) →
    ∀ y ∈ subsListing D c, k.dir w o y.1 y.2.1 = some y.2.2
  | .nil, _, .nil, _, _, y, hy => by simp [subsListing] at hy
  | .cons name optional D rest, o, .cons none ts, h, hk, y, hy => by
    unfold SubsBuilt at h
    unfold subsListing at hy
    exact SubsBuilt.files h.2 (hk.imp id fun h => h.2) y hy
  | .cons name optional D rest, o, .cons (some c) ts, h, hk, y, hy => by
    unfold SubsBuilt at h
    unfold subsListing at hy
    rcases hk with hk | hk
    · obtain ⟨⟨o', w1, w2, hsd, hst, hb⟩, h2⟩ := h
      rcases List.mem_append.mp hy with hy | hy
      · obtain ⟨z, hz, rfl⟩ := List.mem_map.mp hy
        have := Built.files hb (.inl hk) z hz
        rw [hk hsd w] at this
        exact this
      · exact SubsBuilt.files h2 (.inl hk) y hy
    · cases hk.1
  | .nil, _, .cons _ _, h, _, _, _ => by unfold SubsBuilt at h; exact h.elim
  | .cons _ _ _ _, _, .nil, h, _, _, _ => by unfold SubsBuilt at h; exact h.elim
end
end

end Flatdata
