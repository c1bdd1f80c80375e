import Verif.Spec.Interrupt
import Verif.Proofs.Frame
import Verif.Proofs.Format
import Verif.Props.Storage
/-!
# What is stored when a building program is interrupted
-/
namespace Flatdata
open Spec

variable {k : Kind} {p : Profile} {e : Endian} {o : k.backend.Obj}

/-! ## one file -/

/-- What is at the places of a resource and its schema: reading it yields nothing but `b`, or the empty sequence if `soft`, and the
schema is a beginning of `s`. -/
structure PartLeft (soft : Prop) (d t : Option Bytes) (b : Bytes) (s : String) : Prop where
  small : ∀ x, d = some x → 16 ≤ x.length → leNat (x.take 8) + 16 < 2 ^ 64
  reads : ∀ x y, d = some x → Holds x y → y = b ∨ (soft ∧ y = [])
  text : ∀ x, t = some x → x <+: strBytes s

theorem partLeft_none (soft : Prop) (b : Bytes) (s : String) : PartLeft soft none none b s :=
  ⟨fun _ h => (by cases h), fun _ _ h => (by cases h), fun _ h => (by cases h)⟩

theorem AllOrNothing.left {soft : Prop} {d b : Bytes} {t : Option Bytes} {s : String} (h : AllOrNothing d b) (hs : soft)
    (ht : t = some (strBytes s)) : PartLeft soft (some d) t b s :=
  ⟨fun x hx => (by cases hx; exact h.small), fun x y hx hy => (by cases hx; exact (h.reads y hy).imp id fun h => ⟨hs, h.1⟩),
    fun x hx => (by rw [ht] at hx; cases hx; exact List.prefix_refl _)⟩

theorem NotCreated.left {soft : Prop} {d t : Option Bytes} {s : String} (h : NotCreated none d) (ht : ∀ x, t = some x → x <+: strBytes s)
    (b : Bytes) : PartLeft soft d t b s := by
  rcases h with rfl | ⟨x, rfl, hx⟩
  · exact ⟨fun _ h => (by cases h), fun _ _ h => (by cases h), ht⟩
  · exact ⟨fun y hy => (by cases hy; omega), fun y z hy hz => (by cases hy; have := hz.length; omega), ht⟩

theorem take8_prefix {c b : Bytes} (hb : b.length < 2 ^ 64) (hc : c <+: image b) (hl : 8 ≤ c.length) : leNat (c.take 8) = b.length := by
  obtain ⟨t, ht⟩ := hc
  have h1 : (image b).take 8 = le64 b.length := by
    unfold image
    rw [List.append_assoc, List.take_append_of_le_length (by simp [length_le64]), List.take_of_length_le (by simp [length_le64])]
  rw [← ht, List.take_append_of_le_length hl] at h1
  rw [h1, leNat_le64 hb]

theorem prefix_left {soft : Prop} {c b : Bytes} {t : Option Bytes} {s : String} (hb : b.length < 2 ^ 63) (hc : c <+: image b)
    (ht : ∀ x, t = some x → x <+: strBytes s) : PartLeft soft (some c) t b s := by
  refine ⟨fun x hx hl => ?_, fun x y hx hy => ?_, ht⟩
  · cases hx
    rw [take8_prefix (by omega) hc (by omega)]; omega
  · cases hx
    exact .inl (prefix_holds hb hc hy).2

/-- A setter, however it ends. -/
theorem write_left {soft : Prop} {name schema : String} {b : Bytes} {w : k.backend.W} (hb : b.length < 2 ^ 63) (hu : k.Unused w o name)
    (hn : k.stored w o name = none) (hn' : k.stored w o (name ++ ".schema") = none) :
    PartLeft soft (k.stored (Storage.write k.backend p e o name schema b w).2 o name)
      (k.stored (Storage.write k.backend p e o name schema b w).2 o (name ++ ".schema")) b schema := by
  obtain ⟨f1, f2, _⟩ := hu.fresh
  obtain ⟨r, w', h, out, _⟩ := write_spec (L := k.laws) p e o name schema w (data := b) (by omega) (k.loc_schema_ne o name) f1 f2
  rw [h]
  rw [Kind.stored_eq] at hn hn' ⊢
  rw [Kind.stored_eq]
  change k.laws.medium w (k.laws.loc o (Storage.schemaName name)) = none at hn'
  change PartLeft soft _ (k.laws.medium w' (k.laws.loc o (Storage.schemaName name))) _ _
  cases out with
  | ok hd hs => rw [hd, hs]; exact prefix_left hb (List.prefix_refl _) fun x hx => by cases hx; exact List.prefix_refl _
  | untouched _ hd hs => rw [hd, hn, hs, hn']; exact partLeft_none _ _ _
  | part _ c hc hd _ hs =>
    rw [hd]
    refine prefix_left hb hc fun x hx => ?_
    rw [hn'] at hs
    rcases hs with hs | ⟨t, h1, h2⟩
    · rw [hs] at hx; cases hx
    · rw [h2] at hx; cases hx; exact h1

/-! ## the schema of a resource that is being created -/

section
variable {B : Backend} {L : Laws B}

/-- The schema is as before, or a beginning of `s` has been written. -/
def TextLeft (L : Laws B) (o : B.Obj) (name s : String) (w w' : B.W) : Prop :=
  L.medium w' (L.loc o (Storage.schemaName name)) = L.medium w (L.loc o (Storage.schemaName name)) ∨
    ∃ t, t <+: strBytes s ∧ L.medium w' (L.loc o (Storage.schemaName name)) = some t

theorem TextLeft.none {o : B.Obj} {name s : String} {w w' : B.W} (h : TextLeft L o name s w w')
    (hn : L.medium w (L.loc o (Storage.schemaName name)) = none) : ∀ x, L.medium w' (L.loc o (Storage.schemaName name)) = some x → x <+: strBytes s := by
  intro x hx
  rcases h with h | ⟨t, h1, h2⟩
  · rw [h, hn] at hx; cases hx
  · rw [h2] at hx; cases hx; exact h1

theorem createHandle_text (p : Profile) (e : Endian) (o : B.Obj) (name schema : String) (w : B.W)
    (hne : L.loc o (Storage.schemaName name) ≠ L.loc o name)
    (hf : L.fresh (L.medium w (L.loc o name))) (hf' : L.fresh (L.medium w (L.loc o (Storage.schemaName name)))) :
    TextLeft L o name schema w (createHandle B p e o name schema w).2 := by
  unfold createHandle
  rcases create_step o (Storage.schemaName name) w hf' with ⟨s, w1, h1, a1, o1⟩ | ⟨x, w1, h1, o1, m1⟩
  · rw [Act.bind_ok h1]
    rcases append_step a1 (strBytes schema) with ⟨w2, h2, a2, o2⟩ | ⟨x, b', w2, h2, hp, a2, o2, nf⟩
    · rw [Act.bind_ok h2]
      have m2 := ((o1.trans o2).keeps _ hne.symm).medium
      have done : ∀ {w3}, Only L w2 w3 (· = L.loc o name) → TextLeft L o name schema w w3 := fun o3 =>
        .inr ⟨_, List.prefix_refl _, by rw [(o3.keeps _ hne).medium]; simpa using a2.medium⟩
      rcases create_step o name w2 (by rw [m2]; exact hf) with ⟨t, w3, h3, a3, o3⟩ | ⟨x, w3, h3, o3, m3⟩
      · rw [Act.bind_ok h3]
        unfold Handle.tryNew
        have e4 := writeSize_eq p e t (n := 0) (by decide) w3
        rcases append_step a3 (le64 0) with ⟨w4, h4, a4, o4⟩ | ⟨x, b', w4, h4, hp, a4, o4, nf⟩
        · rw [Act.bind_ok (e4.trans h4)]; exact done (o3.trans o4)
        · rw [Act.bind_err (e4.trans h4)]; exact done (o3.trans o4)
      · rw [Act.bind_err h3]; exact done o3
    · rw [Act.bind_err h2]
      exact .inr ⟨b', hp, by simpa using a2.medium⟩
  · rw [Act.bind_err h1]
    rcases m1 with m1 | m1
    · exact .inl m1
    · exact .inr ⟨[], List.nil_prefix, m1⟩

theorem createExternalVector_text (p : Profile) (e : Endian) (o : B.Obj) (name schema : String) (w : B.W)
    (hne : L.loc o (Storage.schemaName name) ≠ L.loc o name)
    (hf : L.fresh (L.medium w (L.loc o name))) (hf' : L.fresh (L.medium w (L.loc o (Storage.schemaName name)))) :
    TextLeft L o name schema w (createExternalVector p e o name schema w).2 := by
  have h := createHandle_text p e o name schema w hne hf hf'
  rw [createExternalVector_eq, Act.bind_def]
  cases hx : createHandle B p e o name schema w with
  | mk r w' =>
    rw [hx] at h
    cases r <;> exact h

theorem createMultiVector_text (p : Profile) (e : Endian) (o : B.Obj) (name schema : String) (V : Variadic) (w : B.W) (ap : Apart L o name)
    (hf : L.fresh (L.medium w (L.loc o name))) (hf' : L.fresh (L.medium w (L.loc o (Storage.schemaName name))))
    (hfI : L.fresh (L.medium w (L.loc o (Storage.indexName name))))
    (hfI' : L.fresh (L.medium w (L.loc o (Storage.schemaName (Storage.indexName name))))) :
    TextLeft L o name schema w (createMultiVector p e o name schema w).2 ∧
      TextLeft L o (Storage.indexName name) (Storage.indexSchema schema) w (createMultiVector p e o name schema w).2 := by
  have tI := createExternalVector_text p e o (Storage.indexName name) (Storage.indexSchema schema) w ap.index hfI hfI'
  unfold createMultiVector
  rcases createExternalVector_spec p e o (Storage.indexName name) (Storage.indexSchema schema) V.indexSize w ap.index hfI hfI' with
    ⟨iv, w1, h1, i1, o1⟩ | ⟨x, w1, h1, o1, m1⟩
  · have k1 : Keeps L w w1 (L.loc o name) := o1.keeps _ (ap.index_data (.inl rfl))
    have k1' : Keeps L w w1 (L.loc o (Storage.schemaName name)) := o1.keeps _ (ap.index_data (.inr rfl))
    have e2 : createDataHandle p e o name schema = createHandle B p e o name schema := rfl
    rw [Act.bind_ok h1, e2]
    rw [h1] at tI
    have hf1 : L.fresh (L.medium w1 (L.loc o name)) := by rw [k1.medium]; exact hf
    have hf1' : L.fresh (L.medium w1 (L.loc o (Storage.schemaName name))) := by rw [k1'.medium]; exact hf'
    have tD := createHandle_text p e o name schema w1 ap.data hf1 hf1'
    unfold TextLeft at tI tD ⊢
    rcases createHandle_spec p e o name schema w1 ap.data hf1 hf1' with ⟨h, w2, h2, _, o2⟩ | ⟨x, w2, h2, o2, _⟩
    · rw [Act.bind_ok (Act.attempt_ok h2)]
      rw [h2, k1'.medium] at tD
      have k2 := (o2.keeps (L.loc o (Storage.schemaName (Storage.indexName name))) fun h => ap.index_data h (.inr rfl)).medium
      rw [← k2] at tI
      exact ⟨tD, tI⟩
    · rw [Act.bind_ok (Act.attempt_err h2)]
      rw [h2, k1'.medium] at tD
      have k2 := (o2.keeps (L.loc o (Storage.schemaName (Storage.indexName name))) fun h => ap.index_data h (.inr rfl)).medium
      rw [← k2] at tI
      have hd : (iv.drop : Act B.W IoErr Unit) w2 = (.panic, w2) := dropOpen i1.writing.isOpen w2
      dsimp only
      rw [Act.bind_panic hd]
      exact ⟨tD, tI⟩
  · rw [Act.bind_err h1]
    rw [h1] at tI
    exact ⟨.inl (o1.keeps _ (ap.index_data (.inr rfl))).medium, tI⟩

end

/-! ## growing -/

theorem EvInv.zero {L : Laws k.backend} {name schema : String} {size : Nat} {w : k.backend.W} {v : ExtVec k.backend} {pre buf : List Bytes}
    {c : Bytes} (i : EvInv L o name schema size w v pre buf c) {soft : Prop} (hs : soft) (b : Bytes) :
    PartLeft soft (L.medium w (L.loc o name)) (L.medium w (L.loc o (Storage.schemaName name))) b schema := by
  obtain ⟨d, hd, h⟩ := i.writing.nothing b
  rw [hd]; exact h.left hs i.writing.schemaStored

/-- Growing a vector repeatedly either succeeds or leaves a size field of zero. -/
theorem fold_left {soft : Prop} (hsoft : soft) (b : Bytes) {S : StructDef} {name schema : String} {w : k.backend.W} {v : ExtVec k.backend}
    (i : EvInv k.laws o name schema S.size w v [] [] []) (hu : Unseen k.laws o name w) (hs : 0 < S.size) :
    ∀ {es pre : List (List HandleOp)} {va wa}, Grows k p e S o name w v pre wa va → (pre.length + es.length) * S.size + 8 < 2 ^ 63 →
    (∃ v1 w1, es.foldlM (growOne k.backend p e S) va wa = (.ok v1, w1)) ∨
      PartLeft soft (k.laws.medium (es.foldlM (growOne k.backend p e S) va wa).2 (k.laws.loc o name))
        (k.laws.medium (es.foldlM (growOne k.backend p e S) va wa).2 (k.laws.loc o (Storage.schemaName name))) b schema
  | [], _, va, wa, _, _ => .inl ⟨va, wa, rfl⟩
  | ops :: es, pre, va, wa, g, hb => by
    have hb1 : (pre.length + 1) * S.size + 8 < 2 ^ 63 := by
      have : (pre.length + 1) * S.size ≤ (pre.length + (ops :: es).length) * S.size := Nat.mul_le_mul_right _ (by simp)
      omega
    obtain ⟨pr, buf, c, i1, el, u1, _, _⟩ := grows_inv i hu hs g (by rw [Nat.add_mul] at hb1; omega)
    rw [List.foldlM_cons]
    rcases i1.grow (k.loc_schema_ne o name) p hs (by rw [← el.length_eq]; exact hb1) with
      ⟨v2, pos, w2, pr', buf', c', h, i2, _⟩ | ⟨x, d', w', h, i2, _⟩
    · cases hd : Vector.writeAt p e S v2.data pos ops with
      | ok d =>
        have e1 : growOne k.backend p e S va ops wa = (.ok { v2 with data := d }, w2) := by
          unfold growOne
          rw [Act.bind_ok h]
          change (Act.lift (Vector.writeAt p e S v2.data pos ops) >>= _) w2 = _
          rw [hd]; rfl
        rw [Act.bind_ok e1]
        refine fold_left hsoft b i hu hs (pre := pre ++ [ops]) (.grow g h hd) ?_
        rw [List.length_append, List.length_singleton]
        rw [List.length_cons, Nat.add_comm es.length 1, ← Nat.add_assoc] at hb
        exact hb
      | panic =>
        have e1 : growOne k.backend p e S va ops wa = (.panic, w2) := by
          unfold growOne
          rw [Act.bind_ok h]
          change (Act.lift (Vector.writeAt p e S v2.data pos ops) >>= _) w2 = _
          rw [hd]; rfl
        right
        rw [Act.bind_def, e1]
        exact i2.zero hsoft b
      | ub =>
        have e1 : growOne k.backend p e S va ops wa = (.ub, w2) := by
          unfold growOne
          rw [Act.bind_ok h]
          change (Act.lift (Vector.writeAt p e S v2.data pos ops) >>= _) w2 = _
          rw [hd]; rfl
        right
        rw [Act.bind_def, e1]
        exact i2.zero hsoft b
    · right
      have e1 : growOne k.backend p e S va ops wa = (.err x, w') := by
        unfold growOne
        rw [Act.bind_err h]
      rw [Act.bind_err e1]
      exact i2.zero hsoft b

theorem mapErr_snd {W E E' α : Type} {x : Act W E α} {f : E → E'} {w : W} : (x.mapErr f w).2 = (x w).2 := by
  unfold Act.mapErr
  cases x w with
  | mk r w' => cases r <;> rfl

theorem bind_snd_of_not_ok {W E α β : Type} {x : Act W E α} {f : α → Act W E β} {w : W} (h : ∀ a w', x w ≠ (.ok a, w')) :
    ((x >>= f) w).2 = (x w).2 := by
  rw [Act.bind_def]
  cases hx : x w with
  | mk r w' =>
    cases r with
    | ok a => exact absurd hx (h a w')
    | err _ => rfl
    | panic => rfl
    | ub => rfl

theorem pure_snd {W E α β : Type} {x : Act W E α} {b : β} {w : W} : ((x >>= fun _ => (pure b : Act W E β)) w).2 = (x w).2 := by
  rw [Act.bind_def]
  cases hx : x w with
  | mk r w' => cases r <;> rfl

theorem mapErr_ok_iff {W E E' α : Type} {x : Act W E α} {f : E → E'} {w : W} (h : ∀ a w', x w ≠ (.ok a, w')) (a : α) (w' : W) :
    x.mapErr f w ≠ (.ok a, w') := fun hx => h a w' (mapErr_eq_ok hx)

variable [DiffLib]

theorem elements_left {soft : Prop} (hsoft : soft) {r : ResDecl} {S : StructDef} {es : List (List HandleOp)} {xs : List Bytes} {w : k.backend.W}
    (ht : r.type = .vector S) (hs : 0 < S.size) (hx : Elements p e S es xs) (hb : es.length * S.size + 8 < 2 ^ 63)
    (hu : k.Unused w o r.name) (hn : k.stored w o r.name = none) (hn' : k.stored w o (r.name ++ ".schema") = none) :
    PartLeft soft (k.stored (writeResource k.backend p e o r (.elements es) w).2 o r.name)
      (k.stored (writeResource k.backend p e o r (.elements es) w).2 o (r.name ++ ".schema")) xs.flatten r.schema := by
  obtain ⟨f1, f2, u⟩ := hu.fresh
  change k.stored w o (Storage.schemaName r.name) = none at hn'
  change PartLeft soft _ (k.stored _ o (Storage.schemaName r.name)) _ _
  rw [Kind.stored_eq] at hn hn' ⊢
  rw [Kind.stored_eq]
  have hne := k.loc_schema_ne o r.name
  unfold writeResource
  simp only [ht]
  rcases createExternalVector_spec (L := k.laws) p e o r.name r.schema S.size w hne f1 f2 with ⟨v, w1, h1, i1, o1⟩ | ⟨x, w1, h1, o1, nc⟩
  · have h1' : startVector k.backend p e o r w = (.ok v, w1) := h1
    rw [Act.bind_ok (Act.mapErr_ok h1')]
    by_cases hok : ∃ v1 w2, es.foldlM (growOne k.backend p e S) v w1 = (.ok v1, w2)
    · obtain ⟨v1, w2, h2⟩ := hok
      rw [Act.bind_ok (Act.mapErr_ok h2), pure_snd]
      have g : Grows k p e S o r.name w1 v es w2 v1 := by simpa using grows_of_fold (pre := []) .start h2
      obtain ⟨pre, buf, c, i2, el, u2, _, _⟩ := grows_inv i1 (u.only o1) hs g hb
      obtain ⟨_, w3, h3, _, _, sc, d, hd, an⟩ := i2.close u2 hne p e (by rw [← el.length_eq]; omega)
      rw [h3, hd, hx.unique el]
      exact an.left hsoft sc
    · have h2 := (fold_left (p := p) (e := e) hsoft xs.flatten i1 (u.only o1) hs (es := es) .start (by simpa using hb)).resolve_left hok
      rw [bind_snd_of_not_ok (mapErr_ok_iff fun a b h => hok ⟨a, b, h⟩), mapErr_snd]
      exact h2
  · have h1' : startVector k.backend p e o r w = (.err x, w1) := h1
    have tx := createExternalVector_text p e o r.name r.schema w hne f1 f2
    rw [h1] at tx
    rw [Act.bind_err (Act.mapErr_err h1')]
    rw [hn] at nc
    exact nc.left (tx.none hn') _

/-! ## multivectors -/

omit [DiffLib] in
theorem MvInv.zero {L : Laws k.backend} {name schema : String} {V : Variadic} {w : k.backend.W} {v : MultiVec k.backend}
    {preI bufI : List Bytes} {cI pre body c : Bytes} (i : MvInv L o name schema V w v preI bufI cI pre body c) {soft : Prop} (hs : soft)
    (bI b : Bytes) : PartLeft soft (L.medium w (L.loc o (Storage.indexName name))) (L.medium w (L.loc o (Storage.schemaName (Storage.indexName name))))
        bI (Storage.indexSchema schema) ∧
      PartLeft soft (L.medium w (L.loc o name)) (L.medium w (L.loc o (Storage.schemaName name))) b schema := by
  obtain ⟨d, hd, h⟩ := i.data.nothing b
  refine ⟨i.index.zero hs bI, ?_⟩
  rw [hd]; exact h.left hs i.data.schemaStored

omit [DiffLib] in
theorem addOne_world {v : MultiVec k.backend} {a : Add} {w : k.backend.W} : (addOne k.backend p e v a w).2 = w := by
  unfold addOne
  cases h : MultiVec.builderAdd p a.type a.struct.size v.data with
  | ok d =>
    change ((Act.lift (Vector.writeAt p e a.struct d.1 d.2 a.ops) >>= _ : Act k.backend.W IoErr _) w).2 = w
    cases Vector.writeAt p e a.struct d.1 d.2 a.ops <;> rfl
  | panic => rfl
  | ub => rfl

omit [DiffLib] in
theorem addFold_world : ∀ {as : List Add} {v : MultiVec k.backend} {w : k.backend.W}, (as.foldlM (addOne k.backend p e) v w).2 = w
  | [], _, _ => rfl
  | a :: as, v, w => by
    rw [List.foldlM_cons]
    have h := addOne_world (p := p) (e := e) (v := v) (a := a) (w := w)
    rw [Act.bind_def]
    cases hx : addOne k.backend p e v a w with
    | mk r w' =>
      rw [hx] at h
      obtain rfl : w' = w := h
      cases r with
      | ok v' => exact addFold_world
      | err _ => rfl
      | panic => rfl
      | ub => rfl

omit [DiffLib] in
/-- Growing a multivector repeatedly either succeeds or leaves size fields of zero. -/
theorem mfold_left {soft : Prop} (hsoft : soft) (bI b : Bytes) {V : Variadic} {name schema : String} {w : k.backend.W}
    {v : MultiVec k.backend} (ok : IndexOK V) (i : MvInv k.laws o name schema V w v [] [] [] [] [] []) (hu : MUnseen k.laws o name w) :
    ∀ {its pre : List (List Add)} {va wa}, (∀ as ∈ its, ∀ a ∈ as, (a.type, a.struct) ∈ V.types) →
    MGrows k p e V o name w v pre wa va → (pre.length + its.length + 1) * V.indexSize + 8 < 2 ^ 63 → dataSize pre + dataSize its + 8 < 2 ^ 63 →
    (∃ v1 w1, its.foldlM (growItem k.backend p e V) va wa = (.ok v1, w1)) ∨
      (PartLeft soft (k.laws.medium (its.foldlM (growItem k.backend p e V) va wa).2 (k.laws.loc o (Storage.indexName name)))
          (k.laws.medium (its.foldlM (growItem k.backend p e V) va wa).2 (k.laws.loc o (Storage.schemaName (Storage.indexName name))))
          bI (Storage.indexSchema schema) ∧
        PartLeft soft (k.laws.medium (its.foldlM (growItem k.backend p e V) va wa).2 (k.laws.loc o name))
          (k.laws.medium (its.foldlM (growItem k.backend p e V) va wa).2 (k.laws.loc o (Storage.schemaName name))) b schema)
  | [], _, va, wa, _, _, _, _ => .inl ⟨va, wa, rfl⟩
  | as :: its, pre, va, wa, hm, g, hbI, hb => by
    have hbI1 : (pre.length + 1) * V.indexSize + 8 < 2 ^ 63 := by
      have : (pre.length + 1) * V.indexSize ≤ (pre.length + (as :: its).length + 1) * V.indexSize := Nat.mul_le_mul_right _ (by simp)
      omega
    have hd : dataSize (as :: its) = itemSize as + dataSize its := by simp [dataSize]
    obtain ⟨preI, bufI, cI, pr, body, c, xss, s⟩ := mgrows_inv ok i hu g hbI1 (by omega)
    obtain ⟨l1, l2⟩ := s.length
    rw [List.foldlM_cons]
    rcases s.inv.grow (k.apart o name) p e ok (by omega) (by rw [l2]; exact hbI1) with
      ⟨v', w', preI', bufI', cI', pre', body', c', x, h1, i2, _⟩ | ⟨x, v', w', cI', pre', body', c', h1, i2, _⟩
    · have e0 : growItem k.backend p e V va as wa = as.foldlM (addOne k.backend p e) v' w' := by
        unfold growItem
        rw [Act.bind_ok (Act.mapErr_ok h1)]
        rfl
      have hw := addFold_world (p := p) (e := e) (as := as) (v := v') (w := w')
      cases hx : as.foldlM (addOne k.backend p e) v' w' with
      | mk r w1 =>
        rw [hx] at hw
        obtain rfl : w1 = w' := hw
        have e1 := e0.trans hx
        cases r with
        | ok v2 =>
          rw [Act.bind_ok e1]
          have g2 := adds_of_fold (pre := []) (hm as (by simp)) (.grow g h1) hx
          refine mfold_left hsoft bI b ok i hu (pre := pre ++ [as]) (fun as ha => hm as (by simp [ha])) (by simpa using g2) ?_ ?_
          · rw [List.length_append, List.length_singleton]
            rw [List.length_cons, Nat.add_comm its.length 1, ← Nat.add_assoc] at hbI
            exact hbI
          · rw [dataSize_append, dataSize_singleton]; omega
        | err y => rw [Act.bind_def, e1]; exact .inr (i2.zero hsoft bI b)
        | panic => rw [Act.bind_def, e1]; exact .inr (i2.zero hsoft bI b)
        | ub => rw [Act.bind_def, e1]; exact .inr (i2.zero hsoft bI b)
    · have e1 : growItem k.backend p e V va as wa = (.err x, w') := by
        unfold growItem
        rw [Act.bind_ok (Act.mapErr_ok h1)]
        rfl
      rw [Act.bind_err e1]
      exact .inr (i2.zero hsoft bI b)

omit [DiffLib] in
/-- The items that a program gives are shown by the index and the data made for them. -/
theorem gives_shows {r : ResDecl} {V : Variadic} {its : List (List Add)} {xss : List (List (BitVec 8 × Bytes))}
    (hg : Gives p e r (.items its) (.items xss)) (ht : r.type = .multi V (r.name ++ "_index")) :
    Shows V ⟨indexBytes V.indexSize xss, encodeItems xss⟩ xss := by
  obtain ⟨V', ht', ok, hx, hm, hbI, hb, hbits⟩ := hg
  rw [ht] at ht'
  cases ht'
  have ex : ∀ ns : List Nat, ∃ ys, Elements p e V.indexStruct (ns.map (indexOps V)) ys := by
    intro ns
    induction ns with
    | nil => exact ⟨[], trivial⟩
    | cons n ns ih =>
      obtain ⟨ys, hy⟩ := ih
      obtain ⟨y, h⟩ := indexEntry (p := p) (e := e) ok.index n
      exact ⟨y :: ys, h, hy⟩
  obtain ⟨ys, hy⟩ := ex (indexNumbers its)
  rw [← written_index ok.index hy hx hbits]
  exact (written_view ok hy hx hm hbits (by omega)).2.2

theorem items_left {soft : Prop} (hsoft : soft) {r : ResDecl} {V : Variadic} {its : List (List Add)} {xss : List (List (BitVec 8 × Bytes))}
    {w : k.backend.W} (hg : Gives p e r (.items its) (.items xss)) (ht : r.type = .multi V (r.name ++ "_index"))
    (hu : k.MUnused w o r.name) (hn : k.stored w o r.name = none) (hnI : k.stored w o (r.name ++ "_index") = none)
    (hn' : k.stored w o (r.name ++ ".schema") = none) (hnI' : k.stored w o (r.name ++ "_index" ++ ".schema") = none) :
    PartLeft soft (k.stored (writeResource k.backend p e o r (.items its) w).2 o (r.name ++ "_index"))
      (k.stored (writeResource k.backend p e o r (.items its) w).2 o (r.name ++ "_index" ++ ".schema"))
      (indexBytes V.indexSize xss) ("index(" ++ r.schema ++ ")") ∧
    PartLeft soft (k.stored (writeResource k.backend p e o r (.items its) w).2 o r.name)
      (k.stored (writeResource k.backend p e o r (.items its) w).2 o (r.name ++ ".schema")) (encodeItems xss) r.schema ∧
    Shows V ⟨indexBytes V.indexSize xss, encodeItems xss⟩ xss := by
  have hsh := gives_shows hg ht
  obtain ⟨V', ht', ok, hx, hm, hbI, hb, hbits⟩ := hg
  rw [ht] at ht'
  cases ht'
  have view : ∀ {ys}, Elements p e V.indexStruct ((indexNumbers its).map (indexOps V)) ys → ys.flatten = indexBytes V.indexSize xss :=
    fun hy => written_index ok.index hy hx hbits
  refine and_assoc.mp ⟨?_, hsh⟩
  obtain ⟨f1, f2, u⟩ := hu.data.fresh
  obtain ⟨g1, g2, uI⟩ := hu.index.fresh
  have un : MUnseen k.laws o r.name w := ⟨u, uI⟩
  change k.stored w o (Storage.indexName r.name) = none at hnI
  change k.stored w o (Storage.schemaName (Storage.indexName r.name)) = none at hnI'
  change k.stored w o (Storage.schemaName r.name) = none at hn'
  change PartLeft soft (k.stored _ o (Storage.indexName r.name)) (k.stored _ o (Storage.schemaName (Storage.indexName r.name))) _
    (Storage.indexSchema r.schema) ∧ PartLeft soft _ (k.stored _ o (Storage.schemaName r.name)) _ _
  rw [Kind.stored_eq] at hn hnI hn' hnI'
  rw [Kind.stored_eq, Kind.stored_eq, Kind.stored_eq, Kind.stored_eq]
  have ap := k.apart o r.name
  unfold writeResource
  simp only [ht]
  have tx := createMultiVector_text (L := k.laws) p e o r.name r.schema V w ap f1 f2 g1 g2
  rcases createMultiVector_spec (L := k.laws) p e o r.name r.schema V w ap f1 f2 g1 g2 with
    ⟨v, w1, h1, i1, o1⟩ | ⟨x, w1, h1, o1, nc⟩ | ⟨w1, h1, o1, mI, sI, nc⟩
  · have h1' : startMulti k.backend p e o r w = (.ok v, w1) := h1
    rw [Act.bind_ok (Act.mapErr_ok h1')]
    by_cases hok : ∃ v1 w2, its.foldlM (growItem k.backend p e V) v w1 = (.ok v1, w2)
    · obtain ⟨v1, w2, h2⟩ := hok
      rw [Act.bind_ok (Act.mapErr_ok h2), pure_snd]
      have g : MGrows k p e V o r.name w1 v its w2 v1 := by simpa using mgrows_of_fold (pre := []) hm .start h2
      obtain ⟨ys, xss', _, _, _, w3, hy, hc, _, h3, _, st, _⟩ := mclose_inv ok.index hu h1 g hbI hb
      rw [h3]
      obtain ⟨d, hd, an⟩ := st.data
      obtain ⟨d', hd', an'⟩ := st.index
      rw [hd, hd', hx.unique hc, ← hx.unique hc, ← view hy, hx.unique hc]
      exact ⟨an'.left hsoft st.indexSchema, an.left hsoft st.dataSchema⟩
    · have h2 := (mfold_left (p := p) (e := e) hsoft (indexBytes V.indexSize xss) (encodeItems xss) ok.index i1 (un.only o1) (its := its)
        hm .start (by simpa using hbI) (by simpa [dataSize] using hb)).resolve_left hok
      rw [bind_snd_of_not_ok (mapErr_ok_iff fun a b h => hok ⟨a, b, h⟩), mapErr_snd]
      exact h2
  · have h1' : startMulti k.backend p e o r w = (.err x, w1) := h1
    rw [Act.bind_err (Act.mapErr_err h1')]
    rw [hnI] at nc
    rw [h1] at tx
    refine ⟨nc.left (tx.2.none hnI') _, ?_⟩
    have := (o1.keeps (k.laws.loc o r.name) (ap.index_data (.inl rfl))).medium
    exact NotCreated.left (.inl (this.trans hn)) (tx.1.none hn') _
  · have h1' : startMulti k.backend p e o r w = (.panic, w1) := h1
    rw [bind_snd_of_not_ok (mapErr_ok_iff fun a b h => by rw [h1'] at h; cases h), mapErr_snd, h1']
    rw [hn] at nc
    rw [h1] at tx
    refine ⟨?_, nc.left (tx.1.none hn') _⟩
    rw [mI]
    have := allOrNothing_zero [] (indexBytes V.indexSize xss)
    rw [List.append_nil] at this
    exact this.left hsoft sI

end Flatdata
