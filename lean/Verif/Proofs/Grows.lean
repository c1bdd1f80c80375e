import Verif.Spec.ExtVector
import Verif.Proofs.ExtVector
import Verif.Proofs.World
/-!
# Histories of external vectors
-/
namespace Flatdata
open Spec

namespace Spec.Kind
variable {k : Kind} {o : k.backend.Obj} {w0 : k.backend.W}

theorem pres_handleWrite {p h d} : Act.Pres (Since k o w0) (Handle.write (B := k.backend) p h d) := by
  unfold Handle.write
  split
  · exact .fail _
  · exact .bind (pres_write _ _) fun _ => .bind (.lift _) fun _ => .pure _

theorem pres_finish {p e h s} : Act.Pres (Since k o w0) (Handle.finish (B := k.backend) p e h s) :=
  .bind (pres_write _ _) fun _ => .bind (pres_seek _) fun _ => pres_writeSize

theorem pres_handleClose [DiffLib] {p e} {h : Handle k.backend} (ho : h.obj = o) :
    Act.Pres (Since k o w0) (Handle.close (B := k.backend) p e h) := by
  unfold Handle.close
  split
  · exact .pure _
  · refine .bind (.attempt pres_finish) fun r => ?_
    cases r with
    | error x => exact .pure _
    | ok u => cases u; exact .bind (.attempt (by rw [ho]; exact pres_storageRead)) fun _ => .pure _

theorem pres_flush {p v} : Act.Pres (Since k o w0) (ExtVec.flush (B := k.backend) p v) :=
  .bind (.lift _) fun _ => .bind (.lift _) fun _ => .bind pres_handleWrite fun _ => .pure _

theorem pres_grow {p size v} : Act.Pres (Since k o w0) (ExtVec.grow (B := k.backend) p size v) := by
  refine .bind ?_ fun _ => .bind (.lift _) fun _ => .bind (.lift _) fun _ => .bind (.lift _) fun _ => .bind (.lift _) fun _ =>
    .bind (.lift _) fun _ => .pure _
  unfold ExtVec.flushIfFull
  split
  · exact pres_flush
  · exact .pure _

theorem pres_drop {E : Type} {h : Handle k.backend} : Act.Pres (Since k o w0) (Handle.drop h : Act k.backend.W E Unit) := by
  unfold Handle.drop
  split
  · exact .lift _
  · exact .pure _

theorem pres_ofExcept {E α : Type} {x : Except E α} {P : k.backend.W → Prop} : Act.Pres P (Act.ofExcept x) := by
  cases x
  · exact .fail _
  · exact .pure _

theorem handleWrite_obj {B : Backend} {p : Profile} {h h' : Handle B} {d : Bytes} {w w' : B.W}
    (hw : h.write p d w = (.ok h', w')) : h'.obj = h.obj := by
  unfold Handle.write at hw
  cases hs : h.stream with
  | none => rw [hs] at hw; cases hw
  | some s =>
    rw [hs] at hw
    obtain ⟨_, _, _, hw⟩ := Act.bind_eq_ok hw
    obtain ⟨_, _, _, hw⟩ := Act.bind_eq_ok hw
    cases hw; rfl

theorem flush_obj {B : Backend} {p : Profile} {v v' : ExtVec B} {w w' : B.W} (h : v.flush p w = (.ok v', w')) :
    v'.handle.obj = v.handle.obj := by
  unfold ExtVec.flush at h
  obtain ⟨_, _, _, h⟩ := Act.bind_eq_ok h
  obtain ⟨_, _, _, h⟩ := Act.bind_eq_ok h
  obtain ⟨_, _, hw, h⟩ := Act.bind_eq_ok h
  cases h
  exact handleWrite_obj hw

theorem pres_close [DiffLib] {p e} {v : ExtVec k.backend} (ho : v.handle.obj = o) :
    Act.Pres (Since k o w0) (ExtVec.close (B := k.backend) p e v) := by
  intro w hw
  unfold ExtVec.close
  have h1 := pres_flush (p := p) (v := v) w hw
  rw [Act.bind_def]
  cases hf : ExtVec.flush (B := k.backend) p v w with
  | mk r w1 =>
    rw [hf] at h1
    cases r with
    | ok v1 =>
      rw [Act.attempt_ok hf]
      have : Act.Pres (Since k o w0) (ExtVec.closeHandle (B := k.backend) p e v1) :=
        .bind (.mapErr (pres_handleClose ((flush_obj hf).trans ho))) fun _ => .bind pres_drop fun _ => pres_ofExcept
      exact this w1 h1
    | err x =>
      rw [Act.attempt_err hf]
      exact Act.Pres.bind (pres_drop (h := v.handle)) (fun _ => .fail _) w1 h1
    | panic => unfold Act.attempt; rw [hf]; exact h1
    | ub => unfold Act.attempt; rw [hf]; exact h1

theorem pres_createExternalVector {p e name schema} :
    Act.Pres (Since k o w0) (createExternalVector (B := k.backend) p e o name schema) :=
  .bind (pres_create _) fun _ => .bind (pres_write _ _) fun _ => .bind (pres_create _) fun _ =>
    .bind (.bind pres_writeSize fun _ => .pure _) fun _ => .pure _

/-- Calls made by code are steps. -/
theorem steps_of {E α : Type} {x : Act k.backend.W E α} (h : ∀ w0, Act.Pres (Since k o w0) x) {w r w'} (ho : k.alive w o)
    (hx : x w = (r, w')) : Steps k w w' := by
  have := (h w w ⟨.refl w, ho⟩).1
  rw [hx] at this; exact this

theorem away_keeps {name : String} {w w' : k.backend.W} (h : StepAway k (k.Own o name) w w') :
    Keeps k.laws w w' (k.laws.loc o name) ∧ Keeps k.laws w w' (k.laws.loc o (Storage.schemaName name)) ∧
    (k.noFault w → k.noFault w') :=
  ⟨h.keeps.1 o name (.inl rfl), h.keeps.1 o (Storage.schemaName name) (.inr rfl), h.keeps.2⟩

theorem StepsAway.keepsOwn {name : String} {w w' : k.backend.W} (h : StepsAway k (k.Own o name) w w') :
    Keeps k.laws w w' (k.laws.loc o name) ∧ Keeps k.laws w w' (k.laws.loc o (Storage.schemaName name)) ∧
    (k.noFault w → k.noFault w') :=
  ⟨h.keeps.1 o name (.inl rfl), h.keeps.1 o (Storage.schemaName name) (.inr rfl), h.keeps.2⟩

/-- Reading through another storage object does not fill the maps of this one. -/
theorem elsewhere_unseen {name : String} {w w' : k.backend.W} {o' : k.backend.Obj} {n : String} {r}
    (hi : k.ident o' ≠ k.ident o) (h : k.backend.readResource o' n w = (r, w')) (hu : Unseen k.laws o name w) :
    Unseen k.laws o name w' := by
  cases k
  · have hne : ∀ m, memLaws.loc o m ≠ memLaws.loc o' n := fun m he => hi (congrArg Prod.fst he).symm
    have := (memLaws.read_keeps h).2.2.1
    exact ⟨(this _ _ (hne _)).trans hu.data, (this _ _ (hne _)).trans hu.schema⟩
  · have hc : ∀ m, fileLaws.cache w' o m = fileLaws.cache w o m := by
      intro m
      change Option.map _ (FileW.maps w' (Obj.id o) _) = Option.map _ (FileW.maps w (Obj.id o) _)
      change FileSt.readResource o' n w = (r, w') at h
      rcases FileSt.read_spec o' n w with ⟨k, m', w1, _, q, _, h2⟩ | ⟨d, w1, _, _, _, q, _, h2⟩ | ⟨x, w1, q, _, h2, _⟩ <;>
        rw [h2] at h <;> cases h
      · rw [q.maps]
      · change Option.map _ (upd w1.maps (Obj.id o') _ (Obj.id o) _) = _
        rw [upd_other _ _ (show Obj.id o ≠ Obj.id o' from fun he => hi he.symm), q.maps]
      · rw [q.maps]
    exact ⟨(hc _).trans hu.data, (hc _).trans hu.schema⟩

theorem Unused.fresh {name : String} {w : k.backend.W} (h : k.Unused w o name) :
    k.laws.fresh (k.laws.medium w (k.laws.loc o name)) ∧
    k.laws.fresh (k.laws.medium w (k.laws.loc o (Storage.schemaName name))) ∧ Unseen k.laws o name w := by
  have h1 := h.data
  have h2 := h.schema
  have h3 := h.unread
  have h4 := h.unreadSchema
  rw [stored_eq] at h1 h2
  rw [unread_iff] at h3 h4
  exact ⟨by cases k <;> exact h1, by cases k <;> exact h2, h3, h4⟩

end Spec.Kind

theorem Spec.Elements.length_eq {p : Profile} {e : Endian} {S : StructDef} : ∀ {es : List (List HandleOp)} {xs : List Bytes},
    Elements p e S es xs → es.length = xs.length
  | [], [], _ => rfl
  | _ :: _, _ :: _, h => by simp [Elements.length_eq h.2]
  | [], _ :: _, h => h.elim
  | _ :: _, [], h => h.elim

theorem Spec.Elements.snoc {p : Profile} {e : Endian} {S : StructDef} {ops : List HandleOp} {x : Bytes}
    (hx : runHandle p e S ops (zeros S.size) = .ok x) : ∀ {es : List (List HandleOp)} {xs : List Bytes},
    Elements p e S es xs → Elements p e S (es ++ [ops]) (xs ++ [x])
  | [], [], _ => ⟨hx, trivial⟩
  | _ :: _, _ :: _, h => ⟨h.1, Elements.snoc hx h.2⟩
  | [], _ :: _, h => h.elim
  | _ :: _, [], h => h.elim

theorem Spec.Elements.unique {p : Profile} {e : Endian} {S : StructDef} : ∀ {es : List (List HandleOp)} {xs ys : List Bytes},
    Elements p e S es xs → Elements p e S es ys → xs = ys
  | [], [], [], _, _ => rfl
  | _ :: _, _ :: _, _ :: _, h, h' => by
    have := h.1.symm.trans h'.1
    cases this
    rw [Elements.unique h.2 h'.2]
  | [], _ :: _, _, h, _ => h.elim
  | _ :: _, [], _, h, _ => h.elim
  | [], [], _ :: _, _, h => h.elim
  | _ :: _, _ :: _, [], _, h => h.elim

theorem Spec.Elements.allSize {p : Profile} {e : Endian} {S : StructDef} : ∀ {es : List (List HandleOp)} {xs : List Bytes},
    Elements p e S es xs → AllSize S.size xs
  | [], [], _ => .nil _
  | ops :: _, x :: xs, h => by
    intro y hy
    rcases List.mem_cons.mp hy with rfl | hy
    · rw [runHandle_length _ _ _ h.1]; simp [zeros]
    · exact Elements.allSize h.2 y hy
  | [], _ :: _, h => h.elim
  | _ :: _, [], h => h.elim

theorem grows_inv {k : Kind} {p : Profile} {e : Endian} {S : StructDef} {o : k.backend.Obj} {name schema : String}
    {w w1 : k.backend.W} {v v1 : ExtVec k.backend} {es : List (List HandleOp)}
    (i : EvInv k.laws o name schema S.size w v [] [] []) (hu : Unseen k.laws o name w) (hs : 0 < S.size)
    (g : Grows k p e S o name w v es w1 v1) :
    es.length * S.size + 8 < 2 ^ 63 →
    ∃ pre buf c, EvInv k.laws o name schema S.size w1 v1 pre buf c ∧ Elements p e S es (pre ++ buf) ∧
      Unseen k.laws o name w1 ∧ (k.noFault w → k.noFault w1 ∧ c = pre.flatten) ∧
      (pre = [] ∨ bufferLimit < pre.flatten.length + 8) := by
  have hne := k.loc_schema_ne o name
  induction g with
  | start => exact fun _ => ⟨[], [], [], i, trivial, hu, fun h => ⟨h, rfl⟩, .inl rfl⟩
  | @grow es w1 v1 v2 pos w2 ops d g h hw ih =>
    intro hb
    have hb' := hb
    rw [List.length_append, Nat.add_mul] at hb
    simp only [List.length_singleton, Nat.one_mul] at hb
    obtain ⟨pre, buf, c, i1, el, u1, nf, fl⟩ := ih (by omega)
    have hlen := el.length_eq
    rcases i1.grow hne p hs (by rw [← hlen]; simpa using hb') with
      ⟨v', pos', w', pre', buf', c', h1, i2, e2, hp, hc, hl, hf, o2⟩ | ⟨_, _, _, h1, _⟩
    · rw [h] at h1; cases h1
      rw [hp] at hw
      obtain ⟨x, hx, i3⟩ := i2.writeAt hw
      refine ⟨pre', buf' ++ [x], c', i3, ?_, u1.only o2, ?_, ?_⟩
      · rw [← List.append_assoc, e2]
        exact el.snoc hx
      · intro hn
        obtain ⟨n1, n2⟩ := nf hn
        exact ⟨(k.noFault_iff _).mpr (o2.noFault ((k.noFault_iff _).mp n1)), hc n2⟩
      · rcases hf with hf | hf
        · rw [hf]; exact fl
        · exact .inr hf
    · rw [h] at h1; cases h1
  | @failed es w1 v1 x w2 g h ih =>
    intro hb
    obtain ⟨pre, buf, c, i1, el, u1, nf, fl⟩ := ih hb
    have hlen := el.length_eq
    by_cases hb2 : ((pre ++ buf).length + 1) * S.size + 8 < 2 ^ 63
    · rcases i1.grow hne p hs hb2 with
        ⟨v', pos', w', pre', buf', c', h1, _⟩ | ⟨x', d', w', h1, i2, o2, nf2⟩
      · rw [h] at h1; cases h1
      · rw [h] at h1; cases h1
        exact ⟨pre, buf, c ++ d', i2, el, u1.only o2, fun hn => absurd ((k.noFault_iff _).mp (nf hn).1) nf2, fl⟩
    · -- the flush is what fails
      have hbf : (pre ++ buf).length * S.size < 2 ^ 64 := by
        rw [← hlen]; have : (2 : Nat) ^ 63 < 2 ^ 64 := by decide
        omega
      rcases i1.flushIfFull hne p hbf with ⟨v', w', pre', buf', c', h1, i2, e2, hc, hl, hf, o2⟩ | ⟨x', d', w', h1, i2, o2, nf2⟩
      · exfalso
        unfold ExtVec.grow at h
        rw [Act.bind_ok h1] at h
        have lift_err : ∀ {α β : Type} {a : Out α} {f : α → Act k.backend.W IoErr β} {w w' : k.backend.W} {x},
            (Act.lift a >>= f) w = (.err x, w') → ∃ y, a = .ok y ∧ f y w = (.err x, w') := by
          intro α β a f w w' x h
          cases a with
          | ok y => exact ⟨y, rfl, h⟩
          | panic => cases h
          | ub => cases h
        obtain ⟨_, _, h⟩ := lift_err h
        obtain ⟨_, _, h⟩ := lift_err h
        obtain ⟨_, _, h⟩ := lift_err h
        obtain ⟨_, _, h⟩ := lift_err h
        obtain ⟨_, _, h⟩ := lift_err h
        cases h
      · have h2 : v1.grow p S.size w1 = (.err x', w') := by unfold ExtVec.grow; rw [Act.bind_err h1]
        rw [h] at h2; cases h2
        exact ⟨pre, buf, c ++ d', i2, el, u1.only o2, fun hn => absurd ((k.noFault_iff _).mp (nf hn).1) nf2, fl⟩
  | @other es w1 v1 w2 g h ih =>
    intro hb
    obtain ⟨pre, buf, c, i1, el, u1, nf, fl⟩ := ih hb
    obtain ⟨k1, k2, k3⟩ := Kind.away_keeps h
    exact ⟨pre, buf, c, i1.keeps k1 k2, el, u1.keeps k1 k2, fun hn => ⟨k3 (nf hn).1, (nf hn).2⟩, fl⟩
  | @elsewhere es w1 v1 o' n r w2 g ho hi h ih =>
    intro hb
    obtain ⟨pre, buf, c, i1, el, u1, nf, fl⟩ := ih hb
    refine ⟨pre, buf, c, ⟨i1.writing.read h, i1.rep, i1.len, i1.all⟩, el, Kind.elsewhere_unseen hi h u1, fun hn => ⟨?_, (nf hn).2⟩, fl⟩
    rw [Kind.noFault_iff]
    exact (k.laws.read_keeps h).2.2.2.2 ((k.noFault_iff _).mp (nf hn).1)

theorem Spec.Grows.steps {k : Kind} {p : Profile} {e : Endian} {S : StructDef} {name : String}
    {w w1 : k.backend.W} {v v1 : ExtVec k.backend} {es : List (List HandleOp)} {o : k.backend.Obj} (ho : k.alive w o)
    (g : Grows k p e S o name w v es w1 v1) : Kind.Steps k w w1 := by
  induction g with
  | start => exact .refl _
  | grow g h hw ih => exact ih.trans (Kind.steps_of (fun _ => Kind.pres_grow) (ih.alive ho) h)
  | failed g h ih => exact ih.trans (Kind.steps_of (fun _ => Kind.pres_grow) (ih.alive ho) h)
  | other g h ih => exact .step ih h.step
  | elsewhere g ho hi h ih => exact .step ih (.read ho h)

/-- After a successful creation. -/
theorem created_inv {k : Kind} {p : Profile} {e : Endian} {o : k.backend.Obj} {name schema : String}
    {w0 w : k.backend.W} {v : ExtVec k.backend} (size : Nat) (hu : k.Unused w0 o name)
    (h : createExternalVector p e o name schema w0 = (.ok v, w)) :
    EvInv k.laws o name schema size w v [] [] [] ∧ Unseen k.laws o name w ∧ (k.noFault w0 → k.noFault w) := by
  obtain ⟨f1, f2, u⟩ := hu.fresh
  rcases createExternalVector_spec (L := k.laws) p e o name schema size w0 (k.loc_schema_ne o name) f1 f2 with
    ⟨v', w', h1, i1, o1⟩ | ⟨_, _, h1, _⟩
  · rw [h] at h1; cases h1
    exact ⟨i1, u.only o1, fun hn => (k.noFault_iff _).mpr (o1.noFault ((k.noFault_iff _).mp hn))⟩
  · rw [h] at h1; cases h1

end Flatdata
