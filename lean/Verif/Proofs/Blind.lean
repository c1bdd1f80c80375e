import Verif.Spec.Blind
import Verif.Proofs.Neighbours
/-!
# Opening does not depend on data

`Blind.Same x`: from related states, `x` has the same outcome and ends in related states.
-/
namespace Flatdata
open Spec

/-- A relation between states under which reading a resource, its size field and its schema give the same. -/
structure Blind (B : Backend) where
  R : B.W → B.W → Prop
  schema : B.Base → Prop
  subdir : ∀ o d w w', R w w' → (B.subdir o d w).1 = (B.subdir o d w').1 ∧ R (B.subdir o d w).2 (B.subdir o d w').2
  read : ∀ o n w w', R w w' → (B.readResource o n w).1 = (B.readResource o n w').1 ∧ R (B.readResource o n w).2 (B.readResource o n w').2
  slice : ∀ o n w w' s, R w w' → (B.readResource o n w).1 = .ok s → s.off = 0 ∧ ∀ m, n = m ++ ".schema" → schema s.base
  header : ∀ w w' b, R w w' → (B.content w b).length = (B.content w' b).length ∧ (B.content w b).take 8 = (B.content w' b).take 8
  same : ∀ w w' b, R w w' → schema b → B.content w b = B.content w' b

namespace Blind
variable {B : Backend} (S : Blind B) {E E' α β : Type}

/-- The same outcome from related states. -/
def Same (x : Act B.W E α) : Prop := ∀ w w', S.R w w' → (x w).1 = (x w').1 ∧ S.R (x w).2 (x w').2

variable {S}

namespace Same

theorem pure (a : α) : S.Same (Pure.pure a : Act B.W E α) := fun _ _ h => ⟨rfl, h⟩

theorem fail (x : E) : S.Same (Act.fail x : Act B.W E α) := fun _ _ h => ⟨rfl, h⟩

theorem lift (x : Out α) : S.Same (Act.lift x : Act B.W E α) := by
  intro w w' h
  cases x <;> exact ⟨rfl, h⟩

/-- Sequencing, where the second part may use what the first returned. -/
theorem bind' {x : Act B.W E α} {f : α → Act B.W E β} (h : S.Same x)
    (hf : ∀ w w' a, S.R w w' → (x w).1 = .ok a → S.Same (f a)) : S.Same (x >>= f) := by
  intro w w' hr
  obtain ⟨h1, h2⟩ := h w w' hr
  have h3 := hf w w'
  rw [Act.bind_def, Act.bind_def]
  cases hx : x w with
  | mk r w1 =>
    cases hy : x w' with
    | mk r' w1' =>
      rw [hx, hy] at h1 h2
      rw [hx] at h3
      dsimp only at h1 h2 h3
      subst h1
      cases r with
      | ok a => exact h3 a hr rfl w1 w1' h2
      | err _ => exact ⟨rfl, h2⟩
      | panic => exact ⟨rfl, h2⟩
      | ub => exact ⟨rfl, h2⟩

theorem bind {x : Act B.W E α} {f : α → Act B.W E β} (h : S.Same x) (hf : ∀ a, S.Same (f a)) : S.Same (x >>= f) :=
  h.bind' fun _ _ a _ _ => hf a

theorem mapErr {x : Act B.W E α} (f : E → E') (h : S.Same x) : S.Same (x.mapErr f) := by
  intro w w' hr
  obtain ⟨h1, h2⟩ := h w w' hr
  unfold Act.mapErr
  cases hx : x w with
  | mk r w1 =>
    cases hy : x w' with
    | mk r' w1' =>
      rw [hx, hy] at h1 h2
      dsimp only at h1 h2
      subst h1
      cases r <;> exact ⟨rfl, h2⟩

theorem attempt {x : Act B.W E α} (h : S.Same x) : S.Same (Act.attempt x : Act B.W E' (Except E α)) := by
  intro w w' hr
  obtain ⟨h1, h2⟩ := h w w' hr
  unfold Act.attempt
  cases hx : x w with
  | mk r w1 =>
    cases hy : x w' with
    | mk r' w1' =>
      rw [hx, hy] at h1 h2
      dsimp only at h1 h2
      subst h1
      cases r <;> exact ⟨rfl, h2⟩

theorem ite {c : Prop} [Decidable c] {x y : Act B.W E α} (hx : S.Same x) (hy : S.Same y) : S.Same (if c then x else y) := by
  by_cases h : c
  · rw [if_pos h]; exact hx
  · rw [if_neg h]; exact hy

end Same

/-- Loading the size field. -/
theorem load_header (b : B.Base) : S.Same (B.load ⟨b, 0, 8⟩ : Act B.W E Bytes) := by
  intro w w' hr
  obtain ⟨h1, h2⟩ := S.header w w' b hr
  have : B.deref w ⟨b, 0, 8⟩ = B.deref w' ⟨b, 0, 8⟩ := by
    unfold Backend.deref
    dsimp only
    rw [h1, List.drop_zero, List.drop_zero, h2]
  unfold Backend.load
  rw [this]
  exact Same.lift _ w w' hr

/-- Loading a schema. -/
theorem load_schema {s : Slice B.Base} (hs : S.schema s.base) : S.Same (B.load s : Act B.W E Bytes) := by
  intro w w' hr
  have : B.deref w s = B.deref w' s := by
    unfold Backend.deref
    rw [S.same w w' _ hr hs]
  unfold Backend.load
  rw [this]
  exact Same.lift _ w w' hr

variable [DiffLib] (p : Profile) (e : Endian)

theorem checkSchema (name expected : String) (data : Slice B.Base) (size : Nat) (stored : Bytes) :
    S.Same (Storage.checkSchema B name expected data size stored) := by
  unfold Storage.checkSchema
  cases fromUtf8 stored with
  | none => exact .fail _
  | some s => exact .ite (.fail _) (.lift _)

theorem checkResource (name expected : String) {data schema : Slice B.Base} (hd : data.off = 0) (hs : S.schema schema.base) :
    S.Same (Storage.checkResource B p e name expected data schema) := by
  unfold Storage.checkResource
  rw [hd]
  exact .ite (.fail _) ((load_header _).bind fun _ => (Same.lift _).bind fun _ => (Same.lift _).bind fun _ =>
    (Same.lift _).bind fun _ => .ite (.fail _) ((load_schema hs).bind fun _ => checkSchema _ _ _ _ _))

omit [DiffLib] in
theorem mapErr_ok {x : Act B.W E α} {f : E → E'} {w : B.W} {a : α} (h : (x.mapErr f w).1 = .ok a) : (x w).1 = .ok a := by
  unfold Act.mapErr at h
  cases hx : x w with
  | mk r w1 =>
    rw [hx] at h
    cases r with
    | ok b => cases h; rfl
    | err _ => cases h
    | panic => cases h
    | ub => cases h

theorem storageRead (o : B.Obj) (name expected : String) : S.Same (Storage.read B p e o name expected) := by
  have hread : ∀ n, S.Same (B.readResource o n) := fun n w w' => S.read o n w w'
  unfold Storage.read
  refine ((hread name).mapErr _).bind' fun w w' d hr hd => ?_
  refine ((hread _).mapErr _).bind' fun w1 w1' s hr1 hs => ?_
  exact checkResource p e _ _ (S.slice o name w w' d hr (mapErr_ok hd)).1
    ((S.slice o _ w1 w1' s hr1 (mapErr_ok hs)).2 name rfl)

omit [DiffLib] in
theorem checkRes (opt : Bool) {x : Act B.W RErr α} (h : S.Same x) : S.Same (Flatdata.checkRes B opt x) := by
  unfold Flatdata.checkRes
  refine h.attempt.bind fun r => ?_
  cases r with
  | ok a => exact .pure _
  | error x => exact .ite (.pure _) (.fail _)

theorem openResource (o : B.Obj) (r : ResDecl) : S.Same (Flatdata.openResource B p e o r) := by
  unfold Flatdata.openResource
  cases r.type with
  | multi V i =>
    exact (checkRes _ (storageRead p e _ _ _)).bind fun _ => (checkRes _ (storageRead p e _ _ _)).bind fun _ => .pure _
  | _ => exact (checkRes _ (storageRead p e _ _ _)).bind fun _ => .pure _

theorem openResources (o : B.Obj) : ∀ rs, S.Same (Flatdata.openResources B p e o rs)
  | [] => .pure _
  | r :: rs => (openResource p e o r).bind fun _ => (openResources o rs).bind fun _ => .pure _

mutual
theorem openArchive (o : B.Obj) : ∀ D, S.Same (Flatdata.openArchive B p e o D)
  | .mk _ _ _ subs => by
    unfold Flatdata.openArchive
    exact (storageRead p e _ _ _).bind fun _ => (openResources p e o _).bind fun _ => (openSubs o subs).bind fun _ => .pure _

theorem openSubs (o : B.Obj) : ∀ subs, S.Same (Flatdata.openSubs B p e o subs)
  | .nil => by
    unfold Flatdata.openSubs
    exact .pure _
  | .cons _ _ D rest => by
    unfold Flatdata.openSubs
    have hsub : ∀ d, S.Same (B.subdir o d) := fun d w w' => S.subdir o d w w'
    exact ((hsub _).mapErr _).bind fun o' => (checkRes _ (openArchive o' D)).bind fun _ => (openSubs o rest).bind fun _ => .pure _
end

end Blind

/-! ## The two storages -/

/-- The last component of the place of a schema ends in `.schema`. -/
theorem Spec.SchemaKey.last {k : Key} (h : SchemaKey k) : ∃ a x, k = a ++ [x ++ ".schema".toList] := by
  obtain ⟨path, name, rfl⟩ := h
  have hs : '/' ∉ ".schema".toList := by decide
  rw [join_append path name ".schema" hs]
  obtain ⟨L, l, _, h2⟩ := splitSlash_append_noSlash (join path name)
  unfold key
  rw [h2 _ hs, List.filter_append]
  refine ⟨(if (join path name ++ ".schema".toList).head? = some '/' then [['/']] else []) ++
    L.filter (fun x => decide (x ≠ [] ∧ x ≠ ['.'])), l, ?_⟩
  rw [List.append_assoc]
  congr 2
  rw [List.filter_cons, if_pos]
  · rfl
  · have : 7 ≤ (l ++ ".schema".toList).length := by rw [List.length_append]; exact Nat.le_add_left _ _
    rw [decide_eq_true_iff]
    constructor
    · intro he; rw [he] at this; cases this
    · intro he; rw [he] at this; change 7 ≤ 1 at this; omega

theorem Spec.SameShape.cases {a b : Option Bytes} (h : SameShape a b) :
    (a = none ∧ b = none) ∨ ∃ c d, a = some c ∧ b = some d ∧ c.length = d.length ∧ c.take 8 = d.take 8 := by
  cases a with
  | none =>
    cases b with
    | none => exact .inl ⟨rfl, rfl⟩
    | some d => cases h
  | some c =>
    cases b with
    | none => cases h
    | some d =>
      have h' : some (c.length, c.take 8) = some (d.length, d.take 8) := h
      have := Prod.mk.inj (Option.some.inj h')
      exact .inr ⟨c, d, rfl, rfl, this.1, this.2⟩

theorem Spec.SameShape.refl (a : Option Bytes) : SameShape a a := rfl

theorem Spec.SameShape.content {a b : Option Bytes} (h : SameShape a b) :
    (a.getD []).length = (b.getD []).length ∧ (a.getD []).take 8 = (b.getD []).take 8 := by
  rcases h.cases with ⟨h1, h2⟩ | ⟨c, d, h1, h2, h3, h4⟩
  · rw [h1, h2]; exact ⟨rfl, rfl⟩
  · rw [h1, h2]; exact ⟨h3, h4⟩

/-- In memory. -/
def memBlind : Blind mem where
  R w w' := Kind.memory.differInData w w'
  schema l := SchemaKey l.2
  subdir := by
    intro o d w w' hr
    obtain ⟨h1, h2, h3, h4, h5⟩ := hr
    have hn : (mem.subdir o d w).1 = (mem.subdir o d w').1 := by
      change (Res.ok _ : Res Empty Obj) = Res.ok _
      rw [h1]
    refine ⟨hn, congrArg (· + 1) h1, fun l => ?_, fun l => ?_, fun l => ?_, fun l hl => ?_⟩
    · change SameShape (if l.1 = w.next then none else w.resources l) (if l.1 = w'.next then none else w'.resources l)
      rw [h1]
      by_cases hl : l.1 = w.next
      · rw [if_pos hl, if_pos hl]; rfl
      · rw [if_neg hl, if_neg hl]; exact h2 l
    · change SameShape ((if l.1 = w.next then none else w.streams l).map Prod.fst) ((if l.1 = w'.next then none else w'.streams l).map Prod.fst)
      rw [h1]
      by_cases hl : l.1 = w.next
      · rw [if_pos hl, if_pos hl]; rfl
      · rw [if_neg hl, if_neg hl]; exact h3 l
    · change (if l.1 = w'.next then none else w'.streams l).map Prod.snd = (if l.1 = w.next then none else w.streams l).map Prod.snd
      rw [h1]
      by_cases hl : l.1 = w.next
      · rw [if_pos hl, if_pos hl]
      · rw [if_neg hl, if_neg hl]; exact h4 l
    · change (if l.1 = w'.next then none else w'.resources l) = (if l.1 = w.next then none else w.resources l) ∧
        (if l.1 = w'.next then none else w'.streams l) = (if l.1 = w.next then none else w.streams l)
      rw [h1]
      by_cases hl' : l.1 = w.next
      · rw [if_pos hl', if_pos hl', if_pos hl', if_pos hl']; exact ⟨rfl, rfl⟩
      · rw [if_neg hl', if_neg hl', if_neg hl', if_neg hl']; exact h5 l hl
  read := by
    intro o n w w' hr
    have hr0 := hr
    obtain ⟨h1, h2, h3, h4, h5⟩ := hr
    change (MemSt.readResource o n w).1 = (MemSt.readResource o n w').1 ∧
      Kind.memory.differInData (MemSt.readResource o n w).2 (MemSt.readResource o n w').2
    unfold MemSt.readResource
    rcases (h2 (MemSt.loc o n)).cases with ⟨ha, hb⟩ | ⟨c, d, ha, hb, hc, -⟩
    · rw [ha, hb]
      have h3' := h3 (MemSt.loc o n)
      have h5' := h5 (MemSt.loc o n)
      cases hx : w.streams (MemSt.loc o n) with
      | none =>
        cases hy : w'.streams (MemSt.loc o n) with
        | none => exact ⟨rfl, hr0⟩
        | some y => rw [hx, hy] at h3'; cases h3'
      | some x =>
        cases hy : w'.streams (MemSt.loc o n) with
        | none => rw [hx, hy] at h3'; cases h3'
        | some y =>
          rw [hx, hy] at h3' h5'
          have h6 := h3'
          rcases h3'.cases with ⟨h, -⟩ | ⟨c, d, hc, hd, hl, -⟩
          · cases h
          · have hc' : x.1 = c := Option.some.inj hc
            have hd' : y.1 = d := Option.some.inj hd
            refine ⟨?_, h1, fun l => ?_, h3, h4, fun l hl => ⟨?_, (h5 l hl).2⟩⟩
            · change (Res.ok _ : Res IoErr (Slice MemLoc)) = Res.ok _
              rw [hc', hd', hl]
            · change SameShape (upd w.resources _ (some x.1) l) (upd w'.resources _ (some y.1) l)
              by_cases he : l = MemSt.loc o n
              · rw [he, upd_same, upd_same]; exact h6
              · rw [upd_other _ _ he, upd_other _ _ he]; exact h2 l
            · change upd w'.resources _ (some y.1) l = upd w.resources _ (some x.1) l
              by_cases he : l = MemSt.loc o n
              · rw [he] at hl
                rw [he, upd_same, upd_same]
                exact congrArg (Option.map Prod.fst) (h5' hl).2
              · rw [upd_other _ _ he, upd_other _ _ he]; exact (h5 l hl).1
    · rw [ha, hb]
      refine ⟨?_, hr0⟩
      change (Res.ok _ : Res IoErr (Slice MemLoc)) = Res.ok _
      rw [hc]
  slice := by
    intro o n w w' s _ h
    have hs : s.off = 0 ∧ s.base = MemSt.loc o n := by
      change (MemSt.readResource o n w).1 = .ok s at h
      unfold MemSt.readResource at h
      cases hx : w.resources (MemSt.loc o n) with
      | some d =>
        rw [hx] at h
        cases h; exact ⟨rfl, rfl⟩
      | none =>
        rw [hx] at h
        cases hy : w.streams (MemSt.loc o n) with
        | some y => rw [hy] at h; cases h; exact ⟨rfl, rfl⟩
        | none => rw [hy] at h; cases h
    refine ⟨hs.1, fun m hm => ?_⟩
    rw [hs.2, hm]
    exact ⟨o.path, m, rfl⟩
  header w w' b hr := SameShape.content (hr.2.1 b)
  same w w' b hr hb := by
    change (w.resources b).getD [] = (w'.resources b).getD []
    rw [(hr.2.2.2.2 b hb).1]

namespace FileSt

/-- The relation on disk, written with the fields. -/
structure DataAlike (w w' : FileW) : Prop where
  shape : ∀ l, SameShape (w.fs.files l) (w'.fs.files l)
  schema : ∀ l, SchemaKey l → w'.fs.files l = w.fs.files l
  isDir : w'.fs.isDir = w.fs.isDir
  fds : w'.fs.fds = w.fs.fds
  nextFd : w'.fs.nextFd = w.fs.nextFd
  fault : w'.fs.fault = w.fs.fault
  tick : w'.fs.tick = w.fs.tick
  maps : w'.maps = w.maps
  next : w'.next = w.next
  mapped : Mapped w

theorem alike_iff {w w' : FileW} : DataAlike w w' ↔ Kind.disk.differInData w w' ∧ Mapped w := by
  constructor
  · intro h
    refine ⟨⟨w'.fs.files, ?_, h.shape, h.schema⟩, h.mapped⟩
    obtain ⟨⟨a, b, c, d, e, f⟩, g, i⟩ := w
    obtain ⟨⟨a', b', c', d', e', f'⟩, g', i'⟩ := w'
    obtain ⟨-, -, h1, h2, h3, h4, h5, h6, h7, -⟩ := h
    dsimp only at h1 h2 h3 h4 h5 h6 h7
    subst h1 h2 h3 h4 h5 h6 h7
    rfl
  · rintro ⟨⟨files, h1, h2, h3⟩, h4⟩
    have h5 : w' = { w with fs := { w.fs with files := files } } := h1
    subst h5
    exact ⟨h2, h3, rfl, rfl, rfl, rfl, rfl, rfl, rfl, h4⟩

theorem DataAlike.ticked {w w' : FileW} (h : DataAlike w w') :
    DataAlike { w with fs := { w.fs with tick := w.fs.tick + 1 } } { w' with fs := { w'.fs with tick := w'.fs.tick + 1 } } :=
  ⟨h.shape, h.schema, h.isDir, h.fds, h.nextFd, h.fault, congrArg (· + 1) h.tick, h.maps, h.next, h.mapped⟩

/-- A call that changes nothing, and whose result does not depend on data. -/
theorem syscall_alike {α : Type} {f : FS → Res IoErr α} {w w' : FileW} (hr : DataAlike w w')
    (h : f { w.fs with tick := w.fs.tick + 1 } = f { w'.fs with tick := w'.fs.tick + 1 }) :
    (syscall (fun fs => (f fs, fs)) (fun _ fs => fs) w).1 = (syscall (fun fs => (f fs, fs)) (fun _ fs => fs) w').1 ∧
      DataAlike (syscall (fun fs => (f fs, fs)) (fun _ fs => fs) w).2 (syscall (fun fs => (f fs, fs)) (fun _ fs => fs) w').2 := by
  have hf : w'.fs.fault w'.fs.tick = w.fs.fault w.fs.tick := by rw [hr.tick, hr.fault]
  unfold syscall
  rw [hf]
  cases w.fs.fault w.fs.tick with
  | none => exact ⟨h, hr.ticked⟩
  | some k => exact ⟨rfl, hr.ticked⟩

theorem DataAlike.isSome {w w' : FileW} (hr : DataAlike w w') (k : Key) : (w'.fs.files k).isSome = (w.fs.files k).isSome := by
  rcases (hr.shape k).cases with ⟨h1, h2⟩ | ⟨c, d, h1, h2, -⟩
  · rw [h1, h2]
  · rw [h1, h2]; rfl

theorem pathExists_alike (q : Path) {w w' : FileW} (hr : DataAlike w w') :
    (pathExists q w).1 = (pathExists q w').1 ∧ DataAlike (pathExists q w).2 (pathExists q w').2 := by
  have h := syscall_alike (f := fun fs => (.ok ((fs.files (key q)).isSome || (q ≠ [] && dirOK fs (key q))) : Res IoErr Bool)) hr
    (by dsimp only [dirOK]; rw [hr.isSome, hr.isDir])
  unfold pathExists
  generalize syscall (fun fs => ((.ok ((fs.files (key q)).isSome || (q ≠ [] && dirOK fs (key q))) : Res IoErr Bool), fs)) (fun _ fs => fs) w = x at h
  generalize syscall (fun fs => ((.ok ((fs.files (key q)).isSome || (q ≠ [] && dirOK fs (key q))) : Res IoErr Bool), fs)) (fun _ fs => fs) w' = y at h
  obtain ⟨r, w1⟩ := x
  obtain ⟨r', w1'⟩ := y
  obtain ⟨h1, h2⟩ := h
  dsimp only at h1 h2
  subst h1
  cases r <;> exact ⟨rfl, h2⟩

theorem fileOpen_alike (q : Path) {w w' : FileW} (hr : DataAlike w w') :
    (fileOpen q w).1 = (fileOpen q w').1 ∧ DataAlike (fileOpen q w).2 (fileOpen q w').2 := by
  have h := syscall_alike (f := fun fs => (if (fs.files (key q)).isSome || dirOK fs (key q) then .ok (key q) else .err .notFound : Res IoErr Key)) hr
    (by
      have h1 := hr.isSome (key q)
      have h2 : dirOK { w'.fs with tick := w'.fs.tick + 1 } (key q) = dirOK { w.fs with tick := w.fs.tick + 1 } (key q) := by
        change (key q == [] || w'.fs.isDir (key q)) = (key q == [] || w.fs.isDir (key q))
        rw [hr.isDir]
      dsimp only
      rw [h1, h2])
  have e : fileOpen q = syscall (fun fs => ((if (fs.files (key q)).isSome || dirOK fs (key q) then .ok (key q) else .err .notFound : Res IoErr Key), fs))
      (fun _ fs => fs) := by
    unfold fileOpen
    congr 1
    funext fs
    split <;> rfl
  rw [e]
  exact h

theorem mmapLen_alike (k : Key) {w w' : FileW} (hr : DataAlike w w') :
    (mmapLen k w).1 = (mmapLen k w').1 ∧ DataAlike (mmapLen k w).2 (mmapLen k w').2 := by
  have h := syscall_alike (f := fun fs => (match fs.files k with
      | none => .err .other
      | some d => if d.length = 0 then .err .invalidInput else .ok d.length : Res IoErr Nat)) hr
    (by
      dsimp only
      rcases (hr.shape k).cases with ⟨h1, h2⟩ | ⟨c, d, h1, h2, h3, -⟩
      · rw [h1, h2]
      · rw [h1, h2]; dsimp only; rw [h3])
  have e : mmapLen k = syscall (fun fs => ((match fs.files k with
      | none => .err .other
      | some d => if d.length = 0 then .err .invalidInput else .ok d.length : Res IoErr Nat), fs)) (fun _ fs => fs) := by
    unfold mmapLen
    congr 1
    funext fs
    cases fs.files k with
    | none => rfl
    | some d => dsimp only; split <;> rfl
  rw [e]
  exact h

theorem insertMap_alike (o : Obj) (q : Path) (n : Nat) {w w' : FileW} (hr : DataAlike w w') :
    (insertMap o q (key q) n w).1 = (insertMap o q (key q) n w').1 ∧ DataAlike (insertMap o q (key q) n w).2 (insertMap o q (key q) n w').2 := by
  refine ⟨rfl, ⟨hr.shape, hr.schema, hr.isDir, hr.fds, hr.nextFd, hr.fault, hr.tick, ?_, hr.next, ?_⟩⟩
  · change upd w'.maps o.id (upd (w'.maps o.id) q _) = upd w.maps o.id (upd (w.maps o.id) q _)
    rw [hr.maps]
  · intro i q' x hx
    change upd w.maps o.id (upd (w.maps o.id) q _) i q' = some x at hx
    by_cases hi : i = o.id
    · rw [hi, upd_same] at hx
      by_cases hq : q' = q
      · rw [hq, upd_same] at hx
        cases hx
        rw [hq]
      · rw [upd_other _ _ hq] at hx; exact hr.mapped _ _ _ hx
    · rw [upd_other _ _ hi] at hx; exact hr.mapped _ _ _ hx

/-- Related outcomes of a sequence. -/
theorem bind_alike {E α β : Type} {x : Act FileW E α} {f : α → Act FileW E β} {w w' : FileW}
    (h : (x w).1 = (x w').1 ∧ DataAlike (x w).2 (x w').2)
    (hf : ∀ a w1 w1', (x w).1 = .ok a → DataAlike w1 w1' → (f a w1).1 = (f a w1').1 ∧ DataAlike (f a w1).2 (f a w1').2) :
    ((x >>= f) w).1 = ((x >>= f) w').1 ∧ DataAlike ((x >>= f) w).2 ((x >>= f) w').2 := by
  obtain ⟨h1, h2⟩ := h
  rw [Act.bind_def, Act.bind_def]
  cases hx : x w with
  | mk r w1 =>
    cases hy : x w' with
    | mk r' w1' =>
      rw [hx] at hf
      rw [hx, hy] at h1 h2
      dsimp only at h1 h2 hf
      subst h1
      cases r with
      | ok a => exact hf a w1 w1' rfl h2
      | err _ => exact ⟨rfl, h2⟩
      | panic => exact ⟨rfl, h2⟩
      | ub => exact ⟨rfl, h2⟩

theorem fileOpen_key {q : Path} {w : FileW} {k : Key} (h : (fileOpen q w).1 = .ok k) : k = key q := by
  unfold fileOpen syscall at h
  dsimp only at h
  split at h
  · dsimp only at h
    split at h
    · cases h; rfl
    · cases h
  · cases h

theorem mapRead_alike (o : Obj) (q : Path) {w w' : FileW} (hr : DataAlike w w') :
    (mapRead o q w).1 = (mapRead o q w').1 ∧ DataAlike (mapRead o q w).2 (mapRead o q w').2 := by
  unfold mapRead
  rw [hr.maps]
  cases w.maps o.id q with
  | some x => exact ⟨rfl, hr⟩
  | none =>
    refine bind_alike (fileOpen_alike q hr) fun k w1 w1' hk h1 => ?_
    rw [fileOpen_key hk]
    exact bind_alike (mmapLen_alike _ h1) fun n w2 w2' _ h2 => insertMap_alike o q n h2

theorem readResource_alike (o : Obj) (n : String) {w w' : FileW} (hr : DataAlike w w') :
    (readResource o n w).1 = (readResource o n w').1 ∧ DataAlike (readResource o n w).2 (readResource o n w').2 := by
  unfold readResource
  have h : ((pathExists (join o.path n)).mapErr (Empty.elim : Empty → IoErr) w).1 = ((pathExists (join o.path n)).mapErr Empty.elim w').1 ∧
      DataAlike ((pathExists (join o.path n)).mapErr (Empty.elim : Empty → IoErr) w).2 ((pathExists (join o.path n)).mapErr (Empty.elim : Empty → IoErr) w').2 := by
    have h := pathExists_alike (join o.path n) hr
    unfold Act.mapErr
    generalize pathExists (join o.path n) w = x at h
    generalize pathExists (join o.path n) w' = y at h
    obtain ⟨r, w1⟩ := x
    obtain ⟨r', w1'⟩ := y
    obtain ⟨h1, h2⟩ := h
    dsimp only at h1 h2
    subst h1
    cases r <;> exact ⟨rfl, h2⟩
  refine bind_alike h fun x w1 w1' _ h1 => ?_
  cases x with
  | false => exact ⟨rfl, h1⟩
  | true => exact mapRead_alike o _ h1

theorem readResource_slice (o : Obj) (n : String) {w : FileW} (hm : Mapped w) {s : Slice Key} (h : (readResource o n w).1 = .ok s) :
    s.off = 0 ∧ s.base = key (join o.path n) := by
  rcases read_spec o n w with ⟨k, m, w1, h1, _, _, h2⟩ | ⟨d, w1, _, _, _, _, _, h2⟩ | ⟨x, w1, _, _, h2, _⟩
  · rw [h2] at h
    cases h
    exact ⟨rfl, hm _ _ _ h1⟩
  · rw [h2] at h; cases h; exact ⟨rfl, rfl⟩
  · rw [h2] at h; cases h

end FileSt

/-- On disk. -/
def fileBlind : Blind file where
  R w w' := FileSt.DataAlike w w'
  schema l := SchemaKey l
  subdir := by
    intro o d w w' hr
    refine ⟨?_, ⟨hr.shape, hr.schema, hr.isDir, hr.fds, hr.nextFd, hr.fault, hr.tick, ?_, congrArg (· + 1) hr.next, ?_⟩⟩
    · change (Res.ok (Obj.mk w.next _) : Res Empty Obj) = Res.ok (Obj.mk w'.next _)
      rw [hr.next]
    · change upd w'.maps w'.next _ = upd w.maps w.next _
      rw [hr.maps, hr.next]
    · intro i q x hx
      change upd w.maps w.next (fun _ => none) i q = some x at hx
      by_cases hi : i = w.next
      · rw [hi, upd_same] at hx; cases hx
      · rw [upd_other _ _ hi] at hx; exact hr.mapped _ _ _ hx
  read o n w w' hr := FileSt.readResource_alike o n hr
  slice := by
    intro o n w w' s hr h
    obtain ⟨h1, h2⟩ := FileSt.readResource_slice o n hr.mapped h
    refine ⟨h1, fun m hm => ?_⟩
    rw [h2, hm]
    exact ⟨o.path, m, rfl⟩
  header w w' b hr := SameShape.content (hr.shape b)
  same w w' b hr hb := by
    change (w.fs.files b).getD [] = (w'.fs.files b).getD []
    rw [hr.schema b hb]

/-! ## Counting calls -/

section
variable {E E' α β : Type}

/-- At most `n` calls to the operating system. -/
def Costs (n : Nat) (x : Act FileW E α) : Prop := ∀ w, (x w).2.fs.tick ≤ w.fs.tick + n

namespace Costs

theorem pure (a : α) : Costs 0 (Pure.pure a : Act FileW E α) := fun _ => Nat.le_refl _
theorem fail (a : E) : Costs 0 (Act.fail a : Act FileW E α) := fun _ => Nat.le_refl _
theorem lift (a : Out α) : Costs 0 (Act.lift a : Act FileW E α) := fun w => by cases a <;> exact Nat.le_refl _

theorem mono {x : Act FileW E α} {m n : Nat} (h : Costs m x) (hn : m ≤ n) : Costs n x := fun w => by
  have := h w
  omega

theorem bind {x : Act FileW E α} {f : α → Act FileW E β} {m n : Nat} (h : Costs m x) (hf : ∀ a, Costs n (f a)) :
    Costs (m + n) (x >>= f) := by
  intro w
  have h1 := h w
  rw [Act.bind_def]
  cases hx : x w with
  | mk r w1 =>
    rw [hx] at h1
    dsimp only at h1
    cases r with
    | ok a => have := hf a w1; dsimp only; omega
    | err _ => dsimp only; omega
    | panic => dsimp only; omega
    | ub => dsimp only; omega

theorem mapErr {x : Act FileW E α} {n : Nat} (f : E → E') (h : Costs n x) : Costs n (x.mapErr f) := by
  intro w
  have h1 := h w
  unfold Act.mapErr
  cases hx : x w with
  | mk r w1 =>
    rw [hx] at h1
    cases r <;> exact h1

theorem attempt {x : Act FileW E α} {n : Nat} (h : Costs n x) : Costs n (Act.attempt x : Act FileW E' (Except E α)) := by
  intro w
  have h1 := h w
  unfold Act.attempt
  cases hx : x w with
  | mk r w1 =>
    rw [hx] at h1
    cases r <;> exact h1

theorem ite {c : Prop} [Decidable c] {x y : Act FileW E α} {n : Nat} (hx : Costs n x) (hy : Costs n y) : Costs n (if c then x else y) := by
  by_cases h : c
  · rw [if_pos h]; exact hx
  · rw [if_neg h]; exact hy

theorem syscall {normal : FS → Res IoErr α × FS} {faulty : Nat → FS → FS} (hn : ∀ fs, (normal fs).2.tick = fs.tick)
    (hf : ∀ k fs, (faulty k fs).tick = fs.tick) : Costs 1 (FileSt.syscall normal faulty) := by
  intro w
  unfold FileSt.syscall
  cases w.fs.fault w.fs.tick with
  | none => exact Nat.le_of_eq (hn _)
  | some k => exact Nat.le_of_eq (hf _ _)

theorem pathExists (q : Path) : Costs 1 (FileSt.pathExists q) := by
  intro w
  have h : Costs 1 (FileSt.syscall (fun fs => ((.ok ((fs.files (key q)).isSome || (q ≠ [] && FileSt.dirOK fs (key q))) : Res IoErr Bool), fs)) (fun _ fs => fs)) :=
    syscall (fun _ => rfl) fun _ _ => rfl
  have h := h w
  unfold FileSt.pathExists
  generalize FileSt.syscall (fun fs => ((.ok ((fs.files (key q)).isSome || (q ≠ [] && FileSt.dirOK fs (key q))) : Res IoErr Bool), fs)) (fun _ fs => fs) w = x at h
  obtain ⟨r, w1⟩ := x
  cases r <;> exact h

theorem readResource (o : Obj) (n : String) : Costs 3 (FileSt.readResource o n) := by
  unfold FileSt.readResource
  refine ((pathExists _).mapErr _).bind (n := 2) fun x => .ite ((fail _).mono (Nat.zero_le _)) fun w => ?_
  unfold FileSt.mapRead
  cases w.maps o.id (join o.path n) with
  | some x => exact Nat.le_add_right _ _
  | none =>
    have h1 : Costs 1 (FileSt.fileOpen (join o.path n)) := by
      refine syscall (fun fs => ?_) fun _ _ => rfl
      split <;> rfl
    have h2 : ∀ k, Costs 1 (FileSt.mmapLen k) := by
      intro k
      refine syscall (fun fs => ?_) fun _ _ => rfl
      split
      · rfl
      · split <;> rfl
    exact (h1.bind (n := 1) fun k => (h2 k).bind (n := 0) fun m w => Nat.le_refl _) w

variable [DiffLib] (p : Profile) (e : Endian)

omit [DiffLib] in
theorem load (s : Slice Key) : Costs 0 (file.load s : Act FileW E Bytes) := by
  intro w
  exact lift (file.deref w s) w

theorem storageRead (o : Obj) (name expected : String) : Costs 6 (Storage.read file p e o name expected) := by
  unfold Storage.read
  refine ((readResource o _).mapErr _).bind (n := 3) fun d => ((readResource o _).mapErr _).bind (n := 0) fun s => ?_
  unfold Storage.checkResource
  refine .ite (fail _) ((load _).bind (n := 0) fun _ => (lift _).bind (n := 0) fun _ => (lift _).bind (n := 0) fun _ =>
    (lift _).bind (n := 0) fun _ => .ite (fail _) ((load _).bind (n := 0) fun st => ?_))
  unfold Storage.checkSchema
  cases fromUtf8 st with
  | none => exact fail _
  | some s => exact .ite (fail _) (lift _)

omit [DiffLib] in
theorem checkRes (opt : Bool) {x : Act FileW RErr α} {n : Nat} (h : Costs n x) : Costs n (Flatdata.checkRes file opt x) := by
  unfold Flatdata.checkRes
  refine h.attempt.bind (n := 0) fun r => ?_
  cases r with
  | ok a => exact pure _
  | error x => exact .ite (pure _) (fail _)

theorem openResource (o : Obj) (r : ResDecl) :
    Costs (6 * (match r.type with | .multi _ _ => 2 | _ => 1)) (Flatdata.openResource file p e o r) := by
  unfold Flatdata.openResource
  cases r.type with
  | multi V i => exact (checkRes _ (storageRead p e _ _ _)).bind (n := 6) fun _ => (checkRes _ (storageRead p e _ _ _)).bind (n := 0) fun _ => pure _
  | _ => exact (checkRes _ (storageRead p e _ _ _)).bind (n := 0) fun _ => pure _

theorem openResources (o : Obj) : ∀ rs : List ResDecl,
    Costs (6 * (rs.map fun r => match r.type with | .multi _ _ => 2 | _ => 1).sum) (Flatdata.openResources file p e o rs)
  | [] => pure _
  | r :: rs => by
    have := (openResource p e o r).bind fun x => (openResources o rs).bind fun xs => pure (E := RErr) (x :: xs)
    rw [List.map_cons, List.sum_cons, Nat.mul_add]
    exact this

mutual
theorem openArchive (o : Obj) : ∀ D, Costs (6 * resourceCount D) (Flatdata.openArchive file p e o D)
  | .mk name schema rs subs => by
    unfold Flatdata.openArchive resourceCount
    rw [Nat.mul_add, Nat.mul_add, Nat.add_assoc]
    exact (storageRead p e _ _ _).bind fun _ => (openResources p e o _).bind fun _ => (openSubs o subs).bind (n := 0) fun _ => pure _

theorem openSubs (o : Obj) : ∀ subs, Costs (6 * subsCount subs) (Flatdata.openSubs file p e o subs)
  | .nil => by
    unfold Flatdata.openSubs
    exact (pure _).mono (Nat.zero_le _)
  | .cons name opt D rest => by
    unfold Flatdata.openSubs subsCount
    rw [Nat.mul_add]
    have h : ∀ d, Costs 0 (file.subdir o d) := fun d w => Nat.le_refl _
    exact (((h name).mapErr _).bind fun o' => (checkRes _ (openArchive o' D)).bind fun _ => (openSubs o rest).bind (n := 0) fun _ => pure _).mono
      (by omega)
end

omit [DiffLib] in
/-- `flush` is one call. -/
theorem flush (v : ExtVec file) : Costs 1 (v.flush p) := by
  have hw : ∀ s b, Costs 1 (FileSt.writeAll s b) := fun s b => syscall (fun _ => rfl) fun _ _ => rfl
  unfold ExtVec.flush
  refine ((lift _).bind fun n => (lift _).bind fun d => Costs.bind (m := 1) (n := 0) ?_ fun h => pure _).mono (by omega)
  unfold Handle.write
  cases v.handle.stream with
  | none => exact (fail _).mono (Nat.zero_le _)
  | some s => exact (hw s d).bind (n := 0) fun _ => (lift _).bind (n := 0) fun _ => pure _

end Costs
end

section
variable {p : Profile} {S : StructDef} {w w1 w2 : FileW} {v v1 v2 : ExtVec file} {n pos : Nat}

/-- Flushing when the buffer is full: either nothing, or one call that takes more than the limit out of the buffer. -/
theorem flushIfFull_calls (h : v1.flushIfFull p w1 = (.ok v2, w2)) :
    (v1.data.length ≤ bufferLimit ∧ v2 = v1 ∧ w2 = w1) ∨
      (bufferLimit < v1.data.length ∧ v2.data.length = 8 ∧ w2.fs.tick ≤ w1.fs.tick + 1) := by
  unfold ExtVec.flushIfFull at h
  by_cases hb : v1.data.length > bufferLimit
  · rw [if_pos hb] at h
    refine .inr ⟨hb, ?_, ?_⟩
    · unfold ExtVec.flush at h
      obtain ⟨_, _, _, h⟩ := Act.bind_eq_ok h
      obtain ⟨_, _, _, h⟩ := Act.bind_eq_ok h
      obtain ⟨_, _, _, h⟩ := Act.bind_eq_ok h
      cases h
      exact List.length_replicate
    · have := Costs.flush p v1 w1
      rw [h] at this
      exact this
  · rw [if_neg hb] at h
    cases h
    exact .inl ⟨by omega, rfl, rfl⟩

theorem grow_calls (h : v1.grow p S.size w1 = (.ok (v2, pos), w2)) :
    (v1.data.length ≤ bufferLimit ∧ v2.data.length ≤ v1.data.length + S.size ∧ w2.fs.tick = w1.fs.tick) ∨
      (bufferLimit < v1.data.length ∧ v2.data.length ≤ 8 + S.size ∧ w2.fs.tick ≤ w1.fs.tick + 1) := by
  unfold ExtVec.grow at h
  obtain ⟨va, wa, ha, k1⟩ := Act.bind_eq_ok h
  obtain ⟨m, wb, hm, k2⟩ := Act.bind_eq_ok k1
  obtain ⟨_, wc, x3, k3⟩ := Act.bind_eq_ok k2
  obtain ⟨_, wd, x4, k4⟩ := Act.bind_eq_ok k3
  obtain ⟨_, we, x5, k5⟩ := Act.bind_eq_ok k4
  obtain ⟨_, wf, x6, k6⟩ := Act.bind_eq_ok k5
  have e2 := (Act.lift_eq_ok hm).2
  have hm := (Act.lift_eq_ok hm).1
  have e3 := (Act.lift_eq_ok x3).2
  have e4 := (Act.lift_eq_ok x4).2
  have e5 := (Act.lift_eq_ok x5).2
  have e6 := (Act.lift_eq_ok x6).2
  have hw : w2 = wa := by
    have : wf = w2 := congrArg Prod.snd k6
    rw [← this, e6, e5, e4, e3, e2]
  have hv : v2.data = resize0 va.data m := by
    cases k6
    rfl
  have hl : (resize0 va.data m).length = m := by
    unfold resize0
    rw [List.length_append, List.length_take, List.length_replicate]
    omega
  have hm' : m ≤ va.data.length + S.size := by
    unfold uadd at hm
    split at hm
    · cases hm; exact Nat.le_refl _
    · cases p with
      | debug => cases hm
      | release => cases hm; exact Nat.mod_le _ _
  rw [hw, hv, hl]
  rcases flushIfFull_calls ha with ⟨h1, rfl, rfl⟩ | ⟨h1, h2, h3⟩
  · exact .inl ⟨h1, hm', rfl⟩
  · exact .inr ⟨h1, by rw [← h2]; exact hm', h3⟩

theorem appends_calls (g : Appends p S w v n w1 v1) (hv : v.data.length = 8) :
    (bufferLimit - 7) * (w1.fs.tick - w.fs.tick) + v1.data.length ≤ n * S.size + 8 ∧
      (bufferLimit - 7) * (w1.fs.tick - w.fs.tick) ≤ n * S.size := by
  have hlim : bufferLimit = 33554432 := by decide
  induction g with
  | start => rw [Nat.sub_self, hv, Nat.mul_zero]; exact ⟨by omega, Nat.zero_le _⟩
  | @grow n w1 v1 v2 pos w2 g h d hd ih =>
    dsimp only
    rw [hd, Nat.add_mul, Nat.one_mul]
    rcases grow_calls h with ⟨h1, h2, h3⟩ | ⟨h1, h2, h3⟩
    · rw [h3]; omega
    · have h4 : w2.fs.tick - w.fs.tick ≤ (w1.fs.tick - w.fs.tick) + 1 := by omega
      have h5 := Nat.mul_le_mul_left (bufferLimit - 7) h4
      rw [Nat.mul_add, Nat.mul_one] at h5
      omega

end

end Flatdata
