import Verif.Proofs.Room
import Verif.Props.ExtVectors
import Verif.Props.MultiVectors
/-!
# Building programs succeed where there is room
-/
namespace Flatdata
open Spec

variable {k : Kind} {p : Profile} {e : Endian} {o : k.backend.Obj}

/-! ## growing -/

theorem grow_fold {S : StructDef} {name schema : String} {w0 w : k.backend.W} {v : ExtVec k.backend} (hs : 0 < S.size)
    (hu : k.Unused w0 o name) (hn : k.noFault w0) (hc : createExternalVector p e o name schema w0 = (.ok v, w)) :
    ∀ {es pre : List (List HandleOp)} {xs : List Bytes} {va wa}, Grows k p e S o name w v pre wa va → Elements p e S es xs →
    (pre.length + es.length) * S.size + 8 < 2 ^ 63 → ∃ v1 w1, es.foldlM (growOne k.backend p e S) va wa = (.ok v1, w1)
  | [], _, _, va, wa, _, _, _ => ⟨va, wa, rfl⟩
  | ops :: es, pre, [], va, wa, g, hx, hb => hx.elim
  | ops :: es, pre, x :: xs, va, wa, g, hx, hb => by
    have hb1 : (pre.length + 1) * S.size + 8 < 2 ^ 63 := by
      have : (pre.length + 1) * S.size ≤ (pre.length + (ops :: es).length) * S.size :=
        Nat.mul_le_mul_right _ (by simp)
      omega
    obtain ⟨i, u, n⟩ := created_inv S.size hu hc
    obtain ⟨pr, buf, c, i1, el, u1, nf, _⟩ := grows_inv i u hs g (by rw [Nat.add_mul] at hb1; omega)
    rcases i1.grow (k.loc_schema_ne o name) p hs (by rw [← el.length_eq]; exact hb1) with
      ⟨v2, pos, w2, pr', buf', c', h, i2, _, hp, _⟩ | ⟨_, _, _, _, _, _, h⟩
    · obtain ⟨d, hd, _⟩ := Rep.writeAt (S := S) i2.rep (i := buf'.length) (x := zeros S.size) (by simp) hx.1
      rw [← hp] at hd
      have e1 : growOne k.backend p e S va ops wa = (.ok { v2 with data := d }, w2) := by
        unfold growOne
        rw [Act.bind_ok h]
        change (Act.lift (Vector.writeAt p e S v2.data pos ops) >>= _) w2 = _
        rw [hd]; rfl
      rw [List.foldlM_cons, Act.bind_ok e1]
      refine grow_fold hs hu hn hc (pre := pre ++ [ops]) (.grow g h hd) hx.2 ?_
      rw [List.length_append, List.length_singleton]
      rw [List.length_cons, Nat.add_comm es.length 1, ← Nat.add_assoc] at hb
      exact hb
    · exact absurd ((k.noFault_iff _).mp (nf (n hn)).1) h

theorem MvInv.add_ok {L : Laws k.backend} {name schema : String} {V : Variadic} {w : k.backend.W} {v : MultiVec k.backend}
    {preI bufI : List Bytes} {cI pre body c : Bytes} (i : MvInv L o name schema V w v preI bufI cI pre body c) {a : Add} {x : Bytes}
    (hx : runHandle p e a.struct a.ops (zeros a.struct.size) = .ok x) (hb : body.length + 1 + a.struct.size + 8 < 2 ^ 63) :
    ∃ d pos d', MultiVec.builderAdd p a.type a.struct.size v.data = .ok (d, pos) ∧ Vector.writeAt p e a.struct d pos a.ops = .ok d' := by
  refine ⟨_, _, body ++ [a.type] ++ (x ++ zeros 8), i.builderAdd p a.type a.struct.size hb, ?_⟩
  have hdrop : (body ++ a.type :: (zeros a.struct.size ++ zeros 8)).drop (body.length + 1) = zeros a.struct.size ++ zeros 8 := by
    rw [← List.drop_drop, List.drop_left]; rfl
  have htake : (body ++ a.type :: (zeros a.struct.size ++ zeros 8)).take (body.length + 1) = body ++ [a.type] := by
    rw [List.take_append]; simp [List.take_of_length_le]
  unfold Vector.writeAt
  rw [hdrop, htake, runHandle_local a.ops _ (by simp [zeros]), hx]
  rfl

section
variable {V : Variadic} {name schema : String} {w0 w : k.backend.W} {v : MultiVec k.backend}

theorem add_fold (ok : IndexOK V) (hu : k.MUnused w0 o name) (hc : createMultiVector p e o name schema w0 = (.ok v, w))
    {its : List (List Add)} (hbI : (its.length + 2) * V.indexSize + 8 < 2 ^ 63) :
    ∀ {as pre : List Add} {xs : List (BitVec 8 × Bytes)} {va wa}, (∀ a ∈ as, (a.type, a.struct) ∈ V.types) →
    MGrows k p e V o name w v (its ++ [pre]) wa va → Contents p e as xs → dataSize (its ++ [pre ++ as]) + 8 < 2 ^ 63 →
    ∃ v1 w1, as.foldlM (addOne k.backend p e) va wa = (.ok v1, w1)
  | [], _, _, va, wa, _, _, _, _ => ⟨va, wa, rfl⟩
  | a :: as, pre, [], va, wa, _, _, hx, _ => hx.elim
  | a :: as, pre, x :: xs, va, wa, hm, g, hx, hb => by
    have hb' := hb
    rw [show pre ++ a :: as = pre ++ [a] ++ as by simp] at hb'
    rw [dataSize_append, dataSize_singleton, itemSize_append, itemSize_append, itemSize_singleton] at hb'
    obtain ⟨i, u, _⟩ := mcreated_inv V hu hc
    obtain ⟨preI, bufI, cI, pr, body, c, xss, s⟩ := mgrows_inv ok i u g (by rw [List.length_append]; exact hbI)
      (by rw [dataSize_append, dataSize_singleton]; omega)
    obtain ⟨l1, _⟩ := s.length
    rw [dataSize_append, dataSize_singleton] at l1
    obtain ⟨d, pos, d', h1, h2⟩ := s.inv.add_ok hx.2.1 (by omega)
    have e1 : addOne k.backend p e va a wa = (.ok { va with data := d' }, wa) := by
      unfold addOne
      rw [h1, Act.lift_bind]
      change (Act.lift (Vector.writeAt p e a.struct d pos a.ops) >>= _) wa = _
      rw [h2]; rfl
    rw [List.foldlM_cons, Act.bind_ok e1]
    refine add_fold ok hu hc hbI (pre := pre ++ [a]) (fun b hb => hm b (List.mem_cons_of_mem _ hb)) (.add g (hm a List.mem_cons_self) h1 h2)
      hx.2.2 ?_
    rw [List.append_assoc]; exact hb

theorem item_fold (ok : IndexOK V) (hu : k.MUnused w0 o name) (hn : k.noFault w0)
    (hc : createMultiVector p e o name schema w0 = (.ok v, w)) :
    ∀ {its pre : List (List Add)} {xss : List (List (BitVec 8 × Bytes))} {va wa}, (∀ as ∈ its, ∀ a ∈ as, (a.type, a.struct) ∈ V.types) →
    MGrows k p e V o name w v pre wa va → AllContents p e its xss → (pre.length + its.length + 1) * V.indexSize + 8 < 2 ^ 63 →
    dataSize (pre ++ its) + 8 < 2 ^ 63 → ∃ v1 w1, its.foldlM (growItem k.backend p e V) va wa = (.ok v1, w1)
  | [], _, _, va, wa, _, _, _, _, _ => ⟨va, wa, rfl⟩
  | as :: its, pre, [], va, wa, _, _, hx, _, _ => hx.elim
  | as :: its, pre, xs :: xss, va, wa, hm, g, hx, hbI, hb => by
    have hbI2 : (pre.length + 2) * V.indexSize + 8 < 2 ^ 63 := by
      have : (pre.length + 2) * V.indexSize ≤ (pre.length + (as :: its).length + 1) * V.indexSize :=
        Nat.mul_le_mul_right _ (by simp only [List.length_cons]; omega)
      omega
    have hbI1 : (pre.length + 1) * V.indexSize + 8 < 2 ^ 63 := by
      have : (pre.length + 1) * V.indexSize ≤ (pre.length + 2) * V.indexSize := Nat.mul_le_mul_right _ (by omega)
      omega
    have hb' := hb
    rw [show pre ++ as :: its = pre ++ [as] ++ its by simp, dataSize_append] at hb'
    have hb'' := hb'
    rw [dataSize_append] at hb''
    obtain ⟨v2, w2, h1⟩ := C26_grow_succeeds k p e V ok w0 w wa o name schema v va pre hu hn hc g hbI1 (by omega)
    have g2 : MGrows k p e V o name w v (pre ++ [[]]) w2 v2 := .grow g h1
    have hma := hm as List.mem_cons_self
    obtain ⟨v3, w3, h2⟩ := add_fold ok hu hc hbI2 (pre := []) hma g2 hx.1 (by rw [List.nil_append]; omega)
    have g3 := adds_of_fold (pre := []) hma g2 h2
    rw [List.nil_append] at g3
    have e1 : growItem k.backend p e V va as wa = (.ok v3, w3) := by
      unfold growItem
      rw [Act.bind_ok (FileSt.mapErr_ok h1)]
      exact h2
    rw [List.foldlM_cons, Act.bind_ok e1]
    refine item_fold ok hu hn hc (pre := pre ++ [as]) (fun bs hbs => hm bs (List.mem_cons_of_mem _ hbs)) g3 hx.2 ?_ ?_
    · rw [List.length_append, List.length_singleton]
      rw [List.length_cons, Nat.add_comm its.length 1, ← Nat.add_assoc] at hbI
      exact hbI
    · rw [List.append_assoc]; exact hb

end

/-! ## one resource -/

variable [DiffLib] {F G : Key → Prop}

theorem writeResource_succeeds (ap : ∀ f d, F f → G d → ¬ f <+: d) (hg : G (k.base o)) {r : ResDecl} {s : Source} {c : Payload} {w : k.backend.W}
    (hc : Gives p e r s c) (hm : k.mappable (strBytes r.schema)) (hR : Kind.Within k o (k.Room F G) w)
    (hf : ∀ n ∈ resFiles r, PlainName n ∧ F (k.base o ++ [n.toList])) (hu : ∀ q ∈ parts r, k.Unused w o q.1) :
    ∃ w', writeResource k.backend p e o r s w = (.ok (), w') ∧ Kind.Within k o (k.Room F G) w' := by
  have hi := gives_index hc
  have sp : ∀ n ∈ resFiles r, k.Spot F o (k.place o n) := fun n hn => Kind.spot_place (hf n hn).1 (hf n hn).2
  suffices ∃ w', writeResource k.backend p e o r s w = (.ok (), w') by
    obtain ⟨w', h⟩ := this
    have cl := Kind.closed_room (o := o) ap hg
    have := Kind.within_writeResource (p := p) (e := e) (s := s) hi sp w hR
    rw [h] at this
    exact ⟨w', h, this⟩
  have s1 := sp _ (name_mem_resFiles r).1
  have s2 := sp _ (name_mem_resFiles r).2
  have hn : k.Unused w o r.name := by
    refine hu (r.name, r.schema) ?_
    unfold parts; cases r.type <;> simp
  have nf : k.noFault w := hR.1.fine
  unfold writeResource
  cases s with
  | struct item =>
    cases c with
    | items xss => exact hc.elim
    | bytes b =>
      obtain ⟨S, ht, hl, hle, rfl⟩ := hc
      simp only [ht]
      obtain ⟨_, w', h, _⟩ := Kind.does_storageWrite (p := p) (e := e) (schema := r.schema) (d := item.take S.size) ap hg
        (by rw [List.length_take]; omega) s1 s2 w hR
      refine ⟨w', FileSt.mapErr_ok ?_⟩
      unfold setStruct
      rw [if_neg (by omega)]; exact h
  | data d =>
    cases c with
    | items xss => exact hc.elim
    | bytes b =>
      obtain ⟨ht, hl, rfl⟩ := hc
      obtain ⟨_, w', h, _⟩ := Kind.does_storageWrite (p := p) (e := e) (schema := r.schema) (d := b) ap hg (by omega) s1 s2 w hR
      rcases ht with ⟨S, ht⟩ | ht <;> simp only [ht] <;> exact ⟨w', FileSt.mapErr_ok h⟩
  | elements es =>
    cases c with
    | items xss => exact hc.elim
    | bytes b =>
      obtain ⟨S, xs, ht, hs, hx, hb, rfl⟩ := hc
      simp only [ht]
      obtain ⟨v, w1, h1, _⟩ := Kind.does_createExternalVector (p := p) (e := e) (schema := r.schema) ap hg s1 s2 w hR
      have st : Grows k p e S o r.name w1 v [] w1 v := .start
      obtain ⟨v1, w2, h2⟩ := grow_fold hs hn nf h1 st hx (by simpa using hb)
      have g := grows_of_fold st h2
      rw [List.nil_append] at g
      obtain ⟨_, xs', sl, w3, _, h3, _⟩ := C21_roundtrip k p e S hs w w1 w2 o r.name r.schema v v1 es hn nf hm h1 g hb
      refine ⟨w3, ?_⟩
      have h1' : startVector k.backend p e o r w = (.ok v, w1) := h1
      rw [Act.bind_ok (FileSt.mapErr_ok h1'), Act.bind_ok (FileSt.mapErr_ok h2), Act.bind_ok h3]; rfl
  | items its =>
    cases c with
    | bytes b => exact hc.elim
    | items xss =>
      obtain ⟨V, ht, ok, hx, hmem, hbI, hb, hbits⟩ := hc
      simp only [ht]
      obtain ⟨n3, n4⟩ := index_mem_resFiles hi ht
      have hun : k.MUnused w o r.name := ⟨hn, hu (r.name ++ "_index", "index(" ++ r.schema ++ ")") (by unfold parts; rw [ht]; simp)⟩
      obtain ⟨v, w1, h1, _⟩ := Kind.does_createMultiVector (p := p) (e := e) (schema := r.schema) ap hg s1 s2 (sp _ n3) (sp _ n4) w hR
      have st : MGrows k p e V o r.name w1 v [] w1 v := .start
      obtain ⟨v1, w2, h2⟩ := item_fold ok.index hun nf h1 hmem st hx (by simpa using hbI) (by simpa using hb)
      have g := mgrows_of_fold hmem st h2
      rw [List.nil_append] at g
      obtain ⟨_, si, sd, w3, _, _, _, h3, _⟩ := C26_roundtrip_partial k p e V ok w w1 w2 o r.name r.schema v v1 its hun nf hm h1 g hbI hb hbits
      refine ⟨w3, ?_⟩
      have h1' : startMulti k.backend p e o r w = (.ok v, w1) := h1
      rw [Act.bind_ok (FileSt.mapErr_ok h1'), Act.bind_ok (FileSt.mapErr_ok h2), Act.bind_ok h3]; rfl

/-! ## the files and directories of an archive -/

/-- The files of an archive in the directory `base`. -/
inductive FileKey : ArchiveDef → Key → Key → Prop
  | own {D base n} (h : n ∈ files D) : FileKey D base (base ++ [n.toList])
  | sub {name schema rs subs base x f} (h : x ∈ SubDefs.entries subs) (hf : FileKey x.2 (base ++ [x.1.toList]) f) :
      FileKey (.mk name schema rs subs) base f

/-- ... its directories. -/
inductive DirKey : ArchiveDef → Key → Key → Prop
  | here {D base} : DirKey D base base
  | sub {name schema rs subs base x d} (h : x ∈ SubDefs.entries subs) (hd : DirKey x.2 (base ++ [x.1.toList]) d) :
      DirKey (.mk name schema rs subs) base d

omit [DiffLib] in
theorem FileKey.under {D : ArchiveDef} {base f : Key} (h : FileKey D base f) : ∃ x t, f = base ++ x :: t := by
  induction h with
  | own => exact ⟨_, [], rfl⟩
  | sub _ _ ih =>
    obtain ⟨x, t, rfl⟩ := ih
    exact ⟨_, _, by rw [List.append_assoc]; rfl⟩

omit [DiffLib] in
theorem DirKey.under {D : ArchiveDef} {base d : Key} (h : DirKey D base d) : ∃ t, d = base ++ t := by
  induction h with
  | here => exact ⟨[], by simp⟩
  | sub _ _ ih =>
    obtain ⟨t, rfl⟩ := ih
    exact ⟨_, by rw [List.append_assoc]⟩

omit [DiffLib] in
/-- No file of an archive is one of its directories or a parent of one. -/
theorem FileKey.apart {D : ArchiveDef} {base f d : Key} (hs : Separate D) (hf : FileKey D base f) (hd : DirKey D base d) : ¬ f <+: d := by
  induction hf generalizing d with
  | @own D base n h =>
    rintro ⟨t, ht⟩
    cases hd with
    | here =>
      have := congrArg List.length ht
      simp at this
    | @sub name schema rs subs _ x _ hx hd =>
      obtain ⟨u, rfl⟩ := hd.under
      rw [List.append_assoc, List.append_assoc] at ht
      have := List.append_cancel_left ht
      simp only [List.singleton_append, List.cons.injEq] at this
      unfold Separate at hs
      exact (List.nodup_append.mp hs.2.1).2.2 n h x.1 (List.mem_map.mpr ⟨x, hx, rfl⟩) (String.toList_inj.mp this.1)
  | @sub name schema rs subs base x f h hf ih =>
    rintro hp
    unfold Separate at hs
    cases hd with
    | here =>
      obtain ⟨y, u, rfl⟩ := hf.under
      have := hp.length_le
      simp at this
      omega
    | @sub _ _ _ _ _ y _ hy hd =>
      have hxy : x.1 = y.1 := by
        obtain ⟨a, u, rfl⟩ := hf.under
        obtain ⟨v, rfl⟩ := hd.under
        obtain ⟨t, ht⟩ := hp
        simp only [List.append_assoc] at ht
        have := List.append_cancel_left ht
        simp only [List.cons_append, List.cons.injEq] at this
        exact String.toList_inj.mp this.1
      have : x = y := List.inj_on_of_nodup_map (List.nodup_append.mp hs.2.1).2.1 h hy hxy
      subst this
      exact ih (separate_entry hs.2.2 x h) hd hp

omit [DiffLib] in
theorem prepares_gives {prog : Prog} (hn : (prog.writes.map fun x => x.1.name).Nodup) : ∀ {rs : List ResDecl} {cs : List (Option Payload)},
    ResPrepare p e prog rs cs → ∀ x ∈ prog.writes, x.1 ∈ rs → ∃ c, Gives p e x.1 x.2 c
  | [], [], _, x, _, hm => by cases hm
  | r :: rs, none :: cs, h, x, hx, hm => by
    rcases List.mem_cons.mp hm with h1 | h1
    · obtain ⟨a, b⟩ := x
      cases h1
      exact absurd hx (h.1.2 _)
    · exact prepares_gives hn h.2 x hx h1
  | r :: rs, some c :: cs, h, x, hx, hm => by
    rcases List.mem_cons.mp hm with h1 | h1
    · obtain ⟨s, hm, hg⟩ := h.1
      have : x = (r, s) := List.inj_on_of_nodup_map hn hx hm (by rw [h1])
      rw [this]; exact ⟨c, hg⟩
    · exact prepares_gives hn h.2 x hx h1
  | [], _ :: _, h, _, _, _ => h.elim
  | _ :: _, [], h, _, _, _ => h.elim

omit [DiffLib] in
theorem readable_entry : ∀ {subs : SubDefs}, SubSchemasReadable k subs → ∀ x ∈ SubDefs.entries subs, SchemasReadable k x.2
  | .nil, _, x, hx => by simp [SubDefs.entries] at hx
  | .cons name optional D rest, h, x, hx => by
    unfold SubSchemasReadable at h
    simp only [SubDefs.entries, List.mem_cons] at hx
    rcases hx with rfl | hx
    · exact h.1
    · exact readable_entry h.2 x hx

/-- The files and directories of the archive are expected. -/
def Covers (F G : Key → Prop) (D : ArchiveDef) (base : Key) : Prop := (∀ f, FileKey D base f → F f) ∧ ∀ d, DirKey D base d → G d

/-- What the calls on one builder need. -/
structure Fit (k : Kind) (p : Profile) (e : Endian) (F G : Key → Prop) (o : k.backend.Obj) (prog : Prog) : Prop where
  gives : ∀ x ∈ prog.writes, ∃ c, Gives p e x.1 x.2 c
  schema : ∀ x ∈ prog.writes, k.mappable (strBytes x.1.schema)
  spots : ∀ x ∈ prog.writes, ∀ n ∈ resFiles x.1, F (k.base o ++ [n.toList])
  subs : ∀ x ∈ prog.builds, SchemasReadable k x.2.1 ∧ Covers F G x.2.1 (k.base o ++ [x.1.toList])

omit [DiffLib] in
theorem Spec.Prepares.fit {D : ArchiveDef} {prog : Prog} {c : Content} (hc : Prepares p e D prog c) (hm : SchemasReadable k D)
    (hv : Covers F G D (k.base o)) : Fit k p e F G o prog := by
  obtain ⟨name, schema, rs, subs⟩ := D
  obtain ⟨cs, ts⟩ := c
  unfold Prepares at hc
  unfold SchemasReadable at hm
  obtain ⟨h1, h2, h3, h4, h5, h6⟩ := hc
  refine ⟨fun x hx => prepares_gives h1 h5 x hx (h3 x hx), fun x hx => hm.2.1 _ (h3 x hx), fun x hx n hn => hv.1 _ (.own ?_),
    fun x hx => ⟨readable_entry hm.2.2 _ (h4 x hx), fun f hf => hv.1 f (.sub (h4 x hx) hf), fun d hd => hv.2 d (.sub (h4 x hx) hd)⟩⟩
  rw [files_eq]
  exact List.mem_cons_of_mem _ (List.mem_cons_of_mem _ (List.mem_flatMap.mpr ⟨x.1, h3 x hx, hn⟩))

omit [DiffLib] in
theorem builderNew_succeeds (ap : ∀ f d, F f → G d → ¬ f <+: d) {D : ArchiveDef} {w : k.backend.W} (hs : Separate D)
    (hv : Covers F G D (k.base o)) (hR : Kind.Within k o (k.Room F G) w) (va : k.Vacant D w o) :
    ∃ w', builderNew k.backend p e o D w = (.ok o, w') ∧ Kind.Within k o (k.Room F G) w' := by
  obtain ⟨name, schema, rs, subs⟩ := D
  have m1 : name ++ ".archive" ∈ files (.mk name schema rs subs) := List.mem_cons_self
  have m2 : name ++ ".archive" ++ ".schema" ∈ files (.mk name schema rs subs) := List.mem_cons_of_mem _ List.mem_cons_self
  unfold Separate at hs
  have p1 := hs.1 _ (List.mem_append_left _ m1)
  refine Kind.does_builderNew ap (hv.2 _ .here) hR p1 (hv.1 _ (.own m1)) (hs.1 _ (List.mem_append_left _ m2)) (hv.1 _ (.own m2)) ?_
    (va.unread _ m1)
  exact va.noFiles _ m1

/-- A program succeeds where there is room. -/
theorem run_succeeds (ap : ∀ f d, F f → G d → ¬ f <+: d) : ∀ (prog : Prog) {o : k.backend.Obj} {w : k.backend.W}, Level p e prog →
    Fit k p e F G o prog → k.Reachable w → G (k.base o) → Kind.Within k o (k.Room F G) w → Ready k w o prog →
    ∃ w', prog.run k.backend p e o w = (.ok (), w') ∧ k.Room F G w'
  | .done, o, w, _, _, _, _, hR, _ => ⟨w, rfl, hR.1⟩
  | .res r s rest, o, w, lv, ft, hr, hg, hR, rd => by
    obtain ⟨c, hc⟩ := ft.gives _ List.mem_cons_self
    obtain ⟨w1, h1, R1⟩ := writeResource_succeeds ap hg hc (ft.schema _ List.mem_cons_self) hR
      (fun n hn => ⟨lv.plain _ List.mem_cons_self n hn, ft.spots _ List.mem_cons_self n hn⟩) (rd.unused _ List.mem_cons_self)
    have s1 := lv.first_res hr hR.2 h1
    obtain ⟨w2, h2, R2⟩ := run_succeeds ap rest lv.res ⟨fun x hx => ft.gives x (List.mem_cons_of_mem _ hx),
      fun x hx => ft.schema x (List.mem_cons_of_mem _ hx), fun x hx => ft.spots x (List.mem_cons_of_mem _ hx), ft.subs⟩
      (hr.steps s1.steps) hg R1 (Ready.after ⟨fun x hx => rd.unused x (List.mem_cons_of_mem _ hx), rd.vacant⟩ s1)
    refine ⟨w2, ?_, R2⟩
    unfold Prog.run
    rw [Act.bind_ok h1]; exact h2
  | .sub name D inner rest, o, w, lv, ft, hr, hg, hR, rd => by
    obtain ⟨hsD, c0, hc0⟩ := lv.inner _ List.mem_cons_self
    obtain ⟨hm, hv⟩ := ft.subs _ List.mem_cons_self
    have pln : PlainName name := lv.plainSub _ List.mem_cons_self
    obtain ⟨lvi, hsig⟩ := hc0.level hsD
    obtain ⟨o', wa, e1, g1, al, hdir, hcache⟩ := subdir_spec (o := o) name hr.unborn
    have ra := hr.steps g1.steps
    have va : k.Vacant D wa o' := by
      refine vacant_of_empty hsD (fun ds n hd hn => ?_) fun n => (k.unread_iff _ _ _).mpr (hcache n)
      rw [hdir]
      exact rd.vacant _ List.mem_cons_self ds n hd hn
    have hb := Kind.base_subdir pln e1
    rw [← hb] at hv
    obtain ⟨wb, h6, Rb⟩ := builderNew_succeeds (p := p) (e := e) ap hsD hv ⟨hR.1.subdir e1, al⟩ va
    have sb : k.Steps wa wb := (aside_builderNew (P := fun _ => False) h6 al id id).steps
    have rb := ra.steps sb
    obtain ⟨wc, h3, Rc⟩ := run_succeeds ap inner lvi (hc0.fit hm hv) rb (hv.2 _ .here) Rb (va.ready hsD hc0 al h6)
    have h1 : builderSub k.backend p e o name D w = (.ok o', wb) := by
      unfold builderSub
      rw [Act.bind_ok (FileSt.mapErr_ok e1)]; exact h6
    have s1 := lv.first_sub hr hR.2 h1 h3
    obtain ⟨w2, h2, R2⟩ := run_succeeds ap rest lv.sub ⟨ft.gives, ft.schema, ft.spots, fun x hx => ft.subs x (List.mem_cons_of_mem _ hx)⟩
      (hr.steps s1.steps) hg ⟨Rc, s1.steps.alive hR.2⟩ (Ready.after ⟨rd.unused, fun x hx => rd.vacant x (List.mem_cons_of_mem _ hx)⟩ s1)
    refine ⟨w2, ?_, R2⟩
    unfold Prog.run
    rw [Act.bind_ok h1, Act.bind_ok h3]; exact h2

omit [DiffLib] in
theorem Spec.Kind.Clear.room {D : ArchiveDef} {w : k.backend.W} (h : k.Clear D w o) (hn : k.noFault w) :
    k.Room (FileKey D (k.base o)) (DirKey D (k.base o)) w := by
  cases k
  · trivial
  · obtain ⟨h1, h2, h3⟩ := h
    refine ⟨fun f hf => ?_, fun d hd i => ?_, hn⟩
    · cases hf with
      | own hm => exact h2 _ hm
      | @sub name schema rs subs _ x _ hx hf =>
        obtain ⟨y, t, rfl⟩ := hf.under
        rw [List.append_assoc]
        exact (h3 x hx t).2 y
    · have low : ∀ t, List.take i (Kind.base .disk o ++ t) = List.take i (Kind.base .disk o) ∨
          ∃ j, List.take i (Kind.base .disk o ++ t) = Kind.base .disk o ++ List.take (j + 1) t := by
        intro t
        rw [List.take_append]
        by_cases hi : i ≤ List.length (Kind.base .disk o)
        · rw [Nat.sub_eq_zero_of_le hi]
          exact .inl (by simp)
        · refine .inr ⟨i - List.length (Kind.base .disk o) - 1, ?_⟩
          rw [List.take_of_length_le (by omega)]
          congr 2
          omega
      cases hd with
      | here => exact h1 i
      | @sub name schema rs subs _ x _ hx hd =>
        obtain ⟨t, rfl⟩ := hd.under
        rw [List.append_assoc]
        rcases low ([x.1.toList] ++ t) with hl | ⟨j, hl⟩
        · rw [hl]; exact h1 i
        · rw [hl]
          exact (h3 x hx _).1

theorem buildArchive_succeeds {D : ArchiveDef} {prog : Prog} {c : Content} {w : k.backend.W} (hs : Separate D) (hm : SchemasReadable k D)
    (hc : Prepares p e D prog c) (hr : k.Reachable w) (ho : k.alive w o) (hn : k.noFault w) (hv : k.Vacant D w o) (hcl : k.Clear D w o) :
    ∃ w', buildArchive k.backend p e o D prog w = (.ok (), w') := by
  have ap : ∀ f d, FileKey D (k.base o) f → DirKey D (k.base o) d → ¬ f <+: d := fun f d hf hd => hf.apart hs hd
  have cv : Covers (FileKey D (k.base o)) (DirKey D (k.base o)) D (k.base o) := ⟨fun _ h => h, fun _ h => h⟩
  obtain ⟨w1, h1, R1⟩ := builderNew_succeeds (p := p) (e := e) ap hs cv ⟨hcl.room hn, ho⟩ hv
  have st1 : k.Steps w w1 := (aside_builderNew (P := fun _ => False) h1 ho id id).steps
  obtain ⟨lv, _⟩ := hc.level hs
  obtain ⟨w2, h2, _⟩ := run_succeeds ap prog lv (hc.fit hm cv) (hr.steps st1) (cv.2 _ .here) R1 (hv.ready hs hc ho h1)
  refine ⟨w2, ?_⟩
  unfold buildArchive
  rw [Act.bind_ok h1]; exact h2

end Flatdata
