import Verif.Proofs.MultiVector
import Verif.Proofs.Grows
/-!
# Histories of multivectors
-/
namespace Flatdata
open Spec

/-! ## sizes and contents -/

theorem dataSize_append (its its' : List (List Add)) : dataSize (its ++ its') = dataSize its + dataSize its' := by
  simp [dataSize]

theorem itemSize_append (as as' : List Add) : itemSize (as ++ as') = itemSize as + itemSize as' := by
  simp [itemSize]

theorem dataSize_singleton (as : List Add) : dataSize [as] = itemSize as := by simp [dataSize]

theorem itemSize_singleton (a : Add) : itemSize [a] = 1 + a.struct.size := by simp [itemSize]

theorem starts_snoc (as : List Add) : ∀ (a : Nat) (its : List (List Add)), starts a (its ++ [as]) = starts a its ++ [a + dataSize its]
  | a, [] => by simp [starts, dataSize]
  | a, x :: its => by
    simp only [List.cons_append, starts, starts_snoc as]
    simp [dataSize, Nat.add_assoc]

theorem length_starts : ∀ (a : Nat) (its : List (List Add)), (starts a its).length = its.length
  | _, [] => rfl
  | a, x :: its => by simp [starts, length_starts]

theorem encodeItem_append : ∀ (xs ys : List (BitVec 8 × Bytes)), encodeItem (xs ++ ys) = encodeItem xs ++ encodeItem ys
  | [], _ => rfl
  | x :: xs, ys => by simp [encodeItem, encodeItem_append xs ys]

theorem encodeItems_append (xss yss : List (List (BitVec 8 × Bytes))) :
    encodeItems (xss ++ yss) = encodeItems xss ++ encodeItems yss := by simp [encodeItems]

theorem encodeItems_singleton (xs : List (BitVec 8 × Bytes)) : encodeItems [xs] = encodeItem xs := by simp [encodeItems]

variable {p : Profile} {e : Endian}

theorem Spec.Contents.length : ∀ {as : List Add} {xs : List (BitVec 8 × Bytes)}, Contents p e as xs →
    (encodeItem xs).length = itemSize as
  | [], [], _ => rfl
  | a :: as, x :: xs, h => by
    have h1 := runHandle_length _ _ _ h.2.1
    have h2 := Contents.length h.2.2
    simp only [encodeItem, itemSize, List.map_cons, List.sum_cons] at h2 ⊢
    simp only [List.cons_append, List.length_cons, List.length_append, h1, h2, zeros, List.length_replicate]
    omega
  | [], _ :: _, h => h.elim
  | _ :: _, [], h => h.elim

theorem Spec.Contents.snoc {a : Add} {x : Bytes} (hx : runHandle p e a.struct a.ops (zeros a.struct.size) = .ok x) :
    ∀ {as : List Add} {xs : List (BitVec 8 × Bytes)}, Contents p e as xs → Contents p e (as ++ [a]) (xs ++ [(a.type, x)])
  | [], [], _ => ⟨rfl, hx, trivial⟩
  | _ :: _, _ :: _, h => ⟨h.1, h.2.1, Contents.snoc hx h.2.2⟩
  | [], _ :: _, h => h.elim
  | _ :: _, [], h => h.elim

theorem Spec.Contents.unique : ∀ {as : List Add} {xs ys : List (BitVec 8 × Bytes)}, Contents p e as xs → Contents p e as ys → xs = ys
  | [], [], [], _, _ => rfl
  | _ :: _, x :: _, y :: _, h, h' => by
    have h1 := h.1.trans h'.1.symm
    have h2 := h.2.1.symm.trans h'.2.1
    cases x; cases y; cases h1; cases h2
    rw [Contents.unique h.2.2 h'.2.2]
  | [], _ :: _, _, h, _ => h.elim
  | _ :: _, [], _, h, _ => h.elim
  | [], [], _ :: _, _, h => h.elim
  | _ :: _, _ :: _, [], _, h => h.elim

theorem Spec.AllContents.length : ∀ {its : List (List Add)} {xss : List (List (BitVec 8 × Bytes))}, AllContents p e its xss →
    (encodeItems xss).length = dataSize its ∧ xss.length = its.length
  | [], [], _ => ⟨rfl, rfl⟩
  | as :: its, xs :: xss, h => by
    have h1 := h.1.length
    obtain ⟨h2, h3⟩ := AllContents.length h.2
    rw [show xs :: xss = [xs] ++ xss from rfl, show as :: its = [as] ++ its from rfl, encodeItems_append, dataSize_append,
      encodeItems_singleton, dataSize_singleton]
    simp [h1, h2, h3]
  | [], _ :: _, h => h.elim
  | _ :: _, [], h => h.elim

theorem Spec.AllContents.snoc {as : List Add} {xs : List (BitVec 8 × Bytes)} (hx : Contents p e as xs) :
    ∀ {its : List (List Add)} {xss : List (List (BitVec 8 × Bytes))}, AllContents p e its xss → AllContents p e (its ++ [as]) (xss ++ [xs])
  | [], [], _ => ⟨hx, trivial⟩
  | _ :: _, _ :: _, h => ⟨h.1, AllContents.snoc hx h.2⟩
  | [], _ :: _, h => h.elim
  | _ :: _, [], h => h.elim

theorem Spec.AllContents.of_snoc {as : List Add} : ∀ {its : List (List Add)} {yss : List (List (BitVec 8 × Bytes))},
    AllContents p e (its ++ [as]) yss → ∃ xss xs, yss = xss ++ [xs] ∧ AllContents p e its xss ∧ Contents p e as xs
  | [], [], h => h.elim
  | [], [xs], h => ⟨[], xs, rfl, trivial, h.1⟩
  | [], _ :: _ :: _, h => h.2.elim
  | _ :: _, [], h => h.elim
  | _ :: _, ys :: _, h => by
    obtain ⟨xss, xs, h1, h2, h3⟩ := AllContents.of_snoc h.2
    exact ⟨ys :: xss, xs, by rw [h1]; rfl, ⟨h.1, h2⟩, h3⟩

theorem Spec.AllContents.unique : ∀ {its : List (List Add)} {xss yss : List (List (BitVec 8 × Bytes))},
    AllContents p e its xss → AllContents p e its yss → xss = yss
  | [], [], [], _, _ => rfl
  | _ :: _, _ :: _, _ :: _, h, h' => by rw [h.1.unique h'.1, AllContents.unique h.2 h'.2]
  | [], _ :: _, _, h, _ => h.elim
  | _ :: _, [], _, h, _ => h.elim
  | [], [], _ :: _, _, h => h.elim
  | _ :: _, _ :: _, [], _, h => h.elim

/-- Numbers in an index. -/
theorem entries_values {V : Variadic} (ok : IndexOK V) : ∀ {ns : List Nat} {xs : List Bytes},
    Elements p e V.indexStruct (ns.map (indexOps V)) xs → (∀ n ∈ ns, n < 2 ^ V.indexBits) →
    xs.map (fun x => fieldRaw x 0 V.indexBits) = ns
  | [], [], _, _ => rfl
  | n :: ns, x :: xs, h, hb => by
    simp only [List.map_cons]
    rw [indexEntry_value ok h.1 (hb n (by simp)), entries_values ok h.2 fun m hm => hb m (by simp [hm])]
  | [], _ :: _, h, _ => h.elim
  | _ :: _, [], h, _ => h.elim

/-! ## places -/

namespace Spec.Kind
variable {k : Kind} {o : k.backend.Obj} {name : String}

theorem apart (k : Kind) (o : k.backend.Obj) (name : String) : Apart k.laws o name := by
  have h (s t : String) (hs : Suffix s.toList) (ht : Suffix t.toList) (h : s ≠ t) := k.loc_suffix_ne o name s t hs ht h
  have e : Storage.schemaName (Storage.indexName name) = name ++ "_index.schema" := by
    unfold Storage.schemaName Storage.indexName; rw [String.append_assoc]; rfl
  have n : name = name ++ "" := by simp
  have i : Storage.indexName name = name ++ "_index" := rfl
  have s : Storage.schemaName name = name ++ ".schema" := rfl
  refine ⟨k.loc_schema_ne o name, k.loc_schema_ne o _, ?_, ?_, ?_, ?_⟩
  · intro he; rw [i] at he
    exact h "_index" "" (by constructor <;> decide) (by constructor <;> decide) (by decide) (by simpa using he)
  · rw [i, s]; exact h _ _ (by constructor <;> decide) (by constructor <;> decide) (by decide)
  · intro he; rw [e] at he
    exact h "_index.schema" "" (by constructor <;> decide) (by constructor <;> decide) (by decide) (by simpa using he)
  · rw [e, s]; exact h _ _ (by constructor <;> decide) (by constructor <;> decide) (by decide)

theorem loc_of_mown {l : k.laws.Loc} (h : MOwnLoc k.laws o name l) : ∃ n, l = k.laws.loc o n ∧ k.MOwn o name (k.place o n) := by
  rcases h with (h | h) | (h | h)
  · exact ⟨_, h, .inl (.inl rfl)⟩
  · exact ⟨_, h, .inl (.inr rfl)⟩
  · exact ⟨_, h, .inr (.inl rfl)⟩
  · exact ⟨_, h, .inr (.inr rfl)⟩

theorem away_mkeeps {w w' : k.backend.W} (h : StepAway k (k.MOwn o name) w w') :
    (∀ l, MOwnLoc k.laws o name l → Keeps k.laws w w' l) ∧ (k.noFault w → k.noFault w') := by
  refine ⟨fun l hl => ?_, h.keeps.2⟩
  obtain ⟨n, rfl, hn⟩ := loc_of_mown hl
  exact h.keeps.1 o n hn

theorem StepsAway.mkeeps {w w' : k.backend.W} (h : StepsAway k (k.MOwn o name) w w') :
    (∀ l, MOwnLoc k.laws o name l → Keeps k.laws w w' l) ∧ (k.noFault w → k.noFault w') := by
  refine ⟨fun l hl => ?_, h.keeps.2⟩
  obtain ⟨n, rfl, hn⟩ := loc_of_mown hl
  exact h.keeps.1 o n hn

end Spec.Kind

/-- Neither of the two resources of a multivector has been read. -/
structure MUnseen {B : Backend} (L : Laws B) (o : B.Obj) (name : String) (w : B.W) : Prop where
  data : Unseen L o name w
  index : Unseen L o (Storage.indexName name) w

theorem MUnseen.only {B : Backend} {L : Laws B} {o : B.Obj} {name : String} {w w' : B.W} {P : L.Loc → Prop}
    (h : MUnseen L o name w) (k : Only L w w' P) : MUnseen L o name w' := ⟨h.data.only k, h.index.only k⟩

theorem MUnseen.keeps {B : Backend} {L : Laws B} {o : B.Obj} {name : String} {w w' : B.W}
    (h : MUnseen L o name w) (k : ∀ l, MOwnLoc L o name l → Keeps L w w' l) : MUnseen L o name w' :=
  ⟨h.data.keeps (k _ (.inl (.inl rfl))) (k _ (.inl (.inr rfl))), h.index.keeps (k _ (.inr (.inl rfl))) (k _ (.inr (.inr rfl)))⟩

/-- What is known about an open multivector with the items `its`. -/
structure MvState (k : Kind) (p : Profile) (e : Endian) (V : Variadic) (o : k.backend.Obj) (name schema : String)
    (w : k.backend.W) (its : List (List Add)) (w1 : k.backend.W) (v1 : MultiVec k.backend) (preI bufI : List Bytes)
    (cI pre body c : Bytes) (xss : List (List (BitVec 8 × Bytes))) : Prop where
  inv : MvInv k.laws o name schema V w1 v1 preI bufI cI pre body c
  unseen : MUnseen k.laws o name w1
  contents : AllContents p e its xss
  data : pre ++ body = encodeItems xss
  index : Elements p e V.indexStruct ((starts 0 its).map (indexOps V)) (preI ++ bufI)
  variants : ∀ as ∈ its, ∀ a ∈ as, (a.type, a.struct) ∈ V.types
  fine : k.noFault w → k.noFault w1 ∧ cI = preI.flatten ∧ c = pre
  flushedI : preI = [] ∨ bufferLimit < preI.flatten.length + 8
  flushed : pre = [] ∨ bufferLimit < pre.length + 8

theorem MvState.length {k : Kind} {V : Variadic} {o : k.backend.Obj} {name schema : String}
    {w w1 : k.backend.W} {v1 : MultiVec k.backend} {its : List (List Add)} {preI bufI : List Bytes}
    {cI pre body c : Bytes} {xss : List (List (BitVec 8 × Bytes))}
    (s : MvState k p e V o name schema w its w1 v1 preI bufI cI pre body c xss) :
    pre.length + body.length = dataSize its ∧ (preI ++ bufI).length = its.length := by
  refine ⟨?_, ?_⟩
  · rw [← List.length_append, s.data, s.contents.length.1]
  · rw [← s.index.length_eq, List.length_map, length_starts]

theorem mgrows_inv {k : Kind} {V : Variadic} {o : k.backend.Obj} {name schema : String}
    {w w1 : k.backend.W} {v v1 : MultiVec k.backend} {its : List (List Add)} (ok : IndexOK V)
    (i : MvInv k.laws o name schema V w v [] [] [] [] [] []) (hu : MUnseen k.laws o name w)
    (g : MGrows k p e V o name w v its w1 v1) :
    (its.length + 1) * V.indexSize + 8 < 2 ^ 63 → dataSize its + 8 < 2 ^ 63 →
    ∃ preI bufI cI pre body c xss, MvState k p e V o name schema w its w1 v1 preI bufI cI pre body c xss := by
  have ap := k.apart o name
  induction g with
  | start =>
    exact fun _ _ => ⟨[], [], [], [], [], [], [], i, hu, trivial, rfl, trivial, by simp, fun h => ⟨h, rfl, rfl⟩, .inl rfl, .inl rfl⟩
  | @grow its w1 v1 v2 w2 g h ih =>
    intro hbI hb
    have hbI' : (its.length + 1) * V.indexSize + 8 < 2 ^ 63 := by
      rw [List.length_append, Nat.add_right_comm, Nat.add_mul] at hbI; omega
    rw [dataSize_append, dataSize_singleton] at hb
    obtain ⟨preI, bufI, cI, pre, body, c, xss, s⟩ := ih hbI' (by omega)
    obtain ⟨l1, l2⟩ := s.length
    rcases s.inv.grow ap p e ok (by omega) (by rw [l2]; exact hbI') with
      ⟨v', w', preI', bufI', cI', pre', body', c', x, h1, i2, e2, e3, hx, hcI, hc, hfI, hf, o2⟩ | ⟨_, _, _, _, _, _, _, h1, _⟩
    · rw [h] at h1; cases h1
      refine ⟨preI', bufI' ++ [x], cI', pre', body', c', xss ++ [[]], i2, s.unseen.only o2,
        AllContents.snoc (as := []) (xs := []) trivial s.contents, ?_, ?_, ?_, ?_, ?_, ?_⟩
      · rw [e3, s.data, encodeItems_append, encodeItems_singleton]; simp [encodeItem]
      · rw [← List.append_assoc, e2, starts_snoc, List.map_append]
        refine s.index.snoc (ops := indexOps V (0 + dataSize its)) ?_
        rw [Nat.zero_add, ← l1]; exact hx
      · intro as has
        rcases List.mem_append.mp has with has | has
        · exact s.variants as has
        · simp at has; subst has; simp
      · intro hn
        obtain ⟨n1, n2, n3⟩ := s.fine hn
        exact ⟨(k.noFault_iff _).mpr (o2.noFault ((k.noFault_iff _).mp n1)), hcI n2, hc n3⟩
      · rcases hfI with hf | hf
        · rw [hf]; exact s.flushedI
        · exact .inr hf
      · rcases hf with hf | hf
        · rw [hf]; exact s.flushed
        · exact .inr hf
    · rw [h] at h1; cases h1
  | @add its as w1 v1 a d pos d' g hm h hw ih =>
    intro hbI hb
    rw [dataSize_append, dataSize_singleton, itemSize_append, itemSize_singleton] at hb
    obtain ⟨preI, bufI, cI, pre, body, c, yss, s⟩ := ih (by simpa using hbI)
      (by rw [dataSize_append, dataSize_singleton]; omega)
    obtain ⟨l1, l2⟩ := s.length
    rw [dataSize_append, dataSize_singleton] at l1
    obtain ⟨x, hx, i2⟩ := s.inv.add h hw (by omega)
    obtain ⟨xss, xs, rfl, c1, c2⟩ := s.contents.of_snoc
    refine ⟨preI, bufI, cI, pre, _, c, xss ++ [xs ++ [(a.type, x)]], i2, s.unseen, c1.snoc (c2.snoc hx), ?_, ?_, ?_, s.fine, s.flushedI,
      s.flushed⟩
    · rw [← List.append_assoc, s.data, encodeItems_append, encodeItems_singleton, encodeItems_append, encodeItems_singleton,
        encodeItem_append]
      simp [encodeItem]
    · have := s.index
      rw [starts_snoc] at this ⊢; exact this
    · intro bs hbs b hb
      rcases List.mem_append.mp hbs with hbs | hbs
      · exact s.variants bs (by simp [hbs]) b hb
      · simp at hbs; subst hbs
        rcases List.mem_append.mp hb with hb | hb
        · exact s.variants as (by simp) b hb
        · simp at hb; subst hb; exact hm
  | @failed its w1 v1 x v2 w2 g h ih =>
    intro hbI hb
    obtain ⟨preI, bufI, cI, pre, body, c, xss, s⟩ := ih hbI hb
    obtain ⟨l1, l2⟩ := s.length
    rcases s.inv.grow ap p e ok (by omega) (by rw [l2]; exact hbI) with
      ⟨_, _, _, _, _, _, _, _, _, h1, _⟩ | ⟨x', v', w', cI', pre', body', c', h1, i2, e2, hf, o2, nf⟩
    · rw [h] at h1; cases h1
    · rw [h] at h1; cases h1
      refine ⟨preI, bufI, cI', pre', body', c', xss, i2, s.unseen.only o2, s.contents, e2.trans s.data, s.index, s.variants,
        fun hn => absurd ((k.noFault_iff _).mp (s.fine hn).1) nf, s.flushedI, ?_⟩
      rcases hf with hf | hf
      · rw [hf]; exact s.flushed
      · exact .inr hf
  | @other its w1 v1 w2 g h ih =>
    intro hbI hb
    obtain ⟨preI, bufI, cI, pre, body, c, xss, s⟩ := ih hbI hb
    obtain ⟨k1, k2⟩ := Kind.away_mkeeps h
    exact ⟨preI, bufI, cI, pre, body, c, xss, s.inv.keeps k1, s.unseen.keeps k1, s.contents, s.data, s.index, s.variants,
      fun hn => ⟨k2 (s.fine hn).1, (s.fine hn).2⟩, s.flushedI, s.flushed⟩
  | @elsewhere its w1 v1 o' n r w2 g ho hi h ih =>
    intro hbI hb
    obtain ⟨preI, bufI, cI, pre, body, c, xss, s⟩ := ih hbI hb
    refine ⟨preI, bufI, cI, pre, body, c, xss, s.inv.read h,
      ⟨Kind.elsewhere_unseen hi h s.unseen.data, Kind.elsewhere_unseen hi h s.unseen.index⟩, s.contents, s.data, s.index, s.variants,
      fun hn => ⟨?_, (s.fine hn).2⟩, s.flushedI, s.flushed⟩
    rw [Kind.noFault_iff]
    exact (k.laws.read_keeps h).2.2.2.2 ((k.noFault_iff _).mp (s.fine hn).1)

/-- After a successful creation. -/
theorem mcreated_inv {k : Kind} {o : k.backend.Obj} {name schema : String}
    {w0 w : k.backend.W} {v : MultiVec k.backend} (V : Variadic) (hu : k.MUnused w0 o name)
    (h : createMultiVector p e o name schema w0 = (.ok v, w)) :
    MvInv k.laws o name schema V w v [] [] [] [] [] [] ∧ MUnseen k.laws o name w ∧ (k.noFault w0 → k.noFault w) := by
  obtain ⟨f1, f2, u⟩ := hu.data.fresh
  obtain ⟨f3, f4, u'⟩ := hu.index.fresh
  rcases createMultiVector_spec (L := k.laws) p e o name schema V w0 (k.apart o name) f1 f2 f3 f4 with
    ⟨v', w', h1, i1, o1⟩ | ⟨_, _, h1, _⟩ | ⟨_, h1, _⟩
  · rw [h] at h1; cases h1
    exact ⟨i1, ⟨u.only o1, Unseen.only (name := Storage.indexName name) u' o1⟩,
      fun hn => (k.noFault_iff _).mpr (o1.noFault ((k.noFault_iff _).mp hn))⟩
  · rw [h] at h1; cases h1
  · rw [h] at h1; cases h1

/-! ## calls made by the code -/

namespace Spec.Kind
variable {k : Kind} {o : k.backend.Obj} {w0 : k.backend.W}

theorem pres_mflush {p v} : Act.Pres (Since k o w0) (MultiVec.flush (B := k.backend) p v) :=
  .bind (.lift _) fun _ => .bind (.lift _) fun _ => .bind pres_handleWrite fun _ => .bind (.lift _) fun _ => .pure _

theorem pres_addToIndex {p e V v} : Act.Pres (Since k o w0) (MultiVec.addToIndex (B := k.backend) p e V v) :=
  .bind pres_grow fun _ => .bind (.lift _) fun _ => .bind (.lift _) fun _ => .bind (.lift _) fun _ => .pure _

theorem pres_mgrow {p e V v} : Act.Pres (Since k o w0) (MultiVec.grow (B := k.backend) p e V v) := by
  refine .bind (.attempt ?_) fun r => ?_
  · unfold MultiVec.flushIfFull
    split
    · exact pres_mflush
    · exact .pure _
  · cases r with
    | error x => exact .pure _
    | ok v =>
      refine .bind (.attempt pres_addToIndex) fun r => ?_
      cases r <;> exact .pure _

theorem grow_obj {B : Backend} {p : Profile} {size : Nat} {v : ExtVec B} {r : ExtVec B × Nat} {w w' : B.W}
    (h : v.grow p size w = (.ok r, w')) : r.1.handle.obj = v.handle.obj := by
  unfold ExtVec.grow at h
  obtain ⟨v1, _, h1, h⟩ := Act.bind_eq_ok h
  obtain ⟨_, _, _, h⟩ := Act.bind_eq_ok h
  obtain ⟨_, _, _, h⟩ := Act.bind_eq_ok h
  obtain ⟨_, _, _, h⟩ := Act.bind_eq_ok h
  obtain ⟨_, _, _, h⟩ := Act.bind_eq_ok h
  obtain ⟨_, _, _, h⟩ := Act.bind_eq_ok h
  cases h
  change v1.handle.obj = _
  unfold ExtVec.flushIfFull at h1
  split at h1
  · exact flush_obj h1
  · cases h1; rfl

theorem addToIndex_obj {B : Backend} {p : Profile} {e : Endian} {V : Variadic} {v v' : MultiVec B} {w w' : B.W}
    (h : v.addToIndex p e V w = (.ok v', w')) : v'.index.handle.obj = v.index.handle.obj ∧ v'.handle = v.handle := by
  unfold MultiVec.addToIndex at h
  obtain ⟨r, _, h1, h⟩ := Act.bind_eq_ok h
  obtain ⟨_, _, _, h⟩ := Act.bind_eq_ok h
  obtain ⟨_, _, _, h⟩ := Act.bind_eq_ok h
  obtain ⟨_, _, _, h⟩ := Act.bind_eq_ok h
  cases h
  exact ⟨grow_obj h1, rfl⟩

theorem mflush_obj {B : Backend} {p : Profile} {v v' : MultiVec B} {w w' : B.W}
    (h : v.flush p w = (.ok v', w')) : v'.index = v.index ∧ v'.handle.obj = v.handle.obj := by
  unfold MultiVec.flush at h
  obtain ⟨_, _, _, h⟩ := Act.bind_eq_ok h
  obtain ⟨_, _, _, h⟩ := Act.bind_eq_ok h
  obtain ⟨_, _, h1, h⟩ := Act.bind_eq_ok h
  obtain ⟨_, _, _, h⟩ := Act.bind_eq_ok h
  cases h
  exact ⟨rfl, handleWrite_obj h1⟩

/-- Preservation through `match` on an attempted call. -/
theorem pres_attempt {E E' α β : Type} {P : k.backend.W → Prop} {x : Act k.backend.W E α}
    {f : Except E α → Act k.backend.W E' β} (hx : Act.Pres P x)
    (hok : ∀ a w w', x w = (.ok a, w') → Act.Pres P (f (.ok a))) (herr : ∀ a, Act.Pres P (f (.error a))) :
    Act.Pres P (x.attempt >>= f) := by
  intro w hw
  have h1 := hx w hw
  rw [Act.bind_def]
  cases hf : x w with
  | mk r w1 =>
    rw [hf] at h1
    cases r with
    | ok a => rw [Act.attempt_ok hf]; exact hok a _ _ hf w1 h1
    | err a => rw [Act.attempt_err hf]; exact herr a w1 h1
    | panic => unfold Act.attempt; rw [hf]; exact h1
    | ub => unfold Act.attempt; rw [hf]; exact h1

theorem pres_mclose [DiffLib] {p e V} {v : MultiVec k.backend} (hi : v.index.handle.obj = o) (hd : v.handle.obj = o) :
    Act.Pres (Since k o w0) (MultiVec.close (B := k.backend) p e V v) := by
  have drop : ∀ {E : Type} (v : MultiVec k.backend), Act.Pres (Since k o w0) (v.drop : Act k.backend.W E Unit) :=
    fun v => .bind pres_drop fun _ => pres_drop
  refine pres_attempt pres_addToIndex (fun v1 w w' h1 => ?_) fun _ => .bind (drop v) fun _ => .fail _
  obtain ⟨a1, a2⟩ := addToIndex_obj h1
  refine pres_attempt pres_mflush (fun v2 w w' h2 => ?_) fun _ => .bind (drop v1) fun _ => .fail _
  obtain ⟨b1, b2⟩ := mflush_obj h2
  refine pres_attempt (pres_close (by rw [b1, a1, hi])) (fun si w w' h3 => ?_) fun _ => .bind pres_drop fun _ => .fail _
  exact .bind (.mapErr (pres_handleClose (by rw [b2, a2, hd]))) fun _ => .bind pres_drop fun _ => .bind pres_ofExcept fun _ => .pure _

theorem pres_createMultiVector {p e name schema} :
    Act.Pres (Since k o w0) (createMultiVector (B := k.backend) p e o name schema) := by
  refine .bind pres_createExternalVector fun iv => .bind (.attempt ?_) fun r => ?_
  · exact .bind (pres_create _) fun _ => .bind (pres_write _ _) fun _ => .bind (pres_create _) fun _ => .bind pres_writeSize fun _ => .pure _
  · cases r with
    | error x => exact .bind pres_drop fun _ => .fail _
    | ok h => exact .pure _

end Spec.Kind

theorem Spec.MGrows.steps {k : Kind} {V : Variadic} {name : String}
    {w w1 : k.backend.W} {v v1 : MultiVec k.backend} {its : List (List Add)} {o : k.backend.Obj} (ho : k.alive w o)
    (g : MGrows k p e V o name w v its w1 v1) : Kind.Steps k w w1 := by
  induction g with
  | start => exact .refl _
  | grow g h ih => exact ih.trans (Kind.steps_of (fun _ => Kind.pres_mgrow) (ih.alive ho) h)
  | add g hm h hw ih => exact ih
  | failed g h ih => exact ih.trans (Kind.steps_of (fun _ => Kind.pres_mgrow) (ih.alive ho) h)
  | other g h ih => exact .step ih h.step
  | elsewhere g ho hi h ih => exact .step ih (.read ho h)

end Flatdata
